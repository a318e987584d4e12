import Verif.PktLemmas
import Verif.LangLemmas
/-
Which exceptions the parsers raise: the lemmas behind property C77.
-/
namespace PyLisp

attribute [local irreducible] natToBits readUint readBits readBool readBytes readInt zeros readIP

/-- every exception that `x` raises is of the class `P` -/
def Raises (P : Err → Prop) (x : Except Err α) : Prop := ∀ e, x = .error e → P e

/-- the exceptions of classes `P` include ValueError and ReadError -/
class VR (P : Err → Prop) : Prop where
  value : P .value
  read : P .read
/-- … and TypeError -/
class VRT (P : Err → Prop) : Prop extends VR P where
  type : P .type
/-- … and NotImplementedError -/
class VRTN (P : Err → Prop) : Prop extends VRT P where
  notImpl : P .notImpl

namespace Raises
variable {P : Err → Prop}

theorem mono {Q : Err → Prop} {x : Except Err α} (h : Raises P x) (hq : ∀ e, P e → Q e) : Raises Q x :=
  fun e he => hq e (h e he)
theorem ok (a : α) : Raises P (.ok a : Except Err α) := fun e h => by cases h
theorem err {e : Err} (h : P e) : Raises P (.error e : Except Err α) := fun e' h' => by cases h'; exact h
theorem bind {x : Rd α} {f : α → Rd β} {s : Bits} (hx : Raises P (x s))
    (hf : ∀ a s', x s = .ok (a, s') → Raises P (f a s')) : Raises P ((x >>= f) s) := by
  rw [Rd.bind_apply]
  split
  · exact hf _ _ ‹_›
  · rename_i e he
    rw [he] at hx
    exact err (hx e rfl)
theorem exBind {x : Except Err α} {f : α → Except Err β} (hx : Raises P x)
    (hf : ∀ a, x = .ok a → Raises P (f a)) : Raises P (x >>= f) := by
  cases x with
  | ok a => exact hf a rfl
  | error e => exact err (hx e rfl)
theorem exIte {c : Prop} [Decidable c] {x y : Except Err α} (hx : Raises P x) (hy : Raises P y) :
    Raises P (if c then x else y) := by
  split <;> assumption
theorem rdIte {c : Prop} [Decidable c] {x y : Rd α} {s : Bits} (hx : Raises P (x s))
    (hy : Raises P (y s)) : Raises P ((if c then x else y) s) := by
  split <;> assumption
theorem pure (a : α) (s : Bits) : Raises P ((Pure.pure a : Rd α) s) := ok _
theorem fail {e : Err} (h : P e) (s : Bits) : Raises P ((Rd.fail e : Rd α) s) := err h
theorem lift {x : Except Err α} (h : Raises P x) (s : Bits) : Raises P (Rd.lift x s) := by
  cases x with
  | ok a => exact ok _
  | error e => exact err (h e rfl)
theorem runOn {r : Rd α} {d : Bits} (h : Raises P (r d)) : Raises P (runOn r d) := by
  unfold PyLisp.runOn
  split
  · exact ok _
  · rename_i e he; exact err (h e he)
theorem readN {r : Rd α} (hr : ∀ s, Raises P (r s)) (n : Nat) (s : Bits) :
    Raises P (PyLisp.readN r n s) := by
  induction n generalizing s with
  | zero => exact .pure _ _
  | succ n ih => exact .bind (hr s) fun _ _ _ => .bind (ih _) fun _ _ _ => .pure _ _
theorem sanitizeAll {f : α → Except Err α} (hf : ∀ a, Raises P (f a)) (l : List α) :
    Raises P (PyLisp.sanitizeAll f l) := by
  induction l with
  | nil => exact .ok _
  | cons a l ih => exact .exBind (hf a) fun _ _ => .exBind ih fun _ _ => .ok _

section
variable [h : VR P]
theorem readUint (n : Nat) (s : Bits) : Raises P (readUint n s) := by
  unfold PyLisp.readUint; exact .exIte (.ok _) (.err h.read)
theorem readInt (n : Nat) (s : Bits) : Raises P (readInt n s) := by
  unfold PyLisp.readInt; exact .exIte (.ok _) (.err h.read)
theorem readBits (n : Nat) (s : Bits) : Raises P (readBits n s) := by
  unfold PyLisp.readBits; exact .exIte (.ok _) (.err h.read)
theorem readBool (s : Bits) : Raises P (readBool s) := by
  unfold PyLisp.readBool; split
  · exact .err h.read
  · exact .ok _
theorem bitsToBytes (s : Bits) : Raises P (bitsToBytes s) := by
  induction s using bitsToBytes.induct with
  | case1 => exact .ok _
  | case2 _ _ _ _ _ _ _ _ _ _ he ih => 
    rw [PyLisp.bitsToBytes, he]; exact .ok _
  | case3 _ _ _ _ _ _ _ _ _ _ he ih => 
    rw [PyLisp.bitsToBytes, he]; rw [he] at ih; exact .err (ih _ rfl)
  | case4 t h1 h2 => rw [PyLisp.bitsToBytes] <;> first | exact .err h.value | assumption
theorem readBytes (n : Nat) (s : Bits) : Raises P (readBytes n s) := by
  unfold PyLisp.readBytes
  split
  · split
    · exact .ok _
    · rename_i e he; exact .err (Raises.bitsToBytes (P := P) _ e he)
  · exact .err h.read
theorem readIP (v : Ver) (s : Bits) : Raises P (readIP v s) := by
  unfold PyLisp.readIP; split
  · exact .ok _
  · exact .err h.read
theorem supernet (a : Net) (p : Nat) : Raises P (a.supernet p) := by
  unfold Net.supernet
  repeat' split
  all_goals first | exact .ok _ | exact .err h.value
omit h in
theorem readAll {rds : Bits → Except Err β} {s : Bits} (h1 : Raises P (rds s)) :
    Raises P (PyLisp.readAll rds s) := by
  unfold PyLisp.readAll
  split
  · exact .ok _
  · rename_i e he; exact .err (h1 e he)
end

/-- `P` for an address read without a prefix length, `P` with TypeError else -/
theorem applyPrefix_none (a : Addr) : Raises P (applyPrefix .none a) := .ok _
theorem applyPrefix [h : VRT P] (plen : Option Nat) (a : Addr) : Raises P (applyPrefix plen a) := by
  unfold PyLisp.applyPrefix
  split
  · exact .ok _
  · split
    · exact .exIte (.ok _) (.err h.value)
    · rename_i e he; exact .err (Raises.supernet (P := P) _ _ e he)
  · refine .err ?_
    unfold Addr.noNetwork; split
    · exact h.type
    · exact h.value

theorem lcafFromData [h : VR P] {rd : Rd Addr} {rds} {plen : Option Nat} {type rsvd2 : Nat}
    {data : Bits} (ha : ∀ a, Raises P (PyLisp.applyPrefix plen a))
    (h1 : ∀ s : Bits, Raises P (rd s)) (h2 : ∀ p (s : Bits), p = plen ∨ p = .none → Raises P (rds p s)) :
    Raises P (lcafFromData rd rds plen type rsvd2 data) := by
  unfold PyLisp.lcafFromData
  refine .exIte (.ok _) (.exIte ?_ (.exIte (.runOn ?_) (.exIte (.runOn ?_) (.exIte (.runOn ?_)
    (.exIte (.runOn ?_) (.err h.value))))))
  · split
    · exact .ok _
    · rename_i e he; exact .err (h2 _ _ (.inl rfl) e he)
  · exact .bind (.readUint _ _) fun _ _ _ => .bind (h1 _) fun _ _ _ => .bind (.lift (ha _) _) fun _ _ _ =>
      .pure _ _
  · exact .bind (.readUint _ _) fun _ _ _ => .bind (h1 _) fun _ _ _ => .bind (.lift (ha _) _) fun _ _ _ =>
      .pure _ _
  · exact .bind (.readBool _) fun _ _ _ => .bind (.readUint _ _) fun _ _ _ => .bind (.readUint _ _)
      fun _ _ _ => .bind (.readUint _ _) fun _ _ _ => .bind (.readBool _) fun _ _ _ => .bind (.readUint _ _)
      fun _ _ _ => .bind (.readUint _ _) fun _ _ _ => .bind (.readUint _ _) fun _ _ _ => .bind (.readInt _ _)
      fun _ _ _ => .bind (h1 _) fun _ _ _ => .bind (.lift (ha _) _) fun _ _ _ => .pure _ _
  · exact .bind (.readUint _ _) fun _ _ _ => .bind (.readUint _ _) fun _ _ _ => .bind (h1 _) fun _ _ _ =>
      .bind (h1 _) fun _ _ _ => .bind (h1 _) fun _ _ _ => .bind (.readAll (h2 _ _ (.inr rfl)))
      fun _ _ _ => .pure _ _

theorem readAddrStep [h : VR P] {rd : Rd Addr} {rds} {plen : Option Nat} {S : Bits}
    (ha : ∀ a, Raises P (PyLisp.applyPrefix plen a))
    (h1 : ∀ s : Bits, Raises P (rd s)) (h2 : ∀ p (s : Bits), p = plen ∨ p = .none → Raises P (rds p s)) :
    Raises P (readAddrStep rd rds plen S) := by
  unfold PyLisp.readAddrStep
  refine .bind (.readUint _ _) fun afi s1 e1 => ?_
  refine .rdIte ?_ (.rdIte ?_ (.rdIte ?_ (.rdIte ?_ (.fail h.value _))))
  · split
    · exact .pure _ _
    · exact .rdIte (.pure _ _) (.fail h.value _)
  · exact .bind (.readIP _ _) fun _ _ _ => .lift (ha _) _
  · exact .bind (.readIP _ _) fun _ _ _ => .lift (ha _) _
  · exact .bind (.readBits _ _) fun _ _ _ => .bind (.readBits _ _) fun _ _ _ => .bind (.readUint _ _)
      fun _ _ _ => .bind (.readUint _ _) fun _ _ _ => .bind (.readUint _ _) fun _ _ _ =>
      .bind (.readBits _ _) fun _ _ _ => .lift (.lcafFromData ha h1 h2) _

/-- with the out-of-fuel pseudo error -/
theorem readAddr_aux [h : VR P] (hf : P .fuel) (ha : ∀ p a, (p = .none ∨ P .type) →
    Raises P (PyLisp.applyPrefix p a)) : ∀ (f : Nat),
    (∀ p s, (p = .none ∨ P .type) → Raises P (readAddr f p s)) ∧
    (∀ p s, (p = .none ∨ P .type) → Raises P (readAddrs f p s)) := by
  intro f
  induction f with
  | zero =>
    refine ⟨fun p s _ => ?_, fun p s _ => ?_⟩
    · rw [PyLisp.readAddr]; exact .fail hf _
    · rw [PyLisp.readAddrs]; exact .err hf
  | succ f ih =>
    refine ⟨fun p s hp => ?_, fun p s hp => ?_⟩
    · rw [readAddr_succ]
      refine .readAddrStep (fun a => ha p a hp) (fun t => ih.1 _ _ (.inl rfl)) fun q t hq => ih.2 _ _ ?_
      rcases hq with rfl | rfl
      · exact hp
      · exact .inl rfl
    · rw [PyLisp.readAddrs]
      refine .exIte (.ok _) ?_
      split
      · split
        · split
          · exact .ok _
          · rename_i e he; exact .err (ih.2 _ _ hp e he)
        · rename_i e he; exact .err (ha _ _ hp e he)
      · rename_i e he; exact .err (ih.1 _ _ (.inl rfl) e he)

theorem readAfi_none [h : VR P] (s : Bits) : Raises P (readAfi .none s) := by
  intro e he
  have hv : VR (fun e => P e ∨ e = .fuel) := ⟨.inl h.value, .inl h.read⟩
  have := (readAddr_aux (P := fun e => (P e ∨ e = .fuel) ∧ (e = .type → P .type)) (h := ⟨⟨.inl h.value, by simp⟩,
    ⟨.inl h.read, by simp⟩⟩) ⟨.inr rfl, by simp⟩ (fun p a hp => ?_) _).1 _ _ (.inl rfl) e he
  · refine this.1.resolve_right fun h' => ?_
    subst h'; exact NF.readAfi _ _ he
  · rcases hp with rfl | hp
    · exact applyPrefix_none _
    · have := hp.2 rfl
      have : VRT P := { toVR := h, type := this }
      exact (applyPrefix p a).mono fun e he => ⟨.inl he, fun _ => by assumption⟩

theorem readAfi [h : VRT P] (p : Option Nat) (s : Bits) : Raises P (readAfi p s) := by
  intro e he
  have := (readAddr_aux (P := fun e => P e ∨ e = .fuel) (h := ⟨.inl h.value, .inl h.read⟩) (.inr rfl)
    (fun p a _ => (applyPrefix p a).mono fun e he => .inl he) _).1 _ _ (.inr (.inl h.type)) e he
  refine this.resolve_right fun h' => ?_
  subst h'; exact NF.readAfi _ _ he

/-! ### records -/

theorem checkLocatorAddress [h : VR P] (a : Addr) : Raises P (checkLocatorAddress a) := by
  unfold PyLisp.checkLocatorAddress
  repeat' split
  all_goals first | exact .ok _ | exact .err h.value
theorem locSanitize [h : VR P] (l : Locator) : Raises P l.sanitize := by
  unfold Locator.sanitize
  iterate 4 refine .exIte (.err h.value) ?_
  exact .checkLocatorAddress _
theorem readLocator [h : VR P] (s : Bits) : Raises P (readLocator s) := by
  refine .bind ?_ fun l _ _ => .bind (.lift (.locSanitize l) _) fun _ _ _ => .pure _ _
  unfold readLocatorRaw
  iterate 5 refine .bind (.readUint _ _) fun _ _ _ => ?_
  iterate 3 refine .bind (.readBool _) fun _ _ _ => ?_
  exact .bind (.readAfi_none _) fun _ _ _ => .pure _ _
theorem sanitizeLocators [h : VR P] (ls : List Locator) : Raises P (sanitizeLocators ls) := by
  induction ls with
  | nil => exact .ok _
  | cons l ls ih => exact .exBind (.locSanitize l) fun _ _ => ih
theorem sanitizeRefLocators [h : VR P] (ls : List Locator) : Raises P (sanitizeRefLocators ls) := by
  induction ls with
  | nil => exact .ok _
  | cons l ls ih => exact .exIte (.err h.value) (.exBind (.locSanitize l) fun _ _ => ih)
theorem sortLocators [h : VRT P] (ls : List Locator) : Raises P (sortLocators ls) := by
  refine .exBind ?_ fun _ _ => .ok _
  induction ls with
  | nil => exact .ok _
  | cons l ls ih =>
    refine .exBind ?_ fun _ _ => ih
    unfold Locator.sortKey; split
    · exact .ok _
    · exact .err h.type
theorem recSanitize [h : VRT P] (r : Record) : Raises P r.sanitize := by
  unfold Record.sanitize
  refine .exIte (.err h.value) (.exIte (.err h.value) (.exIte (.err h.value) ?_))
  split
  · exact .exBind (.sanitizeLocators _) fun _ _ => .exBind (.sortLocators _) fun _ _ => .ok _
  · exact .err h.value
theorem readRecord [h : VRT P] (s : Bits) : Raises P (readRecord s) := by
  refine .bind ?_ fun r _ _ => .lift (.recSanitize r) _
  unfold readRecordRaw
  iterate 4 refine .bind (.readUint _ _) fun _ _ _ => ?_
  refine .bind (.readBool _) fun _ _ _ => ?_
  iterate 2 refine .bind (.readUint _ _) fun _ _ _ => ?_
  exact .bind (.readAfi _ _) fun _ _ _ => .bind (.readN .readLocator _ _) fun _ _ _ => .pure _ _
theorem refTable [h : VR P] (a : Int) (i : Bool) (l : List Locator) (t : Int) :
    Raises P (refTable a i l t) := by
  unfold PyLisp.refTable
  repeat (first | exact .ok _ | exact .err h.value | refine .exIte ?_ ?_)
theorem refSanitize [h : VRT P] (r : RefRecord) : Raises P r.sanitize := by
  unfold RefRecord.sanitize
  refine .exIte (.err h.value) (.exIte (.err h.value) (.exBind (.refTable _ _ _ _) fun _ _ =>
    .exIte (.err h.value) (.exBind ?_ fun _ _ => .exBind (.sanitizeRefLocators _) fun _ _ =>
      .exBind (.sortLocators _) fun _ _ => .ok _)))
  unfold wrapEid; split
  · exact .ok _
  · exact .ok _
  · exact .err h.value
theorem readRefRecord [h : VRTN P] (s : Bits) : Raises P (readRefRecord s) := by
  refine .bind ?_ fun r _ _ => .lift (.refSanitize r) _
  unfold readRefRecordRaw
  iterate 4 refine .bind (.readUint _ _) fun _ _ _ => ?_
  iterate 2 refine .bind (.readBool _) fun _ _ _ => ?_
  iterate 3 refine .bind (.readUint _ _) fun _ _ _ => ?_
  exact .bind (.readAfi _ _) fun _ _ _ => .bind (.readN .readLocator _ _) fun _ _ _ =>
    .rdIte (.fail h.notImpl _) (.pure _ _)

/-! ### control messages -/

theorem expectType [h : VR P] (n : Nat) (s : Bits) : Raises P (expectType n s) := by
  unfold PyLisp.expectType
  exact .bind (.readUint _ _) fun _ _ _ => .rdIte (.fail h.value _) (.pure _ _)
theorem readOptRecord [h : VRT P] (b : Bool) (s : Bits) : Raises P (readOptRecord b s) := by
  unfold PyLisp.readOptRecord
  exact .rdIte (.bind (.readRecord _) fun _ _ _ => .pure _ _) (.pure _ _)
theorem readEidPrefix [h : VRT P] (s : Bits) : Raises P (readEidPrefix s) := by
  unfold PyLisp.readEidPrefix
  exact .bind (.readBits _ _) fun _ _ _ => .bind (.readUint _ _) fun _ _ _ => .readAfi _ _
theorem sanitizeOpt [h : VRT P] (o : Option Record) : Raises P (sanitizeOpt o) := by
  cases o with
  | none => exact .ok _
  | some r => exact .exBind (.recSanitize r) fun _ _ => .ok _

/-- prove `Raises` for a control message reader -/
macro "raises_msg" : tactic => `(tactic|
  repeat (first
    | with_reducible exact Raises.pure _ _ | with_reducible exact Raises.readUint _ _
    | with_reducible exact Raises.readInt _ _ | with_reducible exact Raises.readBits _ _ | with_reducible exact Raises.readBool _
    | with_reducible exact Raises.readBytes _ _
    | with_reducible exact Raises.readIP _ _ | with_reducible exact Raises.expectType _ _
    | with_reducible exact Raises.readAfi_none _ | with_reducible exact Raises.readAfi _ _
    | with_reducible exact Raises.readEidPrefix _ | with_reducible exact Raises.readOptRecord _ _ | with_reducible exact Raises.readRecord _
    | with_reducible exact Raises.readRefRecord _
    | with_reducible exact Raises.readN Raises.readRecord _ _ | with_reducible exact Raises.readN Raises.readRefRecord _ _
    | with_reducible exact Raises.readN Raises.readEidPrefix _ _ | with_reducible exact Raises.readN Raises.readAfi_none _ _
    | (with_reducible refine Raises.bind ?_ fun _ _ _ => ?_)
    | (with_reducible refine Raises.rdIte ?_ ?_)))

theorem readMapRequest [h : VRT P] (s : Bits) : Raises P (readMapRequest s) := by
  refine .bind ?_ fun m _ _ => .lift ?_ _
  · unfold readMapRequestRaw; raises_msg
  · unfold MapRequest.sanitize
    repeat refine .exIte (.err h.value) ?_
    exact .exBind (.sanitizeOpt _) fun _ _ => .ok _
theorem readMapReply [h : VRTN P] (s : Bits) : Raises P (readMapReply s) := by
  refine .bind ?_ fun m _ _ => .lift ?_ _
  · unfold readMapReplyRaw; raises_msg; exact .fail h.notImpl _; exact .pure _ _
  · unfold MapReply.sanitize
    refine .exIte (.err h.notImpl) (.exIte (.err h.value) ?_)
    exact .exBind (.sanitizeAll .recSanitize _) fun _ _ => .ok _
theorem readIds [h : VR P] (b : Bool) (s : Bits) : Raises P (readIds b s) := by
  unfold PyLisp.readIds; raises_msg
theorem readMapRegister [h : VRT P] (s : Bits) : Raises P (readMapRegister s) := by
  refine .bind ?_ fun m _ _ => .lift ?_ _
  · unfold readMapRegisterRaw; raises_msg
    all_goals (try exact .readIds _ _)
    raises_msg
  · unfold MapRegister.sanitize
    repeat refine .exIte (.err h.value) ?_
    exact .exBind (.sanitizeAll .recSanitize _) fun _ _ => .ok _
theorem readMapNotify [h : VRT P] (s : Bits) : Raises P (readMapNotify s) := by
  refine .bind ?_ fun m _ _ => .lift ?_ _
  · unfold readMapNotifyRaw; raises_msg
    all_goals (try exact .readIds _ _)
    raises_msg
  · unfold MapNotify.sanitize
    repeat refine .exIte (.err h.value) ?_
    exact .exBind (.sanitizeAll .recSanitize _) fun _ _ => .ok _
theorem readMapReferral [h : VRTN P] (s : Bits) : Raises P (readMapReferral s) := by
  refine .bind ?_ fun m _ _ => .lift ?_ _
  · unfold readMapReferralRaw; raises_msg
  · unfold MapReferral.sanitize
    repeat refine .exIte (.err h.value) ?_
    exact .exBind (.sanitizeAll .refSanitize _) fun _ _ => .ok _
theorem readInfo [h : VRT P] (s : Bits) : Raises P (readInfo s) := by
  refine .bind ?_ fun m _ _ => .lift ?_ _
  · unfold readInfoRaw; raises_msg
  · unfold Info.sanitize
    repeat refine .exIte (.err h.value) ?_
    exact .ok _

/-! ### packets -/

theorem rejectIf [h : VR P] (c : Bool) (s : Bits) : Raises P (rejectIf c s) := by
  unfold PyLisp.rejectIf; exact .rdIte (.fail h.value _) (.pure _ _)
theorem peekBits [h : VR P] (n : Nat) (s : Bits) : Raises P (peekBits n s) := by
  unfold PyLisp.peekBits; exact .exIte (.ok _) (.err h.read)
theorem readRest [h : VR P] (s : Bits) : Raises P (readRest s) := by
  unfold PyLisp.readRest
  split
  · exact .ok _
  · rename_i e he; exact .err (Raises.bitsToBytes (P := P) _ e he)

macro "raises_pkt" : tactic => `(tactic|
  repeat (first
    | exact Raises.rejectIf _ _ | exact Raises.peekBits _ _ | exact Raises.readRest _
    | exact Raises.pure _ _ | exact Raises.readUint _ _
    | exact Raises.readBits _ _ | exact Raises.readBool _ | exact Raises.readBytes _ _
    | exact Raises.readIP _ _ | exact Raises.expectType _ _ | assumption
    | (with_reducible refine Raises.bind ?_ fun _ _ _ => ?_)))

theorem readV4 [h : VR P] (s : Bits) : Raises P (readV4 s) := by
  have : ∀ h t, Raises P (Rd.lift (headerCksum h) t) := fun h t =>
    .lift (.exBind (.bitsToBytes _) fun _ _ => .ok _) _
  unfold PyLisp.readV4; raises_pkt; exact this _ _; raises_pkt
theorem readV6 [h : VR P] (s : Bits) : Raises P (readV6 s) := by unfold PyLisp.readV6; raises_pkt
theorem readOpts [h : VR P] (s : Bits) : Raises P (readOpts s) := by unfold PyLisp.readOpts; raises_pkt
theorem readRouting [h : VR P] (s : Bits) : Raises P (readRouting s) := by
  unfold PyLisp.readRouting; raises_pkt
theorem readFragment [h : VR P] (s : Bits) : Raises P (readFragment s) := by
  unfold PyLisp.readFragment; raises_pkt
theorem readUdp [h : VR P] (s : Bits) : Raises P (readUdp s) := by unfold PyLisp.readUdp; raises_pkt
theorem readDataHdr [h : VR P] (s : Bits) : Raises P (readDataHdr s) := by
  have h1 : ∀ a b t, Raises P (readNonceOrVersions a b t) := by
    intro a b t; unfold readNonceOrVersions; split
    · raises_pkt
    · split <;> raises_pkt
  have h2 : ∀ a t, Raises P (readIid a t) := by
    intro a t; unfold readIid; split <;> raises_pkt
  have h3 : ∀ a n t, Raises P (readLsb a n t) := by
    intro a n t; unfold readLsb; raises_pkt
  unfold PyLisp.readDataHdr
  iterate 6 (refine .bind (by raises_pkt) fun _ _ _ => ?_)
  refine .bind (h1 _ _ _) fun _ _ _ => .bind (h2 _ _) fun _ _ _ => .bind (h3 _ _ _) fun _ _ _ =>
    .pure _ _
theorem readEcmHdr [h : VRTN P] (s : Bits) : Raises P (readEcmHdr s) := by
  unfold PyLisp.readEcmHdr
  iterate 4 (refine .bind (by raises_pkt) fun _ _ _ => ?_)
  exact .rdIte (.fail h.notImpl _) (.pure _ _)

theorem v4Sanitize [hP : VR P] (h : V4Hdr) (p : Pkt) : Raises P (h.sanitize p) := by
  unfold V4Hdr.sanitize
  iterate 7 (refine .exIte (.err hP.value) ?_)
  exact .ok _
theorem v6Sanitize [hP : VR P] (h : V6Hdr) (p : Pkt) : Raises P (h.sanitize p) := by
  unfold V6Hdr.sanitize
  iterate 5 (refine .exIte (.err hP.value) ?_)
  exact .ok _
theorem udpSanitize [hP : VR P] (h : UdpHdr) : Raises P h.sanitize := by
  unfold UdpHdr.sanitize
  iterate 2 (refine .exIte (.err hP.value) ?_)
  exact .ok _
theorem dataSanitize [hP : VR P] (h : DataHdr) : Raises P h.sanitize := by
  unfold DataHdr.sanitize
  iterate 6 (refine .exIte (.err hP.value) ?_)
  exact .ok _
theorem ecmSanitize [hP : VRTN P] (h : EcmHdr) : Raises P h.sanitize := by
  unfold EcmHdr.sanitize
  exact .exIte (.err hP.notImpl) (.ok _)

theorem decPayload {r : Kind → Bits → Except Err Pkt} {d : Bool} {nh : Nat} {pl : Bytes}
    (h : d = true → ∀ k, Raises P (r k (bytesToBits pl))) : Raises P (decPayload r d nh pl) := by
  unfold PyLisp.decPayload
  split
  · split
    · exact h (by assumption) _
    · exact .ok _
  · exact .ok _

theorem decByVersion [hP : VR P] {r : Kind → Bits → Except Err Pkt} {d : Bool} {s : Bits}
    (h4 : Raises P (r (.ipv4 d) s)) (h6 : Raises P (r (.ipv6 d) s)) : Raises P (decByVersion r d s) := by
  unfold PyLisp.decByVersion
  refine .exIte (.ok _) (.exBind (.runOn (.readUint _ _)) fun _ _ => .exIte h4 (.exIte h6 ?_))
  exact .exBind (.bitsToBytes _) fun _ _ => .ok _

theorem noneLeft [hP : VR P] (s : Bits) : Raises P (noneLeft s) := by
  unfold PyLisp.noneLeft; exact .exIte (.ok _) (.err hP.value)

theorem decStep [hP : VRTN P] {r : Kind → Bits → Except Err Pkt} {k : Kind} {s : Bits}
    (h : ∀ k' (s' : Bits), s'.length < s.length → Raises P (r k' s')) : Raises P (decStep r k s) := by
  cases k with
  | ipv4 d =>
    refine .exBind (.readV4 s) fun ⟨⟨hd, pl⟩, rest⟩ e => ?_
    obtain ⟨_, ihl, tl, c, _, _, _, _, _, _, _, _, rfl⟩ := readV4_inv e
    refine .exBind (.decPayload fun _ k' => h k' _ (by simp [v4Bits_length]; omega)) fun _ _ => ?_
    exact .exBind (.noneLeft _) fun _ _ => .exBind (.v4Sanitize _ _) fun _ _ => .ok _
  | ipv6 d =>
    refine .exBind (.readV6 s) fun ⟨⟨hd, pl⟩, rest⟩ e => ?_
    obtain ⟨_, _, rfl⟩ := readV6_inv e
    refine .exBind (.decPayload fun _ k' => h k' _ (by simp [v6Bits_length]; omega)) fun _ _ => ?_
    exact .exBind (.noneLeft _) fun _ _ => .exBind (.v6Sanitize _ _) fun _ _ => .ok _
  | hbh =>
    refine .exBind (.readOpts s) fun ⟨⟨nh, o, pl⟩, rest⟩ e => ?_
    obtain ⟨_, _, len, _, _, rfl⟩ := readOpts_inv e
    exact .exBind (.decPayload fun _ k' => h k' _ (by simp; omega)) fun _ _ => .ok _
  | dest =>
    refine .exBind (.readOpts s) fun ⟨⟨nh, o, pl⟩, rest⟩ e => ?_
    obtain ⟨_, _, len, _, _, rfl⟩ := readOpts_inv e
    exact .exBind (.decPayload fun _ k' => h k' _ (by simp; omega)) fun _ _ => .ok _
  | routing =>
    refine .exBind (.readRouting s) fun ⟨⟨nh, rt, sl, o, pl⟩, rest⟩ e => ?_
    obtain ⟨_, _, _, _, len, _, _, rfl⟩ := readRouting_inv e
    exact .exBind (.decPayload fun _ k' => h k' _ (by simp; omega)) fun _ _ => .ok _
  | fragment => exact .runOn (.readFragment s)
  | nonext => exact .exBind (.bitsToBytes _) fun _ _ => .ok _
  | udp =>
    refine .exBind (.readUdp s) fun ⟨⟨hd, pl⟩, rest⟩ e => ?_
    obtain ⟨_, _, _, _, rfl⟩ := readUdp_inv e
    refine .exBind ?_ fun _ _ => .exBind (.noneLeft _) fun _ _ => .exBind (.udpSanitize _)
      fun _ _ => .ok _
    exact .exIte (h _ _ (by simp; omega)) (.exIte (h _ _ (by simp; omega)) (.ok _))
  | data d =>
    refine .exBind (.readDataHdr s) fun ⟨hd, rest⟩ e => ?_
    have := readDataHdr_len e
    exact .exBind (.decByVersion (h _ _ (by simp only; omega)) (h _ _ (by simp only; omega))) fun _ _ =>
      .exBind (.dataSanitize _) fun _ _ => .ok _
  | control =>
    refine .exBind (.runOn (.readUint _ _)) fun t e => ?_
    refine .exIte (.exBind (.runOn (.readMapRequest _)) fun _ _ => .ok _) ?_
    refine .exIte (.exBind (.runOn (.readMapReply _)) fun _ _ => .ok _) ?_
    refine .exIte (.exBind (.runOn (.readMapRegister _)) fun _ _ => .ok _) ?_
    refine .exIte (.exBind (.runOn (.readMapNotify _)) fun _ _ => .ok _) ?_
    refine .exIte (.exBind (.runOn (.readMapReferral _)) fun _ _ => .ok _) ?_
    refine .exIte (.exBind (.runOn (.readInfo _)) fun _ _ => .ok _) ?_
    refine .exIte ?_ (.err hP.value)
    refine .exBind (.readEcmHdr s) fun ⟨hd, rest⟩ e => ?_
    obtain ⟨_, _, _, rfl⟩ := readEcmHdr_ok.mp e
    exact .exBind (.decByVersion (h _ _ (by simp [encEcmRaw]; omega)) (h _ _ (by simp [encEcmRaw]; omega)))
      fun _ _ => .exBind (.ecmSanitize _) fun _ _ => .ok _

theorem dec [hP : VRTN P] (k : Kind) (s : Bits) : Raises P (dec k s) := by
  have : ∀ n, ∀ (k : Kind) (s : Bits), s.length ≤ n → Raises P (PyLisp.dec k s) := by
    intro n
    induction n with
    | zero =>
      intro k s hn
      rw [dec_eq]
      exact .decStep fun k' s' h' => by omega
    | succ n ih =>
      intro k s hn
      rw [dec_eq]
      exact .decStep fun k' s' h' => ih k' s' (by omega)
  exact this _ _ _ (Nat.le_refl _)

/-- the headers alone, without looking into the payload -/
theorem dec_v4 [hP : VR P] (s : Bits) : Raises P (PyLisp.dec (.ipv4 false) s) := by
  rw [dec_eq]
  exact .exBind (.readV4 s) fun _ _ => .exBind (.decPayload fun h => by cases h) fun _ _ =>
    .exBind (.noneLeft _) fun _ _ => .exBind (.v4Sanitize _ _) fun _ _ => .ok _
theorem dec_v6 [hP : VR P] (s : Bits) : Raises P (PyLisp.dec (.ipv6 false) s) := by
  rw [dec_eq]
  exact .exBind (.readV6 s) fun _ _ => .exBind (.decPayload fun h => by cases h) fun _ _ =>
    .exBind (.noneLeft _) fun _ _ => .exBind (.v6Sanitize _ _) fun _ _ => .ok _
theorem dec_data [hP : VR P] (s : Bits) : Raises P (PyLisp.dec (.data false) s) := by
  rw [dec_eq]
  exact .exBind (.readDataHdr s) fun _ _ => .exBind (.decByVersion (.dec_v4 _) (.dec_v6 _)) fun _ _ =>
      .exBind (.dataSanitize _) fun _ _ => .ok _
theorem dec_fragment [hP : VR P] (s : Bits) : Raises P (PyLisp.dec .fragment s) := by
  rw [dec_eq]; exact .runOn (.readFragment s)
theorem dec_nonext [hP : VR P] (s : Bits) : Raises P (PyLisp.dec .nonext s) := by
  rw [dec_eq]; exact .exBind (.bitsToBytes _) fun _ _ => .ok _

end Raises
end PyLisp
