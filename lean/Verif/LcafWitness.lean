import Verif.ErrLemmas
import Verif.Props.Accepted
/-
A TypeError of a parser is always caused by an LCAF address: the lemmas behind property C77.
-/
namespace PyLisp
open PyLisp.Props

attribute [local irreducible] natToBits readUint readBits readBool readBytes readInt zeros readIP

/-- at a byte boundary of the bit string stands the address family number of an LCAF address -/
def LcafIn (S : Bits) : Prop :=
  ∃ pre post, S = pre ++ (natToBits 16 16387 ++ post) ∧ pre.length % 8 = 0

/-- a TypeError is raised only if there is an LCAF address in `S` -/
def TL (S : Bits) (e : Err) : Prop := e = .type → LcafIn S

instance (S : Bits) : VR (TL S) := ⟨(fun h => by cases h), (fun h => by cases h)⟩
theorem TL.notImpl {S : Bits} : TL S .notImpl := fun h => by cases h
theorem TL.value {S : Bits} : TL S .value := fun h => by cases h
theorem TL.of {S : Bits} (h : LcafIn S) (e : Err) : TL S e := fun _ => h
theorem Raises.of_lcaf {S : Bits} (h : LcafIn S) (x : Except Err α) : Raises (TL S) x := fun e _ => .of h e

/-- `s` is what is left of `S` after `k` bits, modulo whole bytes -/
def Al (S s : Bits) (k : Nat) : Prop := ∃ pre, S = pre ++ s ∧ pre.length % 8 = k % 8

theorem Al.start (S : Bits) : Al S S 0 := ⟨[], rfl, rfl⟩
theorem Al.app {S x s : Bits} {k : Nat} (h : Al S (x ++ s) k) : Al S s (k + x.length) := by
  obtain ⟨pre, rfl, hp⟩ := h
  exact ⟨pre ++ x, by simp, by simp; omega⟩
theorem Al.bytes {S s : Bits} {k : Nat} {d : Bytes} (h : Al S (bytesToBits d ++ s) k) : Al S s k := by
  obtain ⟨pre, e, hp⟩ := h.app
  refine ⟨pre, e, ?_⟩
  rw [hp, bytesToBits_length]; omega
theorem Al.uint {S s s' : Bits} {k n v : Nat} (h : Al S s k) (e : readUint n s = .ok (v, s')) :
    Al S s' (k + n) := by
  obtain ⟨_, rfl⟩ := readUint_ok e
  have := h.app; rwa [natToBits_length] at this
theorem Al.bits {S s s' v : Bits} {k n : Nat} (h : Al S s k) (e : readBits n s = .ok (v, s')) :
    Al S s' (k + n) := by
  obtain ⟨hn, rfl⟩ := readBits_ok e
  have := h.app; rwa [hn] at this
theorem Al.bool {S s s' : Bits} {k : Nat} {v : Bool} (h : Al S s k) (e : readBool s = .ok (v, s')) :
    Al S s' (k + 1) := by
  have := readBool_iff.mp e
  subst this
  exact Al.app (x := [v]) h
theorem Al.rbytes {S s s' : Bits} {k n : Nat} {v : Bytes} (h : Al S s k)
    (e : readBytes n s = .ok (v, s')) : Al S s' k := by
  obtain ⟨_, rfl⟩ := readBytes_iff.mp e
  exact h.bytes
theorem Al.type {S s s' : Bits} {k n : Nat} {v : Unit} (h : Al S s k)
    (e : expectType n s = .ok (v, s')) : Al S s' (k + 4) := by
  unfold expectType at e
  rw [Rd.bind_ok] at e
  obtain ⟨t, s1, h1, h2⟩ := e
  split at h2
  · cases h2
  · cases h2; exact h.uint h1
theorem Al.lang {S s s' : Bits} {k : Nat} {P : α → Bytes → Prop} {r : Rd α} {v : α} (h : Al S s k)
    (hr : ∀ s rest a, r s = .ok (a, rest) ↔ ∃ d, P a d ∧ s = bytesToBits d ++ rest)
    (e : r s = .ok (v, s')) : Al S s' k := by
  obtain ⟨d, _, rfl⟩ := (hr _ _ _).mp e
  exact h.bytes
theorem Al.lcaf {S s : Bits} {k : Nat} (h : Al S (natToBits 16 16387 ++ s) k) (hk : k % 8 = 0) :
    LcafIn S := by
  obtain ⟨pre, e, hp⟩ := h
  exact ⟨pre, s, e, by omega⟩
theorem Al.inside {S s : Bits} {k : Nat} (h : Al S s k) (hk : k % 8 = 0) (hl : LcafIn s) : LcafIn S := by
  obtain ⟨pre, rfl, hp⟩ := h
  obtain ⟨a, b, rfl, ha⟩ := hl
  exact ⟨pre ++ a, b, by simp, by simp; omega⟩

theorem Loc.readDataHdr : Loc readDataHdr := by
  have h1 : ∀ a b, Loc (readNonceOrVersions a b) := by
    intro a b; unfold readNonceOrVersions; loc_tac
  have h2 : ∀ a, Loc (readIid a) := by
    intro a; unfold readIid; loc_tac
  have h3 : ∀ a n, Loc (readLsb a n) := by
    intro a n; unfold readLsb; loc_tac
  unfold PyLisp.readDataHdr
  refine .bind .readBool fun _ => .bind .readBool fun _ => .bind .readBool fun _ => .bind .readBool fun _ =>
    .bind .readBool fun _ => .bind (.readBits _) fun _ => .bind (h1 _ _) fun _ => .bind (h2 _) fun _ =>
    .bind (h3 _ _) fun _ => .pure _

namespace Raises

theorem lcaf_afi {S s : Bits} {k : Nat} (h : Al S s k) (hk : k % 8 = 0) (p : Option Nat) :
    Raises (TL S) (PyLisp.readAfi p s) := by
  rw [readAfi_unfold]
  unfold PyLisp.readAddrStep
  refine .bind (.readUint _ _) fun afi s1 e1 => ?_
  have ip : ∀ a, Raises (TL S) (PyLisp.applyPrefix p (.ip a)) := by
    intro a
    unfold PyLisp.applyPrefix
    split
    · exact .ok _
    · split
      · exact .exIte (.ok _) (.err .value)
      · rename_i e he; exact .err (Raises.supernet (P := TL S) _ _ e he)
    · rename_i hx; exact (hx _ rfl).elim
  by_cases ha : afi = 16387
  · subst ha
    obtain ⟨_, rfl⟩ := readUint_ok e1
    exact .of_lcaf (h.lcaf hk) _
  refine .rdIte ?_ (.rdIte ?_ (.rdIte ?_ ?_))
  · split
    · exact .pure _ _
    · exact .rdIte (.pure _ _) (.fail .value _)
  · exact .bind (.readIP _ _) fun _ _ _ => .lift (ip _) _
  · exact .bind (.readIP _ _) fun _ _ _ => .lift (ip _) _
  · rw [if_neg ha]; exact .fail .value _

end Raises

theorem isLcaf_bits {t x : Nat} {data d : Bytes} (h : IsLcaf t x data d) :
    ∃ r, bytesToBits d = natToBits 16 16387 ++ r := by
  cases h with
  | mk r f _ _ => exact ⟨_, by rw [List.append_assoc, List.append_assoc, bytesToBits_append, bytesToBits_be16]⟩

theorem isAddr_kinds {a : Addr} {x : Bytes} (hx : IsAddr a x) :
    (∃ i, a = .ip i) ∨ a = .none ∨ ∃ t m da, IsLcaf t m da x := by
  cases hx with
  | none => exact .inr (.inl rfl)
  | ip a => exact .inl ⟨_, rfl⟩
  | null h => exact .inr (.inr ⟨_, _, _, h⟩)
  | afiList _ h => exact .inr (.inr ⟨_, _, _, h⟩)
  | inst _ _ h => exact .inr (.inr ⟨_, _, _, h⟩)
  | asn _ _ h => exact .inr (.inr ⟨_, _, _, h⟩)
  | geo _ _ h => exact .inr (.inr ⟨_, _, _, h⟩)
  | natT _ _ _ _ _ _ h => exact .inr (.inr ⟨_, _, _, h⟩)

theorem Al.locators {S s s' : Bits} {k n : Nat} {ls : List Locator} (h : Al S s k) (hk : k % 8 = 0)
    (e : readN readLocator n s = .ok (ls, s')) :
    (∀ l ∈ ls, ∃ i, l.address = .ip i) ∨ LcafIn S := by
  obtain ⟨hn, d, hd, rfl⟩ := (readN_iff locator_language).mp e
  clear e hn
  induction hd generalizing k with
  | nil => exact .inl (by simp)
  | @cons l ls d e hl _ ih =>
    rw [bytesToBits_append, List.append_assoc] at h
    rcases ih hk h.bytes with ih | ih
    · obtain ⟨_, _, _, _, ha, x, hx, rfl⟩ := hl
      rw [bytesToBits_append, List.append_assoc] at h
      have hb := h.bytes
      have key := isAddr_kinds hx
      rcases key with hi | hn | ⟨t, m, da, hl⟩
      · refine .inl fun l' hl' => ?_
        rcases List.mem_cons.mp hl' with rfl | hl'
        · exact hi
        · exact ih _ hl'
      · rw [hn] at ha
        rcases ha with ⟨a, ha, _⟩ | ha
        · cases ha
        · cases ha
      · obtain ⟨r, hr⟩ := isLcaf_bits hl
        rw [hr, List.append_assoc] at hb
        exact .inr (hb.lcaf hk)
    · exact .inr ih

namespace Raises

theorem lcaf_sort {S : Bits} {ls : List Locator} (h : (∀ l ∈ ls, ∃ i, l.address = .ip i) ∨ LcafIn S) :
    Raises (TL S) (PyLisp.sortLocators ls) := by
  rcases h with h | h
  · rw [sortLocators_ok.mpr ⟨h, rfl⟩]; exact .ok _
  · exact .of_lcaf h _

theorem lcaf_recSanitize {S : Bits} {r : Record}
    (h : (∀ l ∈ r.locators, ∃ i, l.address = .ip i) ∨ LcafIn S) : Raises (TL S) r.sanitize := by
  unfold Record.sanitize
  refine .exIte (.err .value) (.exIte (.err .value) (.exIte (.err .value) ?_))
  split
  · exact .exBind (.sanitizeLocators _) fun _ _ => .exBind (.lcaf_sort h) fun _ _ => .ok _
  · exact .err .value

theorem lcaf_refSanitize {S : Bits} {r : RefRecord}
    (h : (∀ l ∈ r.locators, ∃ i, l.address = .ip i) ∨ LcafIn S) : Raises (TL S) r.sanitize := by
  unfold RefRecord.sanitize
  refine .exIte (.err .value) (.exIte (.err .value) (.exBind (.refTable _ _ _ _) fun _ _ =>
    .exIte (.err .value) (.exBind ?_ fun _ _ => .exBind (.sanitizeRefLocators _) fun _ _ =>
      .exBind (.lcaf_sort h) fun _ _ => .ok _)))
  unfold wrapEid; split
  · exact .ok _
  · exact .ok _
  · exact .err .value

theorem lcaf_record {S s : Bits} {k : Nat} (h : Al S s k) (hk : k % 8 = 0) :
    Raises (TL S) (PyLisp.readRecord s) := by
  have raw : ∀ r s', readRecordRaw s = .ok (r, s') →
      (∀ l ∈ r.locators, ∃ i, l.address = .ip i) ∨ LcafIn S := by
    intro r s' e
    simp only [readRecordRaw, Rd.bind_ok, Rd.pure_ok_iff] at e
    obtain ⟨_, _, h1, _, _, h2, _, _, h3, _, _, h4, _, _, h5, _, _, h6, _, _, h7, _, _, h8, ls, _, h9,
      rfl, _⟩ := e
    exact ((((((((h.uint h1).uint h2).uint h3).uint h4).bool h5).uint h6).uint h7).lang
      (prefix_language _) h8).locators (by omega) h9
  refine .bind ?_ fun r _ e => .lift (.lcaf_recSanitize (raw _ _ e)) _
  unfold readRecordRaw
  refine .bind (.readUint _ _) fun _ _ h1 => ?_
  refine .bind (.readUint _ _) fun _ _ h2 => ?_
  refine .bind (.readUint _ _) fun _ _ h3 => ?_
  refine .bind (.readUint _ _) fun _ _ h4 => ?_
  refine .bind (.readBool _) fun _ _ h5 => ?_
  refine .bind (.readUint _ _) fun _ _ h6 => ?_
  refine .bind (.readUint _ _) fun _ _ h7 => ?_
  refine .bind (.lcaf_afi (((((((h.uint h1).uint h2).uint h3).uint h4).bool h5).uint h6).uint h7)
    (by omega) _) fun _ _ _ => ?_
  exact .bind (.readN .readLocator _ _) fun _ _ _ => .pure _ _

theorem lcaf_refRecord {S s : Bits} {k : Nat} (h : Al S s k) (hk : k % 8 = 0) :
    Raises (TL S) (PyLisp.readRefRecord s) := by
  have raw : ∀ r s', readRefRecordRaw s = .ok (r, s') →
      (∀ l ∈ r.locators, ∃ i, l.address = .ip i) ∨ LcafIn S := by
    intro r s' e
    simp only [readRefRecordRaw, Rd.bind_ok] at e
    obtain ⟨_, _, h1, _, _, h2, _, _, h3, _, _, h4, _, _, h5, _, _, h5', _, _, h6, _, _, h6', _, _, h7, _, _,
      h8, ls, _, h9, he⟩ := e
    split at he
    · cases he
    · simp only [Rd.pure_ok_iff] at he
      obtain ⟨rfl, _⟩ := he
      exact ((((((((((h.uint h1).uint h2).uint h3).uint h4).bool h5).bool h5').uint h6).uint h6').uint h7).lang
        (prefix_language _) h8).locators (by omega) h9
  refine .bind ?_ fun r _ e => .lift (.lcaf_refSanitize (raw _ _ e)) _
  unfold readRefRecordRaw
  refine .bind (.readUint _ _) fun _ _ h1 => ?_
  refine .bind (.readUint _ _) fun _ _ h2 => ?_
  refine .bind (.readUint _ _) fun _ _ h3 => ?_
  refine .bind (.readUint _ _) fun _ _ h4 => ?_
  refine .bind (.readBool _) fun _ _ h5 => ?_
  refine .bind (.readBool _) fun _ _ h5' => ?_
  refine .bind (.readUint _ _) fun _ _ h6 => ?_
  refine .bind (.readUint _ _) fun _ _ h6' => ?_
  refine .bind (.readUint _ _) fun _ _ h7 => ?_
  refine .bind (.lcaf_afi (((((((((h.uint h1).uint h2).uint h3).uint h4).bool h5).bool h5').uint h6).uint
    h6').uint h7) (by omega) _) fun _ _ _ => ?_
  exact .bind (.readN .readLocator _ _) fun _ _ _ => .rdIte (.fail .notImpl _) (.pure _ _)

theorem lcaf_readN {S s : Bits} {k : Nat} {r : Rd α} {P : α → Bytes → Prop} (h : Al S s k)
    (hr : ∀ s rest a, r s = .ok (a, rest) ↔ ∃ d, P a d ∧ s = bytesToBits d ++ rest)
    (he : ∀ s, Al S s k → Raises (TL S) (r s)) (n : Nat) : Raises (TL S) (PyLisp.readN r n s) := by
  induction n generalizing s with
  | zero => exact .pure _ _
  | succ n ih => exact .bind (he s h) fun _ _ e => .bind (ih (h.lang hr e)) fun _ _ _ => .pure _ _

theorem lcaf_records {S s : Bits} {k : Nat} (h : Al S s k) (hk : k % 8 = 0) (n : Nat) :
    Raises (TL S) (PyLisp.readN PyLisp.readRecord n s) :=
  .lcaf_readN h record_language (fun _ h' => .lcaf_record h' hk) n

theorem readAll_fix {S : Bits} {n : Nat} {s s' : Bits} {rs : List Record}
    (e : PyLisp.readN PyLisp.readRecord n s = .ok (rs, s')) :
    Raises (TL S) (PyLisp.sanitizeAll Record.sanitize rs) := by
  rw [sanitizeAll_fix fun r hr => PyLisp.readN_mem (P := fun r => r.sanitize = .ok r)
    (fun _ _ _ h => readRecord_fix h) e r hr]
  exact .ok _

theorem lcaf_mapRequest (S : Bits) : Raises (TL S) (PyLisp.readMapRequest S) := by
  have h := Al.start S
  have raw : ∀ m s', readMapRequestRaw S = .ok (m, s') → Raises (TL S) (PyLisp.sanitizeOpt m.mapReply) := by
    intro m s' e
    simp only [readMapRequestRaw, Rd.bind_ok, Rd.pure_ok_iff] at e
    obtain ⟨_, _, _, _, _, _, _, _, _, _, _, _, _, _, _, _, _, _, _, _, _, _, _, _, _, _, _, _, _, _, _, _, _,
      _, _, _, _, _, _, _, _, _, _, _, h9, rfl, _⟩ := e
    unfold PyLisp.readOptRecord at h9
    split at h9
    · simp only [Rd.bind_ok, Rd.pure_ok_iff] at h9
      obtain ⟨r, _, hr, rfl, _⟩ := h9
      simp only [PyLisp.sanitizeOpt, readRecord_fix hr]
      exact .ok _
    · cases h9; exact .ok _
  refine .bind ?_ fun m _ e => .lift ?_ _
  · unfold readMapRequestRaw
    refine .bind (.expectType _ _) fun _ _ h1 => ?_
    refine .bind (.readBool _) fun _ _ h2 => ?_
    refine .bind (.readBool _) fun _ _ h3 => ?_
    refine .bind (.readBool _) fun _ _ h4 => ?_
    refine .bind (.readBool _) fun _ _ h5 => ?_
    refine .bind (.readBool _) fun _ _ h6 => ?_
    refine .bind (.readBool _) fun _ _ h7 => ?_
    refine .bind (.readUint _ _) fun _ _ h8 => ?_
    refine .bind (.readUint _ _) fun _ _ h9 => ?_
    refine .bind (.readUint _ _) fun _ _ h10 => ?_
    refine .bind (.readBytes _ _) fun _ _ h11 => ?_
    have g := ((((((((((h.type h1).bool h2).bool h3).bool h4).bool h5).bool h6).bool h7).uint h8).uint h9).uint
      h10).rbytes h11
    refine .bind (.readAfi_none _) fun _ _ h12 => ?_
    have g := g.lang address_language h12
    refine .bind (.readN .readAfi_none _ _) fun _ _ h13 => ?_
    obtain ⟨_, _, _, rfl⟩ := (readN_iff address_language).mp h13
    have g := g.bytes
    refine .bind (.lcaf_readN g rawEid_language (fun s h' => ?_) _) fun _ _ h14 => ?_
    · unfold PyLisp.readEidPrefix
      exact .bind (.readBits _ _) fun _ _ i1 => .bind (.readUint _ _) fun _ _ i2 =>
        .lcaf_afi ((h'.bits i1).uint i2) (by omega) _
    · obtain ⟨_, _, _, rfl⟩ := (readN_iff rawEid_language).mp h14
      refine .bind ?_ fun _ _ _ => .pure _ _
      unfold PyLisp.readOptRecord
      exact .rdIte (.bind (.lcaf_record g.bytes (by omega)) fun _ _ _ => .pure _ _) (.pure _ _)
  · unfold MapRequest.sanitize
    repeat refine .exIte (.err .value) ?_
    exact .exBind (raw _ _ e) fun _ _ => .ok _

theorem lcaf_mapReply (S : Bits) : Raises (TL S) (PyLisp.readMapReply S) := by
  have h := Al.start S
  have raw : ∀ m s', readMapReplyRaw S = .ok (m, s') →
      Raises (TL S) (PyLisp.sanitizeAll Record.sanitize m.records) := by
    intro m s' e
    simp only [readMapReplyRaw, Rd.bind_ok] at e
    obtain ⟨_, _, _, _, _, _, _, _, _, _, _, _, _, _, _, _, _, _, _, _, _, _, _, h9, he⟩ := e
    split at he
    · cases he
    · simp only [Rd.pure_ok_iff] at he
      obtain ⟨rfl, _⟩ := he
      exact .readAll_fix h9
  refine .bind ?_ fun m _ e => .lift ?_ _
  · unfold readMapReplyRaw
    refine .bind (.expectType _ _) fun _ _ h1 => ?_
    refine .bind (.readBool _) fun _ _ h2 => ?_
    refine .bind (.readBool _) fun _ _ h3 => ?_
    refine .bind (.readBool _) fun _ _ h4 => ?_
    refine .bind (.readUint _ _) fun _ _ h5 => ?_
    refine .bind (.readUint _ _) fun _ _ h6 => ?_
    refine .bind (.readBytes _ _) fun _ _ h7 => ?_
    refine .bind (.lcaf_records (((((((h.type h1).bool h2).bool h3).bool h4).uint h5).uint h6).rbytes h7)
      (by omega) _) fun _ _ _ => ?_
    exact .rdIte (.fail .notImpl _) (.pure _ _)
  · unfold MapReply.sanitize
    refine .exIte (.err .notImpl) (.exIte (.err .value) ?_)
    exact .exBind (raw _ _ e) fun _ _ => .ok _

theorem lcaf_mapRegister (S : Bits) : Raises (TL S) (PyLisp.readMapRegister S) := by
  have h := Al.start S
  have raw : ∀ m s', readMapRegisterRaw S = .ok (m, s') →
      Raises (TL S) (PyLisp.sanitizeAll Record.sanitize m.records) := by
    intro m s' e
    simp only [readMapRegisterRaw, Rd.bind_ok, Rd.pure_ok_iff] at e
    obtain ⟨_, _, _, _, _, _, _, _, _, _, _, _, _, _, _, _, _, _, _, _, _, _, _, _, _, _, _, _, _, _, _, _, _,
      _, _, _, _, _, h9, _, _, _, rfl, _⟩ := e
    exact .readAll_fix h9
  refine .bind ?_ fun m _ e => .lift ?_ _
  · unfold readMapRegisterRaw
    refine .bind (.expectType _ _) fun _ _ h1 => ?_
    refine .bind (.readBool _) fun _ _ h2 => ?_
    refine .bind (.readUint _ _) fun _ _ h3 => ?_
    refine .bind (.readBool _) fun _ _ h4 => ?_
    refine .bind (.readBool _) fun _ _ h5 => ?_
    refine .bind (.readUint _ _) fun _ _ h6 => ?_
    refine .bind (.readBool _) fun _ _ h7 => ?_
    refine .bind (.readUint _ _) fun _ _ h8 => ?_
    refine .bind (.readBytes _ _) fun _ _ h9 => ?_
    refine .bind (.readUint _ _) fun _ _ h10 => ?_
    refine .bind (.readUint _ _) fun _ _ h11 => ?_
    refine .bind (.readBytes _ _) fun _ _ h12 => ?_
    refine .bind (.lcaf_records ((((((((((((h.type h1).bool h2).uint h3).bool h4).bool h5).uint h6).bool
      h7).uint h8).rbytes h9).uint h10).uint h11).rbytes h12) (by omega) _) fun _ _ _ => ?_
    exact .bind (.readIds _ _) fun _ _ _ => .pure _ _
  · unfold MapRegister.sanitize
    repeat refine .exIte (.err .value) ?_
    exact .exBind (raw _ _ e) fun _ _ => .ok _

theorem lcaf_mapNotify (S : Bits) : Raises (TL S) (PyLisp.readMapNotify S) := by
  have h := Al.start S
  have raw : ∀ m s', readMapNotifyRaw S = .ok (m, s') →
      Raises (TL S) (PyLisp.sanitizeAll Record.sanitize m.records) := by
    intro m s' e
    simp only [readMapNotifyRaw, Rd.bind_ok, Rd.pure_ok_iff] at e
    obtain ⟨_, _, _, _, _, _, _, _, _, _, _, _, _, _, _, _, _, _, _, _, _, _, _, _, _, _, h9, _, _, _, rfl,
      _⟩ := e
    exact .readAll_fix h9
  refine .bind ?_ fun m _ e => .lift ?_ _
  · unfold readMapNotifyRaw
    refine .bind (.expectType _ _) fun _ _ h1 => ?_
    refine .bind (.readBool _) fun _ _ h2 => ?_
    refine .bind (.readUint _ _) fun _ _ h3 => ?_
    refine .bind (.readUint _ _) fun _ _ h8 => ?_
    refine .bind (.readBytes _ _) fun _ _ h9 => ?_
    refine .bind (.readUint _ _) fun _ _ h10 => ?_
    refine .bind (.readUint _ _) fun _ _ h11 => ?_
    refine .bind (.readBytes _ _) fun _ _ h12 => ?_
    refine .bind (.lcaf_records ((((((((h.type h1).bool h2).uint h3).uint h8).rbytes h9).uint h10).uint
      h11).rbytes h12) (by omega) _) fun _ _ _ => ?_
    exact .bind (.readIds _ _) fun _ _ _ => .pure _ _
  · unfold MapNotify.sanitize
    repeat refine .exIte (.err .value) ?_
    exact .exBind (raw _ _ e) fun _ _ => .ok _

theorem lcaf_mapReferral (S : Bits) : Raises (TL S) (PyLisp.readMapReferral S) := by
  have h := Al.start S
  have raw : ∀ m s', readMapReferralRaw S = .ok (m, s') →
      Raises (TL S) (PyLisp.sanitizeAll RefRecord.sanitize m.records) := by
    intro m s' e
    simp only [readMapReferralRaw, Rd.bind_ok, Rd.pure_ok_iff] at e
    obtain ⟨_, _, _, _, _, _, _, _, _, _, _, _, _, _, h9, rfl, _⟩ := e
    rw [sanitizeAll_fix fun r hr => PyLisp.readN_mem (P := fun r => r.sanitize = .ok r)
      (fun _ _ _ h => readRefRecord_fix h) h9 r hr]
    exact .ok _
  refine .bind ?_ fun m _ e => .lift ?_ _
  · unfold readMapReferralRaw
    refine .bind (.expectType _ _) fun _ _ h1 => ?_
    refine .bind (.readUint _ _) fun _ _ h3 => ?_
    refine .bind (.readUint _ _) fun _ _ h8 => ?_
    refine .bind (.readBytes _ _) fun _ _ h9 => ?_
    exact .bind (.lcaf_readN ((((h.type h1).uint h3).uint h8).rbytes h9) referral_record_language
      (fun _ h' => .lcaf_refRecord h' (by omega)) _) fun _ _ _ => .pure _ _
  · unfold MapReferral.sanitize
    repeat refine .exIte (.err .value) ?_
    exact .exBind (raw _ _ e) fun _ _ => .ok _

theorem lcaf_info (S : Bits) : Raises (TL S) (PyLisp.readInfo S) := by
  have h := Al.start S
  refine .bind ?_ fun m _ e => .lift ?_ _
  · unfold readInfoRaw
    refine .bind (.expectType _ _) fun _ _ h1 => ?_
    refine .bind (.readBool _) fun _ _ h2 => ?_
    refine .bind (.readUint _ _) fun _ _ h3 => ?_
    refine .bind (.readBytes _ _) fun _ _ h4 => ?_
    refine .bind (.readUint _ _) fun _ _ h5 => ?_
    refine .bind (.readUint _ _) fun _ _ h6 => ?_
    refine .bind (.readBytes _ _) fun _ _ h7 => ?_
    refine .bind (.readUint _ _) fun _ _ h8 => ?_
    refine .bind (.readUint _ _) fun _ _ h9 => ?_
    refine .bind (.readUint _ _) fun _ _ h10 => ?_
    refine .bind (.lcaf_afi ((((((((((h.type h1).bool h2).uint h3).rbytes h4).uint h5).uint h6).rbytes h7).uint
      h8).uint h9).uint h10) (by omega) _) fun _ _ h11 => ?_
    exact .bind (.readAfi_none _) fun _ _ _ => .pure _ _
  · unfold Info.sanitize
    repeat refine .exIte (.err .value) ?_
    exact .ok _

theorem lcaf_in {S x s y : Bits} {α : Type} {r : Except Err α} (h : Raises (TL s) r) (hS : S = x ++ (s ++ y))
    (hx : x.length % 8 = 0) : Raises (TL S) r :=
  h.mono fun e he ht => by
    obtain ⟨a, b, rfl, ha⟩ := he ht
    subst hS
    exact ⟨x ++ a, b ++ y, by simp, by simp; omega⟩

theorem lcaf_decStep {r : Kind → Bits → Except Err Pkt} {k : Kind} {s : Bits}
    (h : ∀ k' (s' : Bits), s'.length < s.length → Raises (TL s') (r k' s')) :
    Raises (TL s) (PyLisp.decStep r k s) := by
  cases k with
  | ipv4 d =>
    refine .exBind (.readV4 s) fun ⟨⟨hd, pl⟩, rest⟩ e => ?_
    obtain ⟨_, ihl, tl, c, _, _, _, _, _, ho, _, _, hs⟩ := readV4_inv e
    rw [List.append_assoc] at hs
    refine .exBind (.decPayload fun _ k' => (h k' _ (by rw [hs]; simp [v4Bits_length]; omega)).lcaf_in hs
      (by simp [v4Bits_length])) fun _ _ => ?_
    exact .exBind (.noneLeft _) fun _ _ => .exBind (.v4Sanitize _ _) fun _ _ => .ok _
  | ipv6 d =>
    refine .exBind (.readV6 s) fun ⟨⟨hd, pl⟩, rest⟩ e => ?_
    obtain ⟨_, _, hs⟩ := readV6_inv e
    rw [List.append_assoc] at hs
    refine .exBind (.decPayload fun _ k' => (h k' _ (by rw [hs]; simp [v6Bits_length]; omega)).lcaf_in hs
      (by simp [v6Bits_length])) fun _ _ => ?_
    exact .exBind (.noneLeft _) fun _ _ => .exBind (.v6Sanitize _ _) fun _ _ => .ok _
  | hbh =>
    refine .exBind (.readOpts s) fun ⟨⟨nh, o, pl⟩, rest⟩ e => ?_
    obtain ⟨_, _, len, _, _, hs⟩ := readOpts_inv e
    exact .exBind (.decPayload fun _ k' => (h k' _ (by rw [hs]; simp; omega)).lcaf_in (y := [])
      (by rw [List.append_nil]; exact hs) (by simp)) fun _ _ => .ok _
  | dest =>
    refine .exBind (.readOpts s) fun ⟨⟨nh, o, pl⟩, rest⟩ e => ?_
    obtain ⟨_, _, len, _, _, hs⟩ := readOpts_inv e
    exact .exBind (.decPayload fun _ k' => (h k' _ (by rw [hs]; simp; omega)).lcaf_in (y := [])
      (by rw [List.append_nil]; exact hs) (by simp)) fun _ _ => .ok _
  | routing =>
    refine .exBind (.readRouting s) fun ⟨⟨nh, rt, sl, o, pl⟩, rest⟩ e => ?_
    obtain ⟨_, _, _, _, len, _, _, hs⟩ := readRouting_inv e
    exact .exBind (.decPayload fun _ k' => (h k' _ (by rw [hs]; simp; omega)).lcaf_in (y := [])
      (by rw [List.append_nil]; exact hs) (by simp)) fun _ _ => .ok _
  | fragment => exact .runOn (.readFragment s)
  | nonext => exact .exBind (.bitsToBytes _) fun _ _ => .ok _
  | udp =>
    refine .exBind (.readUdp s) fun ⟨⟨hd, pl⟩, rest⟩ e => ?_
    obtain ⟨_, _, _, _, hs⟩ := readUdp_inv e
    rw [List.append_assoc] at hs
    have g : ∀ k', Raises (TL s) (r k' (bytesToBits pl)) := fun k' =>
      (h k' _ (by rw [hs]; simp; omega)).lcaf_in hs (by simp)
    refine .exBind ?_ fun _ _ => .exBind (.noneLeft _) fun _ _ => .exBind (.udpSanitize _)
      fun _ _ => .ok _
    exact .exIte (g _) (.exIte (g _) (.ok _))
  | data d =>
    refine .exBind (.readDataHdr s) fun ⟨hd, rest⟩ e => ?_
    have hl := readDataHdr_len e
    obtain ⟨pre, hs, _⟩ := Loc.readDataHdr _ _ _ e
    have g : ∀ k', Raises (TL s) (r k' rest) := fun k' =>
      (h k' _ (by omega)).lcaf_in (x := pre) (y := []) (by rw [List.append_nil]; exact hs)
        (by rw [hs] at hl; simp at hl; omega)
    exact .exBind (.decByVersion (g _) (g _)) fun _ _ => .exBind (.dataSanitize _) fun _ _ => .ok _
  | control =>
    refine .exBind (.runOn (.readUint _ _)) fun t e => ?_
    refine .exIte (.exBind (.runOn (.lcaf_mapRequest _)) fun _ _ => .ok _) ?_
    refine .exIte (.exBind (.runOn (.lcaf_mapReply _)) fun _ _ => .ok _) ?_
    refine .exIte (.exBind (.runOn (.lcaf_mapRegister _)) fun _ _ => .ok _) ?_
    refine .exIte (.exBind (.runOn (.lcaf_mapNotify _)) fun _ _ => .ok _) ?_
    refine .exIte (.exBind (.runOn (.lcaf_mapReferral _)) fun _ _ => .ok _) ?_
    refine .exIte (.exBind (.runOn (.lcaf_info _)) fun _ _ => .ok _) ?_
    refine .exIte ?_ (.err .value)
    have he : Raises (TL s) (PyLisp.readEcmHdr s) := by
      unfold PyLisp.readEcmHdr
      iterate 4 (refine .bind (by raises_pkt) fun _ _ _ => ?_)
      exact .rdIte (.fail .notImpl _) (.pure _ _)
    refine .exBind he fun ⟨hd, rest⟩ e => ?_
    obtain ⟨_, _, _, hs⟩ := readEcmHdr_ok.mp e
    have g : ∀ k', Raises (TL s) (r k' rest) := fun k' =>
      (h k' _ (by rw [hs]; simp [encEcmRaw]; omega)).lcaf_in (y := []) (by rw [List.append_nil]; exact hs)
        (by simp [encEcmRaw])
    exact .exBind (.decByVersion (g _) (g _)) fun _ _ => .exBind
      (by unfold EcmHdr.sanitize; exact .exIte (.err .notImpl) (.ok _)) fun _ _ => .ok _

theorem lcaf_dec (k : Kind) (s : Bits) : Raises (TL s) (PyLisp.dec k s) := by
  have : ∀ n, ∀ (k : Kind) (s : Bits), s.length ≤ n → Raises (TL s) (PyLisp.dec k s) := by
    intro n
    induction n with
    | zero =>
      intro k s hn
      rw [dec_eq]
      exact .lcaf_decStep fun k' s' h' => by omega
    | succ n ih =>
      intro k s hn
      rw [dec_eq]
      exact .lcaf_decStep fun k' s' h' => ih k' s' (by omega)
  exact this _ _ _ (Nat.le_refl _)

end Raises

/-- in a byte string, an LCAF address family number at a byte boundary is two bytes -/
theorem lcafIn_bytes {b : Bytes} (h : LcafIn (bytesToBits b)) :
    ∃ pre post, b = pre ++ [0x40, 0x03] ++ post := by
  obtain ⟨pre, post, e, hp⟩ := h
  have hl := congrArg List.length e
  simp only [bytesToBits_length, List.length_append, natToBits_length] at hl
  have e1 : pre = bytesToBits (b.take (pre.length / 8)) := by
    have h0 := congrArg (List.take pre.length) e
    rw [List.take_left] at h0
    refine h0.symm.trans ?_
    have hx : pre.length = 8 * (pre.length / 8) := by omega
    have := bytesToBits_append (b.take (pre.length / 8)) (b.drop (pre.length / 8))
    rw [List.take_append_drop] at this
    rw [this, List.take_append_of_le_length (by rw [bytesToBits_length, List.length_take]; omega),
      List.take_of_length_le (by rw [bytesToBits_length, List.length_take]; omega)]
  have e2 : natToBits 16 16387 ++ post = bytesToBits (b.drop (pre.length / 8)) := by
    have h1 := bytesToBits_append (b.take (pre.length / 8)) (b.drop (pre.length / 8))
    rw [List.take_append_drop, e, ← e1] at h1
    exact List.append_cancel_left h1
  match hd : b.drop (pre.length / 8) with
  | [] =>
    rw [hd] at e2
    have := congrArg List.length e2
    simp [bytesToBits] at this
  | [x] =>
    rw [hd] at e2
    have := congrArg List.length e2
    simp only [bytesToBits_length, List.length_append, natToBits_length, List.length_cons, List.length_nil] at this
    omega
  | x :: y :: r =>
    rw [hd, ← bytesToBits_be16, show x :: y :: r = [x, y] ++ r from rfl, bytesToBits_append] at e2
    have h3 := List.append_inj_left e2 (by rw [bytesToBits_length, bytesToBits_length]; rfl)
    have h4 := bytesToBits_inj h3
    refine ⟨b.take (pre.length / 8), r, ?_⟩
    have h5 : ([x, y] : Bytes) = [0x40, 0x03] := h4.symm
    rw [List.append_assoc, ← h5, ← show x :: y :: r = [x, y] ++ r from rfl, ← hd, List.take_append_drop]

end PyLisp
