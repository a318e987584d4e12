import Verif.Control
namespace PyLisp

attribute [local irreducible] natToBits readUint readBits readBool readBytes readInt zeros readIP

/-! ### Generic lemmas -/

theorem sanitizeAll_fix {f : α → Except Err α} {l : List α} (h : ∀ a ∈ l, f a = .ok a) :
    sanitizeAll f l = .ok l := by
  induction l with
  | nil => rfl
  | cons a l ih => simp [sanitizeAll, h a (by simp), ih (fun x hx => h x (by simp [hx]))]

theorem sanitizeAll_mem {f : α → Except Err α} {l l' : List α} (h : sanitizeAll f l = .ok l') :
    ∀ a' ∈ l', ∃ a ∈ l, f a = .ok a' := by
  induction l generalizing l' with
  | nil => simp [sanitizeAll] at h; subst h; simp
  | cons a l ih =>
    simp only [sanitizeAll, exBind_ok] at h
    obtain ⟨a', ha, l'', hl, h⟩ := h
    simp only [exPure, Except.ok.injEq] at h; subst h
    intro x hx
    rcases List.mem_cons.mp hx with rfl | hx
    · exact ⟨a, by simp, ha⟩
    · obtain ⟨y, hy, e⟩ := ih hl x hx; exact ⟨y, by simp [hy], e⟩

theorem sanitizeAll_idem {f : α → Except Err α} (hf : ∀ a a', f a = .ok a' → f a' = .ok a')
    {l l' : List α} (h : sanitizeAll f l = .ok l') : ∀ a ∈ l', f a = .ok a := by
  intro a' ha'
  obtain ⟨a, _, e⟩ := sanitizeAll_mem h a' ha'
  exact hf _ _ e

theorem sanitizeAll_length {f : α → Except Err α} {l l' : List α} (h : sanitizeAll f l = .ok l') :
    l'.length = l.length := by
  induction l generalizing l' with
  | nil => simp [sanitizeAll] at h; subst h; rfl
  | cons a l ih =>
    simp only [sanitizeAll, exBind_ok] at h
    obtain ⟨a', ha, l'', hl, h⟩ := h
    simp only [exPure, Except.ok.injEq] at h; subst h
    simp [ih hl]

theorem sanitizeAll_ok_iff {f : α → Except Err α} {l : List α} :
    (∃ l', sanitizeAll f l = .ok l') ↔ ∀ a ∈ l, ∃ a', f a = .ok a' := by
  induction l with
  | nil => simp [sanitizeAll]
  | cons a l ih =>
    simp only [List.mem_cons, forall_eq_or_imp, ← ih, sanitizeAll, exBind_ok, exPure,
      Except.ok.injEq]
    constructor
    · rintro ⟨_, a', ha, l', hl, _⟩; exact ⟨⟨a', ha⟩, l', hl⟩
    · rintro ⟨⟨a', ha⟩, l', hl⟩; exact ⟨_, a', ha, l', hl, rfl⟩

theorem NF.sanitizeAll {f : α → Except Err α} (hf : ∀ a, NF (f a)) (l : List α) :
    NF (sanitizeAll f l) := by
  induction l with
  | nil => exact .ok _
  | cons a l ih => exact .exBind (hf a) fun _ _ => .exBind ih fun _ _ => .ok _

theorem readN_encAll_map {e : α → Except Err Bits} {r : Rd α} {g : α → α} (l : List α) (b t : Bits)
    (h : encAll e l = .ok b)
    (hl : ∀ a ∈ l, ∀ b t, e a = .ok b → r (b ++ t) = .ok (g a, t)) :
    readN r l.length (b ++ t) = .ok (l.map g, t) := by
  induction l generalizing b with
  | nil => simp [encAll] at h; subst h; rfl
  | cons a l ih =>
    simp only [encAll, exBind_ok] at h
    obtain ⟨b1, hb1, b2, hb2, h⟩ := h
    simp only [exPure, Except.ok.injEq] at h; subst h
    simp only [List.length_cons, readN, Rd.bind_apply, List.append_assoc]
    rw [hl a (by simp) _ _ hb1]
    dsimp only
    rw [ih _ hb2 (fun x hx => hl x (by simp [hx]))]
    rfl

theorem expectType_app {n : Nat} (hn : n < 2 ^ 4) (t : Bits) :
    expectType n (natToBits 4 n ++ t) = .ok ((), t) := by
  unfold expectType
  rw [Rd.bind_apply, readUint_app hn]
  simp

theorem expectType_ok {n : Nat} {s rest : Bits} {u : Unit} (h : expectType n s = .ok (u, rest)) :
    s = natToBits 4 n ++ rest := by
  simp only [expectType, Rd.bind_ok] at h
  obtain ⟨t, s1, h1, h2⟩ := h
  obtain ⟨_, rfl⟩ := readUint_ok h1
  split at h2
  · cases h2
  · rename_i hne
    cases h2
    simp only [ne_eq, Decidable.not_not] at hne
    rw [hne]

theorem Loc.expectType (n : Nat) : Loc (expectType n) := by
  unfold PyLisp.expectType
  exact .bind (.readUint _) fun _ => .ite (fun _ => .fail _) fun _ => .pure _

theorem NF.expectType (n : Nat) (s : Bits) : NF (expectType n s) := by
  unfold PyLisp.expectType
  exact .bind (.readUint _ _) fun _ _ _ => .rdIte (.fail (by simp) _) (.pure _ _)

theorem readRecords_enc {l : List Record} {b : Bits} (h : encAll encRecord l = .ok b)
    (hf : ∀ a ∈ l, a.sanitize = .ok a) (t : Bits) :
    readN readRecord l.length (b ++ t) = .ok (l, t) :=
  readN_encAll_same l b t h fun a ha b t hb => readRecord_enc hb (hf a ha) t

theorem readRecords_fix {n : Nat} {s rest : Bits} {l : List Record}
    (h : readN readRecord n s = .ok (l, rest)) : ∀ r ∈ l, r.sanitize = .ok r := by
  induction n generalizing s l with
  | zero => simp [readN] at h; simp [h.1]
  | succ n ih =>
    simp only [readN, Rd.bind_ok, Rd.pure_ok_iff] at h
    obtain ⟨a, s1, h1, l', s2, h2, rfl, rfl⟩ := h
    intro r hr
    rcases List.mem_cons.mp hr with rfl | hr
    · exact readRecord_fix h1
    · exact ih h2 r hr

theorem exIfTrue_ok {c : Bool} {x : Except Err α} {e : Err} {b : α} :
    (if c = false then .error e else x) = .ok b ↔ c = true ∧ x = .ok b := by
  cases c <;> simp

/-- sanitising a list of records gives a list of fixed points -/
theorem recs_fix {l l' : List Record} (h : sanitizeAll Record.sanitize l = .ok l') :
    ∀ a ∈ l', a.sanitize = .ok a := sanitizeAll_idem (fun _ _ => Record.sanitize_idem) h

/-! ### Map-Request -/

theorem getAddresses_strip_aux :
    (∀ a : Addr, a.strip.getAddresses = stripList a.getAddresses) ∧
    (∀ l : List Addr, getAddressesList (stripList l) = stripList (getAddressesList l)) := by
  have happ : ∀ a b : List Addr, stripList (a ++ b) = stripList a ++ stripList b := by
    intro a b; induction a with
    | nil => rfl
    | cons x a ih => simp [stripList, ih]
  refine ⟨fun a => ?_, fun l => ?_⟩
  · exact Addr.rec (motive_1 := fun a => a.strip.getAddresses = stripList a.getAddresses)
      (motive_2 := fun l => getAddressesList (stripList l) = stripList (getAddressesList l))
      rfl (fun _ => rfl) (fun _ => rfl) rfl
      (fun l ih => by simpa [Addr.strip, Addr.getAddresses] using ih)
      (fun _ a _ ih => by simpa [Addr.strip, Addr.getAddresses] using ih)
      (fun _ a ih => by simpa [Addr.strip, Addr.getAddresses] using ih)
      (fun _ _ _ _ _ _ _ _ _ a ih => by simpa [Addr.strip, Addr.getAddresses] using ih)
      (fun _ _ _ _ _ _ _ _ _ _ => rfl)
      rfl
      (fun a l iha ihl => by simp [stripList, getAddressesList, iha, ihl, happ]) a
  · exact Addr.rec_1 (motive_1 := fun a => a.strip.getAddresses = stripList a.getAddresses)
      (motive_2 := fun l => getAddressesList (stripList l) = stripList (getAddressesList l))
      rfl (fun _ => rfl) (fun _ => rfl) rfl
      (fun l ih => by simpa [Addr.strip, Addr.getAddresses] using ih)
      (fun _ a _ ih => by simpa [Addr.strip, Addr.getAddresses] using ih)
      (fun _ a ih => by simpa [Addr.strip, Addr.getAddresses] using ih)
      (fun _ _ _ _ _ _ _ _ _ a ih => by simpa [Addr.strip, Addr.getAddresses] using ih)
      (fun _ _ _ _ _ _ _ _ _ _ => rfl)
      rfl
      (fun a l iha ihl => by simp [stripList, getAddressesList, iha, ihl, happ]) l

theorem getAddresses_strip (a : Addr) : a.strip.getAddresses = stripList a.getAddresses :=
  getAddresses_strip_aux.1 a

theorem sourceEidOk_iff {a : Addr} : sourceEidOk a = true ↔ a = .none ∨ ∃ i, a.getAddresses = [.ip i] := by
  unfold sourceEidOk
  split
  · simp
  · rename_i h
    split
    · rename_i x hx
      rw [hx]
      cases x <;> simp [Addr.isIP] <;> (intro h0; exact h h0)
    · rename_i h'
      constructor
      · intro h; cases h
      · rintro (rfl | ⟨i, hi⟩)
        · exact absurd rfl h
        · exact absurd hi (h' _)

theorem sourceEidOk_strip {a : Addr} (h : sourceEidOk a = true) : sourceEidOk a.strip = true := by
  rw [sourceEidOk_iff] at h ⊢
  rcases h with rfl | ⟨i, hi⟩
  · exact .inl rfl
  · right; rw [getAddresses_strip, hi]; exact ⟨i, rfl⟩

theorem sanitizeOpt_idem {o o' : Option Record} (h : sanitizeOpt o = .ok o') :
    sanitizeOpt o' = .ok o' := by
  cases o with
  | none => cases h; rfl
  | some r =>
    simp only [sanitizeOpt, exBind_ok] at h
    obtain ⟨r', h1, h2⟩ := h
    cases h2
    simp [sanitizeOpt, Record.sanitize_idem h1]

theorem MapRequest.sanitize_ok {m m' : MapRequest} : m.sanitize = .ok m' ↔
    (1 ≤ m.itrRlocs.length ∧ m.itrRlocs.length ≤ 32) ∧
    (1 ≤ m.eidPrefixes.length ∧ m.eidPrefixes.length ≤ 32) ∧
    m.nonce.length = 8 ∧ sourceEidOk m.sourceEid = true ∧
    m.itrRlocs.all Addr.isIP = true ∧
    m.eidPrefixes.all (fun p => p.getAddresses.all Addr.isIPorNet) = true ∧
    ∃ r, sanitizeOpt m.mapReply = .ok r ∧ m' = { m with mapReply := r } := by
  unfold MapRequest.sanitize
  simp only [exIteErr_ok, Bool.not_eq_false, exBind_ok, exPure, Except.ok.injEq, ne_eq,
    Decidable.not_not]
  constructor
  · rintro ⟨h1, h2, h3, h4, h5, h6, r, h7, h8⟩
    exact ⟨by omega, by omega, h3, h4, h5, h6, r, h7, h8.symm⟩
  · rintro ⟨h1, h2, h3, h4, h5, h6, r, h7, h8⟩
    exact ⟨by omega, by omega, h3, h4, h5, h6, r, h7, h8.symm⟩

theorem MapRequest.sanitize_idem {m m' : MapRequest} (h : m.sanitize = .ok m') :
    m'.sanitize = .ok m' := by
  obtain ⟨h1, h2, h3, h4, h5, h6, r, h7, rfl⟩ := MapRequest.sanitize_ok.mp h
  exact MapRequest.sanitize_ok.mpr ⟨h1, h2, h3, h4, h5, h6, r, sanitizeOpt_idem h7, rfl⟩

/-- what the receiver sees of an EID prefix: the network it denotes -/
def eidOnWire (a : Addr) : Addr :=
  match a.toNetwork with
  | .ok n => .net n
  | .error _ => a

/-- what the receiver sees of a Map-Request -/
def MapRequest.onWire (m : MapRequest) : MapRequest :=
  { m with sourceEid := m.sourceEid.strip, eidPrefixes := m.eidPrefixes.map eidOnWire }

theorem encEidPrefix_ok {a : Addr} {b : Bits} (h : encEidPrefix a = .ok b) :
    ∃ n, a.toNetwork = .ok n ∧ b = natToBits 8 0 ++ natToBits 8 n.plen ++ encIP n.first := by
  simp only [encEidPrefix, exBind_ok, encUint_iff] at h
  obtain ⟨n, hn, _, ⟨_, _, rfl⟩, h⟩ := h
  simp only [exPure, Except.ok.injEq] at h
  exact ⟨n, hn, h.symm⟩

theorem readEidPrefix_enc {a : Addr} {b : Bits} (h : encEidPrefix a = .ok b) (t : Bits) :
    readEidPrefix (b ++ t) = .ok (eidOnWire a, t) := by
  obtain ⟨n, hn, rfl⟩ := encEidPrefix_ok h
  simp only [readEidPrefix, Rd.bind_apply, List.append_assoc, readBits_app (natToBits_length 8 0),
    readUint_app n.plen_lt_256, readAfi_net, eidOnWire, hn]

theorem encMapRequestRaw_ok {m : MapRequest} {b : Bits} (h : encMapRequestRaw m = .ok b) :
    (0 ≤ ((m.itrRlocs.length : Int) - 1) ∧ ((m.itrRlocs.length : Int) - 1) < 2 ^ 5) ∧
    m.eidPrefixes.length < 2 ^ 8 ∧
    ∃ b3 b4 b5 b6, encAddr m.sourceEid = .ok b3 ∧ encAll encAddr m.itrRlocs = .ok b4 ∧
      encAll encEidPrefix m.eidPrefixes = .ok b5 ∧ encOptRecord m.mapReply = .ok b6 ∧
      b = natToBits 4 1 ++ [m.authoritative, m.mapReply.isSome, m.probe, m.smr, m.pitr, m.smrInvoked]
        ++ natToBits 9 m.reserved1.toNat ++ natToBits 5 (m.itrRlocs.length - 1) ++
        natToBits 8 m.eidPrefixes.length ++ bytesToBits m.nonce ++ b3 ++ b4 ++ b5 ++ b6 := by
  simp only [encMapRequestRaw, exBind_ok, encUint_iff] at h
  obtain ⟨_, ⟨h10, h11, rfl⟩, _, ⟨h20, h21, rfl⟩, b3, h3, b4, h4, b5, h5, b6, h6, h⟩ := h
  simp only [exPure, Except.ok.injEq] at h
  refine ⟨⟨h10, h11⟩, by omega, b3, b4, b5, b6, h3, h4, h5, h6, ?_⟩
  rw [← h]
  have : ((m.itrRlocs.length : Int) - 1).toNat = m.itrRlocs.length - 1 := by omega
  rw [this, Int.toNat_natCast]

theorem readOptRecord_enc {o : Option Record} {b : Bits} (h : encOptRecord o = .ok b)
    (hf : sanitizeOpt o = .ok o) (t : Bits) : readOptRecord o.isSome (b ++ t) = .ok (o, t) := by
  cases o with
  | none => cases h; rfl
  | some r =>
    simp only [sanitizeOpt, exBind_ok, exPure, Except.ok.injEq, Option.some.injEq] at hf
    obtain ⟨r', h1, rfl⟩ := hf
    simp only [readOptRecord, Option.isSome_some, if_true, Rd.bind_apply]
    rw [readRecord_enc h h1]
    rfl

theorem toNetwork_isNet {a : Addr} {n : Net} (h : a.toNetwork = .ok n) : eidOnWire a = .net n := by
  simp [eidOnWire, h]

theorem readMapRequestRaw_enc {m : MapRequest} {b : Bits} (h : encMapRequestRaw m = .ok b)
    (hn : m.nonce.length = 8) (hi : m.itrRlocs.all Addr.isIP = true)
    (hr : sanitizeOpt m.mapReply = .ok m.mapReply) (t : Bits) :
    readMapRequestRaw (b ++ t) = .ok (m.onWire, t) := by
  obtain ⟨h1, h2, b3, b4, b5, b6, h3, h4, h5, h6, rfl⟩ := encMapRequestRaw_ok h
  have hlen : m.itrRlocs.length - 1 + 1 = m.itrRlocs.length := by omega
  have r4 := readN_encAll_same m.itrRlocs b4 (b5 ++ (b6 ++ t)) h4 (r := readAfi .none)
    (fun a ha b t hb => by
      have : a.isIP = true := List.all_eq_true.mp hi a ha
      cases a with
      | ip i => exact readAfi_enc hb t
      | _ => simp [Addr.isIP] at this)
  have r5 := readN_encAll_map m.eidPrefixes b5 (b6 ++ t) h5 (r := readEidPrefix) (g := eidOnWire)
    (fun a _ b t hb => readEidPrefix_enc hb t)
  have r6 := readOptRecord_enc h6 hr t
  simp only [readMapRequestRaw, Rd.bind_apply, List.append_assoc, List.cons_append, List.nil_append,
    expectType_app (show 1 < 2 ^ 4 by decide), readBool_cons, readUint_app m.reserved1.isLt,
    readUint_app (show m.itrRlocs.length - 1 < 2 ^ 5 by omega), readUint_app h2,
    readBytes_app' hn, readAfi_enc h3, hlen, r4, r5, r6, Rd.pure_apply, BitVec_ofNat_toNat']
  rfl

theorem MapRequest.onWire_sanitize {m : MapRequest} (h : m.sanitize = .ok m)
    (he : ∀ a ∈ m.eidPrefixes, ∃ n, a.toNetwork = .ok n) : m.onWire.sanitize = .ok m.onWire := by
  obtain ⟨h1, h2, h3, h4, h5, h6, r, h7, h8⟩ := MapRequest.sanitize_ok.mp h
  refine MapRequest.sanitize_ok.mpr ⟨h1, ?_, h3, sourceEidOk_strip h4, h5, ?_, r, h7, ?_⟩
  · simpa [onWire] using h2
  · rw [List.all_eq_true]
    intro x hx
    simp only [onWire, List.mem_map] at hx
    obtain ⟨a, ha, rfl⟩ := hx
    obtain ⟨n, hn⟩ := he a ha
    rw [toNetwork_isNet hn]; rfl
  · have : r = m.mapReply := by
      have := congrArg MapRequest.mapReply h8
      exact this.symm
    subst this; rfl

theorem encMapRequest_ok {m : MapRequest} {b : Bits} (h : encMapRequest m = .ok b) :
    ∃ m', m.sanitize = .ok m' ∧ encMapRequestRaw m' = .ok b := by
  simp only [encMapRequest, exBind_ok] at h
  obtain ⟨r', h1, h2⟩ := h
  exact ⟨r', h1, h2⟩

theorem readMapRequest_enc {m m' : MapRequest} {b : Bits} (h : encMapRequest m = .ok b)
    (hs : m.sanitize = .ok m') (t : Bits) : readMapRequest (b ++ t) = .ok (m'.onWire, t) := by
  obtain ⟨m'', h1, h2⟩ := encMapRequest_ok h
  rw [hs] at h1; cases h1
  have hi := MapRequest.sanitize_idem hs
  obtain ⟨_, _, h3, h4, h5, h6, r, h7, h8⟩ := MapRequest.sanitize_ok.mp hi
  have hr : sanitizeOpt m'.mapReply = .ok m'.mapReply := by
    have := congrArg MapRequest.mapReply h8
    simp only at this; rw [← this] at h7; exact h7
  have he : ∀ a ∈ m'.eidPrefixes, ∃ n, a.toNetwork = .ok n := by
    obtain ⟨_, _, _, _, _, _, _, _, h5, _, _⟩ := encMapRequestRaw_ok h2
    intro a ha
    obtain ⟨c, hc⟩ := encAll_ok_mem h5 a ha
    obtain ⟨n, hn, _⟩ := encEidPrefix_ok hc
    exact ⟨n, hn⟩
  simp only [readMapRequest, Rd.bind_apply, readMapRequestRaw_enc h2 h3 h5 hr,
    MapRequest.onWire_sanitize hi he, Rd.lift_ok]

theorem Loc.readEidPrefix : Loc readEidPrefix := by unfold PyLisp.readEidPrefix; loc_tac

theorem Loc.readOptRecord (b : Bool) : Loc (readOptRecord b) := by
  unfold PyLisp.readOptRecord
  exact .ite (fun _ => .bind .readRecord fun _ => .pure _) fun _ => .pure _

/-- prove `Loc` for a control message reader -/
macro "loc_msg" : tactic => `(tactic|
  repeat (first
    | exact Loc.pure _ | exact Loc.fail _ | exact Loc.lift _ | exact Loc.readUint _
    | exact Loc.readInt _ | exact Loc.readBits _ | exact Loc.readBool | exact Loc.readBytes _
    | exact Loc.readAfi _ | exact Loc.readIP _ | exact Loc.expectType _ | exact Loc.readEidPrefix
    | exact Loc.readOptRecord _ | exact Loc.readRecord | exact Loc.readRefRecord
    | (with_reducible refine Loc.readN ?_ _)
    | (with_reducible refine Loc.bind ?_ fun _ => ?_)
    | (with_reducible refine Loc.ite (fun _ => ?_) fun _ => ?_)))

theorem Loc.readMapRequestRaw : Loc readMapRequestRaw := by
  unfold PyLisp.readMapRequestRaw; loc_msg

theorem Loc.readMapRequest : Loc readMapRequest := .bind .readMapRequestRaw fun _ => .lift _

theorem NF.sanitizeOpt (o : Option Record) : NF (sanitizeOpt o) := by
  cases o with
  | none => exact .ok _
  | some r => exact .exBind (.recSanitize r) fun _ _ => .ok _

theorem NF.reqSanitize (m : MapRequest) : NF m.sanitize := by
  unfold MapRequest.sanitize
  repeat refine .exIte (.err (by simp)) ?_
  exact .exBind (.sanitizeOpt _) fun _ _ => .ok _

theorem NF.readOptRecord (b : Bool) (s : Bits) : NF (readOptRecord b s) := by
  unfold PyLisp.readOptRecord
  exact .rdIte (.bind (.readRecord _) fun _ _ _ => .pure _ _) (.pure _ _)

theorem NF.readEidPrefix (s : Bits) : NF (readEidPrefix s) := by
  unfold PyLisp.readEidPrefix
  exact .bind (.readBits _ _) fun _ _ _ => .bind (.readUint _ _) fun _ _ _ => .readAfi _ _

/-- prove `NF` for a control message reader -/
macro "nf_msg" : tactic => `(tactic|
  repeat (first
    | exact NF.pure _ _ | exact NF.fail (by simp) _ | exact NF.readUint _ _
    | exact NF.readInt _ _ | exact NF.readBits _ _ | exact NF.readBool _ | exact NF.readBytes _ _
    | exact NF.readAfi _ _ | exact NF.readIP _ _ | exact NF.expectType _ _
    | exact NF.readEidPrefix _ | exact NF.readOptRecord _ _ | exact NF.readRecord _
    | exact NF.readRefRecord _
    | exact NF.readN NF.readRecord _ _ | exact NF.readN NF.readRefRecord _ _
    | exact NF.readN NF.readEidPrefix _ _ | exact NF.readN (NF.readAfi _) _ _
    | (with_reducible refine NF.bind ?_ fun _ _ _ => ?_)
    | (with_reducible refine NF.rdIte ?_ ?_)))

theorem NF.readMapRequest (s : Bits) : NF (readMapRequest s) := by
  refine .bind ?_ fun m _ _ => .lift (.reqSanitize m) _
  unfold readMapRequestRaw; nf_msg

theorem readMapRequest_fix {s rest : Bits} {m : MapRequest}
    (h : readMapRequest s = .ok (m, rest)) : m.sanitize = .ok m := by
  simp only [readMapRequest, Rd.bind_ok, Rd.lift_ok_iff] at h
  obtain ⟨raw, s1, _, h2, _⟩ := h
  exact MapRequest.sanitize_idem h2

/-! ### Map-Reply -/

theorem MapReply.sanitize_ok {m m' : MapReply} : m.sanitize = .ok m' ↔
    m.security = false ∧ (m.nonce.length = 3 ∨ m.nonce.length = 8) ∧
    ∃ rs, sanitizeAll Record.sanitize m.records = .ok rs ∧ m' = { m with records := rs } := by
  unfold MapReply.sanitize
  simp only [exIteErr_ok, exBind_ok, exPure, Except.ok.injEq, Decidable.not_not,
    Bool.not_eq_true]
  constructor
  · rintro ⟨h1, h2, rs, h3, h4⟩; exact ⟨h1, h2, rs, h3, h4.symm⟩
  · rintro ⟨h1, h2, rs, h3, h4⟩; exact ⟨h1, h2, rs, h3, h4.symm⟩

theorem MapReply.sanitize_idem {m m' : MapReply} (h : m.sanitize = .ok m') :
    m'.sanitize = .ok m' := by
  obtain ⟨h1, h2, rs, h3, rfl⟩ := MapReply.sanitize_ok.mp h
  exact MapReply.sanitize_ok.mpr ⟨h1, h2, rs, sanitizeAll_fix (recs_fix h3), rfl⟩

theorem MapReply.fix_records {m : MapReply} (h : m.sanitize = .ok m) :
    ∀ r ∈ m.records, r.sanitize = .ok r := by
  obtain ⟨_, _, rs, h3, h4⟩ := MapReply.sanitize_ok.mp h
  have := congrArg MapReply.records h4
  simp only at this; rw [this]
  exact recs_fix h3

/-- left padding of 3-byte nonces -/
def padNonce (n : Bytes) : Bytes := List.replicate (8 - n.length) 0 ++ n

theorem bytesToBits_replicate_zero (k : Nat) : bytesToBits (List.replicate k 0) = zeros (8 * k) := by
  induction k with
  | zero => simp [bytesToBits, zeros]
  | succ k ih =>
    rw [List.replicate_succ, bytesToBits, ih]
    have : BitVec.toNat (0 : Byte) = 0 := rfl
    rw [this, natToBits_zero]
    unfold zeros
    rw [List.replicate_append_replicate]
    congr 1; omega

theorem bytesToBits_padNonce (n : Bytes) :
    bytesToBits (padNonce n) = zeros (8 * (8 - n.length)) ++ bytesToBits n := by
  rw [padNonce, bytesToBits_append, bytesToBits_replicate_zero]

theorem padNonce_length {n : Bytes} (h : n.length ≤ 8) : (padNonce n).length = 8 := by
  simp [padNonce]; omega

theorem encMapReplyRaw_ok {m : MapReply} {b : Bits} (h : encMapReplyRaw m = .ok b) :
    m.records.length < 2 ^ 8 ∧ m.security = false ∧
    ∃ b2, encAll encRecord m.records = .ok b2 ∧
    b = natToBits 4 2 ++ [m.probe, m.enlraEnabled, false] ++ natToBits 17 m.reserved1.toNat ++
      natToBits 8 m.records.length ++ bytesToBits (padNonce m.nonce) ++ b2 := by
  simp only [encMapReplyRaw, exBind_ok, encUint_iff, exIteErr_ok] at h
  obtain ⟨_, ⟨h10, h11, rfl⟩, b2, h2, h3, h⟩ := h
  simp only [exPure, Except.ok.injEq, Bool.not_eq_true] at h h3
  refine ⟨by omega, h3, b2, h2, ?_⟩
  rw [← h, bytesToBits_padNonce, h3]; simp

theorem readMapReplyRaw_enc {m : MapReply} {b : Bits} (h : encMapReplyRaw m = .ok b)
    (hn : m.nonce.length ≤ 8) (hf : ∀ r ∈ m.records, r.sanitize = .ok r) (t : Bits) :
    readMapReplyRaw (b ++ t) = .ok ({ m with nonce := padNonce m.nonce }, t) := by
  obtain ⟨h1, h2, b2, h3, rfl⟩ := encMapReplyRaw_ok h
  have r3 := readRecords_enc h3 hf t
  simp only [readMapReplyRaw, Rd.bind_apply, List.append_assoc, List.cons_append, List.nil_append,
    expectType_app (show 2 < 2 ^ 4 by decide), readBool_cons, readUint_app m.reserved1.isLt,
    readUint_app h1, readBytes_app' (padNonce_length hn), r3, BitVec_ofNat_toNat']
  simp [h2]

theorem encMapReply_ok {m : MapReply} {b : Bits} (h : encMapReply m = .ok b) :
    ∃ m', m.sanitize = .ok m' ∧ encMapReplyRaw m' = .ok b := by
  simp only [encMapReply, exBind_ok] at h
  obtain ⟨r', h1, h2⟩ := h
  exact ⟨r', h1, h2⟩

theorem readMapReply_enc {m m' : MapReply} {b : Bits} (h : encMapReply m = .ok b)
    (hs : m.sanitize = .ok m') (t : Bits) :
    readMapReply (b ++ t) = .ok ({ m' with nonce := padNonce m'.nonce }, t) := by
  obtain ⟨m'', h1, h2⟩ := encMapReply_ok h
  rw [hs] at h1; cases h1
  have hi := MapReply.sanitize_idem hs
  have hf := MapReply.fix_records hi
  obtain ⟨h3, h4, _⟩ := MapReply.sanitize_ok.mp hi
  have hw : ({ m' with nonce := padNonce m'.nonce } : MapReply).sanitize =
      .ok { m' with nonce := padNonce m'.nonce } :=
    MapReply.sanitize_ok.mpr ⟨h3, .inr (padNonce_length (by omega)), m'.records,
      sanitizeAll_fix hf, rfl⟩
  simp only [readMapReply, Rd.bind_apply, readMapReplyRaw_enc h2 (by omega) hf, hw, Rd.lift_ok]

theorem Loc.readMapReply : Loc readMapReply := by
  refine .bind ?_ fun _ => .lift _
  unfold PyLisp.readMapReplyRaw; loc_msg

theorem NF.repSanitize (m : MapReply) : NF m.sanitize := by
  unfold MapReply.sanitize
  repeat refine .exIte (.err (by simp)) ?_
  exact .exBind (.sanitizeAll .recSanitize _) fun _ _ => .ok _

theorem NF.readMapReply (s : Bits) : NF (readMapReply s) := by
  refine .bind ?_ fun m _ _ => .lift (.repSanitize m) _
  unfold readMapReplyRaw; nf_msg

theorem readMapReply_fix {s rest : Bits} {m : MapReply}
    (h : readMapReply s = .ok (m, rest)) : m.sanitize = .ok m := by
  simp only [readMapReply, Rd.bind_ok, Rd.lift_ok_iff] at h
  obtain ⟨raw, s1, _, h2, _⟩ := h
  exact MapReply.sanitize_idem h2

theorem readBytes_length {n : Nat} {s rest : Bits} {v : Bytes} (h : readBytes n s = .ok (v, rest)) :
    v.length = n := (readBytes_ok h).1

/-- a received Map-Reply has an 8-byte nonce -/
theorem readMapReply_nonce {s rest : Bits} {m : MapReply}
    (h : readMapReply s = .ok (m, rest)) : m.nonce.length = 8 := by
  simp only [readMapReply, Rd.bind_ok, Rd.lift_ok_iff] at h
  obtain ⟨raw, s1, h1, h2, _⟩ := h
  obtain ⟨_, _, rs, _, rfl⟩ := MapReply.sanitize_ok.mp h2
  simp only [readMapReplyRaw, Rd.bind_ok] at h1
  obtain ⟨_, _, _, _, _, _, _, _, _, _, _, _, _, _, _, _, _, _, v, _, hv, _, _, _, h1⟩ := h1
  split at h1
  · cases h1
  · cases h1; exact readBytes_length hv

/-! ### Map-Register -/

theorem MapRegister.sanitize_ok {m m' : MapRegister} : m.sanitize = .ok m' ↔
    (0 ≤ m.xtrId ∧ m.xtrId < 2 ^ 128) ∧ (0 ≤ m.siteId ∧ m.siteId < 2 ^ 64) ∧ keyIdOk m.keyId ∧
    ∃ rs, sanitizeAll Record.sanitize m.records = .ok rs ∧ m' = { m with records := rs } := by
  unfold MapRegister.sanitize
  simp only [exIteErr_ok, exBind_ok, exPure, Except.ok.injEq, Decidable.not_not]
  constructor
  · rintro ⟨h1, h2, h3, rs, h4, h5⟩; exact ⟨by omega, by omega, h3, rs, h4, h5.symm⟩
  · rintro ⟨h1, h2, h3, rs, h4, h5⟩; exact ⟨by omega, by omega, h3, rs, h4, h5.symm⟩

theorem MapRegister.sanitize_idem {m m' : MapRegister} (h : m.sanitize = .ok m') :
    m'.sanitize = .ok m' := by
  obtain ⟨h1, h2, h3, rs, h4, rfl⟩ := MapRegister.sanitize_ok.mp h
  exact MapRegister.sanitize_ok.mpr ⟨h1, h2, h3, rs, sanitizeAll_fix (recs_fix h4), rfl⟩

theorem MapRegister.fix_records {m : MapRegister} (h : m.sanitize = .ok m) :
    ∀ r ∈ m.records, r.sanitize = .ok r := by
  obtain ⟨_, _, _, rs, h3, h4⟩ := MapRegister.sanitize_ok.mp h
  have := congrArg MapRegister.records h4
  simp only at this; rw [this]
  exact recs_fix h3

theorem encIds_ok {p : Bool} {x s : Int} {b : Bits} (h : encIds p x s = .ok b) :
    (p = true ∧ (0 ≤ x ∧ x < 2 ^ 128) ∧ (0 ≤ s ∧ s < 2 ^ 64) ∧
      b = natToBits 128 x.toNat ++ natToBits 64 s.toNat) ∨ (p = false ∧ b = []) := by
  unfold encIds at h
  cases p with
  | true =>
    left
    simp only [if_true, exBind_ok, encUint_iff, exPure, Except.ok.injEq] at h
    obtain ⟨_, ⟨h1, h2, rfl⟩, _, ⟨h3, h4, rfl⟩, rfl⟩ := h
    exact ⟨rfl, ⟨h1, h2⟩, ⟨h3, h4⟩, rfl⟩
  | false =>
    right
    simp at h; exact ⟨rfl, h⟩

theorem readIds_enc {p : Bool} {x s : Int} {b : Bits} (h : encIds p x s = .ok b)
    (hx : 0 ≤ x) (hs : 0 ≤ s) (h0 : p = false → x = 0 ∧ s = 0) (t : Bits) :
    readIds p (b ++ t) = .ok ((x.toNat, s.toNat), t) := by
  rcases encIds_ok h with ⟨rfl, h1, h2, rfl⟩ | ⟨rfl, rfl⟩
  · simp only [readIds, if_true, Rd.bind_apply, List.append_assoc,
      readUint_app_int h1.1 h1.2, readUint_app_int h2.1 h2.2, Rd.pure_apply]
  · obtain ⟨rfl, rfl⟩ := h0 rfl
    rfl

theorem encHex_iff {b : Bytes} {x : Bits} : encHex b = .ok x ↔ b ≠ [] ∧ x = bytesToBits b := by
  unfold encHex
  split
  · simp_all
  · simp_all [eq_comm]

theorem encMapRegisterRaw_ok {m : MapRegister} {b : Bits} (h : encMapRegisterRaw m = .ok b) :
    m.records.length < 2 ^ 8 ∧ (0 ≤ m.keyId ∧ m.keyId < 2 ^ 16) ∧
    (m.authData ≠ [] ∧ m.authData.length < 2 ^ 16) ∧
    ∃ b4 b5, encAll encRecord m.records = .ok b4 ∧ encIds m.hasIds m.xtrId m.siteId = .ok b5 ∧
    b = natToBits 4 3 ++ [m.proxyMapReply] ++ natToBits 1 m.reserved1.toNat ++
      [m.hasIds, m.forRtr] ++ natToBits 15 m.reserved2.toNat ++ [m.wantMapNotify] ++
      natToBits 8 m.records.length ++ bytesToBits m.nonce ++ natToBits 16 m.keyId.toNat ++
      natToBits 16 m.authData.length ++ bytesToBits m.authData ++ b4 ++ b5 := by
  simp only [encMapRegisterRaw, exBind_ok, encUint_iff, encHex_iff] at h
  obtain ⟨_, ⟨h10, h11, rfl⟩, _, ⟨h20, h21, rfl⟩, _, ⟨h30, h31, rfl⟩, _, ⟨ha, rfl⟩, b4, h4, b5, h5, h⟩ := h
  simp only [exPure, Except.ok.injEq] at h
  exact ⟨by omega, ⟨h20, h21⟩, ⟨ha, by omega⟩, b4, b5, h4, h5, h.symm⟩

theorem MapRegister.hasIds_false {m : MapRegister} (h : m.hasIds = false) :
    m.xtrId = 0 ∧ m.siteId = 0 := by
  simp [hasIds] at h
  exact ⟨h.1.1, h.1.2⟩

theorem readMapRegisterRaw_enc {m : MapRegister} {b : Bits} (h : encMapRegisterRaw m = .ok b)
    (hn : m.nonce.length = 8) (hx : 0 ≤ m.xtrId) (hsi : 0 ≤ m.siteId)
    (hf : ∀ r ∈ m.records, r.sanitize = .ok r) (t : Bits) :
    readMapRegisterRaw (b ++ t) = .ok (m, t) := by
  obtain ⟨h1, h2, h3, b4, b5, h4, h5, rfl⟩ := encMapRegisterRaw_ok h
  have r4 := readRecords_enc h4 hf (b5 ++ t)
  have r5 := readIds_enc h5 hx hsi MapRegister.hasIds_false t
  simp only [readMapRegisterRaw, Rd.bind_apply, List.append_assoc, List.cons_append,
    List.nil_append, expectType_app (show 3 < 2 ^ 4 by decide), readBool_cons,
    readUint_app m.reserved1.isLt, readUint_app m.reserved2.isLt, readUint_app h1,
    readBytes_app' hn, readUint_app_int h2.1 h2.2, readUint_app h3.2, readBytes_app' rfl, r4, r5,
    Rd.pure_apply, BitVec_ofNat_toNat', Int.toNat_of_nonneg h2.1, Int.toNat_of_nonneg hx,
    Int.toNat_of_nonneg hsi]

theorem encMapRegister_ok {m : MapRegister} {b : Bits} (h : encMapRegister m = .ok b) :
    ∃ m', m.sanitize = .ok m' ∧ encMapRegisterRaw m' = .ok b := by
  simp only [encMapRegister, exBind_ok] at h
  obtain ⟨r', h1, h2⟩ := h
  exact ⟨r', h1, h2⟩

theorem readMapRegister_enc {m m' : MapRegister} {b : Bits} (h : encMapRegister m = .ok b)
    (hn : m.nonce.length = 8) (hs : m.sanitize = .ok m') (t : Bits) :
    readMapRegister (b ++ t) = .ok (m', t) := by
  obtain ⟨m'', h1, h2⟩ := encMapRegister_ok h
  rw [hs] at h1; cases h1
  have hi := MapRegister.sanitize_idem hs
  have hn' : m'.nonce.length = 8 := by
    obtain ⟨_, _, _, rs, _, rfl⟩ := MapRegister.sanitize_ok.mp hs; exact hn
  obtain ⟨h3, h4, _⟩ := MapRegister.sanitize_ok.mp hi
  simp only [readMapRegister, Rd.bind_apply,
    readMapRegisterRaw_enc h2 hn' h3.1 h4.1 (MapRegister.fix_records hi), hi, Rd.lift_ok]

theorem Loc.readIds (b : Bool) : Loc (readIds b) := by
  unfold PyLisp.readIds; loc_msg

theorem Loc.readMapRegisterRaw : Loc readMapRegisterRaw := by
  unfold PyLisp.readMapRegisterRaw
  have := Loc.readIds
  loc_msg
  all_goals (try exact this _)
  loc_msg

theorem Loc.readMapRegister : Loc readMapRegister := .bind .readMapRegisterRaw fun _ => .lift _

theorem NF.readIds (b : Bool) (s : Bits) : NF (readIds b s) := by
  unfold PyLisp.readIds; nf_msg

theorem NF.regSanitize (m : MapRegister) : NF m.sanitize := by
  unfold MapRegister.sanitize
  repeat refine .exIte (.err (by simp)) ?_
  exact .exBind (.sanitizeAll .recSanitize _) fun _ _ => .ok _

theorem NF.readMapRegister (s : Bits) : NF (readMapRegister s) := by
  refine .bind ?_ fun m _ _ => .lift (.regSanitize m) _
  unfold readMapRegisterRaw
  nf_msg
  all_goals (try exact NF.readIds _ _)
  nf_msg

theorem readMapRegister_ok {s rest : Bits} {m : MapRegister}
    (h : readMapRegister s = .ok (m, rest)) :
    ∃ raw, readMapRegisterRaw s = .ok (raw, rest) ∧ raw.sanitize = .ok m := by
  simp only [readMapRegister, Rd.bind_ok, Rd.lift_ok_iff] at h
  obtain ⟨raw, s1, h1, h2, rfl⟩ := h
  exact ⟨raw, h1, h2⟩

theorem readMapRegister_fix {s rest : Bits} {m : MapRegister}
    (h : readMapRegister s = .ok (m, rest)) : m.sanitize = .ok m := by
  obtain ⟨raw, _, h2⟩ := readMapRegister_ok h
  exact MapRegister.sanitize_idem h2

theorem readMapRegister_nonce {s rest : Bits} {m : MapRegister}
    (h : readMapRegister s = .ok (m, rest)) : m.nonce.length = 8 := by
  obtain ⟨raw, h1, h2⟩ := readMapRegister_ok h
  obtain ⟨_, _, _, rs, _, rfl⟩ := MapRegister.sanitize_ok.mp h2
  simp only [readMapRegisterRaw, Rd.bind_ok, Rd.pure_ok_iff] at h1
  obtain ⟨_, _, _, _, _, _, _, _, _, _, _, _, _, _, _, _, _, _, _, _, _, _, _, _, v, _, hv, _, _, _,
    _, _, _, _, _, _, _, _, _, _, _, _, rfl, _⟩ := h1
  exact readBytes_length hv

/-! ### Map-Notify -/

theorem MapNotify.sanitize_ok {m m' : MapNotify} : m.sanitize = .ok m' ↔
    (0 ≤ m.xtrId ∧ m.xtrId < 2 ^ 128) ∧ (0 ≤ m.siteId ∧ m.siteId < 2 ^ 64) ∧ m.nonce.length = 8 ∧
    keyIdOk m.keyId ∧
    ∃ rs, sanitizeAll Record.sanitize m.records = .ok rs ∧ m' = { m with records := rs } := by
  unfold MapNotify.sanitize
  simp only [exIteErr_ok, exBind_ok, exPure, Except.ok.injEq, Decidable.not_not, ne_eq]
  constructor
  · rintro ⟨h1, h2, h0, h3, rs, h4, h5⟩; exact ⟨by omega, by omega, h0, h3, rs, h4, h5.symm⟩
  · rintro ⟨h1, h2, h0, h3, rs, h4, h5⟩; exact ⟨by omega, by omega, h0, h3, rs, h4, h5.symm⟩

theorem MapNotify.sanitize_idem {m m' : MapNotify} (h : m.sanitize = .ok m') :
    m'.sanitize = .ok m' := by
  obtain ⟨h1, h2, h0, h3, rs, h4, rfl⟩ := MapNotify.sanitize_ok.mp h
  exact MapNotify.sanitize_ok.mpr ⟨h1, h2, h0, h3, rs, sanitizeAll_fix (recs_fix h4), rfl⟩

theorem MapNotify.fix_records {m : MapNotify} (h : m.sanitize = .ok m) :
    ∀ r ∈ m.records, r.sanitize = .ok r := by
  obtain ⟨_, _, _, _, rs, h3, h4⟩ := MapNotify.sanitize_ok.mp h
  have := congrArg MapNotify.records h4
  simp only at this; rw [this]
  exact recs_fix h3

theorem encMapNotifyRaw_ok {m : MapNotify} {b : Bits} (h : encMapNotifyRaw m = .ok b) :
    m.records.length < 2 ^ 8 ∧ (0 ≤ m.keyId ∧ m.keyId < 2 ^ 16) ∧
    (m.authData ≠ [] ∧ m.authData.length < 2 ^ 16) ∧
    ∃ b4 b5, encAll encRecord m.records = .ok b4 ∧ encIds m.hasIds m.xtrId m.siteId = .ok b5 ∧
    b = natToBits 4 4 ++ [m.hasIds] ++ natToBits 19 m.reserved1.toNat ++
      natToBits 8 m.records.length ++ bytesToBits m.nonce ++ natToBits 16 m.keyId.toNat ++
      natToBits 16 m.authData.length ++ bytesToBits m.authData ++ b4 ++ b5 := by
  simp only [encMapNotifyRaw, exBind_ok, encUint_iff, encHex_iff] at h
  obtain ⟨_, ⟨h10, h11, rfl⟩, _, ⟨h20, h21, rfl⟩, _, ⟨h30, h31, rfl⟩, _, ⟨ha, rfl⟩, b4, h4, b5, h5, h⟩ := h
  simp only [exPure, Except.ok.injEq] at h
  exact ⟨by omega, ⟨h20, h21⟩, ⟨ha, by omega⟩, b4, b5, h4, h5, h.symm⟩

theorem MapNotify.hasIds_false {m : MapNotify} (h : m.hasIds = false) :
    m.xtrId = 0 ∧ m.siteId = 0 := by
  simp [hasIds] at h
  exact h

theorem readMapNotifyRaw_enc {m : MapNotify} {b : Bits} (h : encMapNotifyRaw m = .ok b)
    (hn : m.nonce.length = 8) (hx : 0 ≤ m.xtrId) (hsi : 0 ≤ m.siteId)
    (hf : ∀ r ∈ m.records, r.sanitize = .ok r) (t : Bits) :
    readMapNotifyRaw (b ++ t) = .ok (m, t) := by
  obtain ⟨h1, h2, h3, b4, b5, h4, h5, rfl⟩ := encMapNotifyRaw_ok h
  have r4 := readRecords_enc h4 hf (b5 ++ t)
  have r5 := readIds_enc h5 hx hsi MapNotify.hasIds_false t
  simp only [readMapNotifyRaw, Rd.bind_apply, List.append_assoc, List.cons_append,
    List.nil_append, expectType_app (show 4 < 2 ^ 4 by decide), readBool_cons,
    readUint_app m.reserved1.isLt, readUint_app h1,
    readBytes_app' hn, readUint_app_int h2.1 h2.2, readUint_app h3.2, readBytes_app' rfl, r4, r5,
    Rd.pure_apply, BitVec_ofNat_toNat', Int.toNat_of_nonneg h2.1, Int.toNat_of_nonneg hx,
    Int.toNat_of_nonneg hsi]

theorem encMapNotify_ok {m : MapNotify} {b : Bits} (h : encMapNotify m = .ok b) :
    ∃ m', m.sanitize = .ok m' ∧ encMapNotifyRaw m' = .ok b := by
  simp only [encMapNotify, exBind_ok] at h
  obtain ⟨r', h1, h2⟩ := h
  exact ⟨r', h1, h2⟩

theorem readMapNotify_enc {m m' : MapNotify} {b : Bits} (h : encMapNotify m = .ok b)
    (hs : m.sanitize = .ok m') (t : Bits) : readMapNotify (b ++ t) = .ok (m', t) := by
  obtain ⟨m'', h1, h2⟩ := encMapNotify_ok h
  rw [hs] at h1; cases h1
  have hi := MapNotify.sanitize_idem hs
  obtain ⟨h3, h4, h5, _⟩ := MapNotify.sanitize_ok.mp hi
  simp only [readMapNotify, Rd.bind_apply,
    readMapNotifyRaw_enc h2 h5 h3.1 h4.1 (MapNotify.fix_records hi), hi, Rd.lift_ok]

theorem Loc.readMapNotifyRaw : Loc readMapNotifyRaw := by
  unfold PyLisp.readMapNotifyRaw
  have := Loc.readIds
  loc_msg
  all_goals (try exact this _)
  loc_msg

theorem Loc.readMapNotify : Loc readMapNotify := .bind .readMapNotifyRaw fun _ => .lift _

theorem NF.ntfSanitize (m : MapNotify) : NF m.sanitize := by
  unfold MapNotify.sanitize
  repeat refine .exIte (.err (by simp)) ?_
  exact .exBind (.sanitizeAll .recSanitize _) fun _ _ => .ok _

theorem NF.readMapNotify (s : Bits) : NF (readMapNotify s) := by
  refine .bind ?_ fun m _ _ => .lift (.ntfSanitize m) _
  unfold readMapNotifyRaw
  nf_msg
  all_goals (try exact NF.readIds _ _)
  nf_msg

theorem readMapNotify_ok {s rest : Bits} {m : MapNotify}
    (h : readMapNotify s = .ok (m, rest)) :
    ∃ raw, readMapNotifyRaw s = .ok (raw, rest) ∧ raw.sanitize = .ok m := by
  simp only [readMapNotify, Rd.bind_ok, Rd.lift_ok_iff] at h
  obtain ⟨raw, s1, h1, h2, rfl⟩ := h
  exact ⟨raw, h1, h2⟩

theorem readMapNotify_fix {s rest : Bits} {m : MapNotify}
    (h : readMapNotify s = .ok (m, rest)) : m.sanitize = .ok m := by
  obtain ⟨raw, _, h2⟩ := readMapNotify_ok h
  exact MapNotify.sanitize_idem h2

/-! ### Map-Referral -/

theorem refs_fix {l l' : List RefRecord} (h : sanitizeAll RefRecord.sanitize l = .ok l') :
    ∀ a ∈ l', a.sanitize = .ok a := sanitizeAll_idem (fun _ _ => RefRecord.sanitize_idem) h

theorem MapReferral.sanitize_ok {m m' : MapReferral} : m.sanitize = .ok m' ↔
    m.nonce.length = 8 ∧
    ∃ rs, sanitizeAll RefRecord.sanitize m.records = .ok rs ∧ m' = { m with records := rs } := by
  unfold MapReferral.sanitize
  simp only [exIteErr_ok, exBind_ok, exPure, Except.ok.injEq, Decidable.not_not, ne_eq]
  constructor
  · rintro ⟨h1, rs, h3, h4⟩; exact ⟨h1, rs, h3, h4.symm⟩
  · rintro ⟨h1, rs, h3, h4⟩; exact ⟨h1, rs, h3, h4.symm⟩

theorem MapReferral.sanitize_idem {m m' : MapReferral} (h : m.sanitize = .ok m') :
    m'.sanitize = .ok m' := by
  obtain ⟨h1, rs, h3, rfl⟩ := MapReferral.sanitize_ok.mp h
  exact MapReferral.sanitize_ok.mpr ⟨h1, rs, sanitizeAll_fix (refs_fix h3), rfl⟩

theorem MapReferral.fix_records {m : MapReferral} (h : m.sanitize = .ok m) :
    ∀ r ∈ m.records, r.sanitize = .ok r := by
  obtain ⟨_, rs, h3, h4⟩ := MapReferral.sanitize_ok.mp h
  have := congrArg MapReferral.records h4
  simp only at this; rw [this]
  exact refs_fix h3

theorem encMapReferralRaw_ok {m : MapReferral} {b : Bits} (h : encMapReferralRaw m = .ok b) :
    m.records.length < 2 ^ 8 ∧
    ∃ b2, encAll encRefRecord m.records = .ok b2 ∧
    b = natToBits 4 6 ++ natToBits 20 m.reserved1.toNat ++
      natToBits 8 m.records.length ++ bytesToBits m.nonce ++ b2 := by
  simp only [encMapReferralRaw, exBind_ok, encUint_iff] at h
  obtain ⟨_, ⟨h10, h11, rfl⟩, b2, h2, h⟩ := h
  simp only [exPure, Except.ok.injEq] at h
  exact ⟨by omega, b2, h2, h.symm⟩

theorem readMapReferralRaw_enc {m : MapReferral} {b : Bits} (h : encMapReferralRaw m = .ok b)
    (hn : m.nonce.length = 8) (hf : ∀ r ∈ m.records, r.sanitize = .ok r)
    (he : ∀ r ∈ m.records, ∃ i n k, r.eid = .inst i (.net n) k) (t : Bits) :
    readMapReferralRaw (b ++ t) = .ok (m, t) := by
  obtain ⟨h1, b2, h3, rfl⟩ := encMapReferralRaw_ok h
  have r3 := readN_encAll_same m.records b2 t h3 (r := readRefRecord)
    (fun a ha b t hb => by
      obtain ⟨i, n, k, e⟩ := he a ha
      exact readRefRecord_enc hb (hf a ha) e t)
  simp only [readMapReferralRaw, Rd.bind_apply, List.append_assoc,
    expectType_app (show 6 < 2 ^ 4 by decide), readUint_app m.reserved1.isLt,
    readUint_app h1, readBytes_app' hn, r3, BitVec_ofNat_toNat', Rd.pure_apply]

theorem encMapReferral_ok {m : MapReferral} {b : Bits} (h : encMapReferral m = .ok b) :
    ∃ m', m.sanitize = .ok m' ∧ encMapReferralRaw m' = .ok b := by
  simp only [encMapReferral, exBind_ok] at h
  obtain ⟨r', h1, h2⟩ := h
  exact ⟨r', h1, h2⟩

theorem readMapReferral_enc {m m' : MapReferral} {b : Bits} (h : encMapReferral m = .ok b)
    (hs : m.sanitize = .ok m') (he : ∀ r ∈ m'.records, ∃ i n k, r.eid = .inst i (.net n) k)
    (t : Bits) : readMapReferral (b ++ t) = .ok (m', t) := by
  obtain ⟨m'', h1, h2⟩ := encMapReferral_ok h
  rw [hs] at h1; cases h1
  have hi := MapReferral.sanitize_idem hs
  obtain ⟨h3, _⟩ := MapReferral.sanitize_ok.mp hi
  simp only [readMapReferral, Rd.bind_apply,
    readMapReferralRaw_enc h2 h3 (MapReferral.fix_records hi) he, hi, Rd.lift_ok]

theorem Loc.readMapReferral : Loc readMapReferral := by
  refine .bind ?_ fun _ => .lift _
  unfold PyLisp.readMapReferralRaw; loc_msg

theorem NF.refMsgSanitize (m : MapReferral) : NF m.sanitize := by
  unfold MapReferral.sanitize
  repeat refine .exIte (.err (by simp)) ?_
  exact .exBind (.sanitizeAll .refSanitize _) fun _ _ => .ok _

theorem NF.readMapReferral (s : Bits) : NF (readMapReferral s) := by
  refine .bind ?_ fun m _ _ => .lift (.refMsgSanitize m) _
  unfold readMapReferralRaw; nf_msg

theorem readMapReferral_fix {s rest : Bits} {m : MapReferral}
    (h : readMapReferral s = .ok (m, rest)) : m.sanitize = .ok m := by
  simp only [readMapReferral, Rd.bind_ok, Rd.lift_ok_iff] at h
  obtain ⟨raw, s1, _, h2, _⟩ := h
  exact MapReferral.sanitize_idem h2

/-! ### Info -/

theorem Info.sanitize_ok {m m' : Info} : m.sanitize = .ok m' ↔
    m.nonce.length = 8 ∧ keyIdOk m.keyId ∧ (0 ≤ m.ttl ∧ m.ttl ≤ 0xffffffff) ∧
    m.eidPrefix.isNet = true ∧ replyOk m.isReply m.reply = true ∧ m' = m := by
  unfold Info.sanitize
  simp only [exIteErr_ok, Bool.not_eq_false, Except.ok.injEq, Decidable.not_not, ne_eq]
  constructor
  · rintro ⟨h1, h2, h3, h4, h5, h6⟩; exact ⟨h1, h2, by omega, h4, h5, h6.symm⟩
  · rintro ⟨h1, h2, h3, h4, h5, h6⟩; exact ⟨h1, h2, by omega, h4, h5, h6.symm⟩

theorem replyOk_strip {r : Bool} {a : Addr} (h : replyOk r a = true) : replyOk r a.strip = true := by
  cases r <;> cases a <;> first | rfl | (simp [replyOk] at h)

theorem encInfoRaw_ok {m : Info} {n : Net} {b : Bits} (h : encInfoRaw m = .ok b)
    (hn : m.eidPrefix = .net n) :
    (0 ≤ m.keyId ∧ m.keyId < 2 ^ 16) ∧
    (m.authData ≠ [] ∧ m.authData.length < 2 ^ 16) ∧ (0 ≤ m.ttl ∧ m.ttl < 2 ^ 32) ∧
    ∃ b6, encAddr m.reply = .ok b6 ∧
    b = natToBits 4 7 ++ [m.isReply] ++ natToBits 27 m.reserved1.toNat ++ bytesToBits m.nonce ++
      natToBits 16 m.keyId.toNat ++ natToBits 16 m.authData.length ++ bytesToBits m.authData ++
      natToBits 32 m.ttl.toNat ++ natToBits 8 m.reserved2.toNat ++ natToBits 8 n.plen ++
      encIP n.first ++ b6 := by
  simp only [encInfoRaw, exBind_ok, encUint_iff, encHex_iff, hn, Addr.prefixlen, encAddr] at h
  obtain ⟨_, ⟨h10, h11, rfl⟩, _, ⟨h20, h21, rfl⟩, _, ⟨ha, rfl⟩, _, ⟨h30, h31, rfl⟩, _, hp, _, ⟨h40, h41, rfl⟩, _,
    he, b6, h6, h⟩ := h
  cases hp; cases he
  simp only [exPure, Except.ok.injEq] at h
  exact ⟨⟨h10, h11⟩, ⟨ha, by omega⟩, ⟨h30, h31⟩, b6, h6, h.symm⟩

theorem readInfoRaw_enc {m : Info} {n : Net} {b : Bits} (h : encInfoRaw m = .ok b)
    (hn : m.eidPrefix = .net n) (h8 : m.nonce.length = 8) (t : Bits) :
    readInfoRaw (b ++ t) = .ok ({ m with reply := m.reply.strip }, t) := by
  obtain ⟨h1, h2, h3, b6, h6, rfl⟩ := encInfoRaw_ok h hn
  simp only [readInfoRaw, Rd.bind_apply, List.append_assoc, List.cons_append, List.nil_append,
    expectType_app (show 7 < 2 ^ 4 by decide), readBool_cons, readUint_app m.reserved1.isLt,
    readUint_app m.reserved2.isLt, readBytes_app' h8, readUint_app_int h1.1 h1.2, readUint_app h2.2,
    readBytes_app' rfl, readUint_app_int h3.1 h3.2, readUint_app n.plen_lt_256, readAfi_net,
    readAfi_enc h6, BitVec_ofNat_toNat', Rd.pure_apply, Int.toNat_of_nonneg h1.1,
    Int.toNat_of_nonneg h3.1]
  rw [← hn]

theorem encInfo_ok {m : Info} {b : Bits} (h : encInfo m = .ok b) :
    m.sanitize = .ok m ∧ encInfoRaw m = .ok b := by
  simp only [encInfo, exBind_ok] at h
  obtain ⟨r', h1, h2⟩ := h
  obtain ⟨_, _, _, _, _, rfl⟩ := Info.sanitize_ok.mp h1
  exact ⟨h1, h2⟩

theorem readInfo_enc {m : Info} {b : Bits} (h : encInfo m = .ok b) (t : Bits) :
    readInfo (b ++ t) = .ok ({ m with reply := m.reply.strip }, t) := by
  obtain ⟨h1, h2⟩ := encInfo_ok h
  obtain ⟨a1, a2, a3, a4, a5, _⟩ := Info.sanitize_ok.mp h1
  have hn : ∃ n, m.eidPrefix = .net n := by
    cases hm : m.eidPrefix <;> simp_all [Addr.isNet]
  obtain ⟨n, hn⟩ := hn
  have hw : ({ m with reply := m.reply.strip } : Info).sanitize = .ok { m with reply := m.reply.strip } :=
    Info.sanitize_ok.mpr ⟨a1, a2, a3, a4, replyOk_strip a5, rfl⟩
  simp only [readInfo, Rd.bind_apply, readInfoRaw_enc h2 hn a1, hw, Rd.lift_ok]

theorem Loc.readInfo : Loc readInfo := by
  refine .bind ?_ fun _ => .lift _
  unfold PyLisp.readInfoRaw; loc_msg

theorem NF.infoSanitize (m : Info) : NF m.sanitize := by
  unfold Info.sanitize
  repeat refine .exIte (.err (by simp)) ?_
  exact .ok _

theorem NF.readInfo (s : Bits) : NF (readInfo s) := by
  refine .bind ?_ fun m _ _ => .lift (.infoSanitize m) _
  unfold readInfoRaw; nf_msg

theorem readInfo_fix {s rest : Bits} {m : Info}
    (h : readInfo s = .ok (m, rest)) : m.sanitize = .ok m := by
  simp only [readInfo, Rd.bind_ok, Rd.lift_ok_iff] at h
  obtain ⟨raw, s1, _, h2, _⟩ := h
  obtain ⟨_, _, _, _, _, rfl⟩ := Info.sanitize_ok.mp h2
  exact h2

end PyLisp
