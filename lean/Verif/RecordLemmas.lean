import Verif.Records
namespace PyLisp

attribute [local irreducible] natToBits readUint readBits readBool readBytes readInt zeros readIP

/-- prove `Loc` for a reader written in do-notation -/
macro "loc_tac" : tactic => `(tactic|
  repeat (first
    | exact Loc.pure _ | exact Loc.fail _ | exact Loc.lift _ | exact Loc.readUint _
    | exact Loc.readInt _ | exact Loc.readBits _ | exact Loc.readBool | exact Loc.readBytes _
    | exact Loc.readAfi _ | exact Loc.readIP _ | assumption
    | (with_reducible refine Loc.bind ?_ fun _ => ?_)
    | (with_reducible refine Loc.ite (fun _ => ?_) fun _ => ?_)))

/-! ### Inverting the AFI reader -/

theorem Rd.bind_ok {x : Rd α} {f : α → Rd β} {s : Bits} {b : β} {rest : Bits} :
    (x >>= f) s = .ok (b, rest) ↔ ∃ a s', x s = .ok (a, s') ∧ f a s' = .ok (b, rest) := by
  rw [Rd.bind_apply]
  cases x s with
  | ok p =>
    obtain ⟨a, s'⟩ := p
    constructor
    · intro h; exact ⟨a, s', rfl, h⟩
    · rintro ⟨_, _, h1, h2⟩; cases h1; exact h2
  | error e => simp

theorem Rd.lift_ok_iff {x : Except Err α} {s : Bits} {a : α} {rest : Bits} :
    Rd.lift x s = .ok (a, rest) ↔ x = .ok a ∧ s = rest := by
  cases x <;> simp [Rd.lift]

theorem Rd.pure_ok_iff {x : α} {s : Bits} {a : α} {rest : Bits} :
    (Pure.pure x : Rd α) s = .ok (a, rest) ↔ x = a ∧ s = rest := by
  rw [Rd.pure_apply]; simp

theorem applyPrefix_some_ok {p : Nat} {a x : Addr} (h : applyPrefix (.some p) a = .ok x) :
    ∃ i n, a = .ip i ∧ x = .net n ∧ n.first = i ∧ n.plen = p := by
  cases a with
  | ip i =>
    obtain ⟨n, hx, h1, h2, h3⟩ := (applyPrefix_ip p i x).mp h
    exact ⟨i, n, rfl, hx, IP.ext' h1 h2, h3⟩
  | _ => simp [applyPrefix] at h

theorem encIP_of_readIP {v : Ver} {s : Bits} {a : IP} {rest : Bits} (h : readIP v s = .ok (a, rest)) :
    natToBits 16 (match v with | .v4 => 1 | .v6 => 2) ++ s = encIP a ++ rest := by
  obtain ⟨hv, rfl⟩ := readIP_ok h
  subst hv
  obtain ⟨v, n, h⟩ := a
  cases v <;> simp [encIP, Ver.width]

theorem lcafFromData_isLcaf {rd : Rd Addr} {rds} {plen : Option Nat} {type rsvd2 : Nat} {d : Bits}
    {a : Addr} (h : lcafFromData rd rds plen type rsvd2 d = .ok a) : a.isLcaf = true := by
  unfold lcafFromData at h
  have hrun : ∀ (r : Rd Addr), (∀ s x rest, r s = .ok (x, rest) → x.isLcaf = true) →
      runOn r d = .ok a → a.isLcaf = true := by
    intro r hr hrun
    unfold runOn at hrun
    split at hrun
    · rename_i x rest hx
      cases hrun
      exact hr _ _ _ hx
    · cases hrun
  split at h
  · cases h; rfl
  split at h
  · split at h
    · cases h; rfl
    · cases h
  split at h
  · refine hrun _ ?_ h
    intro s x rest hx
    simp only [instFromData, Rd.bind_ok, Rd.pure_ok_iff] at hx
    obtain ⟨_, _, _, _, _, _, _, _, _, rfl, _⟩ := hx
    rfl
  split at h
  · refine hrun _ ?_ h
    intro s x rest hx
    simp only [asnFromData, Rd.bind_ok, Rd.pure_ok_iff] at hx
    obtain ⟨_, _, _, _, _, _, _, _, _, rfl, _⟩ := hx
    rfl
  split at h
  · refine hrun _ ?_ h
    intro s x rest hx
    simp only [geoFromData, Rd.bind_ok, Rd.pure_ok_iff] at hx
    obtain ⟨_, _, _, _, _, _, _, _, _, _, _, _, _, _, _, _, _, _, _, _, _, _, _, _, _, _, _, _, _, _, _, _, _, rfl, _⟩ := hx
    rfl
  split at h
  · refine hrun _ ?_ h
    intro s x rest hx
    simp only [natFromData, Rd.bind_ok, Rd.pure_ok_iff] at hx
    obtain ⟨_, _, _, _, _, _, _, _, _, _, _, _, _, _, _, _, _, _, rfl, _⟩ := hx
    rfl
  · cases h

/-- inversion of the AFI reader: four kinds of result -/
theorem readAfi_inv {plen : Option Nat} {s rest : Bits} {a : Addr}
    (h : readAfi plen s = .ok (a, rest)) :
    (a = .none ∧ (plen = .none ∨ plen = .some 0) ∧ s = natToBits 16 0 ++ rest) ∨
    (∃ i, applyPrefix plen (.ip i) = .ok a ∧ s = encIP i ++ rest) ∨
    (a.isLcaf = true) := by
  rw [readAfi_unfold] at h
  unfold readAddrStep at h
  rw [Rd.bind_ok] at h
  obtain ⟨afi, s1, h1, h⟩ := h
  obtain ⟨_, rfl⟩ := readUint_ok h1
  split at h
  · rename_i h0; subst h0
    left
    split at h
    · cases h; exact ⟨rfl, .inl rfl, rfl⟩
    · split at h
      · rename_i hp; subst hp; cases h; exact ⟨rfl, .inr rfl, rfl⟩
      · cases h
  split at h
  · rename_i h0; subst h0
    right; left
    rw [Rd.bind_ok] at h
    obtain ⟨i, s2, h2, h3⟩ := h
    rw [Rd.lift_ok_iff] at h3
    obtain ⟨h3, rfl⟩ := h3
    exact ⟨i, h3, encIP_of_readIP h2⟩
  split at h
  · rename_i h0; subst h0
    right; left
    rw [Rd.bind_ok] at h
    obtain ⟨i, s2, h2, h3⟩ := h
    rw [Rd.lift_ok_iff] at h3
    obtain ⟨h3, rfl⟩ := h3
    exact ⟨i, h3, encIP_of_readIP h2⟩
  split at h
  · right; right
    simp only [readLcaf, Rd.bind_ok, Rd.lift_ok_iff] at h
    obtain ⟨_, _, _, _, _, _, _, _, _, _, _, _, _, _, _, _, _, _, h, _⟩ := h
    exact lcafFromData_isLcaf h
  · cases h

theorem readAfi_inv_ip {s rest : Bits} {i : IP} (h : readAfi .none s = .ok (.ip i, rest)) :
    s = encIP i ++ rest := by
  rcases readAfi_inv h with ⟨h1, _⟩ | ⟨j, h1, h2⟩ | h1
  · cases h1
  · cases h1; exact h2
  · cases h1

theorem readAfi_none_not_net {s rest : Bits} {n : Net} : readAfi .none s ≠ .ok (.net n, rest) := by
  intro h
  rcases readAfi_inv h with ⟨h1, _⟩ | ⟨j, h1, h2⟩ | h1
  · cases h1
  · cases h1
  · cases h1

theorem readAfi_inv_net {p : Nat} {s rest : Bits} {n : Net}
    (h : readAfi (.some p) s = .ok (.net n, rest)) : n.plen = p ∧ s = encIP n.first ++ rest := by
  rcases readAfi_inv h with ⟨h1, _⟩ | ⟨j, h1, h2⟩ | h1
  · cases h1
  · obtain ⟨i, m, hi, hm, h3, h4⟩ := applyPrefix_some_ok h1
    cases hi; cases hm
    exact ⟨h4, by rw [h3]; exact h2⟩
  · cases h1

/-! ### Lists of records -/

theorem readN_length {r : Rd α} {n : Nat} {s rest : Bits} {l : List α}
    (h : readN r n s = .ok (l, rest)) : l.length = n := by
  induction n generalizing s l with
  | zero => simp [readN] at h; simp [h.1]
  | succ n ih =>
    simp only [readN, Rd.bind_ok, Rd.pure_ok_iff] at h
    obtain ⟨a, s1, h1, l', s2, h2, rfl, rfl⟩ := h
    simp [ih h2]

theorem Loc.readN {r : Rd α} (hr : Loc r) (n : Nat) : Loc (readN r n) := by
  induction n with
  | zero => exact .pure _
  | succ n ih => exact .bind hr fun _ => .bind ih fun _ => .pure _

theorem NF.readN {r : Rd α} (hr : ∀ s, NF (r s)) (n : Nat) (s : Bits) : NF (readN r n s) := by
  induction n generalizing s with
  | zero => exact .pure _ _
  | succ n ih => exact .bind (hr s) fun _ _ _ => .bind (ih _) fun _ _ _ => .pure _ _

/-- reading back a written list of records -/
theorem readN_encAll_same {e : α → Except Err Bits} {r : Rd α} (l : List α) (b t : Bits)
    (h : encAll e l = .ok b)
    (hl : ∀ a ∈ l, ∀ b t, e a = .ok b → r (b ++ t) = .ok (a, t)) :
    readN r l.length (b ++ t) = .ok (l, t) := by
  induction l generalizing b with
  | nil => simp [encAll] at h; subst h; rfl
  | cons a l ih =>
    simp only [encAll, exBind_ok] at h
    obtain ⟨b1, hb1, b2, hb2, h⟩ := h
    simp only [exPure, Except.ok.injEq] at h; subst h
    simp only [List.length_cons, readN, Rd.bind_apply, List.append_assoc]
    rw [hl a (by simp) _ _ hb1]
    dsimp only
    rw [ih _ hb2 (fun x hx => hl x (by simp [hx]))]
    rfl

/-- the bits of records that were read are the bits of writing them -/
theorem encAll_of_readN {e : α → Except Err Bits} {r : Rd α} {P : α → Prop}
    (hr : ∀ s a rest, r s = .ok (a, rest) → P a → ∃ b, e a = .ok b ∧ s = b ++ rest)
    {n : Nat} {s rest : Bits} {l : List α} (h : readN r n s = .ok (l, rest)) (hP : ∀ a ∈ l, P a) :
    ∃ b, encAll e l = .ok b ∧ s = b ++ rest := by
  induction n generalizing s l with
  | zero => simp [readN] at h; obtain ⟨rfl, rfl⟩ := h; exact ⟨[], rfl, rfl⟩
  | succ n ih =>
    simp only [readN, Rd.bind_ok, Rd.pure_ok_iff] at h
    obtain ⟨a, s1, h1, l', s2, h2, rfl, rfl⟩ := h
    obtain ⟨b1, e1, rfl⟩ := hr _ _ _ h1 (hP a (by simp))
    obtain ⟨b2, e2, rfl⟩ := ih h2 (fun x hx => hP x (by simp [hx]))
    exact ⟨b1 ++ b2, by simp [encAll, e1, e2], by simp⟩

theorem encAll_ok_mem {e : α → Except Err Bits} {l : List α} {b : Bits} (h : encAll e l = .ok b) :
    ∀ a ∈ l, ∃ c, e a = .ok c := by
  induction l generalizing b with
  | nil => simp
  | cons x l ih =>
    simp only [encAll, exBind_ok] at h
    obtain ⟨b1, h1, b2, h2, _⟩ := h
    intro a ha
    rcases List.mem_cons.mp ha with rfl | ha
    · exact ⟨b1, h1⟩
    · exact ih h2 a ha

theorem encAll_ok_of_mem {e : α → Except Err Bits} {l : List α} (h : ∀ a ∈ l, ∃ c, e a = .ok c) :
    ∃ b, encAll e l = .ok b := by
  induction l with
  | nil => exact ⟨[], rfl⟩
  | cons x l ih =>
    obtain ⟨c, hc⟩ := h x (by simp)
    obtain ⟨b, hb⟩ := ih (fun a ha => h a (by simp [ha]))
    exact ⟨c ++ b, by simp [encAll, hc, hb]⟩

/-! ### Locator records -/

theorem Locator.sanitize_ok {l : Locator} : l.sanitize = .ok () ↔
    (0 ≤ l.priority ∧ l.priority ≤ 255) ∧ (0 ≤ l.weight ∧ l.weight ≤ 255) ∧
    (0 ≤ l.mPriority ∧ l.mPriority ≤ 255) ∧ (0 ≤ l.mWeight ∧ l.mWeight ≤ 255) ∧
    checkLocatorAddress l.address = .ok () := by
  unfold Locator.sanitize
  simp only [exIteErr_ok]
  constructor
  · rintro ⟨h1, h2, h3, h4, h5⟩
    exact ⟨by omega, by omega, by omega, by omega, h5⟩
  · rintro ⟨h1, h2, h3, h4, h5⟩
    exact ⟨by omega, by omega, by omega, by omega, h5⟩

mutual
theorem getAddresses_strip_nil : ∀ a : Addr, a.getAddresses = [] → a.strip.getAddresses = []
  | .none, h => by simp [Addr.getAddresses] at h
  | .ip _, h => by simp [Addr.getAddresses] at h
  | .net _, h => by simp [Addr.getAddresses] at h
  | .null, _ => rfl
  | .afiList l, h => by
    simp only [Addr.getAddresses] at h
    simp only [Addr.strip, Addr.getAddresses]
    exact getAddressesList_strip_nil l h
  | .inst _ a _, h => by
    simp only [Addr.getAddresses] at h
    simp only [Addr.strip, Addr.getAddresses]; exact getAddresses_strip_nil a h
  | .asn _ a, h => by
    simp only [Addr.getAddresses] at h
    simp only [Addr.strip, Addr.getAddresses]; exact getAddresses_strip_nil a h
  | .geo _ _ _ _ _ _ _ _ _ a, h => by
    simp only [Addr.getAddresses] at h
    simp only [Addr.strip, Addr.getAddresses]; exact getAddresses_strip_nil a h
  | .natT _ _ _ _ _ l, h => by
    simp only [Addr.getAddresses] at h; subst h; rfl
theorem getAddressesList_strip_nil : ∀ l : List Addr, getAddressesList l = [] →
    getAddressesList (stripList l) = []
  | [], _ => rfl
  | a :: l, h => by
    simp only [getAddressesList, List.append_eq_nil_iff] at h
    simp only [stripList, getAddressesList, getAddresses_strip_nil a h.1,
      getAddressesList_strip_nil l h.2, List.append_nil]
end

theorem checkLocatorAddress_cases {a : Addr} (h : checkLocatorAddress a = .ok ()) :
    (∃ i, a = .ip i) ∨ (a.isLcaf = true ∧ a.getAddresses = []) := by
  unfold checkLocatorAddress at h
  split at h
  · exact .inl ⟨_, rfl⟩
  · cases h
  · cases h
  · rename_i h1 h2 h3
    right
    split at h
    · rename_i hn
      refine ⟨?_, hn⟩
      cases a <;> first | rfl | (exfalso; simp_all)
    · cases h

theorem checkLocatorAddress_lcaf {a : Addr} (h : a.isLcaf = true) :
    checkLocatorAddress a = .ok () ↔ a.getAddresses = [] := by
  constructor
  · intro h1
    rcases checkLocatorAddress_cases h1 with ⟨i, rfl⟩ | h2
    · cases h
    · exact h2.2
  · intro h1
    unfold checkLocatorAddress
    split
    · cases h
    · cases h
    · cases h
    · rw [h1]

theorem isLcaf_strip {a : Addr} (h : a.isLcaf = true) : a.strip.isLcaf = true := by
  cases a <;> first | rfl | cases h

theorem checkLocatorAddress_strip {a : Addr} (h : checkLocatorAddress a = .ok ()) :
    checkLocatorAddress a.strip = .ok () := by
  rcases checkLocatorAddress_cases h with ⟨i, rfl⟩ | ⟨h1, h2⟩
  · exact h
  · rw [checkLocatorAddress_lcaf (isLcaf_strip h1)]
    exact getAddresses_strip_nil _ h2

theorem BitVec_ofNat_toNat' {n : Nat} (x : BitVec n) : BitVec.ofNat n x.toNat = x := by simp

theorem encLocatorRaw_ok {l : Locator} {b : Bits} (h : encLocatorRaw l = .ok b) :
    ∃ a, encAddr l.address = .ok a ∧
    (0 ≤ l.priority ∧ l.priority < 2 ^ 8) ∧ (0 ≤ l.weight ∧ l.weight < 2 ^ 8) ∧
    (0 ≤ l.mPriority ∧ l.mPriority < 2 ^ 8) ∧ (0 ≤ l.mWeight ∧ l.mWeight < 2 ^ 8) ∧
    b = natToBits 8 l.priority.toNat ++ natToBits 8 l.weight.toNat ++ natToBits 8 l.mPriority.toNat
      ++ natToBits 8 l.mWeight.toNat ++ natToBits 13 l.reserved1.toNat ++
      [l.isLocal, l.probed, l.reachable] ++ a := by
  simp only [encLocatorRaw, exBind_ok, encUint_iff] at h
  obtain ⟨_, ⟨h10, h11, rfl⟩, _, ⟨h20, h21, rfl⟩, _, ⟨h30, h31, rfl⟩, _, ⟨h40, h41, rfl⟩, a, ha, h⟩ := h
  simp only [exPure, Except.ok.injEq] at h
  exact ⟨a, ha, ⟨h10, h11⟩, ⟨h20, h21⟩, ⟨h30, h31⟩, ⟨h40, h41⟩, h.symm⟩

theorem readLocatorRaw_enc {l : Locator} {b : Bits} (h : encLocatorRaw l = .ok b) (t : Bits) :
    readLocatorRaw (b ++ t) = .ok ({ l with address := l.address.strip }, t) := by
  obtain ⟨a, ha, h1, h2, h3, h4, rfl⟩ := encLocatorRaw_ok h
  simp only [readLocatorRaw, Rd.bind_apply, List.append_assoc, List.cons_append, List.nil_append,
    readUint_app_int h1.1 h1.2,
    readUint_app_int h2.1 h2.2, readUint_app_int h3.1 h3.2, readUint_app_int h4.1 h4.2,
    readUint_app l.reserved1.isLt, readBool_cons, readAfi_enc ha, Rd.pure_apply,
    Int.toNat_of_nonneg h1.1, Int.toNat_of_nonneg h2.1, Int.toNat_of_nonneg h3.1,
    Int.toNat_of_nonneg h4.1, BitVec_ofNat_toNat']

theorem readLocator_enc {l : Locator} {b : Bits} (h : encLocator l = .ok b) (t : Bits) :
    readLocator (b ++ t) = .ok ({ l with address := l.address.strip }, t) := by
  simp only [encLocator, exBind_ok] at h
  obtain ⟨_, hs, h⟩ := h
  have hs' : ({ l with address := l.address.strip } : Locator).sanitize = .ok () := by
    obtain ⟨h1, h2, h3, h4, h5⟩ := Locator.sanitize_ok.mp hs
    exact Locator.sanitize_ok.mpr ⟨h1, h2, h3, h4, checkLocatorAddress_strip h5⟩
  simp only [readLocator, Rd.bind_apply, readLocatorRaw_enc h, hs', Rd.lift_ok, Rd.pure_apply]

theorem readLocator_enc_ip {l : Locator} {b : Bits} {i : IP} (h : encLocator l = .ok b)
    (hi : l.address = .ip i) (t : Bits) : readLocator (b ++ t) = .ok (l, t) := by
  rw [readLocator_enc h, hi]
  cases l; simp_all [Addr.strip]

theorem Loc.readLocatorRaw : Loc readLocatorRaw := by unfold PyLisp.readLocatorRaw; loc_tac
theorem Loc.readLocator : Loc readLocator :=
  .bind .readLocatorRaw fun _ => .bind (.lift _) fun _ => .pure _

theorem readLocator_ok {s rest : Bits} {l : Locator} (h : readLocator s = .ok (l, rest)) :
    l.sanitize = .ok () ∧ readLocatorRaw s = .ok (l, rest) := by
  simp only [readLocator, Rd.bind_ok, Rd.pure_ok_iff, Rd.lift_ok_iff] at h
  obtain ⟨l', s1, h1, _, s2, ⟨h2, rfl⟩, rfl, rfl⟩ := h
  exact ⟨h2, h1⟩

/-- bits read as a locator with an IP address are the bits written for that locator -/
theorem encLocator_of_read {s rest : Bits} {l : Locator} (h : readLocator s = .ok (l, rest))
    (hi : ∃ i, l.address = .ip i) : ∃ b, encLocator l = .ok b ∧ s = b ++ rest := by
  obtain ⟨hs, h⟩ := readLocator_ok h
  obtain ⟨i, hi⟩ := hi
  simp only [readLocatorRaw, Rd.bind_ok, Rd.pure_ok_iff] at h
  obtain ⟨v1, s1, h1, v2, s2, h2, v3, s3, h3, v4, s4, h4, v5, s5, h5, v6, s6, h6, v7, s7, h7,
    v8, s8, h8, v9, s9, h9, rfl, rfl⟩ := h
  obtain ⟨l1, rfl⟩ := readUint_ok h1
  obtain ⟨l2, rfl⟩ := readUint_ok h2
  obtain ⟨l3, rfl⟩ := readUint_ok h3
  obtain ⟨l4, rfl⟩ := readUint_ok h4
  obtain ⟨l5, rfl⟩ := readUint_ok h5
  have e6 := readBool_ok h6; subst e6
  have e7 := readBool_ok h7; subst e7
  have e8 := readBool_ok h8; subst e8
  simp only at hi
  subst hi
  have e9 := readAfi_inv_ip h9; subst e9
  simp only [encLocator, hs, exBind_okl, encLocatorRaw]
  rw [encUint_eq_ok (by omega) (by omega), encUint_eq_ok (by omega) (by omega),
    encUint_eq_ok (by omega) (by omega), encUint_eq_ok (by omega) (by omega)]
  refine ⟨_, rfl, ?_⟩
  simp [BitVec.toNat_ofNat, Nat.mod_eq_of_lt l5]

theorem NF.checkLocatorAddress (a : Addr) : NF (checkLocatorAddress a) := by
  unfold PyLisp.checkLocatorAddress
  split
  · split
    · split
      · simp [NF]
      · split <;> simp [NF]
    · split <;> simp [NF]
  · simp [NF]
  · simp [NF]
  · split <;> simp [NF]

theorem NF.locSanitize (l : Locator) : NF l.sanitize := by
  unfold Locator.sanitize
  split
  · simp [NF]
  split
  · simp [NF]
  split
  · simp [NF]
  split
  · simp [NF]
  · exact .checkLocatorAddress _

/-- prove `NF` for a reader written in do-notation -/
macro "nf_tac" : tactic => `(tactic|
  repeat (first
    | exact NF.pure _ _ | exact NF.fail (by simp) _ | exact NF.readUint _ _
    | exact NF.readInt _ _ | exact NF.readBits _ _ | exact NF.readBool _ | exact NF.readBytes _ _
    | exact NF.readAfi _ _ | exact NF.readIP _ _ | assumption
    | (with_reducible refine NF.bind ?_ fun _ _ _ => ?_)))

theorem NF.readLocator (s : Bits) : NF (readLocator s) := by
  refine .bind ?_ fun l _ _ => .bind (.lift (.locSanitize l) _) fun _ _ _ => .pure _ _
  unfold readLocatorRaw; nf_tac

theorem NF.exIte {c : Prop} [Decidable c] {x y : Except Err α} (hx : NF x) (hy : NF y) :
    NF (if c then x else y) := by
  split <;> assumption

theorem NF.err {e : Err} (h : e ≠ .fuel) : NF (.error e : Except Err α) := by
  intro h'; simp at h'; exact h h'

theorem NF.exBind {x : Except Err α} {f : α → Except Err β} (hx : NF x)
    (hf : ∀ a, x = .ok a → NF (f a)) : NF (x >>= f) := by
  cases x with
  | ok a => exact hf a rfl
  | error e =>
    intro h; apply hx
    simp at h; rw [h]

theorem sanitizeLocators_ok {ls : List Locator} :
    sanitizeLocators ls = .ok () ↔ ∀ l ∈ ls, l.sanitize = .ok () := by
  induction ls with
  | nil => simp [sanitizeLocators]
  | cons l ls ih =>
    simp only [sanitizeLocators, exBind_ok, ih, List.mem_cons, forall_eq_or_imp]
    constructor
    · rintro ⟨_, h⟩; exact h
    · intro h; exact ⟨(), h⟩

theorem checkKeys_ok {ls : List Locator} :
    checkKeys ls = .ok () ↔ ∀ l ∈ ls, ∃ i, l.address = .ip i := by
  induction ls with
  | nil => simp [checkKeys]
  | cons l ls ih =>
    simp only [checkKeys, exBind_ok, ih, List.mem_cons, forall_eq_or_imp]
    constructor
    · rintro ⟨k, hk, h⟩
      refine ⟨?_, h⟩
      unfold Locator.sortKey at hk
      split at hk
      · exact ⟨_, ‹_›⟩
      · cases hk
    · rintro ⟨⟨i, hi⟩, h⟩
      exact ⟨i.val, by simp [Locator.sortKey, hi], h⟩

theorem sortLocators_ok {ls ls' : List Locator} : sortLocators ls = .ok ls' ↔
    (∀ l ∈ ls, ∃ i, l.address = .ip i) ∧ ls' = sortBy Locator.key ls := by
  unfold sortLocators
  rw [exBind_ok]
  constructor
  · rintro ⟨_, h, h2⟩
    exact ⟨checkKeys_ok.mp h, by simpa using h2.symm⟩
  · rintro ⟨h, rfl⟩
    exact ⟨(), checkKeys_ok.mpr h, rfl⟩

theorem NF.sanitizeLocators (ls : List Locator) : NF (sanitizeLocators ls) := by
  induction ls with
  | nil => simp [NF, PyLisp.sanitizeLocators]
  | cons l ls ih => exact .exBind (.locSanitize l) fun _ _ => ih

theorem NF.sortLocators (ls : List Locator) : NF (sortLocators ls) := by
  refine .exBind ?_ fun _ _ => .ok _
  induction ls with
  | nil => exact .ok _
  | cons l ls ih =>
    refine .exBind ?_ fun _ _ => ih
    unfold Locator.sortKey; split <;> simp [NF]

/-! ### Map-Reply records -/

/-- the sanitised form of an acceptable record -/
theorem Record.sanitize_ok {r r' : Record} : r.sanitize = .ok r' ↔
    (0 ≤ r.ttl ∧ r.ttl ≤ 0xffffffff) ∧
    (r.locators = [] → 0 ≤ r.action ∧ r.action ≤ 3) ∧
    (0 ≤ r.mapVersion ∧ r.mapVersion < 2 ^ 12) ∧
    (∃ n, r.eid = .net n) ∧
    (∀ l ∈ r.locators, l.sanitize = .ok () ∧ ∃ i, l.address = .ip i) ∧
    r' = { r with action := if r.locators ≠ [] then 0 else r.action
                  locators := sortBy Locator.key r.locators } := by
  unfold Record.sanitize
  simp only [exIteErr_ok]
  constructor
  · rintro ⟨h1, h2, h3, h4⟩
    split at h4
    · rename_i n hn
      simp only [exBind_ok, sortLocators_ok] at h4
      obtain ⟨_, h5, ls, ⟨h6, rfl⟩, h7⟩ := h4
      simp only [exPure, Except.ok.injEq] at h7
      refine ⟨by omega, ?_, by omega, ⟨n, hn⟩, ?_, h7.symm⟩
      · intro hl; simp [hl] at h2; omega
      · intro l hl; exact ⟨sanitizeLocators_ok.mp h5 l hl, h6 l hl⟩
    · cases h4
  · rintro ⟨h1, h2, h3, ⟨n, hn⟩, h5, rfl⟩
    refine ⟨by omega, ?_, by omega, ?_⟩
    · by_cases hl : r.locators = []
      · have := h2 hl; simp [hl]; omega
      · simp [hl]
    · rw [hn]
      simp only [exBind_ok, sortLocators_ok]
      exact ⟨(), sanitizeLocators_ok.mpr fun l hl => (h5 l hl).1, _, ⟨fun l hl => (h5 l hl).2, rfl⟩, rfl⟩

theorem Record.sanitize_idem {r r' : Record} (h : r.sanitize = .ok r') : r'.sanitize = .ok r' := by
  obtain ⟨h1, h2, h3, h4, h5, rfl⟩ := Record.sanitize_ok.mp h
  refine Record.sanitize_ok.mpr ⟨h1, ?_, h3, h4, ?_, ?_⟩
  · intro hl
    have hl' : r.locators = [] := by
      have := sortBy_length Locator.key r.locators
      simp only at hl; rw [hl] at this
      exact List.length_eq_zero_iff.mp this.symm
    simp only [hl', ne_eq, not_true, if_false]; exact h2 hl'
  · intro l hl; exact h5 l (by simpa using hl)
  · simp only [sortBy_idem]
    congr 1
    by_cases hl : r.locators = []
    · simp [hl, sortBy]
    · have : sortBy Locator.key r.locators ≠ [] := by
        intro h0
        have := sortBy_length Locator.key r.locators
        rw [h0] at this
        exact hl (List.length_eq_zero_iff.mp this.symm)
      simp [hl, this]

theorem encIP_length8 (a : IP) : (encIP a).length % 8 = 0 := by
  rw [encIP_length]; cases a.ver <;> rfl

/-- explicit form of the bits of a sanitised record -/
theorem encRecordRaw_ok {r : Record} {n : Net} {b : Bits} (hn : r.eid = .net n)
    (h : encRecordRaw r = .ok b) :
    (0 ≤ r.ttl ∧ r.ttl < 2 ^ 32) ∧ r.locators.length < 2 ^ 8 ∧ (0 ≤ r.action ∧ r.action < 2 ^ 3) ∧
    (0 ≤ r.mapVersion ∧ r.mapVersion < 2 ^ 12) ∧
    ∃ ls, encAll encLocator r.locators = .ok ls ∧
    b = natToBits 32 r.ttl.toNat ++ natToBits 8 r.locators.length ++ natToBits 8 n.plen ++
      natToBits 3 r.action.toNat ++ [r.authoritative] ++ natToBits 16 r.reserved1.toNat ++
      natToBits 12 r.mapVersion.toNat ++ encIP n.first ++ ls := by
  simp only [encRecordRaw, hn, Addr.prefixlen, exBind_ok, encUint_iff, encAddr] at h
  obtain ⟨_, ⟨h10, h11, rfl⟩, _, ⟨h20, h21, rfl⟩, _, hp, _, ⟨h30, h31, rfl⟩, _, ⟨h40, h41, rfl⟩,
    _, ⟨h50, h51, rfl⟩, _, he, ls, hls, h⟩ := h
  cases hp; cases he
  simp only [exPure, Except.ok.injEq] at h
  exact ⟨⟨h10, h11⟩, by omega, ⟨h40, h41⟩, ⟨h50, h51⟩, ls, hls, h.symm⟩

theorem Net.plen_lt_256 (n : Net) : n.plen < 2 ^ 8 := by
  have h := n.plen_le
  have : n.ver.width ≤ 128 := by cases n.ver <;> decide
  omega

theorem readRecordRaw_enc {r : Record} {n : Net} {b : Bits} (hn : r.eid = .net n)
    (h : encRecordRaw r = .ok b) (hl : ∀ l ∈ r.locators, ∃ i, l.address = .ip i) (t : Bits) :
    readRecordRaw (b ++ t) = .ok (r, t) := by
  obtain ⟨h1, h2, h3, h4, ls, hls, rfl⟩ := encRecordRaw_ok hn h
  have hrd := readN_encAll_same r.locators ls t hls (r := readLocator)
    (fun l hl' b t hb => by obtain ⟨i, hi⟩ := hl l hl'; exact readLocator_enc_ip hb hi t)
  simp only [readRecordRaw, Rd.bind_apply, List.append_assoc, List.cons_append, List.nil_append,
    readUint_app_int h1.1 h1.2, readUint_app h2, readUint_app n.plen_lt_256,
    readUint_app_int h3.1 h3.2, readBool_cons, readUint_app r.reserved1.isLt,
    readUint_app_int h4.1 h4.2, readAfi_net, hrd, Rd.pure_apply, BitVec_ofNat_toNat',
    Int.toNat_of_nonneg h1.1, Int.toNat_of_nonneg h3.1, Int.toNat_of_nonneg h4.1]
  rw [← hn]

theorem encRecord_ok {r : Record} {b : Bits} (h : encRecord r = .ok b) :
    ∃ r', r.sanitize = .ok r' ∧ encRecordRaw r' = .ok b := by
  simp only [encRecord, exBind_ok] at h
  obtain ⟨r', h1, h2⟩ := h
  exact ⟨r', h1, h2⟩

theorem readRecord_enc {r r' : Record} {b : Bits} (h : encRecord r = .ok b)
    (hs : r.sanitize = .ok r') (t : Bits) : readRecord (b ++ t) = .ok (r', t) := by
  obtain ⟨r'', h1, h2⟩ := encRecord_ok h
  rw [hs] at h1; cases h1
  have hi := Record.sanitize_idem hs
  obtain ⟨_, _, _, ⟨n, hn⟩, h5, _⟩ := Record.sanitize_ok.mp hi
  simp only [readRecord, Rd.bind_apply, readRecordRaw_enc hn h2 (fun l hl => (h5 l hl).2), hi,
    Rd.lift_ok]

theorem Loc.readRecordRaw : Loc readRecordRaw := by
  unfold PyLisp.readRecordRaw
  have := fun n => Loc.readN Loc.readLocator n
  loc_tac
  all_goals (try exact this _)
  all_goals loc_tac

theorem Loc.readRecord : Loc readRecord := .bind .readRecordRaw fun _ => .lift _

theorem readRecord_ok {s rest : Bits} {r : Record} (h : readRecord s = .ok (r, rest)) :
    ∃ raw, readRecordRaw s = .ok (raw, rest) ∧ raw.sanitize = .ok r := by
  simp only [readRecord, Rd.bind_ok, Rd.lift_ok_iff] at h
  obtain ⟨raw, s1, h1, h2, rfl⟩ := h
  exact ⟨raw, h1, h2⟩

/-- an accepted record is a fixed point of `sanitize` -/
theorem readRecord_fix {s rest : Bits} {r : Record} (h : readRecord s = .ok (r, rest)) :
    r.sanitize = .ok r := by
  obtain ⟨raw, _, h2⟩ := readRecord_ok h
  exact Record.sanitize_idem h2

/-- bits read as a (raw) record with a network EID and IP locators are the bits written for it -/
theorem encRecordRaw_of_read {s rest : Bits} {r : Record} {n : Net}
    (h : readRecordRaw s = .ok (r, rest)) (hn : r.eid = .net n)
    (hl : ∀ l ∈ r.locators, ∃ i, l.address = .ip i) :
    ∃ b, encRecordRaw r = .ok b ∧ s = b ++ rest := by
  simp only [readRecordRaw, Rd.bind_ok, Rd.pure_ok_iff] at h
  obtain ⟨v1, s1, h1, v2, s2, h2, v3, s3, h3, v4, s4, h4, v5, s5, h5, v6, s6, h6, v7, s7, h7,
    v8, s8, h8, v9, s9, h9, rfl, rfl⟩ := h
  obtain ⟨l1, rfl⟩ := readUint_ok h1
  obtain ⟨l2, rfl⟩ := readUint_ok h2
  obtain ⟨l3, rfl⟩ := readUint_ok h3
  obtain ⟨l4, rfl⟩ := readUint_ok h4
  have e5 := readBool_ok h5; subst e5
  obtain ⟨l6, rfl⟩ := readUint_ok h6
  obtain ⟨l7, rfl⟩ := readUint_ok h7
  simp only at hn hl
  subst hn
  obtain ⟨e8, rfl⟩ := readAfi_inv_net h8
  obtain ⟨bl, hbl, rfl⟩ := encAll_of_readN (P := fun l => ∃ i, l.address = .ip i)
    (fun s a rest h hp => encLocator_of_read h hp) h9 hl
  have hlen := readN_length h9
  simp only [encRecordRaw, Addr.prefixlen, exBind_okl, encAddr, hbl]
  rw [encUint_eq_ok (by omega) (by omega), encUint_eq_ok (by omega) (by omega),
    encUint_eq_ok (by omega) (by have := n.plen_lt_256; omega),
    encUint_eq_ok (by omega) (by omega), encUint_eq_ok (by omega) (by omega)]
  refine ⟨_, rfl, ?_⟩
  simp [Nat.mod_eq_of_lt l6, hlen, e8]

theorem NF.recSanitize (r : Record) : NF r.sanitize := by
  unfold Record.sanitize
  refine .exIte (.err (by simp)) (.exIte (.err (by simp)) (.exIte (.err (by simp)) ?_))
  split
  · exact .exBind (.sanitizeLocators _) fun _ _ => .exBind (.sortLocators _) fun _ _ => .ok _
  · exact .err (by simp)

theorem NF.readRecord (s : Bits) : NF (readRecord s) := by
  refine .bind ?_ fun r _ _ => .lift (.recSanitize r) _
  unfold readRecordRaw
  have := fun n s => NF.readN NF.readLocator n s
  nf_tac
  all_goals (try exact this _ _)
  all_goals nf_tac

/-! ### Map-Referral records -/

theorem sanitizeRefLocators_ok {ls : List Locator} :
    sanitizeRefLocators ls = .ok () ↔ ∀ l ∈ ls, l.probed = false ∧ l.sanitize = .ok () := by
  induction ls with
  | nil => simp [sanitizeRefLocators]
  | cons l ls ih =>
    simp only [sanitizeRefLocators, exIteErr_ok, exBind_ok, ih, List.mem_cons, forall_eq_or_imp]
    constructor
    · rintro ⟨h0, _, h1, h2⟩; exact ⟨⟨by simpa using h0, h1⟩, h2⟩
    · rintro ⟨⟨h0, h1⟩, h2⟩; exact ⟨by simpa using h0, (), h1, h2⟩

theorem refTable_ok {action ttl : Int} {inc : Bool} {ls : List Locator} (ha : 0 ≤ action ∧ action ≤ 5) :
    refTable action inc ls ttl = .ok () ↔
      ((action = 0 ∨ action = 1) → inc = false ∧ ls ≠ [] ∧ ttl = 1440) ∧
      (action = 2 → ttl = 1440) ∧ (action = 3 → ttl = 1) ∧
      (action = 4 → inc = false ∧ ls = [] ∧ ttl = 15) ∧
      (action = 5 → inc = true ∧ ls = [] ∧ ttl = 0) := by
  have : action = 0 ∨ action = 1 ∨ action = 2 ∨ action = 3 ∨ action = 4 ∨ action = 5 := by omega
  rcases this with rfl | rfl | rfl | rfl | rfl | rfl <;>
    simp [refTable, exIteErr_ok, exIte_ok]

theorem RefRecord.sanitize_ok {r r' : RefRecord} : r.sanitize = .ok r' ↔
    (0 ≤ r.ttl ∧ r.ttl ≤ 0xffffffff) ∧ (0 ≤ r.action ∧ r.action ≤ 5) ∧
    refTable r.action r.incomplete r.locators r.ttl = .ok () ∧
    (0 ≤ r.mapVersion ∧ r.mapVersion < 2 ^ 12) ∧
    (∀ l ∈ r.locators, l.probed = false ∧ l.sanitize = .ok () ∧ ∃ i, l.address = .ip i) ∧
    ∃ eid, wrapEid r.eid = .ok eid ∧
    r' = { r with eid := eid, locators := sortBy Locator.key r.locators } := by
  unfold RefRecord.sanitize
  simp only [exIteErr_ok, exBind_ok, sortLocators_ok, exPure, Except.ok.injEq]
  constructor
  · rintro ⟨h1, h2, _, h3, h4, eid, h5, _, h6, _, ⟨h7, rfl⟩, h8⟩
    refine ⟨by omega, by omega, h3, by omega, ?_, eid, h5, h8.symm⟩
    intro l hl
    exact ⟨(sanitizeRefLocators_ok.mp h6 l hl).1, (sanitizeRefLocators_ok.mp h6 l hl).2, h7 l hl⟩
  · rintro ⟨h1, h2, h3, h4, h5, eid, h6, rfl⟩
    refine ⟨by omega, by omega, (), h3, by omega, eid, h6, (), ?_, _, ⟨fun l hl => (h5 l hl).2.2, rfl⟩, rfl⟩
    exact sanitizeRefLocators_ok.mpr fun l hl => ⟨(h5 l hl).1, (h5 l hl).2.1⟩

theorem sortBy_eq_nil {key : α → Nat} {l : List α} : sortBy key l = [] ↔ l = [] := by
  rw [← List.length_eq_zero_iff, sortBy_length, List.length_eq_zero_iff]

theorem wrapEid_idem {e e' : Addr} (h : wrapEid e = .ok e') : wrapEid e' = .ok e' := by
  unfold wrapEid at h
  split at h <;> cases h <;> rfl

theorem RefRecord.sanitize_idem {r r' : RefRecord} (h : r.sanitize = .ok r') :
    r'.sanitize = .ok r' := by
  obtain ⟨h1, h2, h3, h4, h5, eid, h6, rfl⟩ := RefRecord.sanitize_ok.mp h
  refine RefRecord.sanitize_ok.mpr ⟨h1, h2, ?_, h4, ?_, eid, wrapEid_idem h6, ?_⟩
  · rw [refTable_ok h2] at h3 ⊢
    simpa [sortBy_eq_nil] using h3
  · intro l hl; exact h5 l (by simpa using hl)
  · simp only [sortBy_idem]

theorem encRefRecordRaw_ok {r : RefRecord} {b : Bits} (h : encRefRecordRaw r = .ok b) :
    (0 ≤ r.ttl ∧ r.ttl < 2 ^ 32) ∧ r.locators.length < 2 ^ 8 ∧ (0 ≤ r.action ∧ r.action < 2 ^ 3) ∧
    (0 ≤ r.mapVersion ∧ r.mapVersion < 2 ^ 12) ∧ r.sigs = 0 ∧
    ∃ p e ls, r.eid.prefixlen = .ok p ∧ p < 2 ^ 8 ∧ encAddr r.eid = .ok e ∧
    encAll encLocator r.locators = .ok ls ∧
    b = natToBits 32 r.ttl.toNat ++ natToBits 8 r.locators.length ++ natToBits 8 p ++
      natToBits 3 r.action.toNat ++ [r.authoritative, r.incomplete] ++
      natToBits 11 r.reserved1.toNat ++ natToBits 4 0 ++
      natToBits 12 r.mapVersion.toNat ++ e ++ ls := by
  simp only [encRefRecordRaw, exBind_ok, encUint_iff, exIteErr_ok] at h
  obtain ⟨_, ⟨h10, h11, rfl⟩, _, ⟨h20, h21, rfl⟩, p, hp, _, ⟨h30, h31, rfl⟩, _, ⟨h40, h41, rfl⟩,
    _, ⟨h50, h51, rfl⟩, _, ⟨h60, h61, rfl⟩, e, he, ls, hls, h0, h⟩ := h
  simp only [exPure, Except.ok.injEq] at h
  have h0 : r.sigs = 0 := by omega
  refine ⟨⟨h10, h11⟩, by omega, ⟨h40, h41⟩, ⟨h60, h61⟩, h0, p, e, ls, hp, by omega, he, hls, ?_⟩
  rw [← h]; simp [h0]

theorem readRefRecordRaw_enc {r : RefRecord} {n : Net} {iid m : Int} {b : Bits}
    (hn : r.eid = .inst iid (.net n) m)
    (h : encRefRecordRaw r = .ok b) (hl : ∀ l ∈ r.locators, ∃ i, l.address = .ip i) (t : Bits) :
    readRefRecordRaw (b ++ t) = .ok (r, t) := by
  obtain ⟨h1, h2, h3, h4, h5, p, e, ls, hp, hp8, he, hls, rfl⟩ := encRefRecordRaw_ok h
  have hrd := readN_encAll_same r.locators ls t hls (r := readLocator)
    (fun l hl' b t hb => by obtain ⟨i, hi⟩ := hl l hl'; exact readLocator_enc_ip hb hi t)
  rw [hn] at hp he
  cases hp
  simp only [readRefRecordRaw, Rd.bind_apply, List.append_assoc, List.cons_append, List.nil_append,
    readUint_app_int h1.1 h1.2, readUint_app h2, readUint_app hp8,
    readUint_app_int h3.1 h3.2, readBool_cons, readUint_app r.reserved1.isLt,
    readUint_app (show 0 < 2 ^ 4 by decide),
    readUint_app_int h4.1 h4.2, readAfi_inst_net he, hrd, BitVec_ofNat_toNat',
    Int.toNat_of_nonneg h1.1, Int.toNat_of_nonneg h3.1, Int.toNat_of_nonneg h4.1]
  rw [← hn]
  obtain ⟨⟩ := r
  simp_all

theorem encRefRecord_ok {r : RefRecord} {b : Bits} (h : encRefRecord r = .ok b) :
    ∃ r', r.sanitize = .ok r' ∧ encRefRecordRaw r' = .ok b := by
  simp only [encRefRecord, exBind_ok] at h
  obtain ⟨r', h1, h2⟩ := h
  exact ⟨r', h1, h2⟩

theorem readRefRecord_enc {r r' : RefRecord} {n : Net} {iid m : Int} {b : Bits}
    (h : encRefRecord r = .ok b) (hs : r.sanitize = .ok r') (hn : r'.eid = .inst iid (.net n) m)
    (t : Bits) : readRefRecord (b ++ t) = .ok (r', t) := by
  obtain ⟨r'', h1, h2⟩ := encRefRecord_ok h
  rw [hs] at h1; cases h1
  have hi := RefRecord.sanitize_idem hs
  obtain ⟨_, _, _, _, h5, _⟩ := RefRecord.sanitize_ok.mp hi
  simp only [readRefRecord, Rd.bind_apply, readRefRecordRaw_enc hn h2 (fun l hl => (h5 l hl).2.2), hi,
    Rd.lift_ok]

theorem Loc.readRefRecordRaw : Loc readRefRecordRaw := by
  unfold PyLisp.readRefRecordRaw
  have := fun n => Loc.readN Loc.readLocator n
  loc_tac
  all_goals (try exact this _)
  all_goals loc_tac

theorem Loc.readRefRecord : Loc readRefRecord := .bind .readRefRecordRaw fun _ => .lift _

theorem readRefRecord_ok {s rest : Bits} {r : RefRecord} (h : readRefRecord s = .ok (r, rest)) :
    ∃ raw, readRefRecordRaw s = .ok (raw, rest) ∧ raw.sanitize = .ok r := by
  simp only [readRefRecord, Rd.bind_ok, Rd.lift_ok_iff] at h
  obtain ⟨raw, s1, h1, h2, rfl⟩ := h
  exact ⟨raw, h1, h2⟩

theorem readRefRecord_fix {s rest : Bits} {r : RefRecord} (h : readRefRecord s = .ok (r, rest)) :
    r.sanitize = .ok r := by
  obtain ⟨raw, _, h2⟩ := readRefRecord_ok h
  exact RefRecord.sanitize_idem h2

theorem NF.wrapEid (a : Addr) : NF (wrapEid a) := by
  unfold PyLisp.wrapEid; split <;> simp [NF]

theorem NF.refTable (a : Int) (i : Bool) (l : List Locator) (t : Int) : NF (refTable a i l t) := by
  unfold PyLisp.refTable
  repeat (first | exact .ok _ | exact .err (by simp) | refine .exIte ?_ ?_)

theorem NF.sanitizeRefLocators (ls : List Locator) : NF (sanitizeRefLocators ls) := by
  induction ls with
  | nil => simp [NF, PyLisp.sanitizeRefLocators]
  | cons l ls ih => exact .exIte (.err (by simp)) (.exBind (.locSanitize l) fun _ _ => ih)

theorem NF.refSanitize (r : RefRecord) : NF r.sanitize := by
  unfold RefRecord.sanitize
  refine .exIte (.err (by simp)) (.exIte (.err (by simp)) (.exBind (.refTable _ _ _ _) fun _ _ =>
    .exIte (.err (by simp)) (.exBind (.wrapEid _) fun _ _ => .exBind (.sanitizeRefLocators _) fun _ _ =>
      .exBind (.sortLocators _) fun _ _ => .ok _)))

theorem NF.rdIte {c : Prop} [Decidable c] {x y : Rd α} {s : Bits} (hx : NF (x s)) (hy : NF (y s)) :
    NF ((if c then x else y) s) := by
  split <;> assumption

theorem NF.readRefRecord (s : Bits) : NF (readRefRecord s) := by
  refine .bind ?_ fun r _ _ => .lift (.refSanitize r) _
  unfold readRefRecordRaw
  have := fun n s => NF.readN NF.readLocator n s
  nf_tac
  all_goals (try exact this _ _)
  exact .rdIte (.fail (by simp) _) (.pure _ _)

end PyLisp
