import Verif.LispLang
/-
Lemmas: the readers of the code and the languages of LispLang.lean.
-/
namespace PyLisp

attribute [local irreducible] natToBits readUint readBits readBool readBytes readInt zeros readIP

theorem readUint_iff {n : Nat} {s rest : Bits} {v : Nat} :
    readUint n s = .ok (v, rest) ↔ v < 2 ^ n ∧ s = natToBits n v ++ rest :=
  ⟨readUint_ok, fun ⟨h, e⟩ => by rw [e]; exact readUint_app h rest⟩

theorem readBits_iff {n : Nat} {s v rest : Bits} :
    readBits n s = .ok (v, rest) ↔ v.length = n ∧ s = v ++ rest :=
  ⟨readBits_ok, fun ⟨h, e⟩ => by rw [e]; exact readBits_app h⟩

theorem readBool_iff {s rest : Bits} {v : Bool} :
    readBool s = .ok (v, rest) ↔ s = v :: rest :=
  ⟨readBool_ok, fun e => by rw [e]; exact readBool_cons v rest⟩

theorem readBytes_iff {n : Nat} {s rest : Bits} {v : Bytes} :
    readBytes n s = .ok (v, rest) ↔ v.length = n ∧ s = bytesToBits v ++ rest :=
  ⟨readBytes_ok, fun ⟨h, e⟩ => by rw [e]; exact readBytes_app' h⟩

theorem toSigned_range {n u : Nat} (hn : 0 < n) (hu : u < 2 ^ n) :
    -(2 ^ (n - 1)) ≤ toSigned n u ∧ toSigned n u < 2 ^ (n - 1) ∧
    (toSigned n u % 2 ^ n).toNat = u := by
  obtain ⟨m, rfl⟩ : ∃ m, n = m + 1 := ⟨n - 1, by omega⟩
  have hp : (0 : Int) < 2 ^ m := Int.pow_pos (by decide)
  have e1 : (2 : Int) ^ (m + 1) = 2 * 2 ^ m := by rw [Int.pow_succ]; omega
  have e2 : (2 : Nat) ^ (m + 1) = 2 * 2 ^ m := by rw [Nat.pow_succ]; omega
  have e3 : ((2 ^ m : Nat) : Int) = 2 ^ m := by rw [Int.natCast_pow]; rfl
  unfold toSigned
  rw [Nat.add_sub_cancel, e1]
  rw [e2] at hu ⊢
  split
  · refine ⟨by omega, by omega, ?_⟩
    rw [Int.emod_eq_of_lt (by omega) (by omega)]; omega
  · refine ⟨by omega, by omega, ?_⟩
    have : (u : Int) - 2 * 2 ^ m = u + (2 * 2 ^ m) * (-1) := by omega
    rw [this, Int.add_mul_emod_self_left, Int.emod_eq_of_lt (by omega) (by omega)]; omega

theorem readInt_iff {n : Nat} (hn : 0 < n) {s rest : Bits} {v : Int} :
    readInt n s = .ok (v, rest) ↔
      (-(2 ^ (n - 1)) ≤ v ∧ v < 2 ^ (n - 1)) ∧ s = natToBits n (v % 2 ^ n).toNat ++ rest := by
  constructor
  · intro h
    unfold readInt at h
    split at h
    · rename_i hl
      simp only [Except.ok.injEq, Prod.mk.injEq] at h
      obtain ⟨rfl, rfl⟩ := h
      have hu : bitsToNat (s.take n) < 2 ^ n := by
        have := bitsToNat_lt (s.take n); rwa [List.length_take_of_le hl] at this
      obtain ⟨h1, h2, h3⟩ := toSigned_range hn hu
      refine ⟨⟨h1, h2⟩, ?_⟩
      rw [h3]
      have := natToBits_bitsToNat (s.take n)
      rw [List.length_take_of_le hl] at this
      rw [this, List.take_append_drop]
    · cases h
  · rintro ⟨⟨h1, h2⟩, rfl⟩
    exact readInt_app hn h1 h2 rest

theorem expectType_iff {n : Nat} (hn : n < 16) {s rest : Bits} {u : Unit} :
    expectType n s = .ok (u, rest) ↔ s = natToBits 4 n ++ rest := by
  refine ⟨expectType_ok, fun e => ?_⟩
  rw [e, expectType, Rd.bind_apply, readUint_app (show n < 2 ^ 4 from hn)]
  simp

/-- what follows a whole number of bytes of a byte string is a byte string -/
theorem bytes_split {x y : Bytes} {r : Bits} (h : bytesToBits x = bytesToBits y ++ r) :
    ∃ t, x = y ++ t ∧ r = bytesToBits t := by
  have hl := congrArg List.length h
  simp only [List.length_append, bytesToBits_length] at hl
  obtain ⟨t, ht, _⟩ := bitsToBytes_ok_of_length (b := r) (k := x.length - y.length) (by omega)
  have hr := bytesToBits_of_bitsToBytes ht
  refine ⟨t, bytesToBits_inj ?_, hr.symm⟩
  rw [bytesToBits_append, h, hr]

theorem byte_bits {b : Bits} (h : b.length = 8) : ∃ v : Byte, b = bytesToBits [v] := by
  obtain ⟨bs, hb, hl⟩ := bitsToBytes_ok_of_length (b := b) (k := 1) (by omega)
  match bs, hl with
  | [v], _ => exact ⟨v, (bytesToBits_of_bitsToBytes hb).symm⟩

/-! ### LCAF -/

theorem isLcaf_iff {t x : Nat} {data d : Bytes} : IsLcaf t x data d ↔
    data.length < 2 ^ 16 ∧ x < 2 ^ 8 ∧
    ∃ r f : Byte, d = be16 16387 ++ [r, f, byteOf t, byteOf x] ++ be16 data.length ++ data := by
  constructor
  · rintro ⟨r, f, h1, h2⟩; exact ⟨h1, h2, r, f, rfl⟩
  · rintro ⟨h1, h2, r, f, rfl⟩; exact ⟨r, f, h1, h2⟩

theorem readLcaf_iff {rd : Rd Addr} {rds} {p : Option Nat} {s rest : Bits} {a : Addr} :
    readLcaf rd rds p s = .ok (a, rest) ↔
    ∃ t x data d, t < 2 ^ 8 ∧ IsLcaf t x data d ∧
      natToBits 16 16387 ++ s = bytesToBits d ++ rest ∧
      lcafFromData rd rds p t x (bytesToBits data) = .ok a := by
  simp only [readLcaf, Rd.bind_ok, Rd.lift_ok_iff, readBits_iff, readUint_iff]
  constructor
  · rintro ⟨r, _, ⟨hr, rfl⟩, f, _, ⟨hf, rfl⟩, t, _, ⟨ht, rfl⟩, x, _, ⟨hx, rfl⟩, n, _, ⟨hn, rfl⟩,
      dt, _, ⟨hd, rfl⟩, h, rfl⟩
    obtain ⟨r, rfl⟩ := byte_bits hr
    obtain ⟨f, rfl⟩ := byte_bits hf
    obtain ⟨data, hdt, hl⟩ := bitsToBytes_ok_of_length (b := dt) (k := n) (by omega)
    have hdt := bytesToBits_of_bitsToBytes hdt
    subst hdt
    subst hl
    refine ⟨t, x, data, _, ht, isLcaf_iff.mpr ⟨hn, hx, r, f, rfl⟩, ?_, h⟩
    have e : [r, f, byteOf t, byteOf x] = [r] ++ [f] ++ [byteOf t, byteOf x] := rfl
    rw [e]
    simp only [bytesToBits_append, bytesToBits_be16, bytesToBits_cons, bytesToBits_nil,
      List.append_assoc, List.nil_append]
  · rintro ⟨t, x, data, d, ht, hd, hs, h⟩
    obtain ⟨hl, hx, r, f, rfl⟩ := isLcaf_iff.mp hd
    have e : [r, f, byteOf t, byteOf x] = [r] ++ [f] ++ [byteOf t, byteOf x] := rfl
    rw [e] at hs
    simp only [bytesToBits_append, bytesToBits_be16, bytesToBits_cons, bytesToBits_nil,
      List.append_assoc, List.nil_append] at hs
    have hs := List.append_cancel_left hs
    subst hs
    exact ⟨bytesToBits [r], _, ⟨by simp [bytesToBits_length], rfl⟩, bytesToBits [f], _,
      ⟨by simp [bytesToBits_length], rfl⟩, t, _, ⟨ht, rfl⟩, x, _, ⟨hx, rfl⟩, data.length, _,
      ⟨hl, rfl⟩, bytesToBits data, _, ⟨by rw [bytesToBits_length]; omega, rfl⟩, h, rfl⟩

/-- the list reader -/
def readList (p : Option Nat) (d : Bits) : Except Err (List Addr) := readAddrs (d.length + 1) p d

theorem readIP_wIP {v : Ver} {s rest : Bits} {a : IP} (h : readIP v s = .ok (a, rest)) :
    natToBits 16 (if v = .v4 then 1 else 2) ++ s = bytesToBits (wIP a) ++ rest := by
  rw [wIP_bits]; have := encIP_of_readIP h; cases v <;> exact this

theorem readAfi_iff {p : Option Nat} {s rest : Bits} {a : Addr} :
    readAfi p s = .ok (a, rest) ↔
    (a = .none ∧ (p = .none ∨ p = .some 0) ∧ s = bytesToBits (be16 0) ++ rest) ∨
    (∃ i, applyPrefix p (.ip i) = .ok a ∧ s = bytesToBits (wIP i) ++ rest) ∨
    (∃ t x data d, t < 2 ^ 8 ∧ IsLcaf t x data d ∧ s = bytesToBits d ++ rest ∧
      lcafFromData (readAfi .none) readList p t x (bytesToBits data) = .ok a) := by
  constructor
  · intro h
    rw [readAfi_unfold] at h
    unfold readAddrStep at h
    rw [Rd.bind_ok] at h
    obtain ⟨afi, s1, h1, h⟩ := h
    obtain ⟨_, rfl⟩ := readUint_ok h1
    split at h
    · rename_i h0; subst h0
      left
      rw [bytesToBits_be16]
      split at h
      · cases h; exact ⟨rfl, .inl rfl, rfl⟩
      · split at h
        · rename_i hp; subst hp; cases h; exact ⟨rfl, .inr rfl, rfl⟩
        · cases h
    split at h
    · rename_i h0; subst h0
      right; left
      rw [Rd.bind_ok] at h
      obtain ⟨i, s2, h2, h3⟩ := h
      rw [Rd.lift_ok_iff] at h3
      obtain ⟨h3, rfl⟩ := h3
      exact ⟨i, h3, readIP_wIP h2⟩
    split at h
    · rename_i h0; subst h0
      right; left
      rw [Rd.bind_ok] at h
      obtain ⟨i, s2, h2, h3⟩ := h
      rw [Rd.lift_ok_iff] at h3
      obtain ⟨h3, rfl⟩ := h3
      exact ⟨i, h3, readIP_wIP h2⟩
    split at h
    · rename_i h0; subst h0
      right; right
      exact readLcaf_iff.mp h
    · cases h
  · rintro (⟨rfl, hp, rfl⟩ | ⟨i, hi, rfl⟩ | ⟨t, x, data, d, ht, hd, rfl, h⟩)
    · rw [bytesToBits_be16, readAfi_unfold]
      unfold readAddrStep
      rw [Rd.bind_apply, readUint_app (by decide)]
      rcases hp with rfl | rfl <;> rfl
    · rw [wIP_bits, readAfi_ip, hi]; rfl
    · rw [readAfi_unfold]
      obtain ⟨hl, hx, r, f, rfl⟩ := isLcaf_iff.mp hd
      have e : ∃ s, bytesToBits (be16 16387 ++ [r, f, byteOf t, byteOf x] ++ be16 data.length ++
          data) ++ rest = natToBits 16 16387 ++ s := by
        simp only [bytesToBits_append, bytesToBits_be16, List.append_assoc]
        exact ⟨_, rfl⟩
      obtain ⟨s, hs⟩ := e
      rw [hs, readAddrStep_lcaf]
      exact readLcaf_iff.mpr ⟨t, x, data, _, ht, hd, hs.symm, h⟩

theorem readList_iff {p : Option Nat} {d : Bits} {l : List Addr} :
    readList p d = .ok l ↔ (d = [] ∧ l = []) ∨
    ∃ a b l' rest, d ≠ [] ∧ readAfi .none d = .ok (a, rest) ∧ applyPrefix p a = .ok b ∧
      readList p rest = .ok l' ∧ l = b :: l' := by
  unfold readList
  rw [readAddrs]
  by_cases hd : d = []
  · rw [if_pos hd]
    constructor
    · intro h; cases h; exact .inl ⟨hd, rfl⟩
    · rintro (⟨_, rfl⟩ | ⟨_, _, _, _, h, _⟩)
      · rfl
      · exact absurd hd h
  · rw [if_neg hd]
    have hpos : 0 < d.length := List.length_pos_iff.mpr hd
    have hf : readAddr d.length .none d = readAfi .none d := by
      unfold readAfi; exact readAddr_fuel (by omega) (by omega) (by omega) (by omega)
    rw [hf]
    have hfs : ∀ rest a, readAfi .none d = .ok (a, rest) →
        readAddrs d.length p rest = readAddrs (rest.length + 1) p rest := by
      intro rest a h
      have := readAddr_consumes h
      exact (readAddr_fuel_aux rest.length rest (Nat.le_refl _)).2 _ _ _ (by omega) (by omega)
    constructor
    · intro h
      split at h
      · rename_i a rest ha
        split at h
        · rename_i b hb
          rw [hfs rest a ha] at h
          split at h
          · rename_i l' hl'
            cases h
            exact .inr ⟨a, b, l', rest, hd, ha, hb, hl', rfl⟩
          · cases h
        · cases h
      · cases h
    · rintro (⟨h, _⟩ | ⟨a, b, l', rest, _, ha, hb, hl, rfl⟩)
      · exact absurd h hd
      · rw [ha]
        simp only [hb, hfs rest a ha, hl]

/-! ### Soundness: an address that denotes is read -/

theorem wIP_length_pos (a : IP) : 0 < (wIP a).length := by
  unfold wIP; cases a.ver <;> simp

theorem isAddr_ne_nil {a : Addr} {d : Bytes} (h : IsAddr a d) : d ≠ [] := by
  have hl : ∀ {t x data d}, IsLcaf t x data d → d ≠ [] := by
    rintro t x data d ⟨r, f, _, _⟩ e
    have := congrArg List.length e
    simp at this
  cases h with
  | none => simp [be16]
  | ip a => exact List.length_pos_iff.mp (wIP_length_pos a)
  | null h | afiList _ h | inst _ _ h | asn _ _ h | geo _ _ h | natT _ _ _ _ _ _ h =>
    exact hl h

theorem bytesToBits_ne_nil {d : Bytes} (h : d ≠ []) (t : Bits) : bytesToBits d ++ t ≠ [] := by
  intro e
  have := congrArg List.length e
  simp only [List.length_append, bytesToBits_length, List.length_nil] at this
  exact h (List.length_eq_zero_iff.mp (by omega))

theorem geoHead_bits (n : Bool) (ld lm ls : Nat) (e : Bool) (od om os : Nat) (alt : Int) :
    bytesToBits (geoHead n ld lm ls e od om os alt) =
    [n] ++ (natToBits 15 ld ++ (natToBits 8 lm ++ (natToBits 8 ls ++ ([e] ++ (natToBits 15 od ++
      (natToBits 8 om ++ (natToBits 8 os ++ natToBits 32 (alt % 2 ^ 32).toNat))))))) := by
  simp only [geoHead, bytesToBits_append, bytesToBits_be16, bytesToBits_be32, bytesToBits_cons,
    bytesToBits_nil, List.append_nil, List.append_assoc]
  rw [pack_bits 16 _ rfl, pack_bits 16 _ rfl]
  simp only [List.flatMap_cons, List.flatMap_nil, natToBits_flag, List.append_nil,
    List.append_assoc]

theorem runOn_iff' {r : Rd α} {d : Bits} {a : α} :
    runOn r d = .ok a ↔ ∃ rest, r d = .ok (a, rest) := by
  unfold runOn
  cases h : r d with
  | ok p => obtain ⟨x, y⟩ := p; simp
  | error e => simp

theorem instFromData_iff {rd : Rd Addr} {p : Option Nat} {m : Nat} {s rest : Bits} {x : Addr} :
    instFromData rd p m s = .ok (x, rest) ↔
    ∃ i s1 a b, i < 2 ^ 32 ∧ s = natToBits 32 i ++ s1 ∧ rd s1 = .ok (a, rest) ∧
      applyPrefix p a = .ok b ∧ x = .inst i b m := by
  simp only [instFromData, Rd.bind_ok, Rd.lift_ok_iff, Rd.pure_ok_iff, readUint_iff]
  constructor
  · rintro ⟨i, _, ⟨h1, rfl⟩, a, _, h2, b, _, ⟨h3, rfl⟩, rfl, rfl⟩
    exact ⟨i, _, a, b, h1, rfl, h2, h3, rfl⟩
  · rintro ⟨i, s1, a, b, h1, rfl, h2, h3, rfl⟩
    exact ⟨i, _, ⟨h1, rfl⟩, a, _, h2, b, _, ⟨h3, rfl⟩, rfl, rfl⟩

theorem asnFromData_iff {rd : Rd Addr} {p : Option Nat} {s rest : Bits} {x : Addr} :
    asnFromData rd p s = .ok (x, rest) ↔
    ∃ i s1 a b, i < 2 ^ 32 ∧ s = natToBits 32 i ++ s1 ∧ rd s1 = .ok (a, rest) ∧
      applyPrefix p a = .ok b ∧ x = .asn i b := by
  simp only [asnFromData, Rd.bind_ok, Rd.lift_ok_iff, Rd.pure_ok_iff, readUint_iff]
  constructor
  · rintro ⟨i, _, ⟨h1, rfl⟩, a, _, h2, b, _, ⟨h3, rfl⟩, rfl, rfl⟩
    exact ⟨i, _, a, b, h1, rfl, h2, h3, rfl⟩
  · rintro ⟨i, s1, a, b, h1, rfl, h2, h3, rfl⟩
    exact ⟨i, _, ⟨h1, rfl⟩, a, _, h2, b, _, ⟨h3, rfl⟩, rfl, rfl⟩

theorem geoFromData_iff {rd : Rd Addr} {p : Option Nat} {s rest : Bits} {x : Addr} :
    geoFromData rd p s = .ok (x, rest) ↔
    ∃ n ld lm ls e od om os alt s1 a b, GeoFits ld lm ls od om os alt ∧
      s = bytesToBits (geoHead n ld lm ls e od om os alt) ++ s1 ∧ rd s1 = .ok (a, rest) ∧
      applyPrefix p a = .ok b ∧ x = .geo n ld lm ls e od om os alt b := by
  simp only [geoFromData, Rd.bind_ok, Rd.lift_ok_iff, Rd.pure_ok_iff, readUint_iff, readBool_iff,
    readInt_iff (show 0 < 32 by decide), geoHead_bits]
  constructor
  · rintro ⟨n, _, rfl, ld, _, ⟨h1, rfl⟩, lm, _, ⟨h2, rfl⟩, ls, _, ⟨h3, rfl⟩, e, _, rfl, od, _,
      ⟨h4, rfl⟩, om, _, ⟨h5, rfl⟩, os, _, ⟨h6, rfl⟩, alt, _, ⟨⟨h7, h8⟩, rfl⟩, a, _, ha, b, _,
      ⟨hb, rfl⟩, rfl, rfl⟩
    refine ⟨n, ld, lm, ls, e, od, om, os, alt, _, a, b, ⟨h1, h2, h3, h4, h5, h6, h7, h8⟩, ?_, ha, hb,
      rfl⟩
    simp only [List.append_assoc, List.cons_append, List.nil_append]
  · rintro ⟨n, ld, lm, ls, e, od, om, os, alt, s1, a, b, ⟨h1, h2, h3, h4, h5, h6, h7, h8⟩, rfl, ha,
      hb, rfl⟩
    simp only [List.append_assoc, List.cons_append, List.nil_append]
    exact ⟨n, _, rfl, ld, _, ⟨h1, rfl⟩, lm, _, ⟨h2, rfl⟩, ls, _, ⟨h3, rfl⟩, e, _, rfl, od, _,
      ⟨h4, rfl⟩, om, _, ⟨h5, rfl⟩, os, _, ⟨h6, rfl⟩, alt, _, ⟨⟨h7, h8⟩, rfl⟩, a, _, ha, b, _,
      ⟨hb, rfl⟩, rfl, rfl⟩

theorem natFromData_iff {rd : Rd Addr} {rds} {s rest : Bits} {x : Addr} :
    natFromData rd rds s = .ok (x, rest) ↔
    ∃ mp ep g m p l s1 s2 s3 s4, mp < 2 ^ 16 ∧ ep < 2 ^ 16 ∧
      s = natToBits 16 mp ++ (natToBits 16 ep ++ s1) ∧ rd s1 = .ok (g, s2) ∧ rd s2 = .ok (m, s3) ∧
      rd s3 = .ok (p, s4) ∧ rds s4 = .ok l ∧ x = .natT mp ep g m p l ∧ rest = [] := by
  have hall : ∀ (s4 s5 : Bits) (l : List Addr), readAll rds s4 = .ok (l, s5) ↔
      rds s4 = .ok l ∧ s5 = [] := by
    intro s4 s5 l
    unfold readAll
    cases rds s4 <;> simp [eq_comm]
  simp only [natFromData, Rd.bind_ok, Rd.pure_ok_iff, readUint_iff, hall]
  constructor
  · rintro ⟨mp, _, ⟨h1, rfl⟩, ep, _, ⟨h2, rfl⟩, g, s2, hg, m, s3, hm, p, s4, hp, l, _, ⟨hl, rfl⟩,
      rfl, rfl⟩
    exact ⟨mp, ep, g, m, p, l, _, s2, s3, s4, h1, h2, rfl, hg, hm, hp, hl, rfl, rfl⟩
  · rintro ⟨mp, ep, g, m, p, l, s1, s2, s3, s4, h1, h2, rfl, hg, hm, hp, hl, rfl, rfl⟩
    exact ⟨mp, _, ⟨h1, rfl⟩, ep, _, ⟨h2, rfl⟩, g, s2, hg, m, s3, hm, p, s4, hp, l, _, ⟨hl, rfl⟩,
      rfl, rfl⟩

/-- the LCAF classes, type by type -/
theorem lcafFromData_iff {rd : Rd Addr} {rds} {p : Option Nat} {t x : Nat} {d : Bits} {a : Addr} :
    lcafFromData rd rds p t x d = .ok a ↔
    (t = 0 ∧ a = .null) ∨
    (t = 1 ∧ ∃ l, rds p d = .ok l ∧ a = .afiList l) ∨
    (t = 2 ∧ ∃ rest, instFromData rd p x d = .ok (a, rest)) ∨
    (t = 3 ∧ ∃ rest, asnFromData rd p d = .ok (a, rest)) ∨
    (t = 5 ∧ ∃ rest, geoFromData rd p d = .ok (a, rest)) ∨
    (t = 7 ∧ ∃ rest, natFromData rd (rds .none) d = .ok (a, rest)) := by
  unfold lcafFromData
  by_cases h0 : t = 0
  · subst h0; simp [eq_comm]
  by_cases h1 : t = 1
  · subst h1
    simp only [Nat.one_ne_zero, if_false, if_true, false_and, false_or, true_and, Nat.reduceEqDiff,
      or_false]
    cases rds p d <;> simp [eq_comm]
  by_cases h2 : t = 2
  · subst h2
    simp only [Nat.reduceEqDiff, if_false, if_true, false_and, false_or, true_and, or_false,
      runOn_iff']
  by_cases h3 : t = 3
  · subst h3
    simp only [Nat.reduceEqDiff, if_false, if_true, false_and, false_or, true_and, or_false,
      runOn_iff']
  by_cases h5 : t = 5
  · subst h5
    simp only [Nat.reduceEqDiff, if_false, if_true, false_and, false_or, true_and, or_false,
      runOn_iff']
  by_cases h7 : t = 7
  · subst h7
    simp only [Nat.reduceEqDiff, if_false, if_true, false_and, false_or, true_and, runOn_iff']
  simp [h0, h1, h2, h3, h5, h7]

theorem readAfi_lcaf {p : Option Nat} {t x : Nat} {data d : Bytes} {a : Addr} (hd : IsLcaf t x data d)
    (ht : t < 2 ^ 8)
    (h : lcafFromData (readAfi .none) readList p t x (bytesToBits data) = .ok a) (rest : Bits) :
    readAfi p (bytesToBits d ++ rest) = .ok (a, rest) :=
  readAfi_iff.mpr (.inr (.inr ⟨t, x, data, d, ht, hd, rfl, h⟩))

mutual
theorem isAddr_read : ∀ {a : Addr} {d : Bytes}, IsAddr a d → ∀ t : Bits,
    readAfi .none (bytesToBits d ++ t) = .ok (a, t)
  | _, _, .none, t => readAfi_iff.mpr (.inl ⟨rfl, .inl rfl, rfl⟩)
  | _, _, .ip i, t => readAfi_iff.mpr (.inr (.inl ⟨i, rfl, rfl⟩))
  | _, _, .null h, t => readAfi_lcaf h (by decide) (lcafFromData_iff.mpr (.inl ⟨rfl, rfl⟩)) t
  | _, _, .afiList hl h, t => readAfi_lcaf h (by decide)
      (lcafFromData_iff.mpr (.inr (.inl ⟨rfl, _, isAddrs_read hl, rfl⟩))) t
  | _, _, .inst (junk := junk) hi ha h, t => by
    refine readAfi_lcaf h (by decide) (lcafFromData_iff.mpr (.inr (.inr (.inl ⟨rfl, _,
      instFromData_iff.mpr ⟨_, _, _, _, hi, ?_, isAddr_read ha (bytesToBits junk), rfl, rfl⟩⟩)))) t
    simp only [bytesToBits_append, bytesToBits_be32, List.append_assoc]
  | _, _, .asn (junk := junk) hi ha h, t => by
    refine readAfi_lcaf h (by decide) (lcafFromData_iff.mpr (.inr (.inr (.inr (.inl ⟨rfl, _,
      asnFromData_iff.mpr ⟨_, _, _, _, hi, ?_, isAddr_read ha (bytesToBits junk), rfl, rfl⟩⟩))))) t
    simp only [bytesToBits_append, bytesToBits_be32, List.append_assoc]
  | _, _, .geo (junk := junk) hf ha h, t => by
    refine readAfi_lcaf h (by decide) (lcafFromData_iff.mpr (.inr (.inr (.inr (.inr (.inl ⟨rfl, _,
      geoFromData_iff.mpr ⟨_, _, _, _, _, _, _, _, _, _, _, _, hf, ?_, isAddr_read ha (bytesToBits junk), rfl,
        rfl⟩⟩)))))) t
    simp only [bytesToBits_append, List.append_assoc]
  | _, _, .natT h1 h2 hg hm hp hr h, t => by
    refine readAfi_lcaf h (by decide) (lcafFromData_iff.mpr (.inr (.inr (.inr (.inr (.inr ⟨rfl, _,
      natFromData_iff.mpr ⟨_, _, _, _, _, _, _, _, _, _, h1, h2, ?_, isAddr_read hg _,
        isAddr_read hm _, isAddr_read hp _, isAddrs_read hr, rfl, rfl⟩⟩)))))) t
    simp only [bytesToBits_append, bytesToBits_be16, List.append_assoc]
theorem isAddrs_read : ∀ {l : List Addr} {d : Bytes}, IsAddrs l d →
    readList .none (bytesToBits d) = .ok l
  | _, _, .nil => readList_iff.mpr (.inl ⟨rfl, rfl⟩)
  | _, _, .cons (d := d) (e := e) ha hl => by
    rw [bytesToBits_append]
    exact readList_iff.mpr (.inr ⟨_, _, _, _, bytesToBits_ne_nil (isAddr_ne_nil ha) _,
      isAddr_read ha _, rfl, isAddrs_read hl, rfl⟩)
end

/-! ### Completeness: an address that is read denotes -/

theorem readAfi_isAddr_aux : ∀ (n : Nat) (s : Bits), s.length ≤ n →
    (∀ a rest, readAfi .none s = .ok (a, rest) → ∃ d, IsAddr a d ∧ s = bytesToBits d ++ rest) ∧
    (∀ x l, s = bytesToBits x → readList .none s = .ok l → IsAddrs l x) := by
  intro n
  induction n using Nat.strongRecOn with
  | ind n ih =>
    intro s hs
    have one : ∀ a rest, readAfi .none s = .ok (a, rest) →
        ∃ d, IsAddr a d ∧ s = bytesToBits d ++ rest := by
      intro a rest h
      rcases readAfi_iff.mp h with ⟨rfl, _, h'⟩ | ⟨i, hi, h'⟩ | ⟨t, x, data, d, ht, hd, he, h'⟩
      · exact ⟨_, .none, h'⟩
      · cases hi; exact ⟨_, .ip i, h'⟩
      · have hlen : (bytesToBits data).length < s.length := by
          obtain ⟨_, _, r, f, rfl⟩ := isLcaf_iff.mp hd
          rw [he]; simp [bytesToBits_length]; omega
        have rd : ∀ (s1 : Bits) a rest, s1.length ≤ (bytesToBits data).length →
            readAfi .none s1 = .ok (a, rest) → ∃ d, IsAddr a d ∧ s1 = bytesToBits d ++ rest :=
          fun s1 a rest hl h => (ih s1.length (by omega) s1 (Nat.le_refl _)).1 a rest h
        have rds : ∀ x l, (bytesToBits x).length ≤ (bytesToBits data).length →
            readList .none (bytesToBits x) = .ok l → IsAddrs l x :=
          fun x l hl h => (ih _ (by omega) _ (Nat.le_refl _)).2 x l rfl h
        refine ⟨d, ?_, he⟩
        rcases lcafFromData_iff.mp h' with ⟨rfl, rfl⟩ | ⟨rfl, l, h3, rfl⟩ | ⟨rfl, r, h⟩ | ⟨rfl, r, h⟩ |
          ⟨rfl, r, h⟩ | ⟨rfl, r, h⟩
        · exact .null hd
        · exact .afiList (rds _ _ (Nat.le_refl _) h3) hd
        · obtain ⟨i, s1, a, b, hi, e, ha, hb, rfl⟩ := instFromData_iff.mp h
          cases hb
          rw [← bytesToBits_be32] at e
          obtain ⟨t1, rfl, rfl⟩ := bytes_split e
          obtain ⟨inner, hin, e⟩ := rd _ _ _ (by simp [bytesToBits_length]; omega) ha
          obtain ⟨junk, rfl, rfl⟩ := bytes_split e
          rw [← List.append_assoc] at hd
          exact .inst hi hin hd
        · obtain ⟨i, s1, a, b, hi, e, ha, hb, rfl⟩ := asnFromData_iff.mp h
          cases hb
          rw [← bytesToBits_be32] at e
          obtain ⟨t1, rfl, rfl⟩ := bytes_split e
          obtain ⟨inner, hin, e⟩ := rd _ _ _ (by simp [bytesToBits_length]; omega) ha
          obtain ⟨junk, rfl, rfl⟩ := bytes_split e
          rw [← List.append_assoc] at hd
          exact .asn hi hin hd
        · obtain ⟨n, ld, lm, ls, e', od, om, os, alt, s1, a, b, hf, e, ha, hb, rfl⟩ :=
            geoFromData_iff.mp h
          cases hb
          obtain ⟨t1, rfl, rfl⟩ := bytes_split e
          obtain ⟨inner, hin, e⟩ := rd _ _ _ (by simp [bytesToBits_length]; omega) ha
          obtain ⟨junk, rfl, rfl⟩ := bytes_split e
          rw [← List.append_assoc] at hd
          exact .geo hf hin hd
        · obtain ⟨mp, ep, g, m, p, l, s1, s2, s3, s4, h1, h2, e, hg, hm, hp, hl, rfl, _⟩ :=
            natFromData_iff.mp h
          rw [← bytesToBits_be16, ← bytesToBits_be16] at e
          obtain ⟨t1, rfl, e1⟩ := bytes_split e
          obtain ⟨t2, rfl, rfl⟩ := bytes_split e1.symm
          obtain ⟨bg, hbg, e⟩ := rd _ _ _ (by simp [bytesToBits_length]; omega) hg
          obtain ⟨t3, rfl, rfl⟩ := bytes_split e
          obtain ⟨bm, hbm, e⟩ := rd _ _ _ (by simp [bytesToBits_length]; omega) hm
          obtain ⟨t4, rfl, rfl⟩ := bytes_split e
          obtain ⟨bp, hbp, e⟩ := rd _ _ _ (by simp [bytesToBits_length]; omega) hp
          obtain ⟨br, rfl, rfl⟩ := bytes_split e
          have hbr := rds _ _ (by simp [bytesToBits_length]; omega) hl
          simp only [← List.append_assoc] at hd
          exact .natT h1 h2 hbg hbm hbp hbr hd
    refine ⟨one, ?_⟩
    intro x l hx h
    rcases readList_iff.mp h with ⟨h1, rfl⟩ | ⟨a, b, l', rest, _, ha, hb, hl, rfl⟩
    · rw [h1] at hx
      have : x = [] := bytesToBits_inj (hx.symm)
      subst this; exact .nil
    · cases hb
      have hc := readAddr_consumes ha
      obtain ⟨d, hd, e⟩ := one _ _ ha
      rw [hx] at e
      obtain ⟨t, rfl, rfl⟩ := bytes_split e
      exact .cons hd ((ih _ (by omega) _ (Nat.le_refl _)).2 t l' rfl hl)

theorem readAfi_isAddr {s rest : Bits} {a : Addr} :
    readAfi .none s = .ok (a, rest) ↔ ∃ d, IsAddr a d ∧ s = bytesToBits d ++ rest :=
  ⟨(readAfi_isAddr_aux s.length s (Nat.le_refl _)).1 a rest,
    fun ⟨_, h, e⟩ => by rw [e]; exact isAddr_read h rest⟩

theorem readList_isAddrs {x : Bytes} {l : List Addr} :
    readList .none (bytesToBits x) = .ok l ↔ IsAddrs l x :=
  ⟨(readAfi_isAddr_aux _ _ (Nat.le_refl _)).2 x l rfl, isAddrs_read⟩

/-! ### With a prefix length -/

theorem applyPrefix_some_iff {p : Nat} {a x : Addr} : applyPrefix (.some p) a = .ok x ↔
    ∃ n : Net, a = .ip n.first ∧ x = .net n ∧ n.plen = p := by
  constructor
  · intro h
    obtain ⟨i, n, rfl, rfl, rfl, hp⟩ := applyPrefix_some_ok h
    exact ⟨n, rfl, rfl, hp⟩
  · rintro ⟨n, rfl, rfl, rfl⟩; exact applyPrefix_net n

theorem isAddr_ip {a : IP} {d : Bytes} : IsAddr (.ip a) d ↔ d = wIP a := by
  constructor
  · intro h; cases h; rfl
  · rintro rfl; exact .ip a

theorem readList_some {p : Nat} {x : Bytes} {l : List Addr} :
    readList (.some p) (bytesToBits x) = .ok l ↔
    ∃ ns : List Net, l = ns.map .net ∧ (∀ n ∈ ns, n.plen = p) ∧
      x = ns.flatMap fun n => wIP n.first := by
  constructor
  · intro h
    generalize hk : x.length = k
    induction k using Nat.strongRecOn generalizing x l with
    | ind k ih =>
      rcases readList_iff.mp h with ⟨h1, rfl⟩ | ⟨a, b, l', rest, _, ha, hb, hl, rfl⟩
      · have : x = [] := bytesToBits_inj h1
        subst this; exact ⟨[], rfl, by simp, rfl⟩
      · obtain ⟨n, rfl, rfl, hp⟩ := applyPrefix_some_iff.mp hb
        obtain ⟨d, hd, e⟩ := readAfi_isAddr.mp ha
        rw [isAddr_ip] at hd; subst hd
        obtain ⟨t, rfl, rfl⟩ := bytes_split e
        have hpos := wIP_length_pos n.first
        obtain ⟨ns, rfl, h1, rfl⟩ := ih t.length (by simp at hk; omega) hl rfl
        refine ⟨n :: ns, rfl, ?_, rfl⟩
        intro m hm
        rcases List.mem_cons.mp hm with rfl | hm
        · exact hp
        · exact h1 m hm
  · rintro ⟨ns, rfl, hp, rfl⟩
    induction ns with
    | nil => exact readList_iff.mpr (.inl ⟨rfl, rfl⟩)
    | cons n ns ih =>
      rw [List.flatMap_cons, bytesToBits_append]
      refine readList_iff.mpr (.inr ⟨_, _, _, _, bytesToBits_ne_nil
        (List.length_pos_iff.mp (wIP_length_pos n.first)) _,
        isAddr_read (.ip n.first) _, applyPrefix_some_iff.mpr ⟨n, rfl, rfl, hp n (by simp)⟩,
        ih (fun m hm => hp m (by simp [hm])), rfl⟩)

theorem readAfi_isPrefix {p : Nat} {s rest : Bits} {a : Addr} :
    readAfi (.some p) s = .ok (a, rest) ↔ ∃ d, IsPrefix p a d ∧ s = bytesToBits d ++ rest := by
  constructor
  · intro h
    rcases readAfi_iff.mp h with ⟨rfl, hp, h'⟩ | ⟨i, hi, h'⟩ | ⟨t, x, data, d, ht, hd, he, h'⟩
    · rcases hp with hp | hp <;> cases hp
      exact ⟨_, .none, h'⟩
    · obtain ⟨n, hi2, rfl, rfl⟩ := applyPrefix_some_iff.mp hi
      rw [Addr.ip.inj hi2] at h'
      exact ⟨_, .net n, h'⟩
    · refine ⟨d, ?_, he⟩
      rcases lcafFromData_iff.mp h' with ⟨rfl, rfl⟩ | ⟨rfl, l, h3, rfl⟩ | ⟨rfl, r, h⟩ | ⟨rfl, r, h⟩ |
        ⟨rfl, r, h⟩ | ⟨rfl, r, h⟩
      · exact .null hd
      · obtain ⟨ns, rfl, h1, rfl⟩ := readList_some.mp h3
        exact .afiList h1 hd
      · obtain ⟨i, s1, a, b, hi, e, ha, hb, rfl⟩ := instFromData_iff.mp h
        obtain ⟨n, rfl, rfl, rfl⟩ := applyPrefix_some_iff.mp hb
        rw [← bytesToBits_be32] at e
        obtain ⟨t1, rfl, rfl⟩ := bytes_split e
        obtain ⟨inner, hin, e⟩ := readAfi_isAddr.mp ha
        rw [isAddr_ip] at hin; subst hin
        obtain ⟨junk, rfl, rfl⟩ := bytes_split e
        rw [← List.append_assoc] at hd
        exact .inst n hi hd
      · obtain ⟨i, s1, a, b, hi, e, ha, hb, rfl⟩ := asnFromData_iff.mp h
        obtain ⟨n, rfl, rfl, rfl⟩ := applyPrefix_some_iff.mp hb
        rw [← bytesToBits_be32] at e
        obtain ⟨t1, rfl, rfl⟩ := bytes_split e
        obtain ⟨inner, hin, e⟩ := readAfi_isAddr.mp ha
        rw [isAddr_ip] at hin; subst hin
        obtain ⟨junk, rfl, rfl⟩ := bytes_split e
        rw [← List.append_assoc] at hd
        exact .asn n hi hd
      · obtain ⟨m, ld, lm, ls, e', od, om, os, alt, s1, a, b, hf, e, ha, hb, rfl⟩ :=
          geoFromData_iff.mp h
        obtain ⟨n, rfl, rfl, rfl⟩ := applyPrefix_some_iff.mp hb
        obtain ⟨t1, rfl, rfl⟩ := bytes_split e
        obtain ⟨inner, hin, e⟩ := readAfi_isAddr.mp ha
        rw [isAddr_ip] at hin; subst hin
        obtain ⟨junk, rfl, rfl⟩ := bytes_split e
        rw [← List.append_assoc] at hd
        exact .geo n hf hd
      · have h2 : readAfi .none s = .ok (a, rest) := by
          rw [he]
          exact readAfi_lcaf hd ht (lcafFromData_iff.mpr (.inr (.inr (.inr (.inr (.inr
            ⟨rfl, r, h⟩)))))) rest
        obtain ⟨mp, ep, g, m, p', l, s1, s2, s3, s4, h1, h2', e, hg, hm, hp, hl, rfl, _⟩ :=
          natFromData_iff.mp h
        obtain ⟨d', hd', e⟩ := readAfi_isAddr.mp h2
        rw [he] at e
        have : d = d' := by
          exact bytesToBits_inj (List.append_cancel_right e)
        subst this
        exact .natT hd'
  · rintro ⟨d, h, rfl⟩
    cases h with
    | none => exact readAfi_iff.mpr (.inl ⟨rfl, .inr rfl, rfl⟩)
    | net n => exact readAfi_iff.mpr (.inr (.inl ⟨_, applyPrefix_net n, rfl⟩))
    | null h => exact readAfi_lcaf h (by decide) (lcafFromData_iff.mpr (.inl ⟨rfl, rfl⟩)) rest
    | afiList h1 h =>
      exact readAfi_lcaf h (by decide)
        (lcafFromData_iff.mpr (.inr (.inl ⟨rfl, _, readList_some.mpr ⟨_, rfl, h1, rfl⟩, rfl⟩))) rest
    | @inst _ _ n junk _ hi h =>
      refine readAfi_lcaf h (by decide) (lcafFromData_iff.mpr (.inr (.inr (.inl ⟨rfl, _,
        instFromData_iff.mpr ⟨_, _, _, _, hi, ?_, isAddr_read (.ip n.first) (bytesToBits junk), applyPrefix_net n,
          rfl⟩⟩)))) rest
      simp only [bytesToBits_append, bytesToBits_be32, List.append_assoc]
    | @asn _ _ n junk _ hi h =>
      refine readAfi_lcaf h (by decide) (lcafFromData_iff.mpr (.inr (.inr (.inr (.inl ⟨rfl, _,
        asnFromData_iff.mpr ⟨_, _, _, _, hi, ?_, isAddr_read (.ip n.first) (bytesToBits junk), applyPrefix_net n,
          rfl⟩⟩))))) rest
      simp only [bytesToBits_append, bytesToBits_be32, List.append_assoc]
    | @geo _ _ _ _ _ _ _ _ _ _ n junk _ hf h =>
      refine readAfi_lcaf h (by decide) (lcafFromData_iff.mpr (.inr (.inr (.inr (.inr (.inl ⟨rfl, _,
        geoFromData_iff.mpr ⟨_, _, _, _, _, _, _, _, _, _, _, _, hf, ?_,
          isAddr_read (.ip n.first) (bytesToBits junk), applyPrefix_net n, rfl⟩⟩)))))) rest
      simp only [bytesToBits_append, List.append_assoc]
    | natT h =>
      cases h with
      | natT h1 h2 hg hm hp hr h =>
        refine readAfi_lcaf h (by decide) (lcafFromData_iff.mpr (.inr (.inr (.inr (.inr (.inr ⟨rfl, _,
          natFromData_iff.mpr ⟨_, _, _, _, _, _, _, _, _, _, h1, h2, ?_, isAddr_read hg _,
            isAddr_read hm _, isAddr_read hp _, isAddrs_read hr, rfl, rfl⟩⟩)))))) rest
        simp only [bytesToBits_append, bytesToBits_be16, List.append_assoc]

end PyLisp
