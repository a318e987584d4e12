import Verif.XtrId
/-
C60: the xTR-ID.
-/
namespace PyLisp.Props
open PyLisp

/-- a MAC address an xTR-ID can be made of: not multicast (lowest bit of the first byte) and not all
zero -/
def UsableMac (mac : List Byte) : Prop := (∃ p ps, mac = p :: ps ∧ p.toNat % 2 = 0) ∧ ∃ b ∈ mac, b ≠ 0

/-- the big-endian value of a byte list -/
def bigEndian : List Byte → Nat
  | [] => 0
  | b :: bs => b.toNat * 256 ^ bs.length + bigEndian bs

theorem macInt_append (n : Nat) (mac : List Byte) :
    mac.foldl (fun acc (p : Byte) => acc * 2 ^ 8 + p.toNat) n = n * 256 ^ mac.length + bigEndian mac := by
  induction mac generalizing n with
  | nil => simp [bigEndian]
  | cons b bs ih =>
    have h : 256 ^ (bs.length + 1) = 2 ^ 8 * 256 ^ bs.length := Nat.pow_succ'
    rw [List.foldl_cons, ih, bigEndian, List.length_cons, h, Nat.add_mul, Nat.mul_assoc n, Nat.add_assoc]

theorem macInt_eq (mac : List Byte) : macInt mac = bigEndian mac := by
  unfold macInt; rw [macInt_append]; simp

theorem bigEndian_lt (mac : List Byte) : bigEndian mac < 256 ^ mac.length := by
  induction mac with
  | nil => simp [bigEndian]
  | cons b bs ih =>
    rw [bigEndian, List.length_cons, Nat.pow_succ]
    have := b.isLt
    have hb : b.toNat ≤ 255 := by omega
    have := Nat.mul_le_mul_right (256 ^ bs.length) hb
    omega

theorem bigEndian_zero (mac : List Byte) : bigEndian mac = 0 ↔ ∀ b ∈ mac, b = 0 := by
  induction mac with
  | nil => simp [bigEndian]
  | cons b bs ih =>
    have hp : 0 < 256 ^ bs.length := Nat.pow_pos (by omega)
    rw [bigEndian, Nat.add_eq_zero_iff, Nat.mul_eq_zero, ih]
    simp only [List.mem_cons, forall_eq_or_imp]
    refine and_congr ⟨?_, ?_⟩ Iff.rfl
    · rintro (h | h)
      · exact BitVec.eq_of_toNat_eq (by simpa using h)
      · omega
    · rintro rfl; left; rfl

theorem bigEndian_inj {m m' : List Byte} (hl : m.length = m'.length) (h : bigEndian m = bigEndian m') :
    m = m' := by
  induction m generalizing m' with
  | nil => cases m' with
    | nil => rfl
    | cons => simp at hl
  | cons b bs ih =>
    cases m' with
    | nil => simp at hl
    | cons c cs =>
      simp only [List.length_cons, Nat.add_right_cancel_iff] at hl
      rw [bigEndian, bigEndian, hl] at h
      have h1 := bigEndian_lt bs
      have h2 := bigEndian_lt cs
      rw [hl] at h1
      have hp : 0 < 256 ^ cs.length := Nat.pow_pos (by omega)
      have e1 : (b.toNat * 256 ^ cs.length + bigEndian bs) / 256 ^ cs.length = b.toNat := by
        rw [Nat.mul_comm, Nat.mul_add_div hp, Nat.div_eq_of_lt h1, Nat.add_zero]
      have e2 : (c.toNat * 256 ^ cs.length + bigEndian cs) / 256 ^ cs.length = c.toNat := by
        rw [Nat.mul_comm, Nat.mul_add_div hp, Nat.div_eq_of_lt h2, Nat.add_zero]
      have hbc : b.toNat = c.toNat := by rw [← e1, ← e2, h]
      rw [hbc] at h
      rw [BitVec.eq_of_toNat_eq hbc, ih hl (by omega)]

/-- what `firstUsable` does on a list of link addresses -/
theorem firstUsable_spec (macs : List (List Byte)) :
    (firstUsable macs = .ok none ∧ ∀ m ∈ macs, m ≠ [] ∧ ¬ UsableMac m) ∨
    (∃ before m after, macs = before ++ m :: after ∧ (∀ b ∈ before, b ≠ [] ∧ ¬ UsableMac b) ∧
      UsableMac m ∧ firstUsable macs = .ok (some (bigEndian m ||| xtrWatermark))) ∨
    (∃ before after, macs = before ++ [] :: after ∧ (∀ b ∈ before, b ≠ [] ∧ ¬ UsableMac b) ∧
      firstUsable macs = .error .value) := by
  induction macs with
  | nil => left; exact ⟨rfl, by simp⟩
  | cons m macs ih =>
    have step : firstUsable (m :: macs) = firstUsable macs → (m ≠ [] ∧ ¬ UsableMac m) →
      (firstUsable (m :: macs) = .ok none ∧ ∀ x ∈ m :: macs, x ≠ [] ∧ ¬ UsableMac x) ∨
      (∃ before n after, m :: macs = before ++ n :: after ∧ (∀ b ∈ before, b ≠ [] ∧ ¬ UsableMac b) ∧
        UsableMac n ∧ firstUsable (m :: macs) = .ok (some (bigEndian n ||| xtrWatermark))) ∨
      (∃ before after, m :: macs = before ++ [] :: after ∧ (∀ b ∈ before, b ≠ [] ∧ ¬ UsableMac b) ∧
        firstUsable (m :: macs) = .error .value) := by
      intro he hu
      rw [he]
      rcases ih with ⟨h1, h2⟩ | ⟨b, n, a, h1, h2, h3, h4⟩ | ⟨b, a, h1, h2, h3⟩
      · left; exact ⟨h1, by simpa using ⟨hu, h2⟩⟩
      · right; left
        exact ⟨m :: b, n, a, by rw [h1]; rfl, by simpa using ⟨hu, h2⟩, h3, h4⟩
      · right; right
        exact ⟨m :: b, a, by rw [h1]; rfl, by simpa using ⟨hu, h2⟩, h3⟩
    cases m with
    | nil => right; right; exact ⟨[], macs, rfl, by simp, rfl⟩
    | cons p ps =>
      by_cases hp : p.toNat % 2 = 1
      · refine step (by simp [firstUsable, hp]) ⟨by simp, ?_⟩
        rintro ⟨⟨q, qs, he, hq⟩, _⟩
        cases he; omega
      · by_cases h0 : macInt (p :: ps) = 0
        · refine step (by simp [firstUsable, hp, h0]) ⟨by simp, ?_⟩
          rintro ⟨_, b, hb, hne⟩
          rw [macInt_eq, bigEndian_zero] at h0
          exact hne (h0 b hb)
        · right; left
          refine ⟨[], p :: ps, macs, rfl, by simp, ⟨⟨p, ps, rfl, by omega⟩, ?_⟩, ?_⟩
          · rw [macInt_eq, bigEndian_zero] at h0
            exact Classical.byContradiction fun hn => h0 fun b hb =>
              Classical.byContradiction fun hne => hn ⟨b, hb, hne⟩
          · rw [firstUsable, if_neg hp, if_neg h0, macInt_eq]

/-- C60: when every link address has at least one byte, the xTR-ID is made from the first usable MAC
address, in the order of the interfaces, and is 0 when there is none. -/
theorem xtr_id_spec (ifs : List (List (List Byte))) (hne : ∀ m ∈ ifs.flatten, m ≠ []) :
    (∃ before m after, ifs.flatten = before ++ m :: after ∧ (∀ b ∈ before, ¬ UsableMac b) ∧
      UsableMac m ∧ getXtrId ifs = .ok (bigEndian m ||| xtrWatermark)) ∨
    ((∀ m ∈ ifs.flatten, ¬ UsableMac m) ∧ getXtrId ifs = .ok 0) := by
  induction ifs with
  | nil => right; exact ⟨by simp, rfl⟩
  | cons macs ifs ih =>
    have hne1 : ∀ m ∈ macs, m ≠ [] := fun m h => hne m (by simp [h])
    have hne2 : ∀ m ∈ ifs.flatten, m ≠ [] := fun m h => hne m (by simp at h ⊢; exact .inr h)
    rw [List.flatten_cons]
    rcases firstUsable_spec macs with ⟨h1, h2⟩ | ⟨b, m, a, h1, h2, h3, h4⟩ | ⟨b, a, h1, _, _⟩
    · have hg : getXtrId (macs :: ifs) = getXtrId ifs := by rw [getXtrId, h1]
      rw [hg]
      rcases ih hne2 with ⟨b, m, a, e1, e2, e3, e4⟩ | ⟨e1, e2⟩
      · left
        refine ⟨macs ++ b, m, a, by rw [e1, List.append_assoc], ?_, e3, e4⟩
        intro x hx
        rcases List.mem_append.mp hx with hx | hx
        · exact (h2 x hx).2
        · exact e2 x hx
      · right
        refine ⟨?_, e2⟩
        intro x hx
        rcases List.mem_append.mp hx with hx | hx
        · exact (h2 x hx).2
        · exact e1 x hx
    · left
      exact ⟨b, m, a ++ ifs.flatten, by rw [h1]; simp, fun x hx => (h2 x hx).2, h3,
        by rw [getXtrId, h4]⟩
    · exact absurd rfl (hne1 [] (by rw [h1]; simp))

theorem watermark_eq : xtrWatermark = 0x5374656666616e6e * 2 ^ 64 := by decide

/-- C60: made from a MAC address of at most 8 bytes (Ethernet: 6) the xTR-ID is a 128 bit number, its
upper half is the fixed watermark (the bytes `Steffann`) and its lower half is the MAC address. -/
theorem xtr_id_halves (mac : List Byte) (hl : mac.length ≤ 8) :
    (bigEndian mac ||| xtrWatermark) < 2 ^ 128 ∧
    (bigEndian mac ||| xtrWatermark) / 2 ^ 64 = 0x5374656666616e6e ∧
    (bigEndian mac ||| xtrWatermark) % 2 ^ 64 = bigEndian mac := by
  have h : bigEndian mac < 2 ^ 64 := by
    refine Nat.lt_of_lt_of_le (bigEndian_lt mac) ?_
    rw [show (2 ^ 64 : Nat) = 256 ^ 8 by decide]
    exact Nat.pow_le_pow_right (by omega) hl
  have e : bigEndian mac ||| xtrWatermark = 0x5374656666616e6e * 2 ^ 64 + bigEndian mac := by
    rw [watermark_eq, Nat.or_comm, Nat.mul_comm, Nat.two_pow_add_eq_or_of_lt h]
  rw [e]
  omega

/-- C60: different MAC addresses of the same length, at most 8 bytes, give different xTR-IDs. -/
theorem xtr_id_injective {m m' : List Byte} (hl : m.length = m'.length) (h8 : m.length ≤ 8)
    (h : bigEndian m ||| xtrWatermark = bigEndian m' ||| xtrWatermark) : m = m' := by
  refine bigEndian_inj hl ?_
  rw [← (xtr_id_halves m h8).2.2, ← (xtr_id_halves m' (hl ▸ h8)).2.2, h]

/-- C60: so with link addresses of 1 to 8 bytes a generated xTR-ID is 0, and then there is no usable MAC
address, or it is a 128 bit number whose upper half is the watermark and whose lower half is the first
usable MAC address. -/
theorem xtr_id_generated (ifs : List (List (List Byte)))
    (hl : ∀ m ∈ ifs.flatten, m ≠ [] ∧ m.length ≤ 8) :
    ∃ x, getXtrId ifs = .ok x ∧ x < 2 ^ 128 ∧
      ((x = 0 ∧ ∀ m ∈ ifs.flatten, ¬ UsableMac m) ∨
        (x / 2 ^ 64 = 0x5374656666616e6e ∧ ∃ before m after, ifs.flatten = before ++ m :: after ∧
          (∀ b ∈ before, ¬ UsableMac b) ∧ UsableMac m ∧ x % 2 ^ 64 = bigEndian m)) := by
  rcases xtr_id_spec ifs (fun m hm => (hl m hm).1) with ⟨b, m, a, e1, e2, e3, e4⟩ | ⟨e1, e2⟩
  · obtain ⟨h1, h2, h3⟩ := xtr_id_halves m (hl m (by rw [e1]; simp)).2
    exact ⟨_, e4, h1, .inr ⟨h2, b, m, a, e1, e2, e3, h3⟩⟩
  · exact ⟨0, e2, by decide, .inl ⟨rfl, e1⟩⟩

/-- C60: but a longer MAC address (InfiniBand: 20 bytes) with something in its first bytes gives an
xTR-ID that is no 128 bit number (and so cannot be put into a Map-Register). -/
theorem xtr_id_too_long (mac : List Byte) (h : 2 ^ 128 ≤ bigEndian mac) :
    2 ^ 128 ≤ (bigEndian mac ||| xtrWatermark) :=
  Nat.le_trans h Nat.left_le_or

/-! ### The texts of MAC addresses -/

/-- Specification: `c` is the hexadecimal digit for `v`, in lower or upper case -/
def IsHexDigit (v : Nat) (c : Char) : Prop :=
  "0123456789abcdef".toList[v]? = some c ∨ "0123456789ABCDEF".toList[v]? = some c

/-- Specification: the text of a MAC address: two hexadecimal digits for every byte, separated by colons -/
inductive MacText : List Byte → List Char → Prop
  | last {b : Byte} {c d : Char} : IsHexDigit (b.toNat / 16) c → IsHexDigit (b.toNat % 16) d → MacText [b] [c, d]
  | more {b : Byte} {c d : Char} {bs : List Byte} {t : List Char} : IsHexDigit (b.toNat / 16) c →
      IsHexDigit (b.toNat % 16) d → MacText bs t → MacText (b :: bs) (c :: d :: ':' :: t)

theorem hexDigit_of {v : Nat} {c : Char} (h : IsHexDigit v c) : hexDigit c = some v ∧ c ≠ ':' := by
  have h1 : ∀ v ∈ List.range 16, ∀ c, "0123456789abcdef".toList[v]? = some c → hexDigit c = some v ∧ c ≠ ':' := by
    decide +kernel
  have h2 : ∀ v ∈ List.range 16, ∀ c, "0123456789ABCDEF".toList[v]? = some c → hexDigit c = some v ∧ c ≠ ':' := by
    decide +kernel
  rcases h with h | h
  · exact h1 v (List.mem_range.mpr (List.getElem?_eq_some_iff.mp h).1) c h
  · exact h2 v (List.mem_range.mpr (List.getElem?_eq_some_iff.mp h).1) c h

theorem hexText_byte {b : Byte} {c d : Char} (h1 : IsHexDigit (b.toNat / 16) c) (h2 : IsHexDigit (b.toNat % 16) d) :
    hexText [c, d] = .ok b.toNat := by
  simp only [hexText, hexInt, (hexDigit_of h1).1, (hexDigit_of h2).1]
  rw [if_neg (by simp)]
  refine congrArg Except.ok ?_
  omega

theorem splitColon_text {m : List Byte} {t : List Char} (h : MacText m t) :
    ∀ acc, macIntParts acc (splitColon [] t) = .ok (m.foldl (fun acc (p : Byte) => acc * 2 ^ 8 + p.toNat) acc) := by
  induction h with
  | last h1 h2 =>
    intro acc
    simp only [splitColon, (hexDigit_of h1).2, (hexDigit_of h2).2, if_false, List.nil_append, List.cons_append,
      macIntParts, hexText_byte h1 h2, exBind_okl, List.foldl_cons, List.foldl_nil]
  | more h1 h2 _ ih =>
    intro acc
    simp only [splitColon, (hexDigit_of h1).2, (hexDigit_of h2).2, if_false, if_true, List.nil_append,
      List.cons_append, macIntParts, hexText_byte h1 h2, exBind_okl, List.foldl_cons]
    exact ih _

theorem take2_text {b : Byte} {m : List Byte} {t : List Char} (h : MacText (b :: m) t) :
    hexText (t.take 2) = .ok b.toNat := by
  cases h with
  | last h1 h2 => exact hexText_byte h1 h2
  | more h1 h2 _ => exact hexText_byte h1 h2

/-- Specification: the texts of a list of MAC addresses -/
inductive MacTexts : List (List Byte) → List (List Char) → Prop
  | nil : MacTexts [] []
  | cons {m : List Byte} {t : List Char} {ms : List (List Byte)} {ts : List (List Char)} :
      MacText m t → MacTexts ms ts → MacTexts (m :: ms) (t :: ts)

/-- Specification: per interface -/
inductive InterfaceTexts : List (List (List Byte)) → List (List (List Char)) → Prop
  | nil : InterfaceTexts [] []
  | cons {ms : List (List Byte)} {ts : List (List Char)} {ifs : List (List (List Byte))}
      {ifts : List (List (List Char))} :
      MacTexts ms ts → InterfaceTexts ifs ifts → InterfaceTexts (ms :: ifs) (ts :: ifts)

theorem macText_ne {m : List Byte} {t : List Char} (h : MacText m t) : m ≠ [] := by
  cases h <;> simp

theorem firstUsable_text {ms : List (List Byte)} {ts : List (List Char)} (h : MacTexts ms ts) :
    firstUsableText ts = firstUsable ms := by
  induction h with
  | nil => rfl
  | @cons m t ms ts h1 _ ih =>
    cases m with
    | nil => exact absurd rfl (macText_ne h1)
    | cons b m =>
      have e := splitColon_text h1 0
      simp only [firstUsableText, firstUsable, take2_text h1, exBind_okl, e, ih, macInt]
      rfl

/-- C60: on the texts of the MAC addresses (two hexadecimal digits per byte, separated by colons, in either case) the
xTR-ID is the one the theorems above describe. -/
theorem xtr_id_text {ifs : List (List (List Byte))} {ts : List (List (List Char))} (h : InterfaceTexts ifs ts) :
    getXtrIdText ts = getXtrId ifs ∧ ∀ m ∈ ifs.flatten, m ≠ [] := by
  induction h with
  | nil => exact ⟨rfl, by simp⟩
  | @cons ms t ifs ifts h1 _ ih =>
    refine ⟨?_, ?_⟩
    · simp only [getXtrIdText, getXtrId, firstUsable_text h1, ih.1]
    · have hms : ∀ m ∈ ms, m ≠ [] := by
        clear ih
        induction h1 with
        | nil => simp
        | cons h _ ih2 =>
          intro m hm
          rcases List.mem_cons.mp hm with rfl | hm
          · exact macText_ne h
          · exact ih2 m hm
      intro m hm
      rw [List.flatten_cons, List.mem_append] at hm
      rcases hm with hm | hm
      · exact hms m hm
      · exact ih.2 m hm

/-! ### The hypotheses are met -/

example : getXtrIdText [["00:00:00:00:00:00".toList], ["52:54:00:12:34:aB".toList]] =
    .ok 0x5374656666616e6e00005254001234ab := by decide +kernel
example : MacText [0x52, 0xab] "52:aB".toList :=
  .more (.inl rfl) (.inl rfl) (.last (.inl rfl) (.inr rfl))

/-- lo: 00:00:00:00:00:00, eth0: 52:54:00:12:34:56 -/
example : getXtrId [[[0, 0, 0, 0, 0, 0]], [[0x52, 0x54, 0, 0x12, 0x34, 0x56]]] =
    .ok 0x5374656666616e6e0000525400123456 := by decide +kernel
example : UsableMac [0x52, 0x54, 0, 0x12, 0x34, 0x56] :=
  ⟨⟨0x52, _, rfl, rfl⟩, 0x52, by simp, by decide⟩
example : 2 ^ 128 ≤ bigEndian [0x80, 0, 0, 8, 0xfe, 0x80, 0, 0, 0, 0, 0, 0, 0, 2, 0xc9, 3, 0, 0, 0, 1] := by
  decide +kernel

theorem hexInt_error (t : List Char) : ∀ acc e, hexInt acc t = .error e → e = .value := by
  induction t with
  | nil => intro acc e h; cases h
  | cons c t ih =>
    intro acc e h
    rw [hexInt] at h
    split at h
    · exact ih _ _ h
    · cases h; rfl

theorem hexText_error {t : List Char} {e : Err} (h : hexText t = .error e) : e = .value := by
  rw [hexText] at h
  split at h
  · cases h; rfl
  · exact hexInt_error _ _ _ h

theorem macIntParts_error (ps : List (List Char)) : ∀ acc e, macIntParts acc ps = .error e → e = .value := by
  induction ps with
  | nil => intro acc e h; cases h
  | cons p ps ih =>
    intro acc e h
    rw [macIntParts] at h
    cases hp : hexText p with
    | error x => rw [hp] at h; cases h; exact hexText_error hp
    | ok v => rw [hp] at h; exact ih _ _ h

theorem firstUsableText_error (ms : List (List Char)) (e : Err) (h : firstUsableText ms = .error e) : e = .value := by
  induction ms with
  | nil => cases h
  | cons m ms ih =>
    rw [firstUsableText] at h
    cases h1 : hexText (m.take 2) with
    | error x => rw [h1] at h; cases h; exact hexText_error h1
    | ok v =>
      rw [h1] at h
      simp only [bind, Except.bind] at h
      split at h
      · exact ih h
      · cases h2 : macIntParts 0 (splitColon [] m) with
        | error x => rw [h2] at h; cases h; exact macIntParts_error _ _ _ h2
        | ok n =>
          rw [h2] at h
          simp only at h
          split at h
          · exact ih h
          · cases h

/-- C60: whatever texts the operating system gives for the link addresses, the only exception is ValueError. -/
theorem xtr_id_raises (ts : List (List (List Char))) (e : Err) (h : getXtrIdText ts = .error e) : e = .value := by
  induction ts with
  | nil => cases h
  | cons ms ts ih =>
    rw [getXtrIdText] at h
    split at h
    · rename_i x hx; cases h; exact firstUsableText_error _ _ hx
    · cases h
    · exact ih h

example : getXtrIdText [["0g:00".toList]] = .error .value := by decide +kernel

end PyLisp.Props
