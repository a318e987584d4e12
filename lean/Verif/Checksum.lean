import Verif.Bits
/-
Model of pylisp/utils/checksum.py.
-/
namespace PyLisp

/-- the 16-bit big-endian word made of two bytes (checksum.py:17) -/
def word16 (hi lo : Byte) : Nat := hi.toNat * 256 + lo.toNat

/-- checksum.py:11-17: the successive `next_16_bits` values; an odd trailing byte is padded
with a zero byte (checksum.py:12-13). -/
def words : Bytes → List Nat
  | [] => []
  | [b] => [word16 b 0]
  | b0 :: b1 :: rest => word16 b0 b1 :: words rest

/-- checksum.py:18-19: `tmp = checksum + next_16_bits; checksum = (tmp & 0xffff) + (tmp >> 16)` -/
def ckStep (c w : Nat) : Nat := ((c + w) &&& 0xffff) + ((c + w) >>> 16)

/-- checksum.py:8-22 `ones_complement`.  `~checksum & 0xffff` on a Python integer is
`(-checksum - 1) mod 65536`. -/
def onesComplement (m : Bytes) : Nat :=
  ((-(((words m).foldl ckStep 0 : Nat) : Int) - 1) % 65536).toNat

/-! ### Lemmas -/

theorem word16_lt (a b : Byte) : word16 a b < 65536 := by
  have := a.isLt; have := b.isLt; unfold word16; omega

theorem words_lt (m : Bytes) : ∀ w ∈ words m, w < 65536 := by
  induction m using words.induct with
  | case1 => simp [words]
  | case2 b => simp only [words, List.mem_singleton]; rintro w rfl; exact word16_lt _ _
  | case3 b0 b1 rest ih =>
    simp only [words, List.mem_cons]
    rintro w (rfl | h)
    · exact word16_lt _ _
    · exact ih w h

theorem ckStep_eq (c w : Nat) : ckStep c w = (c + w) % 65536 + (c + w) / 65536 := by
  unfold ckStep
  rw [show (0xffff : Nat) = 2 ^ 16 - 1 from rfl, Nat.and_two_pow_sub_one_eq_mod,
    Nat.shiftRight_eq_div_pow]

/-- The accumulator after adding the words `ws` to `c`, in closed form: it is congruent to the sum
modulo 65535, at most 65535, and zero only for a zero sum. -/
theorem ckFold_spec (ws : List Nat) (c : Nat) (hc : c ≤ 65535) (hw : ∀ w ∈ ws, w < 65536) :
    (ws.foldl ckStep c) ≤ 65535 ∧ (ws.foldl ckStep c) % 65535 = (c + ws.sum) % 65535 ∧
    (ws.foldl ckStep c = 0 ↔ c + ws.sum = 0) := by
  induction ws generalizing c with
  | nil => simp; omega
  | cons w ws ih =>
    have hw0 : w < 65536 := hw w (by simp)
    have h1 : ckStep c w ≤ 65535 := by rw [ckStep_eq]; omega
    have h2 := ih (ckStep c w) h1 (fun x hx => hw x (by simp [hx]))
    have h3 : ckStep c w % 65535 = (c + w) % 65535 := by rw [ckStep_eq]; omega
    have h4 : ckStep c w = 0 ↔ c + w = 0 := by rw [ckStep_eq]; omega
    simp only [List.foldl_cons, List.sum_cons]
    refine ⟨h2.1, ?_, ?_⟩
    · rw [h2.2.1]; omega
    · rw [h2.2.2]; omega

/-- one's complement sum (folded) of a list of words -/
def ocSum (ws : List Nat) : Nat := ws.foldl ckStep 0

theorem ocSum_le (ws : List Nat) (hw : ∀ w ∈ ws, w < 65536) : ocSum ws ≤ 65535 :=
  (ckFold_spec ws 0 (by omega) hw).1

theorem ocSum_eq (ws : List Nat) (hw : ∀ w ∈ ws, w < 65536) :
    ocSum ws = if ws.sum = 0 then 0 else if ws.sum % 65535 = 0 then 65535 else ws.sum % 65535 := by
  have h := ckFold_spec ws 0 (by omega) hw
  unfold ocSum
  split
  · omega
  · split <;> omega

theorem onesComplement_eq (m : Bytes) : onesComplement m = 65535 - ocSum (words m) := by
  have h := ocSum_le (words m) (words_lt m)
  unfold onesComplement
  unfold ocSum at *
  omega

theorem words_append (a b : Bytes) (h : a.length % 2 = 0) : words (a ++ b) = words a ++ words b := by
  induction a using words.induct with
  | case1 => rfl
  | case2 x => simp at h
  | case3 x y r ih =>
    simp only [List.cons_append, words]
    rw [ih (by simp at h; omega)]

/-- big-endian bytes of a 16-bit value -/
def be16 (v : Nat) : Bytes := [BitVec.ofNat 8 (v / 256), BitVec.ofNat 8 v]

theorem words_be16 {v : Nat} (h : v < 65536) : words (be16 v) = [v] := by
  simp [be16, words, word16]; omega

theorem be16_surj (a b : Byte) : be16 (word16 a b) = [a, b] := by
  have ha := a.isLt; have hb := b.isLt
  have h1 : word16 a b / 256 = a.toNat := by unfold word16; omega
  have h2 : word16 a b % 256 = b.toNat := by unfold word16; omega
  unfold be16; rw [h1]
  congr 1
  · simp
  · congr 1; apply BitVec.eq_of_toNat_eq; simp; exact h2

end PyLisp
