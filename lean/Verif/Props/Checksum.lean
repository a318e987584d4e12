import Verif.Checksum
/-
C01, C02: the Internet checksum.
-/
namespace PyLisp.Props
open PyLisp

/-- C01: the checksum always fits 16 bits. -/
theorem checksum_range (m : Bytes) : onesComplement m < 65536 := by
  rw [onesComplement_eq]; omega

/-- RFC 1071, independently of the code: the sum of the big-endian 16-bit words of a message.  Bytes at
even positions count 256 times, bytes at odd positions once; so a missing last byte counts as zero. -/
def byteSum : Bool → Bytes → Nat
  | _, [] => 0
  | true, b :: r => 256 * b.toNat + byteSum false r
  | false, b :: r => b.toNat + byteSum true r

theorem words_sum (m : Bytes) : (words m).sum = byteSum true m := by
  induction m using words.induct with
  | case1 => rfl
  | case2 b => simp [words, word16, byteSum]; omega
  | case3 b0 b1 rest ih => simp only [words, List.sum_cons, ih, word16, byteSum]; omega

/-- C01 (independent closed form): the checksum is the complement of the sum of the 16-bit words modulo
65535, where only an all-zero message has sum representation 0. -/
theorem checksum_closed_form (m : Bytes) :
    onesComplement m =
      if byteSum true m = 0 then 65535
      else if byteSum true m % 65535 = 0 then 0 else 65535 - byteSum true m % 65535 := by
  rw [onesComplement_eq, ocSum_eq _ (words_lt m), words_sum]
  split
  · rfl
  · split <;> omega

theorem byteSum_append (k : Bool) (a b : Bytes) :
    byteSum k (a ++ b) = byteSum k a + byteSum (if a.length % 2 = 0 then k else !k) b := by
  induction a generalizing k with
  | nil => simp [byteSum]
  | cons x a ih =>
    have e : (if (x :: a).length % 2 = 0 then k else !k) =
        (if a.length % 2 = 0 then !k else !!k) := by
      simp only [List.length_cons]
      rcases Nat.mod_two_eq_zero_or_one a.length with h | h
      · rw [if_neg (by omega), if_pos h]
      · rw [if_pos (by omega), if_neg (by omega)]; simp
    rw [e]
    cases k <;> simp only [List.cons_append, byteSum, ih] <;> simp <;> omega

theorem byteSum_be16 {v : Nat} (h : v < 65536) : byteSum true (be16 v) = v := by
  simp only [be16, byteSum, BitVec.toNat_ofNat]; omega

/-- C01: a message of odd length has the checksum it has with a zero byte appended. -/
theorem checksum_odd (m : Bytes) : onesComplement (m ++ [0#8]) = onesComplement m := by
  have : byteSum true (m ++ [0#8]) = byteSum true m := by
    rw [byteSum_append]
    generalize (if m.length % 2 = 0 then true else !true) = k
    cases k <;> simp [byteSum]
  rw [checksum_closed_form, checksum_closed_form, this]

/-- a message with a 16-bit field after an even number of bytes -/
theorem byteSum_field (pre post : Bytes) (h : pre.length % 2 = 0) {v : Nat} (hv : v < 65536) :
    byteSum true (pre ++ be16 v ++ post) = byteSum true pre + v + byteSum true post := by
  rw [List.append_assoc, byteSum_append, byteSum_append, if_pos h, byteSum_be16 hv]
  simp [be16]; omega

/-- C01: storing the checksum of a message, computed with a zeroed aligned 16-bit field, in that
field gives a message whose checksum is 0 (what a receiver checks). -/
theorem checksum_self_verifying (pre post : Bytes) (h : pre.length % 2 = 0) :
    onesComplement (pre ++ be16 (onesComplement (pre ++ be16 0 ++ post)) ++ post) = 0 := by
  have hlt := checksum_range (pre ++ be16 0 ++ post)
  have hw : ∀ v, v < 65536 → byteSum true (pre ++ be16 v ++ post)
      = byteSum true pre + v + byteSum true post := fun v hv => byteSum_field pre post h hv
  have h0 := checksum_closed_form (pre ++ be16 0 ++ post)
  rw [hw 0 (by omega)] at h0
  have h1 := checksum_closed_form
    (pre ++ be16 (onesComplement (pre ++ be16 0 ++ post)) ++ post)
  rw [hw _ hlt] at h1
  rw [h1]
  generalize onesComplement (pre ++ be16 0 ++ post) = c at *
  generalize byteSum true pre = a at *
  generalize byteSum true post = b at *
  clear h1 hw
  split at h0 <;> (try split at h0) <;> split <;> (try split) <;> omega

example : onesComplement ([0x45#8, 0x00#8] ++ be16 (onesComplement ([0x45#8, 0] ++ be16 0 ++ [7#8]))
    ++ [7#8]) = 0 := checksum_self_verifying [0x45#8, 0] [7#8] rfl

/-- C02: replacing one aligned 16-bit word by a different one changes the checksum, unless the
two words are the two representations of zero. -/
theorem checksum_detects_word_change (pre post : Bytes) (v w : Nat) (h : pre.length % 2 = 0)
    (hv : v < 65536) (hw : w < 65536) (hne : v ≠ w)
    (hz : ¬ (v = 0 ∧ w = 65535)) (hz' : ¬ (v = 65535 ∧ w = 0)) :
    onesComplement (pre ++ be16 v ++ post) ≠ onesComplement (pre ++ be16 w ++ post) := by
  have hs : ∀ v, v < 65536 → byteSum true (pre ++ be16 v ++ post)
      = byteSum true pre + v + byteSum true post := fun v hv => byteSum_field pre post h hv
  rw [checksum_closed_form, checksum_closed_form, hs v hv, hs w hw]
  generalize byteSum true pre = a
  generalize byteSum true post = b
  split <;> split <;> (try split) <;> (try split) <;> omega

example : onesComplement ([1#8, 2] ++ be16 77 ++ [3#8]) ≠ onesComplement ([1#8, 2] ++ be16 78 ++ [3#8]) :=
  checksum_detects_word_change [1#8, 2] [3#8] 77 78 rfl (by decide) (by decide) (by decide)
    (by decide) (by decide)

theorem byteSum_words (ws : List Nat) (post : Bytes) (h : ∀ w ∈ ws, w < 65536) :
    byteSum true (ws.flatMap be16 ++ post) = ws.sum + byteSum true post := by
  induction ws with
  | nil => simp
  | cons w ws ih =>
    rw [List.flatMap_cons, List.append_assoc, byteSum_append, byteSum_be16 (h w (by simp)),
      if_pos (by simp [be16]), ih (fun x hx => h x (by simp [hx])), List.sum_cons]
    omega

/-- C02: permuting whole 16-bit words never changes the checksum. -/
theorem checksum_word_order_irrelevant (ws ws' : List Nat) (post : Bytes) (h : ws.Perm ws')
    (hw : ∀ w ∈ ws, w < 65536) :
    onesComplement (ws.flatMap be16 ++ post) = onesComplement (ws'.flatMap be16 ++ post) := by
  rw [checksum_closed_form, checksum_closed_form, byteSum_words ws post hw,
    byteSum_words ws' post (fun w hx => hw w (h.mem_iff.mpr hx)), h.sum_nat]

example : onesComplement ([1, 2, 0xabcd].flatMap be16 ++ [7#8]) =
    onesComplement ([0xabcd, 1, 2].flatMap be16 ++ [7#8]) :=
  checksum_word_order_irrelevant _ _ _ (by decide) (by decide)

/-- C02: every single-byte error is detected, without exception. -/
theorem checksum_detects_byte_change (pre post : Bytes) (a b : Byte) (hne : a ≠ b) :
    onesComplement (pre ++ a :: post) ≠ onesComplement (pre ++ b :: post) := by
  have ha := a.isLt; have hb := b.isLt
  have hn : a.toNat ≠ b.toNat := fun h => hne (BitVec.eq_of_toNat_eq h)
  have key : ∀ m m' : Bytes, byteSum true m % 65535 ≠ byteSum true m' % 65535 →
      onesComplement m ≠ onesComplement m' := by
    intro m m' h
    rw [checksum_closed_form, checksum_closed_form]
    split <;> split <;> (try split) <;> (try split) <;> omega
  apply key
  rw [byteSum_append, byteSum_append]
  generalize (if pre.length % 2 = 0 then true else !true) = k
  cases k <;> simp only [byteSum] <;> omega

example : onesComplement ([1#8] ++ 0#8 :: [3#8]) ≠ onesComplement ([1#8] ++ 255#8 :: [3#8]) :=
  checksum_detects_byte_change [1#8] [3#8] 0 255 (by decide)

/-- C02 is sharp: swapping the two representations of zero is not detected (unless everything else
is zero as well). -/
theorem checksum_zero_ambiguity (pre post : Bytes) (h : pre.length % 2 = 0)
    (hnz : byteSum true pre + byteSum true post ≠ 0) :
    onesComplement (pre ++ be16 0 ++ post) = onesComplement (pre ++ be16 65535 ++ post) := by
  have hs : ∀ v, v < 65536 → byteSum true (pre ++ be16 v ++ post)
      = byteSum true pre + v + byteSum true post := fun v hv => byteSum_field pre post h hv
  rw [checksum_closed_form, checksum_closed_form, hs 0 (by omega), hs 65535 (by omega)]
  clear hs
  generalize byteSum true pre = a at *
  generalize byteSum true post = b at *
  split <;> (try split) <;> (try split) <;> (try split) <;> omega

end PyLisp.Props
