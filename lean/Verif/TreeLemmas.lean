import Verif.Tree
/-
Facts about networks as sets of addresses, and about containers.
-/
namespace PyLisp

/-! ### Networks -/

theorem Net.containsIP_iff {n : Net} {a : IP} :
    n.containsIP a = true ↔ n.ver = a.ver ∧ n.base ≤ a.val ∧ a.val < n.base + n.size := by
  simp [Net.containsIP, and_assoc]

theorem Net.contains_first (n : Net) : n.containsIP n.first = true := by
  have := n.size_pos
  exact containsIP_iff.mpr ⟨rfl, Nat.le_refl _, by show n.base < _; omega⟩

theorem Net.contains_last (n : Net) : n.containsIP n.last = true := by
  have := n.size_pos
  refine containsIP_iff.mpr ⟨rfl, ?_, ?_⟩
  · show n.base ≤ n.base + (n.size - 1); omega
  · show n.base + (n.size - 1) < _; omega

/-- networks overlap exactly when they share an address -/
theorem Net.overlaps_iff {a b : Net} :
    a.overlaps b = true ↔ ∃ x, a.containsIP x = true ∧ b.containsIP x = true := by
  have hsa := a.size_pos
  have hsb := b.size_pos
  simp only [Net.overlaps, Bool.or_eq_true]
  constructor
  · rintro (((h | h) | h) | h)
    · exact ⟨_, a.contains_first, h⟩
    · exact ⟨_, a.contains_last, h⟩
    · exact ⟨_, h, b.contains_first⟩
    · exact ⟨_, h, b.contains_last⟩
  · rintro ⟨x, h1, h2⟩
    simp only [containsIP_iff] at h1 h2 ⊢
    by_cases hc : a.base ≤ b.base
    · left; right
      exact ⟨h1.1.trans h2.1.symm, hc, by show b.base < _; omega⟩
    · left; left; left
      exact ⟨h2.1.trans h1.1.symm, by show b.base ≤ a.base; omega, by show a.base < _; omega⟩

theorem Net.overlaps_comm (a b : Net) : a.overlaps b = b.overlaps a := by
  rw [Bool.eq_iff_iff, overlaps_iff, overlaps_iff]
  constructor <;> rintro ⟨x, h1, h2⟩ <;> exact ⟨x, h2, h1⟩

theorem Net.size_mul (n : Net) : n.base = n.size * (n.base / n.size) := by
  have := Nat.div_add_mod n.base n.size
  rw [show n.base % n.size = 0 from n.aligned] at this; omega

/-- `b` inside `a`, on numbers -/
theorem Net.covers_num {a b : Net} : a.covers b = true ↔
    a.ver = b.ver ∧ a.base ≤ b.base ∧ b.base + b.size ≤ a.base + a.size := by
  have hsa := a.size_pos
  have hsb := b.size_pos
  have ec : a.covers b = true ↔ (a.overlaps b = true ∧ a.base ≤ b.base) ∧
      b.base + (b.size - 1) ≤ a.base + (a.size - 1) := by
    rw [Net.covers, Bool.and_eq_true, Bool.and_eq_true, decide_eq_true_iff, decide_eq_true_iff]
    rfl
  rw [ec, overlaps_iff]
  constructor
  · rintro ⟨⟨⟨x, h1, h2⟩, h3⟩, h4⟩
    rw [containsIP_iff] at h1 h2
    exact ⟨h1.1.trans h2.1.symm, h3, by omega⟩
  · rintro ⟨hv, h1, h2⟩
    refine ⟨⟨⟨b.first, ?_, b.contains_first⟩, h1⟩, by omega⟩
    exact containsIP_iff.mpr ⟨hv, h1, by show b.base < _; omega⟩

/-- `covers` is inclusion of the sets of addresses -/
theorem Net.covers_iff {a b : Net} :
    a.covers b = true ↔ ∀ x, b.containsIP x = true → a.containsIP x = true := by
  have hsa := a.size_pos
  have hsb := b.size_pos
  constructor
  · intro h x hx
    obtain ⟨hv, h1, h2⟩ := covers_num.mp h
    rw [containsIP_iff] at hx ⊢
    exact ⟨hv.trans hx.1, by omega, by omega⟩
  · intro h
    have h1 := containsIP_iff.mp (h _ b.contains_first)
    have h2 := containsIP_iff.mp (h _ b.contains_last)
    have e1 : b.first.val = b.base := rfl
    have e2 : b.last.val = b.base + (b.size - 1) := rfl
    exact covers_num.mpr ⟨h1.1, by omega, by omega⟩

theorem Net.covers_refl (a : Net) : a.covers a = true := covers_iff.mpr fun _ h => h

theorem Net.covers_trans {a b c : Net} (h1 : a.covers b = true) (h2 : b.covers c = true) :
    a.covers c = true :=
  covers_iff.mpr fun x hx => covers_iff.mp h1 x (covers_iff.mp h2 x hx)

theorem Net.covers_overlaps {a b : Net} (h : a.covers b = true) : a.overlaps b = true :=
  overlaps_iff.mpr ⟨b.first, covers_iff.mp h _ b.contains_first, b.contains_first⟩

theorem Net.covers_antisymm {a b : Net} (h1 : a.covers b = true) (h2 : b.covers a = true) :
    a = b := by
  obtain ⟨hv, e1, e2⟩ := covers_num.mp h1
  obtain ⟨_, e3, e4⟩ := covers_num.mp h2
  have hs : a.size = b.size := by omega
  refine Net.ext' hv (by omega) ?_
  have := (Nat.pow_right_inj (Nat.lt_succ_self 1)).mp (show 2 ^ _ = 2 ^ _ from hs)
  have h3 := a.plen_le
  have h4 := b.plen_le
  rw [hv] at this h3
  omega

/-- overlapping networks are nested -/
theorem Net.nested {a b : Net} (h : a.overlaps b = true) :
    a.covers b = true ∨ b.covers a = true := by
  obtain ⟨x, h1, h2⟩ := overlaps_iff.mp h
  rw [containsIP_iff] at h1 h2
  have key : ∀ {s t i j x : Nat}, 0 < s → s ∣ t → s * i ≤ x → x < s * i + s →
      t * j ≤ x → x < t * j + t → t * j ≤ s * i ∧ s * i + s ≤ t * j + t := by
    rintro s t i j x hs ⟨c, rfl⟩ a1 a2 a3 a4
    have e1 : s * c * j = s * (c * j) := Nat.mul_assoc _ _ _
    have e2 : s * i + s = s * (i + 1) := by rw [Nat.mul_add, Nat.mul_one]
    have e3 : s * c * j + s * c = s * (c * j + c) := by rw [Nat.mul_add, e1]
    have b1 : c * j < i + 1 := Nat.lt_of_mul_lt_mul_left (a := s) (by rw [← e2, ← e1]; omega)
    have b2 : i < c * j + c := Nat.lt_of_mul_lt_mul_left (a := s) (by rw [← e3]; omega)
    constructor
    · rw [e1]; exact Nat.mul_le_mul_left _ (by omega)
    · rw [e2, e3]; exact Nat.mul_le_mul_left _ (by omega)
  have hv : a.ver = b.ver := h1.1.trans h2.1.symm
  have ea := a.size_mul
  have eb := b.size_mul
  rcases Nat.le_total a.plen b.plen with hp | hp
  · left
    have hd : b.size ∣ a.size := Nat.pow_dvd_pow 2 (by rw [hv]; omega)
    rw [covers_num]
    have := key (i := b.base / b.size) (j := a.base / a.size) b.size_pos hd
      (by rw [← eb]; exact h2.2.1) (by rw [← eb]; exact h2.2.2)
      (by rw [← ea]; exact h1.2.1) (by rw [← ea]; exact h1.2.2)
    rw [← ea, ← eb] at this
    exact ⟨hv, this.1, this.2⟩
  · right
    have hd : a.size ∣ b.size := Nat.pow_dvd_pow 2 (by rw [hv]; omega)
    rw [covers_num]
    have := key (i := a.base / a.size) (j := b.base / b.size) a.size_pos hd
      (by rw [← ea]; exact h1.2.1) (by rw [← ea]; exact h1.2.2)
      (by rw [← eb]; exact h2.2.1) (by rw [← eb]; exact h2.2.2)
    rw [← ea, ← eb] at this
    exact ⟨hv.symm, this.1, this.2⟩

/-- a covering network has the shorter (or the same) prefix length -/
theorem Net.covers_plen {a b : Net} (h : a.covers b = true) : a.plen ≤ b.plen := by
  obtain ⟨hv, e1, e2⟩ := covers_num.mp h
  have hs : b.size ≤ a.size := by omega
  have := (Nat.pow_le_pow_iff_right (Nat.lt_succ_self 1)).mp (show 2 ^ _ ≤ 2 ^ _ from hs)
  have h3 := a.plen_le
  have h4 := b.plen_le
  rw [hv] at this h3
  omega

/-- overlapping networks: the one with the shorter prefix covers the other -/
theorem Net.covers_of_plen {a b : Net} (h : a.overlaps b = true) (hp : a.plen ≤ b.plen) :
    a.covers b = true := by
  rcases Net.nested h with h1 | h1
  · exact h1
  · have h2 := Net.covers_plen h1
    have hv := (covers_num.mp h1).1
    obtain ⟨_, e1, e2⟩ := covers_num.mp h1
    have hs : a.size = b.size := by
      unfold Net.size; rw [hv, show a.plen = b.plen by omega]
    exact covers_num.mpr ⟨hv.symm, by omega, by omega⟩

theorem Net.covers_iff_plen {a b : Net} :
    a.covers b = true ↔ a.overlaps b = true ∧ a.plen ≤ b.plen :=
  ⟨fun h => ⟨covers_overlaps h, covers_plen h⟩, fun ⟨h1, h2⟩ => covers_of_plen h1 h2⟩

theorem IP.toNet_contains (a x : IP) : a.toNet.containsIP x = true ↔ x = a := by
  rw [Net.containsIP_iff]
  have : a.toNet.size = 1 := by simp [Net.size, IP.toNet]
  rw [this]
  constructor
  · rintro ⟨hv, h1, h2⟩
    refine IP.ext' hv.symm ?_
    have h1 : a.val ≤ x.val := h1
    have h2 : x.val < a.val + 1 := h2
    omega
  · rintro rfl
    exact ⟨rfl, Nat.le_refl _, Nat.lt_succ_self _⟩

theorem Net.covers_ip {n : Net} {a : IP} : n.covers a.toNet = true ↔ n.containsIP a = true := by
  rw [covers_iff]
  constructor
  · intro h; exact h a ((IP.toNet_contains a a).mpr rfl)
  · intro h x hx; rw [(IP.toNet_contains a x).mp hx]; exact h

theorem Net.overlaps_ip {n : Net} {a : IP} : n.overlaps a.toNet = true ↔ n.containsIP a = true := by
  rw [overlaps_iff]
  constructor
  · rintro ⟨x, h, hx⟩; rw [(IP.toNet_contains a x).mp hx] at h; exact h
  · intro h; exact ⟨a, h, (IP.toNet_contains a a).mpr rfl⟩

end PyLisp
