import Verif.Props.AddrText

/-!
# C97: the form of the texts of IPv6 addresses

The library's writer (`text6`, see `Verif/IPText.lean`) writes the form RFC 5952 recommends. The statement speaks of
`ZeroRun`, which is defined here from the list of groups alone.
-/

namespace PyLisp.IPText
open PyLisp PyLisp.Rep PyLisp.Props

/-- `l` groups from number `s` on are zeros -/
def ZeroRun (hs : List Nat) (s l : Nat) : Prop := s + l ≤ hs.length ∧ ∀ i, s ≤ i → i < s + l → hs[i]? = some 0

/-- the same for a list of truth values -/
def TrueRun (bs : List Bool) (s l : Nat) : Bool := (List.range' s l).all fun i => bs[i]? == some true

/-- the run found is the best one, checked run by run -/
def bestOk (bs : List Bool) : Bool :=
  (List.range 9).all fun s => (List.range 9).all fun l =>
    !(decide (1 ≤ l) && TrueRun bs s l) || decide (l < (bestRun 0 0 0 0 0 bs).2) ||
      (decide (l = (bestRun 0 0 0 0 0 bs).2) && decide ((bestRun 0 0 0 0 0 bs).1 ≤ s))

/-- for all 256 patterns of zeros -/
theorem bestOk8 : ∀ b0 b1 b2 b3 b4 b5 b6 b7 : Bool, bestOk [b0, b1, b2, b3, b4, b5, b6, b7] = true := by decide +kernel

theorem bestRun8_best {bs : List Bool} (hlen : bs.length = 8) (s : Nat) (hs : s < 9) (l : Nat) (hl : l < 9) (h1 : 1 ≤ l)
    (ht : TrueRun bs s l = true) : l < (bestRun 0 0 0 0 0 bs).2 ∨
      (l = (bestRun 0 0 0 0 0 bs).2 ∧ (bestRun 0 0 0 0 0 bs).1 ≤ s) := by
  have h : bestOk bs = true := by
    obtain ⟨a, b, c, d, e, f, g, i, rfl⟩ := list8 hlen
    exact bestOk8 a b c d e f g i
  unfold bestOk at h
  have := List.all_eq_true.mp (List.all_eq_true.mp h s (List.mem_range.mpr hs)) l (List.mem_range.mpr hl)
  simpa [h1, ht] using this

theorem trueRun_of_zeros {hs : List Nat} {s l : Nat} (h : ZeroRun hs s l) :
    TrueRun (hs.map fun x => decide (x = 0)) s l = true := by
  unfold TrueRun
  rw [List.all_eq_true]
  intro i hi
  obtain ⟨h1, h2⟩ := List.mem_range'_1.mp hi
  have := h.2 i h1 h2
  rw [List.getElem?_map, this]
  rfl

theorem bestRun_best {hs : List Nat} (hlen : hs.length = 8) (r : Nat × Nat)
    (hr : bestRun 0 0 0 0 0 (hs.map fun x => decide (x = 0)) = r) (s l : Nat) (hl : 1 ≤ l) (h : ZeroRun hs s l) :
    l < r.2 ∨ (l = r.2 ∧ r.1 ≤ s) := by
  have ht := trueRun_of_zeros h
  have hb := h.1
  subst hr
  exact bestRun8_best (by simp [hlen]) s (by omega) l (by omega) hl ht

theorem joinWith_append {sep : Char} : ∀ {l m : List (List Char)}, l ≠ [] → m ≠ [] →
    joinWith sep (l ++ m) = joinWith sep l ++ sep :: joinWith sep m
  | [], _, h, _ => absurd rfl h
  | [p], m, _, hm => by
    cases m with
    | nil => exact absurd rfl hm
    | cons q m => rfl
  | p :: q :: r, m, _, hm => by
    have ih := joinWith_append (sep := sep) (l := q :: r) (m := m) (by simp) hm
    simp only [List.cons_append] at ih
    simp [joinWith, ih]

/-- a gap, wherever it is, is written as two colons -/
theorem join_gap (a b : List (List Char)) (pa pb : Prop) [Decidable pa] [Decidable pb] (ha : pa ↔ a = []) (hb : pb ↔ b = []) :
    joinWith ':' ((if pa then [[]] else []) ++ a ++ [[]] ++ b ++ (if pb then [[]] else [])) =
      joinWith ':' a ++ ':' :: ':' :: joinWith ':' b := by
  by_cases h1 : a = []
  · rw [if_pos (ha.mpr h1)]
    subst h1
    by_cases h2 : b = []
    · rw [if_pos (hb.mpr h2)]
      subst h2; rfl
    · rw [if_neg (fun e => h2 (hb.mp e)), List.append_nil, joinWith_append (by simp) h2]
      rfl
  · rw [if_neg (fun e => h1 (ha.mp e)), List.nil_append]
    by_cases h2 : b = []
    · rw [if_pos (hb.mpr h2)]
      subst h2
      rw [List.append_nil, List.append_assoc, joinWith_append h1 (by simp)]
      rfl
    · rw [if_neg (fun e => h2 (hb.mp e)), List.append_nil, List.append_assoc, joinWith_append h1 (by simp)]
      cases b with
      | nil => exact absurd rfl h2
      | cons x b => rfl

theorem hexF_lower : ∀ f n, ∀ c ∈ hexF f n, c ∈ ['0', '1', '2', '3', '4', '5', '6', '7', '8', '9', 'a', 'b', 'c', 'd', 'e', 'f']
  | 0, n, c, h => by
    unfold hexF at h
    rw [List.mem_singleton.mp h]
    exact (by decide : ∀ k, k < 16 → hexChar k ∈ ['0', '1', '2', '3', '4', '5', '6', '7', '8', '9', 'a', 'b', 'c', 'd', 'e', 'f']) _ (Nat.mod_lt _ (by omega))
  | f + 1, n, c, h => by
    unfold hexF at h
    have hd : ∀ k, k < 16 → hexChar k ∈ ['0', '1', '2', '3', '4', '5', '6', '7', '8', '9', 'a', 'b', 'c', 'd', 'e', 'f'] := by decide
    split at h
    · rename_i hn
      rw [List.mem_singleton.mp h]
      exact hd _ hn
    · rcases List.mem_append.mp h with h | h
      · exact hexF_lower f _ c h
      · rw [List.mem_singleton.mp h]
        exact hd _ (Nat.mod_lt _ (by omega))

theorem hexF_head : ∀ f n, n ≤ f → 0 < n → (hexF f n).head? ≠ some '0'
  | 0, n, h, h0 => by omega
  | f + 1, n, h, h0 => by
    unfold hexF
    split
    · rename_i hn
      exact (by decide : ∀ k, k < 16 → 0 < k → [hexChar k].head? ≠ some '0') n hn h0
    · rename_i hn
      have := hexF_head f (n / 16) (by omega) (by omega)
      cases hx : hexF f (n / 16) with
      | nil => exact absurd hx (hexF_ne _ _)
      | cons a l => rw [hx] at this; simpa using this

end PyLisp.IPText
namespace PyLisp.Props
open PyLisp PyLisp.IPText PyLisp.Rep

/-- C97: IPv6 addresses are written in the recommended form (RFC 5952, section 4): eight groups in lower case
hexadecimal without leading zeros, with colons between them; the longest run of at least two zero groups, the first one
if there are several, is written as two colons. -/
theorem ipv6_text_canonical (v : Nat) :
    ((∀ s, ¬ ZeroRun (groups 65536 8 v) s 2) ∧ text6 v = joinWith ':' ((groups 65536 8 v).map hex)) ∨
    ∃ s l, 2 ≤ l ∧ ZeroRun (groups 65536 8 v) s l ∧
      (∀ s' l', ZeroRun (groups 65536 8 v) s' l' → l' < l ∨ (l' = l ∧ s ≤ s')) ∧
      text6 v = joinWith ':' (((groups 65536 8 v).take s).map hex) ++ ':' :: ':' ::
        joinWith ':' (((groups 65536 8 v).drop (s + l)).map hex) := by
  have hlen : (groups 65536 8 v).length = 8 := groups_length _ _ _
  have hlt := groups_lt (b := 65536) (by omega) 8 v
  unfold text6
  generalize groups 65536 8 v = hs at hlen hlt
  have hb : (hs.map hex).map (· == ['0']) = hs.map (fun h => decide (h = 0)) := by
    simp only [List.map_map]
    refine List.map_congr_left fun d hd => ?_
    show (hex d == ['0']) = _
    rw [Bool.eq_iff_iff]
    simp [hex_zero (hlt d hd)]
  unfold compress
  rw [hb]
  generalize hr : bestRun 0 0 0 0 0 (hs.map fun h => decide (h = 0)) = r
  have hz := bestRun_zeros (by simp [hlen]) r hr
  have hbest := bestRun_best hlen r hr
  obtain ⟨s, k⟩ := r
  simp only at hz hbest ⊢
  by_cases hk : k > 1
  · right
    rw [if_pos hk]
    obtain ⟨hsk, hz⟩ : s + k ≤ 8 ∧ ∀ i, i < 8 → s ≤ i → i < s + k →
        (hs.map (fun h => decide (h = 0)))[i]? = some true := by
      rcases hz with h | h
      · omega
      · exact h
    refine ⟨s, k, hk, ⟨by omega, ?_⟩, ?_, ?_⟩
    · intro i h1 h2
      have := hz i (by omega) h1 h2
      rw [List.getElem?_map, List.getElem?_eq_getElem (by omega)] at this
      rw [List.getElem?_eq_getElem (by omega)]
      simpa using this
    · intro s' l' h'
      by_cases hl : 1 ≤ l'
      · exact hbest s' l' hl h'
      · left; omega
    · rw [← List.map_take, ← List.map_drop]
      refine join_gap _ _ _ _ ?_ ?_
      · constructor
        · rintro rfl; simp
        · intro h
          have := congrArg List.length h
          simp [hlen] at this
          omega
      · constructor
        · intro h
          rw [List.length_map, hlen] at h
          rw [List.map_eq_nil_iff]
          exact List.drop_eq_nil_of_le (by omega)
        · intro h
          have := congrArg List.length h
          simp [hlen] at this ⊢
          omega
  · left
    rw [if_neg hk]
    refine ⟨?_, rfl⟩
    intro s' h'
    rcases hbest s' 2 (by omega) h' with h | h <;> omega

/-- C97: each group is written in lower case hexadecimal digits, at most four of them, the first of them not `0` unless
the group is zero, which is written as a single `0`. -/
theorem ipv6_group_text (h : Nat) (hh : h < 65536) :
    (∀ c ∈ hex h, c ∈ ['0', '1', '2', '3', '4', '5', '6', '7', '8', '9', 'a', 'b', 'c', 'd', 'e', 'f']) ∧
    1 ≤ (hex h).length ∧ (hex h).length ≤ 4 ∧ (h ≠ 0 → (hex h).head? ≠ some '0') ∧ (h = 0 → hex h = ['0']) := by
  refine ⟨hexF_lower _ _, ?_, hexF_len h h 3 (by simpa using hh), fun h0 => hexF_head h h (Nat.le_refl _) (by omega), ?_⟩
  · cases hx : hex h with
    | nil => exact absurd hx (hexF_ne _ _)
    | cons a l => simp
  · rintro rfl; rfl

/-- the longest run is abbreviated, not the first one: 2001:0:0:1:0:0:0:1 -/
example : String.ofList (text6 0x20010000000000010000000000000001) = "2001:0:0:1::1" := by decide +kernel
/-- of two runs of the same length the first one: 2001:db8:0:0:1:0:0:1 -/
example : String.ofList (text6 0x20010db8000000000001000000000001) = "2001:db8::1:0:0:1" := by decide +kernel
/-- a single zero group is written out: 2001:db8:0:1:1:1:1:1 -/
example : String.ofList (text6 0x20010db8000000010001000100010001) = "2001:db8:0:1:1:1:1:1" := by decide +kernel

end PyLisp.Props
