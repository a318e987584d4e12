/-
Stable sorting by a numeric key: `list.sort(key=...)` (Python's sort is stable; library behaviour).
-/
namespace PyLisp

/-- insert `a` before the first element whose key is not smaller -/
def insertBy (key : α → Nat) (a : α) : List α → List α
  | [] => [a]
  | b :: l => if key a ≤ key b then a :: b :: l else b :: insertBy key a l

/-- stable sort by ascending key -/
def sortBy (key : α → Nat) : List α → List α
  | [] => []
  | a :: l => insertBy key a (sortBy key l)

theorem insertBy_perm (key : α → Nat) (a : α) (l : List α) : (insertBy key a l).Perm (a :: l) := by
  induction l with
  | nil => exact .refl _
  | cons b l ih =>
    unfold insertBy
    split
    · exact .refl _
    · exact (List.Perm.cons b ih).trans (.swap a b l)

theorem sortBy_perm (key : α → Nat) (l : List α) : (sortBy key l).Perm l := by
  induction l with
  | nil => exact .refl _
  | cons a l ih => exact (insertBy_perm key a _).trans (.cons a ih)

/-- ascending by key -/
def Ascending (key : α → Nat) (l : List α) : Prop := l.Pairwise (fun a b => key a ≤ key b)

theorem insertBy_ascending (key : α → Nat) (a : α) (l : List α) (h : Ascending key l) :
    Ascending key (insertBy key a l) := by
  induction l with
  | nil => simp [insertBy, Ascending]
  | cons b l ih =>
    unfold Ascending at h ih ⊢
    rw [List.pairwise_cons] at h
    unfold insertBy
    split
    · rename_i hab
      rw [List.pairwise_cons]
      refine ⟨?_, List.pairwise_cons.mpr h⟩
      intro c hc
      rcases List.mem_cons.mp hc with rfl | hc
      · exact hab
      · exact Nat.le_trans hab (h.1 c hc)
    · rename_i hab
      rw [List.pairwise_cons]
      refine ⟨?_, ih h.2⟩
      intro c hc
      have := (insertBy_perm key a l).mem_iff.mp hc
      rcases List.mem_cons.mp this with rfl | hc
      · omega
      · exact h.1 c hc

theorem sortBy_ascending (key : α → Nat) (l : List α) : Ascending key (sortBy key l) := by
  induction l with
  | nil => exact List.Pairwise.nil
  | cons a l ih => exact insertBy_ascending key a _ ih

theorem sortBy_of_ascending (key : α → Nat) (l : List α) (h : Ascending key l) :
    sortBy key l = l := by
  induction l with
  | nil => rfl
  | cons a l ih =>
    unfold Ascending at h
    rw [List.pairwise_cons] at h
    simp only [sortBy, ih h.2]
    cases l with
    | nil => rfl
    | cons b l => simp [insertBy, h.1 b (by simp)]

theorem sortBy_idem (key : α → Nat) (l : List α) : sortBy key (sortBy key l) = sortBy key l :=
  sortBy_of_ascending key _ (sortBy_ascending key l)

@[simp] theorem sortBy_length (key : α → Nat) (l : List α) : (sortBy key l).length = l.length :=
  (sortBy_perm key l).length_eq

@[simp] theorem mem_sortBy (key : α → Nat) (l : List α) (a : α) : a ∈ sortBy key l ↔ a ∈ l :=
  (sortBy_perm key l).mem_iff

/-- an ascending list with distinct keys is determined by its elements -/
theorem ascending_perm_unique (key : α → Nat) {l l' : List α} (hp : l.Perm l')
    (h : Ascending key l) (h' : Ascending key l')
    (inj : ∀ a ∈ l, ∀ b ∈ l, key a = key b → a = b) : l = l' := by
  induction l generalizing l' with
  | nil => exact (List.Perm.nil_eq hp)
  | cons a l ih =>
    cases l' with
    | nil => exact absurd hp.length_eq (by simp)
    | cons b l' =>
      unfold Ascending at h h'
      rw [List.pairwise_cons] at h h'
      have hab : a = b := by
        have hb : b ∈ a :: l := hp.mem_iff.mpr (by simp)
        have ha : a ∈ b :: l' := hp.mem_iff.mp (by simp)
        rcases List.mem_cons.mp hb with hb' | hb'
        · exact hb'.symm
        · rcases List.mem_cons.mp ha with ha' | ha'
          · exact ha'
          · exact inj a (by simp) b hb (Nat.le_antisymm (h.1 b hb') (h'.1 a ha'))
      subst hab
      congr 1
      exact ih (hp.cons_inv) h.2 h'.2 (fun x hx y hy => inj x (by simp [hx]) y (by simp [hy]))

/-- with distinct keys, the sorted list does not depend on the input order -/
theorem sortBy_perm_eq (key : α → Nat) {l l' : List α} (hp : l.Perm l')
    (inj : ∀ a ∈ l, ∀ b ∈ l, key a = key b → a = b) : sortBy key l = sortBy key l' := by
  apply ascending_perm_unique key
  · exact (sortBy_perm key l).trans (hp.trans (sortBy_perm key l').symm)
  · exact sortBy_ascending _ _
  · exact sortBy_ascending _ _
  · intro a ha b hb; simp at ha hb; exact inj a ha b hb

/-- stability: elements with equal keys keep their relative order -/
theorem insertBy_filter (key : α → Nat) (k : Nat) (a : α) (l : List α) :
    (insertBy key a l).filter (fun x => key x = k) = (a :: l).filter (fun x => key x = k) := by
  induction l with
  | nil => rfl
  | cons b l ih =>
    unfold insertBy
    split
    · rfl
    · rename_i hab
      simp only [List.filter_cons, ih]
      by_cases h1 : key b = k <;> by_cases h2 : key a = k
      · omega
      all_goals simp [h1, h2]

theorem sortBy_stable (key : α → Nat) (k : Nat) (l : List α) :
    (sortBy key l).filter (fun x => key x = k) = l.filter (fun x => key x = k) := by
  induction l with
  | nil => rfl
  | cons a l ih =>
    simp only [sortBy, insertBy_filter, List.filter_cons, ih]

end PyLisp
