import Verif.MapServer
/-
Lemmas about association lists used as Python dicts, and the invariant of the registration store.
-/
namespace PyLisp

section
variable {κ υ : Type} [DecidableEq κ]

theorem dictGet_set (d : List (κ × υ)) (k k' : κ) (v : υ) :
    dictGet (dictSet d k v) k' = if k' = k then some v else dictGet d k' := by
  induction d with
  | nil =>
    by_cases h : k' = k
    · subst h; simp [dictSet, dictGet]
    · simp [dictSet, dictGet, h, Ne.symm h]
  | cons e d ih =>
    obtain ⟨k1, v1⟩ := e
    by_cases h1 : k1 = k
    · subst h1
      by_cases h : k' = k1
      · subst h; simp [dictSet, dictGet]
      · simp [dictSet, dictGet, h, Ne.symm h]
    · by_cases h : k1 = k'
      · subst h; simp [dictSet, dictGet, h1]
      · simp [dictSet, dictGet, h, h1, ih]

theorem mem_keys {d : List (κ × υ)} {k : κ} : k ∈ dictKeys d ↔ ∃ v, dictGet d k = some v := by
  induction d with
  | nil => simp [dictKeys, dictGet]
  | cons e d ih =>
    obtain ⟨k1, v1⟩ := e
    by_cases h1 : k1 = k
    · subst h1; simp [dictKeys, dictGet]
    · have : k ∈ dictKeys ((k1, v1) :: d) ↔ k ∈ dictKeys d := by
        simp [dictKeys, Ne.symm h1]
      rw [this, ih]; simp [dictGet, h1]

theorem dictGet_none {d : List (κ × υ)} {k : κ} : dictGet d k = none ↔ k ∉ dictKeys d := by
  rw [mem_keys]
  cases dictGet d k <;> simp

theorem keys_set {d : List (κ × υ)} {k k' : κ} {v : υ} :
    k' ∈ dictKeys (dictSet d k v) ↔ k' = k ∨ k' ∈ dictKeys d := by
  rw [mem_keys, mem_keys, dictGet_set]
  by_cases h : k' = k <;> simp [h]

theorem nodup_set {d : List (κ × υ)} (k : κ) (v : υ) (h : (dictKeys d).Nodup) :
    (dictKeys (dictSet d k v)).Nodup := by
  induction d with
  | nil => simp [dictSet, dictKeys]
  | cons e d ih =>
    obtain ⟨k1, v1⟩ := e
    have hn : k1 ∉ dictKeys d ∧ (dictKeys d).Nodup := List.nodup_cons.mp h
    by_cases h1 : k1 = k
    · subst h1; simp only [dictSet, if_true]; exact h
    · simp only [dictSet, if_neg h1]
      refine List.nodup_cons.mpr ⟨?_, ih hn.2⟩
      intro hm
      rcases keys_set.mp hm with h | h
      · exact h1 h
      · exact hn.1 h

theorem dictGet_del (d : List (κ × υ)) (k k' : κ) :
    dictGet (dictDel d k) k' = if k' = k then none else dictGet d k' := by
  induction d with
  | nil => simp [dictDel, dictGet]
  | cons e d ih =>
    obtain ⟨k1, v1⟩ := e
    simp only [dictDel] at ih
    by_cases h1 : k1 = k
    · subst h1
      by_cases h : k' = k1
      · subst h; simpa [dictDel, dictGet] using ih
      · simp [dictDel, dictGet, Ne.symm h] at ih ⊢; simpa [h] using ih
    · by_cases h : k1 = k'
      · subst h; simp [dictDel, dictGet, h1]
      · simp [dictDel, dictGet, h, h1] at ih ⊢; exact ih

theorem nodup_del {d : List (κ × υ)} (k : κ) (h : (dictKeys d).Nodup) :
    (dictKeys (dictDel d k)).Nodup := by
  induction d with
  | nil => exact h
  | cons e d ih =>
    have hn : e.1 ∉ dictKeys d ∧ (dictKeys d).Nodup := List.nodup_cons.mp h
    have ih := ih hn.2
    by_cases h1 : e.1 = k
    · simpa [dictDel, h1] using ih
    · have : dictDel (e :: d) k = e :: dictDel d k := by simp [dictDel, h1]
      rw [this]
      refine List.nodup_cons.mpr ⟨?_, ih⟩
      intro hm
      obtain ⟨v, hv⟩ := mem_keys.mp hm
      rw [dictGet_del, if_neg h1] at hv
      exact hn.1 (mem_keys.mpr ⟨v, hv⟩)

theorem dictGet_eq_nil {d : List (κ × υ)} : (∀ k, dictGet d k = none) ↔ d = [] := by
  constructor
  · intro h
    match d with
    | [] => rfl
    | (k, v) :: d => have := h k; simp [dictGet] at this
  · rintro rfl k; rfl

end

theorem Store.get_set (s : Store) (p q : Net) (src : Source) (m : List (Source × Registration)) :
    Store.get (dictSet s p m) q src = if q = p then dictGet m src else s.get q src := by
  unfold Store.get
  rw [dictGet_set]
  by_cases h : q = p <;> simp [h]

theorem Store.get_put (s : Store) (p q : Net) (src src' : Source) (r : Registration) :
    (s.put p src r).get q src' = if q = p ∧ src' = src then some r else s.get q src' := by
  unfold Store.put
  rw [Store.get_set]
  by_cases h : q = p
  · subst h
    simp only [if_true, true_and]
    rw [dictGet_set]
    by_cases h' : src' = src
    · simp [h']
    · rw [if_neg h', if_neg h']
      unfold Store.get
      cases dictGet s q <;> rfl
  · simp [h]

end PyLisp
