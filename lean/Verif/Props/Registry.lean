import Verif.Registry
/-
C40: the type registries.
-/
namespace PyLisp.Props
open PyLisp

/-- a class that can be registered under number `n`, in a registry for the numbers `lo..hi` -/
def ValidFor (lo hi n : Int) (c : TypeClass) : Prop :=
  c.subclass = true ∧ c.nr = some n ∧ lo ≤ n ∧ n ≤ hi

instance (lo hi n : Int) (c : TypeClass) : Decidable (ValidFor lo hi n c) :=
  inferInstanceAs (Decidable (_ ∧ _))

theorem number_iff {lo hi n : Int} {c : TypeClass} :
    c.number lo hi = some n ↔ ValidFor lo hi n c := by
  unfold TypeClass.number ValidFor
  cases c.subclass <;> cases c.nr <;> simp
  rename_i k
  constructor
  · rintro ⟨h, rfl⟩; exact ⟨rfl, by omega, by omega⟩
  · rintro ⟨rfl, h1, h2⟩; exact ⟨⟨by omega, by omega⟩, rfl⟩

theorem get_cons (n m : Int) (c : TypeClass) (r : Registry) :
    Registry.get ((n, c) :: r) m = if m = n then some c else r.get m := by
  unfold Registry.get
  rw [List.lookup_cons]
  by_cases h : m = n
  · subst h; rw [if_pos rfl, beq_self_eq_true]
  · rw [if_neg h, beq_eq_false_iff_ne.mpr h]

/-- one registration, in terms of lookups -/
theorem register_get {lo hi : Int} (r : Registry) (c : TypeClass) (m : Int) :
    ((r.register lo hi c).getD r).get m =
      (r.get m).or (if ValidFor lo hi m c then some c else none) := by
  unfold Registry.register
  match hn : c.number lo hi with
  | none =>
    have : ¬ ValidFor lo hi m c := fun h => by rw [number_iff.mpr h] at hn; cases hn
    simp [this]
  | some n =>
    have hv := number_iff.mp hn
    have hm : ValidFor lo hi m c ↔ m = n := by
      constructor
      · intro h; have := h.2.1.symm.trans hv.2.1; simpa using this
      · rintro rfl; exact hv
    simp only
    match hg : r.get n with
    | some d =>
      have hr : ((if c = d then some r else none).getD r) = r := by split <;> rfl
      rw [hr]
      by_cases h : m = n
      · subst h; rw [hg]; rfl
      · rw [if_neg (fun h' => h (hm.mp h'))]; simp
    | none =>
      simp only [Option.getD_some]
      rw [get_cons]
      by_cases h : m = n
      · subst h; rw [if_pos rfl, if_pos (hm.mpr rfl), hg]; rfl
      · rw [if_neg h, if_neg (fun h' => h (hm.mp h'))]; simp

/-- C40: after any sequence of registrations the class found under a number is the first one in the
sequence that could be registered under it, whatever was tried in between; other numbers, and those
outside the registry's range, have none. -/
theorem registry_first_wins (lo hi : Int) (l : List TypeClass) (n : Int) :
    (Registry.run lo hi [] l).get n = l.find? (fun c => decide (ValidFor lo hi n c)) := by
  have key : ∀ (l : List TypeClass) (r : Registry), (Registry.run lo hi r l).get n =
      (r.get n).or (l.find? fun c => decide (ValidFor lo hi n c)) := by
    intro l
    induction l with
    | nil => intro r; simp [Registry.run]
    | cons c l ih =>
      intro r
      rw [Registry.run, ih, register_get, List.find?_cons]
      by_cases h : ValidFor lo hi n c
      · rw [if_pos h]; cases r.get n <;> simp [h]
      · rw [if_neg h]; simp [h]
  rw [key]; rfl

/-- C40: numbers outside the range are never bound. -/
theorem registry_range (lo hi : Int) (l : List TypeClass) (n : Int) (h : n < lo ∨ hi < n) :
    (Registry.run lo hi [] l).get n = none := by
  rw [registry_first_wins, List.find?_eq_none]
  intro c _
  simp only [decide_eq_true_eq]
  rintro ⟨_, _, h1, h2⟩
  omega

/-- C40: a registration is accepted exactly when the class is valid and its number is free or already
bound to this very class; registering the bound class again changes nothing, and so does a refused
registration. -/
theorem register_accepts_iff (lo hi : Int) (r : Registry) (c : TypeClass) :
    ((r.register lo hi c).isSome = true ↔
      ∃ n, ValidFor lo hi n c ∧ (r.get n = none ∨ r.get n = some c)) ∧
    (∀ n, ValidFor lo hi n c → r.get n = some c → r.register lo hi c = some r) ∧
    (r.register lo hi c = none → Registry.run lo hi r [c] = r) := by
  refine ⟨?_, ?_, ?_⟩
  · unfold Registry.register
    match hn : c.number lo hi with
    | none =>
      refine ⟨fun h => (by cases h), fun ⟨n, h, _⟩ => ?_⟩
      rw [number_iff.mpr h] at hn; cases hn
    | some n =>
      have hv := number_iff.mp hn
      have hu : ∀ m, ValidFor lo hi m c → m = n := by
        intro m h; have := h.2.1.symm.trans hv.2.1; simpa using this
      simp only
      match hg : r.get n with
      | none => exact ⟨fun _ => ⟨n, hv, .inl hg⟩, fun _ => rfl⟩
      | some d =>
        simp only
        by_cases hcd : c = d
        · rw [if_pos hcd]; subst hcd; exact ⟨fun _ => ⟨n, hv, .inr hg⟩, fun _ => rfl⟩
        · rw [if_neg hcd]
          refine ⟨fun h => (by cases h), fun ⟨m, h1, h2⟩ => ?_⟩
          rw [hu m h1, hg] at h2
          rcases h2 with h2 | h2
          · cases h2
          · cases h2; exact absurd rfl hcd
  · intro n hv hg
    unfold Registry.register
    rw [number_iff.mpr hv]
    simp only [hg, if_true]
  · intro h; simp [Registry.run, h]

/-- C40: registering classes with different valid numbers binds each of them, in every order. -/
theorem registry_order_free (lo hi : Int) (l : List TypeClass) (c : TypeClass) (hc : c ∈ l) (n : Int)
    (hn : ValidFor lo hi n c) (hd : ∀ d ∈ l, ValidFor lo hi n d → d = c) :
    (Registry.run lo hi [] l).get n = some c := by
  rw [registry_first_wins]
  match hf : l.find? (fun c => decide (ValidFor lo hi n c)) with
  | none => rw [List.find?_eq_none] at hf; exact absurd hn (by simpa using hf c hc)
  | some d =>
    have h1 := List.mem_of_find?_eq_some hf
    have h2 := List.find?_some hf
    rw [hd d h1 (by simpa using h2)]

/-! ### Examples -/

/-- the control message classes of lispd, with their `message_type` -/
def controlClasses : List TypeClass :=
  [⟨1, true, some 1⟩, ⟨2, true, some 2⟩, ⟨3, true, some 3⟩, ⟨4, true, some 4⟩, ⟨6, true, some 6⟩,
   ⟨7, true, some 7⟩, ⟨8, true, some 8⟩]

example : (Registry.run 1 15 [] controlClasses).get 3 = some ⟨3, true, some 3⟩ := by decide
example : (Registry.run 1 15 [] (controlClasses ++ [⟨9, true, some 3⟩])).get 3 =
    some ⟨3, true, some 3⟩ := by decide
example : Registry.register 1 15 [] ⟨9, true, some 0⟩ = none := by decide
example : (Registry.register 0 255 [] ⟨9, true, some 0⟩).isSome = true := by decide

end PyLisp.Props
