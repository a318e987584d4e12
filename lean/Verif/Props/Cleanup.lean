import Verif.Cleanup
import Verif.Props.Keepalive
/-
C93: the cleanup thread of a Map-Server.
-/
namespace PyLisp.Props
open PyLisp

/-! ### specification -/

/-- the thread is told to stop -/
def IsEnd : CleanEvent → Prop
  | .stop => True
  | .discard => True
  | .turn .. => False

/-- the times of the passes that get through -/
def turnTimes : List CleanEvent → List Int
  | [] => []
  | .turn now true :: l => now :: turnTimes l
  | _ :: l => turnTimes l

/-- the times of the passes of the cleanup thread in a history of the store -/
def passTimes : List MsEvent → List Int
  | [] => []
  | .pass t :: l => t :: passTimes l
  | .register .. :: l => passTimes l

/-- from `start` until `till`, never longer than `gap` without one of the times -/
def Regular (gap : Int) (start till : Int) : List Int → Prop
  | [] => till ≤ start + gap
  | t :: l => t ≤ start + gap ∧ Regular gap t till l

/-! ### lemmas -/

theorem turnTimes_append (a b : List CleanEvent) : turnTimes (a ++ b) = turnTimes a ++ turnTimes b := by
  induction a with
  | nil => rfl
  | cons e a ih =>
    rcases e with _ | _ | ⟨now, ok⟩
    · exact ih
    · exact ih
    · cases ok
      · exact ih
      · exact congrArg (now :: ·) ih

theorem clean_working (l : List CleanEvent) (h : ∀ e ∈ l, ¬ IsEnd e) : ∀ s : CleanState, s.gone = false →
    s.asked = false → s.ended = false → s.run l = { s with passes := s.passes ++ turnTimes l } := by
  induction l with
  | nil => intro s h1 h2 h3; show s = _; rw [turnTimes, List.append_nil]
  | cons e l ih =>
    intro s h1 h2 h3
    have ih := ih fun x hx => h x (by simp [hx])
    have he := h e (by simp)
    rcases e with _ | _ | ⟨now, ok⟩
    · exact absurd trivial he
    · exact absurd trivial he
    · show (s.step (.turn now ok)).run l = _
      cases ok with
      | false =>
        have : s.step (.turn now false) = s := by
          simp only [CleanState.step, h2, h3, Bool.false_eq_true, if_false, or_true, if_true]
        rw [this, ih s h1 h2 h3]; rfl
      | true =>
        have : s.step (.turn now true) = { s with passes := s.passes ++ [now] } := by
          simp [CleanState.step, h1, h2, h3]
        rw [this, ih { s with passes := s.passes ++ [now] } h1 h2 h3]
        simp [turnTimes]

theorem clean_asked (l : List CleanEvent) : ∀ s : CleanState, s.asked = true →
    (s.run l).passes = s.passes ∧ ((s.run l).ended = true ↔ s.ended = true ∨ ∃ now ok, .turn now ok ∈ l) := by
  induction l with
  | nil => intro s _; exact ⟨rfl, by simp [CleanState.run]⟩
  | cons e l ih =>
    intro s h
    show (CleanState.run (s.step e) l).passes = _ ∧ ((CleanState.run (s.step e) l).ended = true ↔ _)
    rcases e with _ | _ | ⟨now, ok⟩
    · have := ih (s.step .stop) rfl
      simpa [CleanState.step] using this
    · have := ih (s.step .discard) rfl
      simpa [CleanState.step] using this
    · by_cases he : s.ended = true
      · have hs : s.step (.turn now ok) = s := by simp only [CleanState.step, he, if_true]
        rw [hs]
        have := ih s h
        exact ⟨this.1, by rw [this.2]; simp [he]⟩
      · have hs : s.step (.turn now ok) = { s with ended := true } := by
          simp only [CleanState.step, if_neg he, h, if_true]
        rw [hs]
        have := ih { s with ended := true } h
        exact ⟨this.1, by rw [this.2]; simp only [true_or, true_iff]; exact .inr ⟨now, ok, by simp⟩⟩

theorem mem_passTimes {evs : List MsEvent} {t : Int} : t ∈ passTimes evs ↔ .pass t ∈ evs := by
  induction evs with
  | nil => simp [passTimes]
  | cons e evs ih =>
    cases e with
    | pass u => simp [passTimes, ih]
    | register p src r => simp [passTimes, ih]

theorem regular_between {gap : Int} (T till : Int) (l : List Int) : ∀ start, start ≤ T → Regular gap start till l →
    T + gap < till → ∃ t ∈ l, T < t ∧ t ≤ T + gap := by
  induction l with
  | nil => intro start hs h ht; simp only [Regular] at h; omega
  | cons u l ih =>
    intro start hs h ht
    obtain ⟨h1, h2⟩ := h
    by_cases hu : u ≤ T
    · obtain ⟨t, h3, h4⟩ := ih u hu h2 ht
      exact ⟨t, by simp [h3], h4⟩
    · exact ⟨u, by simp, by omega, by omega⟩

theorem monoRun_times {clock : Int} {evs : List MsEvent} {s : MsState} (h : MonoRun (MsState.init clock) evs s) :
    MsTimes evs s := by
  induction h with
  | nil => exact ⟨(fun t ht => by cases ht), (fun t ht => by cases ht)⟩
  | snoc _ hs hm ih => exact ih.step hs hm

/-- a pass before a registration worked with a time before it -/
theorem pass_before_register {clock : Int} {evs : List MsEvent} {s : MsState}
    (h : MonoRun (MsState.init clock) evs s) : evs.Pairwise fun e e' => ∀ t p src r, e = .pass t →
      e' = .register p src r → t + 180000000 ≤ r.deadline := by
  induction h with
  | nil => exact .nil
  | @snoc s' s'' evs e h hs hm ih =>
    rw [List.pairwise_append]
    refine ⟨ih, ?_, ?_⟩
    · cases e <;> simp
    · rintro x hx y hy t p src r rfl rfl
      have h1 := (monoRun_times h).past t hx
      have he : e = some (.register p src r) := by simpa using hy
      subst he
      have h2 := registration_deadline s' s'' p src r hs
      omega

/-! ### the property -/

/-- C93: as long as nobody tells it to stop and its Map-Server is there, the cleanup thread goes on, whatever fails in its
passes, and makes a pass in every turn that does not fail. -/
theorem cleanup_goes_on (l : List CleanEvent) (h : ∀ e ∈ l, ¬ IsEnd e) :
    (CleanState.run {} l).ended = false ∧ (CleanState.run {} l).passes = turnTimes l := by
  rw [clean_working l h {} rfl rfl rfl]
  exact ⟨rfl, rfl⟩

/-- C93: once told to stop, or with the Map-Server gone, the cleanup thread makes no pass any more, and ends at its next
turn (at most 30 seconds later: it waits for the very signal). -/
theorem cleanup_ends (l l' : List CleanEvent) (h : ∀ e ∈ l, ¬ IsEnd e) (e : CleanEvent) (he : IsEnd e) :
    (CleanState.run {} (l ++ e :: l')).passes = turnTimes l ∧
    ((CleanState.run {} (l ++ e :: l')).ended = true ↔ ∃ now ok, .turn now ok ∈ l') := by
  have hr : CleanState.run {} (l ++ e :: l') = CleanState.run ((CleanState.run {} l).step e) l' := by
    rw [CleanState.run, List.foldl_append]; rfl
  rw [hr, clean_working l h {} rfl rfl rfl]
  rcases e with _ | _ | ⟨now, ok⟩
  · have := clean_asked l' (({ ({} : CleanState) with passes := [] ++ turnTimes l } : CleanState).step .stop) rfl
    exact ⟨this.1, by rw [this.2]; simp [CleanState.step]⟩
  · have := clean_asked l' (({ ({} : CleanState) with passes := [] ++ turnTimes l } : CleanState).step .discard) rfl
    exact ⟨this.1, by rw [this.2]; simp [CleanState.step]⟩
  · exact he.elim

/-- C93: if the cleanup thread is never longer than `gap` without a pass (`gap` is 30 seconds and what a pass and the
waiting for the lock take), then a registration is gone `gap` after its deadline at the latest, in every interleaving
with new registrations, as long as its ETR has not registered again. -/
theorem gone_in_time (gap clock : Int) (evs : List MsEvent) (s : MsState)
    (hrun : MonoRun (MsState.init clock) evs s) (hfree : s.owner = .nobody)
    (hreg : Regular gap clock s.clock (passTimes evs)) (p : Net) (src : Source) (deadline : Int)
    (hlast : ∀ r, .register p src r ∈ evs → r.deadline ≤ deadline) (hstart : clock ≤ deadline)
    (hnow : deadline + gap < s.clock) : s.store.get p src = none := by
  cases hg : s.store.get p src with
  | none => rfl
  | some r =>
    exfalso
    obtain ⟨t, ht, h1, _⟩ := regular_between deadline s.clock (passTimes evs) clock hstart hreg hnow
    rw [mem_passTimes] at ht
    obtain ⟨b, a, rfl, h2, h3⟩ := (store_exact clock _ s hrun.run hfree p src r).mp hg
    have hd := hlast r (by simp)
    rcases List.mem_append.mp ht with ht | ht
    · have := (List.pairwise_append.mp (pass_before_register hrun)).2.2 _ ht (.register p src r)
        List.mem_cons_self _ _ _ _ rfl rfl
      omega
    · rcases List.mem_cons.mp ht with ht | ht
      · cases ht
      · have := h3 t ht
        omega

/-- C93: … so an ETR that falls silent is forgotten 180 seconds and `gap` after its last registration. -/
theorem silent_forgotten (gap clock : Int) (evs : List MsEvent) (s : MsState)
    (hrun : MonoRun (MsState.init clock) evs s) (hfree : s.owner = .nobody)
    (hreg : Regular gap clock s.clock (passTimes evs)) (p : Net) (src : Source) (since : Int) (hs : clock ≤ since)
    (hlast : ∀ r, .register p src r ∈ evs → r.deadline ≤ since + 180000000)
    (hnow : since + 180000000 + gap < s.clock) : s.store.get p src = none :=
  gone_in_time gap clock evs s hrun hfree hreg p src (since + 180000000) hlast (by omega) hnow

/-! ### the theorems apply -/

example : (CleanState.run {} [.turn 0 true, .turn 30 false, .turn 60 true]).passes = [0, 60] :=
  (cleanup_goes_on _ (by simp [IsEnd])).2

example : (CleanState.run {} ([.turn 0 true] ++ .discard :: [.turn 30 true])).ended = true :=
  (cleanup_ends [.turn 0 true] [.turn 30 true] (by simp [IsEnd]) .discard trivial).2.mpr ⟨30, true, by simp⟩

/-- a registration at 5 s, passes at 100 s and at 190 s -/
example : ∃ s : MsState, MonoRun (MsState.init 0)
      [.register exNet (.xtr 9 4660) (newRegistration 5000000 exRec false), .pass 100000000, .pass 190000000] s ∧
    s.owner = .nobody ∧ s.clock = 290000000 ∧ s.store.get exNet (.xtr 9 4660) = none := by
  have key : ∃ s : MsState, MonoRun (MsState.init 0)
      [.register exNet (.xtr 9 4660) (newRegistration 5000000 exRec false), .pass 100000000, .pass 190000000] s ∧
      s.owner = .nobody ∧ s.clock = 290000000 :=
    ⟨_, ((((((((((((((((((((MonoRun.nil (MsState.init 0)).snoc (.tick _ 5000000) (by decide)).snoc
    (.regLock _ exNet (.xtr 9 4660) exRec false rfl rfl) (by decide)).snoc
    (.regEnsure _ exNet (.xtr 9 4660) exRec false rfl) (by decide)).snoc
    (.regStore _ exNet (.xtr 9 4660) exRec false [] rfl rfl) (by decide)).snoc
    (.regUnlock _ rfl) (by decide)).snoc
    (.tick _ 100000000) (by decide)).snoc
    (.cleanRead _ rfl) (by decide)).snoc
    (.cleanLock _ 100000000 rfl rfl) (by decide)).snoc
    (.cleanPrefix _ 100000000 exNet [] _ rfl rfl) (by decide)).snoc
    (.cleanSource _ 100000000 exNet (.xtr 9 4660) [] [] _ _ rfl rfl rfl) (by decide)).snoc
    (.cleanEmpty _ 100000000 exNet [] _ rfl rfl) (by decide)).snoc
    (.cleanUnlock _ 100000000 rfl) (by decide)).snoc
    (.tick _ 190000000) (by decide)).snoc
    (.cleanRead _ rfl) (by decide)).snoc
    (.cleanLock _ 190000000 rfl rfl) (by decide)).snoc
    (.cleanPrefix _ 190000000 exNet [] _ rfl rfl) (by decide)).snoc
    (.cleanSource _ 190000000 exNet (.xtr 9 4660) [] [] _ _ rfl rfl rfl) (by decide)).snoc
    (.cleanEmpty _ 190000000 exNet [] _ rfl rfl) (by decide)).snoc
    (.cleanUnlock _ 190000000 rfl) (by decide)).snoc
    (.tick _ 290000000) (by decide), rfl, rfl⟩
  obtain ⟨s, h1, h2, h3⟩ := key
  refine ⟨s, h1, h2, h3, ?_⟩
  exact silent_forgotten 100000000 0 _ s h1 h2 (by rw [h3]; simp [passTimes, Regular]) exNet (.xtr 9 4660) 5000000
    (by decide) (by
      intro r hr
      simp at hr
      subst hr
      decide) (by rw [h3]; decide)

end PyLisp.Props
