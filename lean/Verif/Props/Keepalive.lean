import Verif.Props.Etr
import Verif.Props.MapServer
/-
C70: an ETR that keeps running keeps its registration, and one that does not loses it.

The registration thread of an ETR (etr_node.py:411-459, `runPasses`) composed with the registration
store of a Map-Server and its cleanup thread (map_server_node.py, `MsRun`).  Times are in
microseconds, of one clock that both machines agree on.
-/
namespace PyLisp.Props
open PyLisp

/-! ### Specification -/

/-- the times of the passes of a registration thread in which it registers -/
def registrationTimes (s : RunState) (passes : List Pass) : List Int :=
  (passes.zip (runPasses s passes).2).filterMap fun x =>
    if x.2.registered.isSome = true then some x.1.now else none

/-- a pass that is not told to stop and does not fail in asking for NAT information -/
def Works (i : Pass) : Prop := i.stop = false ∧ ∃ n, i.natResult = .ok n

/-- the passes come one after the other, none later than `gap` after the one before -/
def Spaced (gap : Int) : List Pass → Prop
  | [] => True
  | [_] => True
  | i :: j :: is => i.now ≤ j.now ∧ j.now ≤ i.now + gap ∧ Spaced gap (j :: is)

/-! ### Lemmas -/

theorem works_runs {s : RunState} {i : Pass} (h : Works i) : ∃ s' o, runPass s i = some (s', o) := by
  cases hr : runPass s i with
  | none => have := h.1; rw [(thread_ends_iff s i).mp hr] at this; cases this
  | some x => exact ⟨x.1, x.2, rfl⟩

theorem registrationTimes_cons {s s' : RunState} {i : Pass} {o : PassOut} {is : List Pass}
    (h : runPass s i = some (s', o)) : registrationTimes s (i :: is) =
      (if o.registered.isSome = true then [i.now] else []) ++ registrationTimes s' is := by
  unfold registrationTimes
  rw [runPasses, h]
  simp only [List.zip_cons_cons, List.filterMap_cons]
  cases o.registered <;> simp

theorem registrationTimes_append (a : List Pass) : ∀ (s : RunState) (b : List Pass),
    (∀ i ∈ a, Works i) → ∀ t ∈ registrationTimes s a, t ∈ registrationTimes s (a ++ b) := by
  induction a with
  | nil => intro s b _ t ht; simp [registrationTimes] at ht
  | cons i a ih =>
    intro s b hw t ht
    obtain ⟨s', o, hr⟩ := works_runs (s := s) (hw i (by simp))
    rw [List.cons_append, registrationTimes_cons hr]
    rw [registrationTimes_cons hr] at ht
    rcases List.mem_append.mp ht with h | h
    · exact List.mem_append_left _ h
    · exact List.mem_append_right _ (ih s' b (fun j hj => hw j (by simp [hj])) t h)

theorem registrationTimes_mem {s : RunState} {passes : List Pass} {t : Int}
    (h : t ∈ registrationTimes s passes) : ∃ i ∈ passes, i.now = t := by
  unfold registrationTimes at h
  obtain ⟨x, hx, h⟩ := List.mem_filterMap.mp h
  split at h
  · cases h; exact ⟨x.1, (List.of_mem_zip hx).1, rfl⟩
  · cases h

/-- a pass leaves the time of a registration behind when it leaves the thread satisfied -/
theorem pass_lastReg {s s' : RunState} {i : Pass} {o : PassOut} (h : runPass s i = some (s', o))
    (P : Int → Prop) (hP : s.ok = true → P s.lastReg)
    (hi : o.registered.isSome = true → P i.now) (hok : s'.ok = true) : P s'.lastReg := by
  have key : ∀ t : RunState, (t.ok = true → P t.lastReg) →
      ((passRegister t i).2.isSome = true → P i.now) → (passRegister t i).1.ok = true →
      P (passRegister t i).1.lastReg := by
    intro t ht hi hok
    unfold passRegister at hi hok ⊢
    split
    · rename_i hd
      rw [if_pos hd] at hok hi
      split
      · rename_i e he
        rw [he] at hok
        exact ht hok
      · rename_i r he
        rw [he] at hi
        exact hi rfl
    · rename_i hd
      rw [if_neg hd] at hok
      exact ht hok
  unfold runPass at h
  split at h
  · cases h
  · split at h
    · split at h
      · cases h; exact hP hok
      · cases h
        exact key _ (fun h => by cases h) hi hok
    · cases h
      exact key _ hP hi hok

theorem registered_within (passes : List Pass) : ∀ (s : RunState) (P : Int → Prop),
    (s.ok = true → P s.lastReg) → (∀ i ∈ passes, Works i) → ∀ i, passes.getLast? = some i →
    ∃ t, (P t ∨ t ∈ registrationTimes s passes) ∧ i.now ≤ t + 60000000 := by
  induction passes with
  | nil => intro s P _ _ i h; cases h
  | cons j js ih =>
    intro s P hP hw i hi
    obtain ⟨s', o, hr⟩ := works_runs (s := s) (hw j (by simp))
    rw [registrationTimes_cons hr]
    cases js with
    | nil =>
      simp only [List.getLast?_singleton, Option.some.injEq] at hi
      subst hi
      cases ho : o.registered.isSome with
      | true => exact ⟨j.now, .inr (by simp), by omega⟩
      | false =>
        have hn := (registers_iff s s' j o hr).1
        have : ¬ Registers s j := fun h => by
          rw [hn.mpr ⟨h, fun _ => (hw j (by simp)).2⟩] at ho; cases ho
        simp only [Registers, AsksNat, not_or] at this
        obtain ⟨⟨h1, _⟩, _, _, h4⟩ := this
        exact ⟨s.lastReg, .inl (hP (by simpa using h1)), by omega⟩
    | cons k ks =>
      rw [List.getLast?_cons_cons] at hi
      obtain ⟨t, ht, hle⟩ := ih s' (fun t => P t ∨ (o.registered.isSome = true ∧ t = j.now))
        (fun hok => pass_lastReg hr (fun t => P t ∨ (o.registered.isSome = true ∧ t = j.now)) (fun h => .inl (hP h)) (fun h => .inr ⟨h, rfl⟩) hok)
        (fun i h => hw i (by simp [h])) i hi
      refine ⟨t, ?_, hle⟩
      rcases ht with (h | ⟨h1, rfl⟩) | h
      · exact .inl h
      · rw [if_pos h1]; exact .inr (by simp)
      · exact .inr (List.mem_append_right _ h)

theorem spaced_prefix {gap : Int} (T : Int) (passes : List Pass) : Spaced gap passes →
    (∀ i, passes.head? = some i → i.now ≤ T) → (∀ i, passes.getLast? = some i → T ≤ i.now + gap) →
    passes ≠ [] → ∃ a b i, passes = a ++ b ∧ a.getLast? = some i ∧ i.now ≤ T ∧ T ≤ i.now + gap ∧
      ∀ j ∈ a, j.now ≤ T := by
  induction passes with
  | nil => intro _ _ _ h; exact absurd rfl h
  | cons i is ih =>
    intro hs h1 h2 _
    have hi : i.now ≤ T := h1 i rfl
    cases is with
    | nil => exact ⟨[i], [], i, rfl, rfl, hi, h2 i rfl, by simpa using hi⟩
    | cons j js =>
      obtain ⟨_, hgap, hs'⟩ := hs
      by_cases hj : j.now ≤ T
      · obtain ⟨a, b, k, hab, hk, hk1, hk2, hk3⟩ := ih hs' (fun x hx => by cases hx; exact hj)
          (fun x hx => h2 x (by rw [List.getLast?_cons_cons]; exact hx)) (by simp)
        refine ⟨i :: a, b, k, by rw [hab]; rfl, ?_, hk1, hk2, ?_⟩
        · cases a with
          | nil => cases hk
          | cons x a => rw [List.getLast?_cons_cons]; exact hk
        · intro x hx
          rcases List.mem_cons.mp hx with rfl | hx
          · exact hi
          · exact hk3 x hx
      · refine ⟨[i], j :: js, i, rfl, rfl, hi, by omega, by simpa using hi⟩

/-- deadlines never decrease along an execution in which the clock never goes back -/
theorem deadlines_grow {clock : Int} {evs : List MsEvent} {s : MsState}
    (h : MonoRun (MsState.init clock) evs s) :
    (∀ p src r, .register p src r ∈ evs → r.deadline ≤ s.clock + 180000000) ∧
    evs.Pairwise fun e e' => ∀ p src r p' src' r', e = .register p src r → e' = .register p' src' r' →
      r.deadline ≤ r'.deadline := by
  induction h with
  | nil => exact ⟨(fun _ _ _ h => by cases h), .nil⟩
  | @snoc s' s'' evs e _ hs hm ih =>
    obtain ⟨ih1, ih2⟩ := ih
    have hnew : ∀ p src r, e = some (.register p src r) → r.deadline = s'.clock + 180000000 := by
      rintro p src r rfl
      exact registration_deadline s' s'' p src r hs
    constructor
    · intro p src r hr
      rcases List.mem_append.mp hr with h | h
      · have := ih1 p src r h; omega
      · have := hnew p src r (by simpa using h); omega
    · rw [List.pairwise_append]
      refine ⟨ih2, ?_, ?_⟩
      · cases e <;> simp
      · rintro x hx y hy p src r p' src' r' rfl rfl
        have h1 := ih1 p src r hx
        have h2 := hnew p' src' r' (by simpa using hy)
        omega

theorem last_registration {p : Net} {src : Source} (evs : List MsEvent) :
    (∃ x, MsEvent.register p src x ∈ evs) → ∃ b a r, evs = b ++ MsEvent.register p src r :: a ∧
      ∀ x, MsEvent.register p src x ∉ a := by
  induction evs with
  | nil => rintro ⟨x, h⟩; cases h
  | cons e evs ih =>
    rintro ⟨x, h⟩
    by_cases hx : ∃ x, MsEvent.register p src x ∈ evs
    · obtain ⟨b, a, r, rfl, h1⟩ := ih hx
      exact ⟨e :: b, a, r, rfl, h1⟩
    · rcases List.mem_cons.mp h with h | h
      · subst h; exact ⟨[], evs, x, rfl, fun y hy => hx ⟨y, hy⟩⟩
      · exact absurd ⟨x, h⟩ hx

theorem registered_until {clock : Int} {evs : List MsEvent} {s : MsState} {p : Net} {src : Source}
    {r : Registration} (hrun : MonoRun (MsState.init clock) evs s) (hfree : s.owner = .nobody)
    (hr : .register p src r ∈ evs) (hd : s.clock ≤ r.deadline) :
    ∃ r', s.store.get p src = some r' ∧ s.clock ≤ r'.deadline := by
  obtain ⟨b, a, r', rfl, h1⟩ := last_registration evs ⟨r, hr⟩
  have hle : r.deadline ≤ r'.deadline := by
    rcases List.mem_append.mp hr with h2 | h2
    · exact (List.pairwise_append.mp (deadlines_grow hrun).2).2.2 _ h2 (.register p src r')
        List.mem_cons_self _ _ _ _ _ _ rfl rfl
    · rcases List.mem_cons.mp h2 with h2 | h2
      · cases h2; exact Int.le_refl _
      · exact absurd h2 (h1 r)
  have hd' : s.clock ≤ r'.deadline := by omega
  exact ⟨r', not_deleted_early clock b a s p src r' hrun h1 hfree hd', hd'⟩

/-! ### C70 -/

/-- C70/C53: at every pass of a registration thread that works, from its start on, the last registration
was at most 60 seconds ago, whatever the outcomes of the registrations were (it may be the registration
of that very pass). -/
theorem registers_every_minute (passes : List Pass) (hw : ∀ i ∈ passes, Works i) (i : Pass)
    (hi : passes.getLast? = some i) :
    ∃ t ∈ registrationTimes {} passes, i.now ≤ t + 60000000 := by
  obtain ⟨t, h, hle⟩ := registered_within passes {} (fun _ => False) (fun h => by cases h) hw i hi
  rcases h with h | h
  · exact h.elim
  · exact ⟨t, h, hle⟩

/-- C70: an ETR whose registration thread works, with its passes at most `gap` apart, and whose
registrations reach the Map-Server and are accepted there within `lag`, is registered without
interruption from `lag` after its first pass on, whatever the cleanup thread of the Map-Server does and
however it interleaves, if `gap` and `lag` together do not exceed two minutes. -/
theorem stays_registered (gap lag : Int) (hgap : gap + lag ≤ 120000000) (hlag : 0 ≤ lag)
    -- the ETR
    (passes : List Pass) (first last : Pass) (hfirst : passes.head? = some first)
    (hlast : passes.getLast? = some last) (hw : ∀ i ∈ passes, Works i) (hs : Spaced gap passes)
    -- the Map-Server, at some moment
    (clock : Int) (evs : List MsEvent) (s : MsState) (hrun : MonoRun (MsState.init clock) evs s)
    (hfree : s.owner = .nobody)
    -- what the ETR sent at least `lag` ago has arrived, at the earliest when it was sent
    (p : Net) (src : Source)
    (harrived : ∀ t ∈ registrationTimes {} passes, t + lag ≤ s.clock →
      ∃ r, .register p src r ∈ evs ∧ t + 180000000 ≤ r.deadline)
    -- since the first registration, and with the thread still going
    (hfrom : first.now + lag ≤ s.clock) (huntil : s.clock ≤ last.now + gap + lag) :
    ∃ r, s.store.get p src = some r ∧ s.clock ≤ r.deadline := by
  have hne : passes ≠ [] := by rintro rfl; cases hfirst
  obtain ⟨a, b, i, rfl, hi, hi1, hi2, hle⟩ := spaced_prefix (s.clock - lag) passes hs
    (fun x hx => by rw [hfirst] at hx; cases hx; omega)
    (fun x hx => by rw [hlast] at hx; cases hx; omega) hne
  have hwa : ∀ j ∈ a, Works j := fun j hj => hw j (List.mem_append_left _ hj)
  obtain ⟨t, ht, h60⟩ := registers_every_minute a hwa i hi
  obtain ⟨j, hj, rfl⟩ := registrationTimes_mem ht
  have hj' := hle j hj
  obtain ⟨r, hr, hdl⟩ := harrived j.now (registrationTimes_append a {} b hwa _ ht) (by omega)
  have hdl' : s.clock ≤ r.deadline := by omega
  exact registered_until hrun hfree hr hdl'

/-- C70/C46: an ETR that does not register any more is forgotten: once the cleanup thread has made a pass
more than 180 seconds after its last registration arrived (`t0`), it is not registered, and it stays so. -/
theorem forgotten (clock : Int) (before after : List MsEvent) (s : MsState)
    (hrun : MsRun (MsState.init clock) (before ++ after) s) (hfree : s.owner = .nobody)
    (p : Net) (src : Source) (t0 t : Int)
    (hlast : ∀ r, .register p src r ∈ before → r.deadline ≤ t0 + 180000000)
    (hnone : ∀ r, .register p src r ∉ after) (hpass : .pass t ∈ after) (ht : t0 + 180000000 < t) :
    s.store.get p src = none := by
  cases hg : s.store.get p src with
  | none => rfl
  | some r =>
    obtain ⟨b, a, he, h1, h2⟩ := (store_exact clock _ s hrun hfree p src r).mp hg
    rcases List.append_eq_append_iff.mp he with ⟨x, hx1, hx2⟩ | ⟨x, hx1, hx2⟩
    · exact absurd (show MsEvent.register p src r ∈ after by rw [hx2]; simp) (hnone r)
    · cases x with
      | nil =>
        simp only [List.nil_append] at hx2
        exact absurd (show MsEvent.register p src r ∈ after by rw [← hx2]; simp) (hnone r)
      | cons e x =>
        simp only [List.cons_append, List.cons.injEq] at hx2
        obtain ⟨rfl, rfl⟩ := hx2
        have h3 := hlast r (by rw [hx1]; simp)
        have h4 := h2 t (by simp [hpass])
        omega

/-! ### The hypotheses are met -/

/-- fourteen passes, five seconds apart; two of them register -/
def exPasses : List Pass := (List.range 14).map exPass

example : registrationTimes {} exPasses = [1000000000, 1005000000] := by decide +kernel

/-- the two registrations arrive half a second later, and a cleanup pass comes between them -/
example : ∃ r, ∃ s : MsState, MonoRun (MsState.init 0)
      [.register exNet (.xtr 9 4660) (newRegistration 1000500000 exRec false), .pass 1003000000,
        .register exNet (.xtr 9 4660) (newRegistration 1005500000 exRec false)] s ∧
    s.owner = .nobody ∧ s.clock = 1066000000 ∧ s.store.get exNet (.xtr 9 4660) = some r ∧
    s.clock ≤ r.deadline := by
  have key : ∃ s : MsState, MonoRun (MsState.init 0)
      [.register exNet (.xtr 9 4660) (newRegistration 1000500000 exRec false), .pass 1003000000,
        .register exNet (.xtr 9 4660) (newRegistration 1005500000 exRec false)] s ∧
      s.owner = .nobody ∧ s.clock = 1066000000 :=
    ⟨_, ((((((((((((((((((MonoRun.nil (MsState.init 0)).snoc (.tick _ 1000500000) (by decide)).snoc
    (.regLock _ exNet (.xtr 9 4660) exRec false rfl rfl) (by decide)).snoc
    (.regEnsure _ exNet (.xtr 9 4660) exRec false rfl) (by decide)).snoc
    (.regStore _ exNet (.xtr 9 4660) exRec false [] rfl rfl) (by decide)).snoc
    (.regUnlock _ rfl) (by decide)).snoc
    (.tick _ 1003000000) (by decide)).snoc
    (.cleanRead _ rfl) (by decide)).snoc
    (.cleanLock _ 1003000000 rfl rfl) (by decide)).snoc
    (.cleanPrefix _ 1003000000 exNet [] _ rfl rfl) (by decide)).snoc
    (.cleanSource _ 1003000000 exNet (.xtr 9 4660) [] [] _ _ rfl rfl rfl) (by decide)).snoc
    (.cleanEmpty _ 1003000000 exNet [] _ rfl rfl) (by decide)).snoc
    (.cleanUnlock _ 1003000000 rfl) (by decide)).snoc
    (.tick _ 1005500000) (by decide)).snoc
    (.regLock _ exNet (.xtr 9 4660) exRec false rfl rfl) (by decide)).snoc
    (.regEnsure _ exNet (.xtr 9 4660) exRec false rfl) (by decide)).snoc
    (.regStore _ exNet (.xtr 9 4660) exRec false _ rfl rfl) (by decide)).snoc
    (.regUnlock _ rfl) (by decide)).snoc (.tick _ 1066000000) (by decide), rfl, rfl⟩
  obtain ⟨s, hrun, hfree, hclock⟩ := key
  have hr : registrationTimes {} exPasses = [1000000000, 1005000000] := by decide +kernel
  obtain ⟨r, hr⟩ := stays_registered 5000000 1000000 (by decide) (by decide) exPasses (exPass 0) (exPass 13)
    rfl rfl (fun i hi => by
      obtain ⟨n, _, rfl⟩ := List.mem_map.mp hi
      exact ⟨rfl, none, rfl⟩)
    (by simp [exPasses, Spaced, List.range, List.range.loop, exPass]) 0 _ s hrun hfree exNet (.xtr 9 4660)
    (by
      intro t ht _
      rw [hr] at ht
      simp only [List.mem_cons, List.not_mem_nil, or_false] at ht
      rcases ht with rfl | rfl
      · exact ⟨_, List.mem_cons_self, by decide⟩
      · exact ⟨_, by simp; exact .inr rfl, by decide⟩)
    (by rw [hclock]; decide) (by rw [hclock]; decide)
  exact ⟨r, s, hrun, hfree, hclock, hr⟩

/-- the same registration, and a pass more than three minutes after it -/
example : ∃ s : MsState, MsRun (MsState.init 0)
      ([.register exNet (.xtr 9 4660) (newRegistration 5 exRec false)] ++ [.pass 180000006]) s ∧
    s.owner = .nobody ∧ s.store.get exNet (.xtr 9 4660) = none := by
  have key : ∃ s : MsState, MsRun (MsState.init 0)
      ([.register exNet (.xtr 9 4660) (newRegistration 5 exRec false)] ++ [.pass 180000006]) s ∧
      s.owner = .nobody :=
    ⟨_, ((((((((((((MsRun.nil (MsState.init 0)).snoc (.tick _ 5)).snoc
    (.regLock _ exNet (.xtr 9 4660) exRec false rfl rfl)).snoc
    (.regEnsure _ exNet (.xtr 9 4660) exRec false rfl)).snoc
    (.regStore _ exNet (.xtr 9 4660) exRec false [] rfl rfl)).snoc
    (.regUnlock _ rfl)).snoc
    (.tick _ 180000006)).snoc
    (.cleanRead _ rfl)).snoc
    (.cleanLock _ 180000006 rfl rfl)).snoc
    (.cleanPrefix _ 180000006 exNet [] _ rfl rfl)).snoc
    (.cleanSource _ 180000006 exNet (.xtr 9 4660) [] [] _ _ rfl rfl rfl)).snoc
    (.cleanEmpty _ 180000006 exNet [] _ rfl rfl)).snoc
    (.cleanUnlock _ 180000006 rfl), rfl⟩
  obtain ⟨s, hrun, hfree⟩ := key
  refine ⟨s, hrun, hfree, forgotten 0 _ _ s hrun hfree exNet (.xtr 9 4660) 5 180000006 ?_ (by simp)
    (by simp) (by decide)⟩
  intro r hr
  simp only [List.mem_singleton, MsEvent.register.injEq, true_and] at hr
  rw [hr]; decide

end PyLisp.Props
