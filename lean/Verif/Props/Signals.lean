import Verif.Signals
import Verif.Props.Lispd
/-
C91: signals.
-/
namespace PyLisp.Props
open PyLisp

/-! ### specification -/

/-- something that comes from a socket or another thread, and not from the signal pipe -/
def NoSignal : LispdEvent → Prop
  | .stop => False
  | .hup _ => False
  | _ => True

/-- the signals sent to lispd, in the order in which they arrive -/
def signalsOf (ps : List SigPass) : List Sig := ps.flatMap fun p => p.before ++ p.during

/-! ### lemmas -/

theorem arrive_frame (cap : Nat) (l : List Sig) : ∀ st : SigState,
    (st.arrive cap l).lisp = st.lisp ∧ (st.arrive cap l).handled = st.handled := by
  induction l with
  | nil => intro st; exact ⟨rfl, rfl⟩
  | cons s l ih =>
    intro st
    rw [SigState.arrive]
    split <;> exact ih _

theorem arrive_over (cap : Nat) (l : List Sig) : ∀ st : SigState, (st.arrive cap l).over = false →
    st.over = false ∧ (st.arrive cap l).pipe = st.pipe ++ l := by
  induction l with
  | nil => intro st h; exact ⟨h, (List.append_nil _).symm⟩
  | cons s l ih =>
    intro st h
    rw [SigState.arrive] at h ⊢
    split at h
    · rename_i hc
      rw [if_pos hc]
      obtain ⟨h1, h2⟩ := ih _ h
      exact ⟨h1, by rw [h2]; simp⟩
    · exact absurd (ih _ h).1 (by simp)

theorem batch_append (s : Setup) (petr : Option IP) (maxint : Nat) (es fs : List LispdEvent) :
    ∀ st, (∀ e ∈ es, NoSignal e) → (lispdBatch s petr maxint st (es ++ fs)).1 =
      (lispdBatch s petr maxint (lispdBatch s petr maxint st es).1 fs).1 := by
  induction es with
  | nil => intro st _; rfl
  | cons e es ih =>
    intro st h
    have he := h e (by simp)
    have := ih (lispdEvent s petr maxint st e).1 (fun x hx => h x (by simp [hx]))
    cases e <;> first | exact this | exact he.elim

theorem batch_signal_running (s : Setup) (petr : Option IP) (maxint : Nat) (es : List LispdEvent)
    (he : ∀ e ∈ es, NoSignal e) (st : LispdState) (hr : st.running = true) (sig : Sig) (ok : Bool) :
    (lispdBatch s petr maxint st (es ++ [sig.event ok])).1.running = true ↔ sig = .hup := by
  rw [batch_append s petr maxint es _ st he]
  have h1 : (lispdBatch s petr maxint st es).1.running = true := by
    rw [batch_running s petr maxint es st (fun e h1 h2 => ?_)]; exact hr
    have := he e h1
    cases e <;> first | exact h2.elim | exact this.elim
  generalize (lispdBatch s petr maxint st es).1 = t at h1 ⊢
  cases sig <;> cases ok <;> simp [Sig.event, lispdBatch, lispdEvent, h1]

/-- what a pass does to the pipe -/
theorem pass_step (s : Setup) (petr : Option IP) (maxint cap : Nat) (st : SigState) (p : SigPass)
    (hp : ∀ e ∈ p.ready, NoSignal e) (ho : (sigPass s petr maxint cap st p).over = false) :
    st.over = false ∧
    ((st.lisp.running = true ∧ p.selectOk = true ∧
        ∃ sig rest, st.pipe ++ p.before = sig :: rest ∧
          (sigPass s petr maxint cap st p).handled = st.handled ++ [sig] ∧
          (sigPass s petr maxint cap st p).pipe = rest ++ p.during ∧
          ((sigPass s petr maxint cap st p).lisp.running = true ↔ sig = .hup)) ∨
     ((st.lisp.running = true → p.selectOk = true → st.pipe ++ p.before = []) ∧
        (sigPass s petr maxint cap st p).handled = st.handled ∧
        (sigPass s petr maxint cap st p).pipe = st.pipe ++ p.before ++ p.during ∧
        (sigPass s petr maxint cap st p).lisp.running = st.lisp.running)) := by
  have two : ∀ t : SigState, t = (st.arrive cap p.before).arrive cap p.during → t.over = false →
      st.over = false ∧ t.handled = st.handled ∧ t.pipe = st.pipe ++ p.before ++ p.during ∧
        t.lisp.running = st.lisp.running := by
    rintro t rfl h
    obtain ⟨h1, h2⟩ := arrive_over _ _ _ h
    obtain ⟨h3, h4⟩ := arrive_over _ _ _ h1
    refine ⟨h3, ?_, ?_, ?_⟩
    · rw [(arrive_frame _ _ _).2, (arrive_frame _ _ _).2]
    · rw [h2, h4]
    · rw [(arrive_frame _ _ _).1, (arrive_frame _ _ _).1]
  by_cases hr : st.lisp.running = true
  · by_cases hs : p.selectOk = true
    · have hu : sigPass s petr maxint cap st p = (match (st.arrive cap p.before).pipe with
        | [] => ((st.arrive cap p.before).setLisp (lispdBatch s petr maxint st.lisp p.ready).1).arrive cap p.during
        | sig :: _ => ((st.arrive cap p.before).setLisp
          (lispdBatch s petr maxint st.lisp (p.ready ++ [sig.event p.hupOk])).1).arrive cap p.during |>.take) := by
        rw [sigPass, if_pos hr, if_pos hs]; rfl
      cases hpipe : (st.arrive cap p.before).pipe with
      | nil =>
        rw [hpipe] at hu
        dsimp only at hu
        rw [hu] at ho ⊢
        obtain ⟨h1, h2⟩ := arrive_over _ _ _ ho
        obtain ⟨h3, h4⟩ := arrive_over _ _ _ h1
        rw [h4] at hpipe
        refine ⟨h3, .inr ⟨fun _ _ => hpipe, ?_, ?_, ?_⟩⟩
        · rw [(arrive_frame _ _ _).2]; exact (arrive_frame _ _ _).2
        · rw [h2]
          show (st.arrive cap p.before).pipe ++ _ = _
          rw [h4]
        · rw [(arrive_frame _ _ _).1]
          exact batch_running s petr maxint p.ready st.lisp (fun e h1 h2 => by
            have := hp e h1
            cases e <;> first | exact h2.elim | exact this.elim)
      | cons sig rest =>
        rw [hpipe] at hu
        dsimp only at hu
        rw [hu] at ho ⊢
        obtain ⟨h1, h2⟩ := arrive_over _ _ _ ho
        obtain ⟨h3, h4⟩ := arrive_over _ _ _ h1
        have h2 : ∀ l, (((st.arrive cap p.before).setLisp l).arrive cap p.during).over = false →
            (((st.arrive cap p.before).setLisp l).arrive cap p.during).pipe = sig :: (rest ++ p.during) := by
          intro l hl
          rw [(arrive_over _ _ _ hl).2]
          show (st.arrive cap p.before).pipe ++ _ = _
          rw [hpipe]; rfl
        have h2 := h2 _ ho
        refine ⟨h3, .inl ⟨hr, hs, sig, rest, h4.symm.trans hpipe, ?_, ?_, ?_⟩⟩
        · show SigState.handled _ ++ List.take 1 (SigState.pipe _) = _
          rw [h2, (arrive_frame _ _ _).2]
          show (st.arrive cap p.before).handled ++ _ = _
          rw [(arrive_frame _ _ _).2]; rfl
        · show List.drop 1 (SigState.pipe _) = _
          rw [h2]; rfl
        · have hlt : ∀ t : SigState, t.take.lisp = t.lisp := fun _ => rfl
          rw [hlt, (arrive_frame _ _ _).1]
          exact batch_signal_running s petr maxint p.ready hp st.lisp hr sig p.hupOk
    · have hu : sigPass s petr maxint cap st p = (st.arrive cap p.before).arrive cap p.during := by
        rw [sigPass, if_pos hr, if_neg hs]
      obtain ⟨h1, h2, h3, h4⟩ := two _ hu ho
      exact ⟨h1, .inr ⟨fun _ h => absurd h hs, h2, h3, h4⟩⟩
  · have hu : sigPass s petr maxint cap st p = (st.arrive cap p.before).arrive cap p.during := by
      rw [sigPass, if_neg hr]
    obtain ⟨h1, h2, h3, h4⟩ := two _ hu ho
    exact ⟨h1, .inr ⟨fun h => absurd h hr, h2, h3, h4⟩⟩

theorem sigRun_over (s : Setup) (petr : Option IP) (maxint cap : Nat) (ps : List SigPass) :
    ∀ st, (∀ p ∈ ps, ∀ e ∈ p.ready, NoSignal e) → (sigRun s petr maxint cap st ps).over = false →
      st.over = false := by
  induction ps with
  | nil => intro st _ h; exact h
  | cons p ps ih =>
    intro st hp h
    exact (pass_step s petr maxint cap st p (hp p (by simp)) (ih _ (fun q hq => hp q (by simp [hq])) h)).1

theorem sigRun_append (s : Setup) (petr : Option IP) (maxint cap : Nat) (st : SigState) (ps qs : List SigPass) :
    sigRun s petr maxint cap st (ps ++ qs) = sigRun s petr maxint cap (sigRun s petr maxint cap st ps) qs :=
  List.foldl_append

theorem signals_kept (s : Setup) (petr : Option IP) (maxint cap : Nat) (ps : List SigPass) :
    ∀ st, (∀ p ∈ ps, ∀ e ∈ p.ready, NoSignal e) → (sigRun s petr maxint cap st ps).over = false →
      (sigRun s petr maxint cap st ps).handled ++ (sigRun s petr maxint cap st ps).pipe =
        st.handled ++ st.pipe ++ signalsOf ps := by
  induction ps with
  | nil => intro st _ _; exact (List.append_nil _).symm
  | cons p ps ih =>
    intro st hp h
    have hps : ∀ q ∈ ps, ∀ e ∈ q.ready, NoSignal e := fun q hq => hp q (by simp [hq])
    have h1 := ih (sigPass s petr maxint cap st p) hps h
    have ho := sigRun_over s petr maxint cap ps _ hps h
    show (sigRun s petr maxint cap (sigPass s petr maxint cap st p) ps).handled ++
      (sigRun s petr maxint cap (sigPass s petr maxint cap st p) ps).pipe = _
    rw [h1]
    have hsig : signalsOf (p :: ps) = p.before ++ p.during ++ signalsOf ps := rfl
    rw [hsig]
    rcases (pass_step s petr maxint cap st p (hp p (by simp)) ho).2 with
      ⟨_, _, sig, rest, hb, e1, e2, _⟩ | ⟨_, e1, e2, _⟩
    · rw [e1, e2]
      have : st.handled ++ st.pipe ++ (p.before ++ p.during ++ signalsOf ps) =
          st.handled ++ (st.pipe ++ p.before) ++ p.during ++ signalsOf ps := by simp
      rw [this, hb]; simp
    · rw [e1, e2]; simp

theorem handled_stops (s : Setup) (petr : Option IP) (maxint cap : Nat) (ps : List SigPass) :
    ∀ st, (∀ p ∈ ps, ∀ e ∈ p.ready, NoSignal e) → (sigRun s petr maxint cap st ps).over = false →
      (st.lisp.running = true → ∃ l, (sigRun s petr maxint cap st ps).handled = st.handled ++ l ∧
        (((sigRun s petr maxint cap st ps).lisp.running = true ∧ ∀ g ∈ l, g = .hup) ∨
         ((sigRun s petr maxint cap st ps).lisp.running = false ∧
           ∃ hs g, l = hs ++ [g] ∧ (∀ x ∈ hs, x = .hup) ∧ g ≠ .hup))) ∧
      (st.lisp.running = false → (sigRun s petr maxint cap st ps).lisp.running = false ∧
        (sigRun s petr maxint cap st ps).handled = st.handled) := by
  induction ps with
  | nil =>
    intro st _ _
    exact ⟨fun h => ⟨[], (List.append_nil _).symm, .inl ⟨h, fun _ hg => by cases hg⟩⟩, fun h => ⟨h, rfl⟩⟩
  | cons p ps ih =>
    intro st hp h
    have hps : ∀ q ∈ ps, ∀ e ∈ q.ready, NoSignal e := fun q hq => hp q (by simp [hq])
    obtain ⟨i1, i2⟩ := ih (sigPass s petr maxint cap st p) hps h
    have ho := sigRun_over s petr maxint cap ps _ hps h
    have hu : sigRun s petr maxint cap st (p :: ps) =
      sigRun s petr maxint cap (sigPass s petr maxint cap st p) ps := rfl
    rw [hu]
    rcases (pass_step s petr maxint cap st p (hp p (by simp)) ho).2 with
      ⟨hr, _, sig, rest, hb, e1, e2, e3⟩ | ⟨_, e1, e2, e3⟩
    · refine ⟨fun _ => ?_, fun hf => by rw [hr] at hf; cases hf⟩
      by_cases hg : sig = .hup
      · obtain ⟨l, hl, hc⟩ := i1 (e3.mpr hg)
        refine ⟨sig :: l, by rw [hl, e1]; simp, ?_⟩
        rcases hc with ⟨c1, c2⟩ | ⟨c1, hs, g, c2, c3, c4⟩
        · exact .inl ⟨c1, fun x hx => by
            rcases List.mem_cons.mp hx with rfl | hx
            · exact hg
            · exact c2 x hx⟩
        · refine .inr ⟨c1, sig :: hs, g, by rw [c2]; rfl, fun x hx => ?_, c4⟩
          rcases List.mem_cons.mp hx with rfl | hx
          · exact hg
          · exact c3 x hx
      · have hf : (sigPass s petr maxint cap st p).lisp.running = false := by
          cases hq : (sigPass s petr maxint cap st p).lisp.running with
          | true => exact absurd (e3.mp hq) hg
          | false => rfl
        obtain ⟨j1, j2⟩ := i2 hf
        exact ⟨[sig], by rw [j2, e1], .inr ⟨j1, [], sig, rfl, (fun _ hx => by cases hx), hg⟩⟩
    · rw [e3] at i1 i2
      rw [e1] at i1 i2
      exact ⟨i1, i2⟩

/-- each pass in which `select` works takes a signal, as long as there are any -/
theorem handled_grows (s : Setup) (petr : Option IP) (maxint cap : Nat) (k : Nat) (ps : List SigPass) :
    ∀ st, (∀ p ∈ ps, ∀ e ∈ p.ready, NoSignal e) → (∀ p ∈ ps, p.selectOk = true) →
      (sigRun s petr maxint cap st ps).over = false → (sigRun s petr maxint cap st ps).lisp.running = true →
      k ≤ st.handled.length + ps.length → k ≤ st.handled.length + st.pipe.length →
        k ≤ (sigRun s petr maxint cap st ps).handled.length := by
  induction ps with
  | nil => intro st _ _ _ _ hk _; exact hk
  | cons p ps ih =>
    intro st hp hsel h hrun hk1 hk2
    have hps : ∀ q ∈ ps, ∀ e ∈ q.ready, NoSignal e := fun q hq => hp q (by simp [hq])
    have ho := sigRun_over s petr maxint cap ps _ hps h
    have hr : st.lisp.running = true := by
      cases hq : st.lisp.running with
      | true => rfl
      | false =>
        have := ((handled_stops s petr maxint cap (p :: ps) st hp h).2 hq).1
        rw [hrun] at this; cases this
    have hi := ih (sigPass s petr maxint cap st p) hps (fun q hq => hsel q (by simp [hq])) h hrun
    simp only [List.length_cons] at hk1
    rcases (pass_step s petr maxint cap st p (hp p (by simp)) ho).2 with
      ⟨_, _, sig, rest, hb, e1, e2, _⟩ | ⟨e0, e1, e2, _⟩
    · have hlen := congrArg List.length hb
      simp only [List.length_append, List.length_cons] at hlen
      rw [e1, e2] at hi
      simp only [List.length_append, List.length_cons, List.length_nil] at hi
      exact hi (by omega) (by omega)
    · have h0 := congrArg List.length (e0 hr (hsel p (by simp)))
      simp only [List.length_append, List.length_nil] at h0
      rw [e1, e2] at hi
      simp only [List.length_append] at hi
      exact hi (by omega) (by omega)

/-! ### the property -/

/-- C91: no signal is lost, taken twice or overtaken, whenever it arrives (also while `select` waits or a message is
handled) and whatever else arrives: the signals acted on, followed by those still waiting, are the signals sent. -/
theorem signal_queue (s : Setup) (petr : Option IP) (maxint cap : Nat) (l : LispdState) (ps : List SigPass)
    (hp : ∀ p ∈ ps, ∀ e ∈ p.ready, NoSignal e) (ho : (sigRun s petr maxint cap { lisp := l } ps).over = false) :
    (sigRun s petr maxint cap { lisp := l } ps).handled ++ (sigRun s petr maxint cap { lisp := l } ps).pipe =
      signalsOf ps :=
  signals_kept s petr maxint cap ps { lisp := l } hp ho

/-- C91: lispd runs until it has acted on SIGINT or SIGTERM: as long as it runs it has only acted on SIGHUP, and if it
has stopped, then the last signal it acted on is the first SIGINT or SIGTERM sent. -/
theorem runs_until_told (s : Setup) (petr : Option IP) (maxint cap : Nat) (l : LispdState) (hl : l.running = true)
    (ps : List SigPass) (hp : ∀ p ∈ ps, ∀ e ∈ p.ready, NoSignal e)
    (ho : (sigRun s petr maxint cap { lisp := l } ps).over = false) :
    ((sigRun s petr maxint cap { lisp := l } ps).lisp.running = true →
      ∀ g ∈ (sigRun s petr maxint cap { lisp := l } ps).handled, g = .hup) ∧
    ((sigRun s petr maxint cap { lisp := l } ps).lisp.running = false →
      ∃ hs g, (sigRun s petr maxint cap { lisp := l } ps).handled = hs ++ [g] ∧
        (∀ x ∈ hs, x = .hup) ∧ (g = .int ∨ g = .term)) := by
  obtain ⟨m, hm, hc⟩ := (handled_stops s petr maxint cap ps { lisp := l } hp ho).1 hl
  have hm : (sigRun s petr maxint cap { lisp := l } ps).handled = m := hm
  rcases hc with ⟨h1, h2⟩ | ⟨h1, hs, g, h2, h3, h4⟩
  · exact ⟨fun _ => by rw [hm]; exact h2, fun h => by rw [h1] at h; cases h⟩
  · refine ⟨(fun h => by rw [h1] at h; cases h), fun _ => ⟨hs, g, by rw [hm, h2], h3, ?_⟩⟩
    cases g <;> simp at h4 ⊢

/-- C91: a signal to stop is obeyed: if it is among the first `k` signals sent, then lispd has stopped after `k` more
passes of its main loop in which `select` works, whatever arrives meanwhile and whether or not acting on the SIGHUPs
before it works. -/
theorem stop_obeyed (s : Setup) (petr : Option IP) (maxint cap : Nat) (l : LispdState) (hl : l.running = true)
    (ps qs : List SigPass) (hp : ∀ p ∈ ps ++ qs, ∀ e ∈ p.ready, NoSignal e)
    (ho : (sigRun s petr maxint cap { lisp := l } (ps ++ qs)).over = false) (k : Nat)
    (hk : ∃ g ∈ (signalsOf ps).take k, g = .int ∨ g = .term) (hq : ∀ q ∈ qs, q.selectOk = true)
    (hlen : k ≤ qs.length) :
    (sigRun s petr maxint cap { lisp := l } (ps ++ qs)).lisp.running = false := by
  cases hrun : (sigRun s petr maxint cap { lisp := l } (ps ++ qs)).lisp.running with
  | false => rfl
  | true =>
    exfalso
    have hpp : ∀ p ∈ ps, ∀ e ∈ p.ready, NoSignal e := fun p h => hp p (by simp [h])
    have hpq : ∀ p ∈ qs, ∀ e ∈ p.ready, NoSignal e := fun p h => hp p (by simp [h])
    have hall := (runs_until_told s petr maxint cap l hl _ hp ho).1 hrun
    have hkeep := signal_queue s petr maxint cap l _ hp ho
    rw [sigRun_append] at ho hrun hall hkeep
    have ho1 := sigRun_over s petr maxint cap qs _ hpq ho
    have hk1 := signal_queue s petr maxint cap l ps hpp ho1
    obtain ⟨g, hg, hstop⟩ := hk
    have hg' : g ∈ (signalsOf ps).take (min k (signalsOf ps).length) := by
      rwa [← List.take_eq_take_min]
    have hl1 := congrArg List.length hk1
    simp only [List.length_append] at hl1
    have hgrow := handled_grows s petr maxint cap (min k (signalsOf ps).length) qs _ hpq hq ho hrun
      (by omega) (by omega)
    have hpre : (signalsOf (ps ++ qs)).take (min k (signalsOf ps).length) =
        (signalsOf ps).take (min k (signalsOf ps).length) := by
      have : signalsOf (ps ++ qs) = signalsOf ps ++ signalsOf qs := List.flatMap_append
      rw [this, List.take_append_of_le_length (by omega)]
    rw [← hpre, ← hkeep, List.take_append_of_le_length hgrow] at hg'
    have := hall g (List.mem_of_mem_take hg')
    rcases hstop with h | h <;> rw [h] at this <;> cases this

/-- C91: signals fit the pipe as long as no more than its capacity (65536 on Linux) are sent in all. -/
theorem pipe_large_enough (s : Setup) (petr : Option IP) (maxint cap : Nat) (l : LispdState) (ps : List SigPass)
    (hc : (signalsOf ps).length ≤ cap) : (sigRun s petr maxint cap { lisp := l } ps).over = false := by
  have arr : ∀ (g : List Sig) (st : SigState), st.pipe.length + g.length ≤ cap → st.over = false →
      (st.arrive cap g).over = false ∧ (st.arrive cap g).pipe.length = st.pipe.length + g.length := by
    intro g
    induction g with
    | nil => intro st _ h; exact ⟨h, rfl⟩
    | cons a g ih =>
      intro st hlen h
      simp only [List.length_cons] at hlen ⊢
      rw [SigState.arrive, if_pos (by omega)]
      have := ih { st with pipe := st.pipe ++ [a] } (by simp; omega) h
      refine ⟨this.1, ?_⟩
      rw [this.2]; simp; omega
  have key : ∀ (ps : List SigPass) (st : SigState), st.pipe.length + (signalsOf ps).length ≤ cap → st.over = false →
      (sigRun s petr maxint cap st ps).over = false := by
    intro ps
    induction ps with
    | nil => intro st _ h; exact h
    | cons p ps ih =>
      intro st hlen h
      have hsig : (signalsOf (p :: ps)).length = p.before.length + p.during.length + (signalsOf ps).length := by
        show (p.before ++ p.during ++ signalsOf ps).length = _
        simp [Nat.add_assoc]
      rw [hsig] at hlen
      obtain ⟨a1, a2⟩ := arr p.before st (by omega) h
      have a3 : ∀ m, (((st.arrive cap p.before).setLisp m).arrive cap p.during).over = false ∧
          (((st.arrive cap p.before).setLisp m).arrive cap p.during).pipe.length =
            st.pipe.length + p.before.length + p.during.length := by
        intro m
        have := arr p.during ((st.arrive cap p.before).setLisp m) (by
          show (st.arrive cap p.before).pipe.length + _ ≤ _
          rw [a2]; omega) a1
        refine ⟨this.1, this.2.trans ?_⟩
        show (st.arrive cap p.before).pipe.length + _ = _
        rw [a2]
      have a4 := arr p.during (st.arrive cap p.before) (by rw [a2]; omega) a1
      have hstep : (sigPass s petr maxint cap st p).over = false ∧
          (sigPass s petr maxint cap st p).pipe.length ≤ st.pipe.length + p.before.length + p.during.length := by
        rw [sigPass]
        split
        · split
          · split
            · exact ⟨(a3 _).1, Nat.le_of_eq (a3 _).2⟩
            · refine ⟨(a3 _).1, ?_⟩
              show (List.drop 1 (SigState.pipe _)).length ≤ _
              rw [List.length_drop, (a3 _).2]; omega
          · exact ⟨a4.1, by rw [a4.2, a2]; exact Nat.le_refl _⟩
        · exact ⟨a4.1, by rw [a4.2, a2]; exact Nat.le_refl _⟩
      exact ih _ (by omega) hstep.1
  exact key ps { lisp := l } (by simpa using hc) rfl

/-- C91: only SIGINT and SIGTERM stop lispd, and only once it has got one. -/
theorem hup_does_not_stop (s : Setup) (petr : Option IP) (maxint cap : Nat) (l : LispdState) (hl : l.running = true)
    (ps : List SigPass) (hp : ∀ p ∈ ps, ∀ e ∈ p.ready, NoSignal e)
    (ho : (sigRun s petr maxint cap { lisp := l } ps).over = false) (hh : ∀ g ∈ signalsOf ps, g = .hup) :
    (sigRun s petr maxint cap { lisp := l } ps).lisp.running = true := by
  cases hrun : (sigRun s petr maxint cap { lisp := l } ps).lisp.running with
  | true => rfl
  | false =>
    obtain ⟨hs, g, h1, _, h3⟩ := (runs_until_told s petr maxint cap l hl ps hp ho).2 hrun
    have := hh g (by
      rw [← signal_queue s petr maxint cap l ps hp ho, h1]; simp)
    rcases h3 with h | h <;> rw [h] at this <;> cases this

/-! ### the theorems apply -/

/-- two passes in which nothing happens -/
def exampleRest : List SigPass := [{ before := [] }, { before := [] }]

/-- SIGHUP arrives while lispd waits, the call of `select` is interrupted by it; SIGTERM arrives while a datagram is
handled; two passes later lispd has stopped -/
def exampleSignals : List SigPass :=
  [{ before := [.hup], selectOk := false }, { ready := [.unreadable], during := [.term, .hup], hupOk := false }]

example (s : Setup) (l : LispdState) (hl : l.running = true) :
    (sigRun s none 1 65536 { lisp := l } (exampleSignals ++ exampleRest)).lisp.running = false :=
  stop_obeyed s none 1 65536 l hl exampleSignals exampleRest
    (by intro p hp e he
        simp [exampleSignals, exampleRest] at hp
        rcases hp with rfl | rfl | rfl <;> simp at he
        rw [he]; trivial)
    (pipe_large_enough s none 1 65536 l _ (by decide)) 2 ⟨.term, by decide, .inr rfl⟩ (by simp [exampleRest]) (by decide)

example : signalsOf exampleSignals = [.hup, .term, .hup] := rfl

/-- what was acted on and what is left in the pipe -/
example (s : Setup) (l : LispdState) (hl : l.running = true) :
    (sigRun s none 1 65536 { lisp := l } (exampleSignals ++ exampleRest)).handled = [.hup, .term] ∧
    (sigRun s none 1 65536 { lisp := l } (exampleSignals ++ exampleRest)).pipe = [.hup] := by
  simp [sigRun, exampleSignals, exampleRest, sigPass, SigState.arrive, hl, lispdBatch, lispdEvent, Sig.event, SigState.take,
    SigState.setLisp]

end PyLisp.Props
