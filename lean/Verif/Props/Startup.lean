import Verif.Startup
import Verif.Props.Settings
import Verif.Props.Lispd
/-
C68: what lispd is after its start, and the life of the registration threads.
-/
namespace PyLisp.Props
open PyLisp

/-! ### Specification: what a history of an ETR node says -/

/-- the registration is configured after the history: it was added and not removed since -/
def Current (h : List NodeEvent) (r : Nat) : Prop :=
  ∃ h1 h2, h = h1 ++ .add r :: h2 ∧ .remove r ∉ h2

/-- the node has control plane sockets after the history -/
def Online (h : List NodeEvent) : Prop :=
  ∃ h1 c d h2, h = h1 ++ .sockets c d :: h2 ∧ c ≠ [] ∧ ∀ c' d', NodeEvent.sockets c' d' ∉ h2

/-- the registration is configured, and at some time since it was added the node had control plane
sockets -/
def Awake (h : List NodeEvent) (r : Nat) : Prop :=
  ∃ h1 h2, h = h1 ++ .add r :: h2 ∧ .remove r ∉ h2 ∧
    (Online h1 ∨ ∃ c d, NodeEvent.sockets c d ∈ h2 ∧ c ≠ [])

/-! ### Histories, one event at a time -/

theorem split_snoc {α : Type} {h : List α} {e x : α} {P : List α → List α → Prop} :
    (∃ h1 h2, h ++ [e] = h1 ++ x :: h2 ∧ P h1 h2) ↔
      (e = x ∧ P h []) ∨ ∃ h1 h2, h = h1 ++ x :: h2 ∧ P h1 (h2 ++ [e]) := by
  constructor
  · rintro ⟨h1, h2, he, hp⟩
    rcases List.eq_nil_or_concat h2 with rfl | ⟨l, y, rfl⟩
    · left
      have := List.append_inj' he (by simp)
      obtain ⟨h3, h4⟩ := this
      subst h3
      simp at h4
      exact ⟨h4, hp⟩
    · right
      have he' : h ++ [e] = (h1 ++ x :: l) ++ [y] := by rw [he]; simp
      obtain ⟨h3, h4⟩ := List.append_inj' he' (by simp)
      simp at h4
      subst h4
      exact ⟨h1, l, h3, by simpa using hp⟩
  · rintro (⟨rfl, hp⟩ | ⟨h1, h2, rfl, hp⟩)
    · exact ⟨h, [], by simp, hp⟩
    · exact ⟨h1, h2 ++ [e], by simp, hp⟩

theorem current_snoc (h : List NodeEvent) (e : NodeEvent) (r : Nat) :
    Current (h ++ [e]) r ↔ e = .add r ∨ (Current h r ∧ e ≠ .remove r) := by
  unfold Current
  rw [split_snoc]
  constructor
  · rintro (⟨h1, _⟩ | ⟨h1, h2, h3, h4⟩)
    · exact .inl h1
    · simp at h4
      exact .inr ⟨⟨h1, h2, h3, h4.1⟩, fun hc => h4.2 hc.symm⟩
  · rintro (h1 | ⟨⟨h1, h2, h3, h4⟩, h5⟩)
    · exact .inl ⟨h1, by simp⟩
    · exact .inr ⟨h1, h2, h3, by simp; exact ⟨h4, fun hc => h5 hc.symm⟩⟩

theorem online_sockets (h : List NodeEvent) (c d : List Udp) : Online (h ++ [.sockets c d]) ↔ c ≠ [] := by
  constructor
  · rintro ⟨h1, c', d', h2, he, hc, hn⟩
    have := (split_snoc (P := fun _ h2 => ∀ c' d', NodeEvent.sockets c' d' ∉ h2)).mp ⟨h1, h2, he, hn⟩
    rcases this with ⟨h3, _⟩ | ⟨_, _, _, h3⟩
    · cases h3; exact hc
    · exact absurd (by simp) (h3 c d)
  · intro hc
    exact ⟨h, c, d, [], by simp, hc, by simp⟩

theorem online_other (h : List NodeEvent) (e : NodeEvent) (hne : ∀ c d, e ≠ .sockets c d) :
    Online (h ++ [e]) ↔ Online h := by
  constructor
  · rintro ⟨h1, c', d', h2, he, hc, hn⟩
    have := (split_snoc (P := fun _ h2 => ∀ c' d', NodeEvent.sockets c' d' ∉ h2)).mp ⟨h1, h2, he, hn⟩
    rcases this with ⟨h3, _⟩ | ⟨k1, k2, h4, h3⟩
    · exact absurd h3 (hne _ _)
    · exact ⟨k1, c', d', k2, h4, hc, fun a b hm => h3 a b (by simp [hm])⟩
  · rintro ⟨h1, c', d', h2, rfl, hc, hn⟩
    refine ⟨h1, c', d', h2 ++ [e], by simp, hc, fun a b hm => ?_⟩
    rcases List.mem_append.mp hm with hm | hm
    · exact hn a b hm
    · simp at hm; exact hne a b hm.symm

theorem awake_snoc (h : List NodeEvent) (e : NodeEvent) (r : Nat) :
    Awake (h ++ [e]) r ↔ (e = .add r ∧ Online h) ∨ (Awake h r ∧ e ≠ .remove r) ∨
      (∃ c d, e = .sockets c d ∧ c ≠ [] ∧ Current h r) := by
  unfold Awake Current
  rw [split_snoc]
  constructor
  · rintro (⟨h1, h2, h3 | ⟨c, d, h3, _⟩⟩ | ⟨h1, h2, h3, h4, h5⟩)
    · exact .inl ⟨h1, h3⟩
    · cases h3
    · simp at h4
      have hr : e ≠ .remove r := fun hc => h4.2 hc.symm
      rcases h5 with h5 | ⟨c, d, h5, h6⟩
      · exact .inr (.inl ⟨⟨h1, h2, h3, h4.1, .inl h5⟩, hr⟩)
      · rcases List.mem_append.mp h5 with h5 | h5
        · exact .inr (.inl ⟨⟨h1, h2, h3, h4.1, .inr ⟨c, d, h5, h6⟩⟩, hr⟩)
        · simp at h5
          exact .inr (.inr ⟨c, d, h5.symm, h6, h1, h2, h3, h4.1⟩)
  · rintro (⟨h1, h2⟩ | ⟨⟨h1, h2, h3, h4, h5⟩, h6⟩ | ⟨c, d, rfl, hc, h1, h2, h3, h4⟩)
    · exact .inl ⟨h1, by simp, .inl h2⟩
    · refine .inr ⟨h1, h2, h3, by simp; exact ⟨h4, fun hc => h6 hc.symm⟩, ?_⟩
      rcases h5 with h5 | ⟨c, d, h5, h7⟩
      · exact .inl h5
      · exact .inr ⟨c, d, by simp [h5], h7⟩
    · exact .inr ⟨h1, h2, h3, by simp [h4], .inr ⟨c, d, by simp, hc⟩⟩

/-- induction over a history, from its end -/
theorem snoc_induction {α : Type} {P : List α → Prop} (h0 : P []) (hs : ∀ l a, P l → P (l ++ [a])) :
    ∀ l, P l := by
  intro l
  have : ∀ k : List α, P k.reverse := by
    intro k
    induction k with
    | nil => exact h0
    | cons a k ih => rw [List.reverse_cons]; exact hs _ _ ih
  have := this l.reverse
  rwa [List.reverse_reverse] at this

theorem awake_current {h : List NodeEvent} {r : Nat} (ha : Awake h r) : Current h r := by
  obtain ⟨h1, h2, h3, h4, _⟩ := ha
  exact ⟨h1, h2, h3, h4⟩

theorem online_awake {r : Nat} : ∀ h : List NodeEvent, Current h r → Online h → Awake h r := by
  apply snoc_induction
  · rintro ⟨h1, h2, he, _⟩
    simp at he
  · intro h e ih hc ho
    rw [awake_snoc]
    by_cases hs : ∃ c d, e = .sockets c d
    · obtain ⟨c, d, rfl⟩ := hs
      rw [online_sockets] at ho
      rw [current_snoc] at hc
      rcases hc with hc | ⟨hc, _⟩
      · cases hc
      · exact .inr (.inr ⟨c, d, rfl, ho, hc⟩)
    · rw [online_other _ _ (fun c d hcd => hs ⟨c, d, hcd⟩)] at ho
      rw [current_snoc] at hc
      rcases hc with hc | ⟨hc, hr⟩
      · exact .inl ⟨hc, ho⟩
      · exact .inr (.inl ⟨ih hc ho, hr⟩)

/-! ### The threads of an ETR node -/

/-- no current thread has ended or was started twice -/
def Ready (n : NodeRun) : Prop := ∀ x ∈ n.threads, x.2.over = false ∧ x.2.starts ≤ 1

/-- the node with these sockets and all threads started -/
def woken (c d : List Udp) (n : NodeRun) : NodeRun :=
  { n with control := c, data := d, threads := n.threads.map fun x => (x.1, { x.2 with starts := 1 }) }

theorem startThreads_ready (l : List (Nat × Thread)) (h : ∀ x ∈ l, x.2.over = false ∧ x.2.starts ≤ 1) :
    startThreads l = .ok (l.map fun x => (x.1, { x.2 with starts := 1 })) := by
  induction l with
  | nil => rfl
  | cons x l ih =>
    obtain ⟨r, t⟩ := x
    have h1 := h (r, t) (by simp)
    have h2 := ih (fun y hy => h y (by simp [hy]))
    rw [startThreads, h2]
    simp only at h1
    by_cases hs : 0 < t.starts
    · have ha : t.alive = true := by simp [Thread.alive, hs, h1.1]
      have : t.starts = 1 := by omega
      rw [if_pos ha]
      cases t
      simp_all
    · have ha : t.alive = false := by simp [Thread.alive, hs]
      have : t.starts = 0 := by omega
      rw [if_neg (by simp [ha]), Thread.start, if_neg hs]
      simp [this]

theorem setSockets_ready {n : NodeRun} (h : Ready n) (c d : List Udp) (hc : c ≠ []) :
    n.setSockets c d = .ok (woken c d n) := by
  rw [NodeRun.setSockets, if_neg hc, startThreads_ready _ h]
  rfl

theorem run_append (n : NodeRun) (h k : List NodeEvent) : n.run (h ++ k) =
    match n.run h with
    | .error e => .error e
    | .ok m => m.run k := by
  induction h generalizing n with
  | nil => rfl
  | cons e h ih =>
    rw [List.cons_append, NodeRun.run, NodeRun.run]
    cases n.step e with
    | error x => rfl
    | ok m => exact ih m

/-- what is known about a node after a history -/
structure Follows (h : List NodeEvent) (n : NodeRun) : Prop where
  nodup : (dictKeys n.threads).Nodup
  current : ∀ r, (dictGet n.threads r).isSome = true ↔ Current h r
  thread : ∀ r t, dictGet n.threads r = some t →
    t.stopped = false ∧ t.over = false ∧ t.starts ≤ 1 ∧ (t.starts = 1 ↔ Awake h r)
  former : ∀ t ∈ n.former, t.stopped = true ∧ t.starts ≤ 1 ∧ (t.over = true → t.starts = 1)
  online : n.control ≠ [] ↔ Online h

theorem dictGet_mem {κ υ : Type} [DecidableEq κ] {d : List (κ × υ)} (h : (dictKeys d).Nodup) {x : κ × υ} (hx : x ∈ d) :
    dictGet d x.1 = some x.2 := by
  induction d with
  | nil => cases hx
  | cons y d ih =>
    obtain ⟨k, v⟩ := y
    simp only [dictKeys, List.map_cons, List.nodup_cons] at h
    rcases List.mem_cons.mp hx with rfl | hx
    · simp [dictGet]
    · have hne : x.1 ≠ k := fun hc => h.1 (by rw [← hc]; exact List.mem_map_of_mem hx)
      have := ih (by simpa [dictKeys] using h.2) hx
      simp [dictGet, Ne.symm hne, hne, this]

theorem dictGet_map {κ υ ω : Type} [DecidableEq κ] (d : List (κ × υ)) (f : υ → ω) (k : κ) :
    dictGet (d.map fun x => (x.1, f x.2)) k = (dictGet d k).map f := by
  induction d with
  | nil => rfl
  | cons y d ih =>
    obtain ⟨k', v⟩ := y
    simp only [List.map_cons, dictGet]
    split
    · rfl
    · exact ih

theorem woken_get (c d : List Udp) (n : NodeRun) (r : Nat) : dictGet (woken c d n).threads r =
    (dictGet n.threads r).map fun t => { t with starts := 1 } :=
  dictGet_map n.threads (fun t : Thread => ({ t with starts := 1 } : Thread)) r

theorem endThreads_mem {t : Thread} (l : List Thread) : ∀ who, t ∈ endThreads who l →
    ∃ u ∈ l, t.stopped = u.stopped ∧ t.starts = u.starts ∧ (t.over = true → u.over = true ∨ 0 < u.starts) := by
  induction l with
  | nil => intro who h; cases h
  | cons x l ih =>
    intro who h
    rw [endThreads] at h
    rcases List.mem_cons.mp h with rfl | h
    · refine ⟨x, by simp, rfl, rfl, fun ho => ?_⟩
      simp only [Bool.or_eq_true, Bool.and_eq_true, decide_eq_true_eq] at ho
      exact ho.imp id (·.1)
    · obtain ⟨u, hu, h1⟩ := ih _ h
      exact ⟨u, by simp [hu], h1⟩

theorem Follows.ready {h : List NodeEvent} {n : NodeRun} (hf : Follows h n) : Ready n := by
  intro x hx
  have := hf.thread x.1 x.2 (dictGet_mem hf.nodup hx)
  exact ⟨this.2.1, this.2.2.1⟩

theorem follows_step (h : List NodeEvent) (n : NodeRun) (hf : Follows h n) (e : NodeEvent) :
    ∃ n', n.step e = .ok n' ∧ Follows (h ++ [e]) n' := by
  cases e with
  | sockets c d =>
    by_cases hc : c = []
    · refine ⟨{ n with control := c, data := d }, by simp [NodeRun.step, NodeRun.setSockets, hc], ?_⟩
      refine ⟨hf.nodup, fun r => ?_, fun r t ht => ?_, hf.former, ?_⟩
      · rw [current_snoc]; simp [hf.current r]
      · have := hf.thread r t ht
        refine ⟨this.1, this.2.1, this.2.2.1, ?_⟩
        rw [awake_snoc, this.2.2.2]
        simp [hc]
      · rw [online_sockets]
    · refine ⟨woken c d n, setSockets_ready hf.ready c d hc, ?_⟩
      refine ⟨?_, fun r => ?_, fun r t ht => ?_, hf.former, ?_⟩
      · simpa [woken, dictKeys, List.map_map, Function.comp_def] using hf.nodup
      · rw [current_snoc]
        rw [woken_get]
        simp [← hf.current r]
      · rw [woken_get] at ht
        cases hu : dictGet n.threads r with
        | none => rw [hu] at ht; cases ht
        | some u =>
          rw [hu] at ht
          simp only [Option.map_some, Option.some.injEq] at ht
          subst ht
          have h1 := hf.thread r u hu
          refine ⟨h1.1, h1.2.1, by simp, ?_⟩
          rw [awake_snoc]
          have : Current h r := (hf.current r).mp (by simp [hu])
          simp [hc, this]
      · rw [online_sockets]; rfl
  | add r =>
    have hon : Online (h ++ [.add r]) ↔ Online h := online_other _ _ (by simp)
    by_cases hs : (dictGet n.threads r).isSome = true
    · refine ⟨n, by simp [NodeRun.step, NodeRun.add, hs], hf.nodup, fun q => ?_, fun q t ht => ?_, hf.former, ?_⟩
      · rw [current_snoc, hf.current q]
        constructor
        · intro h1; exact .inr ⟨h1, by simp⟩
        · rintro (h1 | h1)
          · cases h1; exact (hf.current r).mp hs
          · exact h1.1
      · have h1 := hf.thread q t ht
        refine ⟨h1.1, h1.2.1, h1.2.2.1, h1.2.2.2.trans ?_⟩
        rw [awake_snoc]
        constructor
        · intro h2; exact .inr (.inl ⟨h2, by simp⟩)
        · rintro (⟨h2, h3⟩ | h2 | ⟨c, d, h2, _⟩)
          · cases h2
            exact online_awake h ((hf.current r).mp hs) h3
          · exact h2.1
          · cases h2
      · rw [hon]; exact hf.online
    · have hnc : ¬ Current h r := fun hc => hs ((hf.current r).mpr hc)
      have key : ∀ t : Thread, t.stopped = false → t.over = false → t.starts ≤ 1 → (t.starts = 1 ↔ Online h) →
          Follows (h ++ [.add r]) { n with threads := dictSet n.threads r t } := by
        intro t h1 h2 h3 h4
        refine ⟨nodup_set _ _ hf.nodup, fun q => ?_, fun q u hu => ?_, hf.former, by rw [hon]; exact hf.online⟩
        · rw [current_snoc]
          simp only [dictGet_set]
          by_cases hq : q = r
          · subst hq; simp
          · simp [hq, Ne.symm hq, hf.current q]
        · simp only [dictGet_set] at hu
          rw [awake_snoc]
          by_cases hq : q = r
          · subst hq
            simp at hu
            subst hu
            refine ⟨h1, h2, h3, h4.trans ⟨fun ho => .inl ⟨rfl, ho⟩, ?_⟩⟩
            rintro (h5 | h5 | ⟨c, d, h5, _⟩)
            · exact h5.2
            · exact absurd (awake_current h5.1) hnc
            · cases h5
          · rw [if_neg hq] at hu
            have h5 := hf.thread q u hu
            refine ⟨h5.1, h5.2.1, h5.2.2.1, h5.2.2.2.trans ?_⟩
            simp [hq, Ne.symm hq]
      by_cases hc : n.control = []
      · refine ⟨{ n with threads := dictSet n.threads r {} }, by simp [NodeRun.step, NodeRun.add, hs, hc], ?_⟩
        apply key <;> try simp
        exact fun ho => (hf.online.mpr ho) hc
      · refine ⟨{ n with threads := dictSet n.threads r { starts := 1 } }, ?_, ?_⟩
        · simp [NodeRun.step, NodeRun.add, hs, hc, Thread.start]
        · apply key <;> try simp
          exact hf.online.mp hc
  | remove r =>
    have hon : Online (h ++ [.remove r]) ↔ Online h := online_other _ _ (by simp)
    refine ⟨n.remove r, rfl, ?_⟩
    cases hg : dictGet n.threads r with
    | none =>
      have hnc : ¬ Current h r := fun hc => by have := (hf.current r).mpr hc; rw [hg] at this; cases this
      simp only [NodeRun.remove, hg]
      refine ⟨hf.nodup, fun q => ?_, fun q t ht => ?_, hf.former, by rw [hon]; exact hf.online⟩
      · rw [current_snoc, hf.current q]
        constructor
        · intro h1; exact .inr ⟨h1, fun hc => by cases hc; exact hnc h1⟩
        · rintro (h1 | h1)
          · cases h1
          · exact h1.1
      · have h1 := hf.thread q t ht
        refine ⟨h1.1, h1.2.1, h1.2.2.1, h1.2.2.2.trans ?_⟩
        rw [awake_snoc]
        constructor
        · intro h2; exact .inr (.inl ⟨h2, fun hc => by cases hc; exact hnc (awake_current h2)⟩)
        · rintro (⟨h2, _⟩ | h2 | ⟨_, _, h2, _⟩)
          · cases h2
          · exact h2.1
          · cases h2
    | some t0 =>
      simp only [NodeRun.remove, hg]
      have h0 := hf.thread r t0 hg
      refine ⟨nodup_del _ hf.nodup, fun q => ?_, fun q t ht => ?_, fun t ht => ?_, by rw [hon]; exact hf.online⟩
      · rw [current_snoc]
        simp only [dictGet_del]
        by_cases hq : q = r
        · subst hq; simp
        · simp [hq, Ne.symm hq, hf.current q]
      · simp only [dictGet_del] at ht
        rw [awake_snoc]
        by_cases hq : q = r
        · subst hq; simp at ht
        · rw [if_neg hq] at ht
          have h1 := hf.thread q t ht
          refine ⟨h1.1, h1.2.1, h1.2.2.1, h1.2.2.2.trans ?_⟩
          simp [hq, Ne.symm hq]
      · rcases List.mem_append.mp ht with ht | ht
        · exact hf.former t ht
        · simp at ht
          subst ht
          exact ⟨rfl, h0.2.2.1, fun ho => absurd (h0.2.1.symm.trans ho) (by decide)⟩
  | ended who =>
    refine ⟨_, rfl, hf.nodup, fun q => ?_, fun q t ht => ?_, fun t ht => ?_, ?_⟩
    · rw [current_snoc]; simp [hf.current q]
    · have h1 := hf.thread q t ht
      refine ⟨h1.1, h1.2.1, h1.2.2.1, h1.2.2.2.trans ?_⟩
      rw [awake_snoc]; simp
    · obtain ⟨u, hu, h1, h2⟩ := endThreads_mem _ _ ht
      have := hf.former u hu
      refine ⟨h1.trans this.1, h2.1 ▸ this.2.1, fun ho => ?_⟩
      rcases h2.2 ho with h3 | h3
      · rw [h2.1]; exact this.2.2 h3
      · rw [h2.1]; omega
    · rw [online_other _ _ (by simp)]; exact hf.online

theorem follows_run : ∀ h : List NodeEvent, ∃ n, NodeRun.run {} h = .ok n ∧ Follows h n := by
  apply snoc_induction
  · refine ⟨{}, rfl, by simp [dictKeys], fun r => ?_, fun r t ht => by simp [dictGet] at ht, by simp, ?_⟩
    · simp [dictGet, Current]
    · simp [Online]
  · rintro h e ⟨n, h1, hf⟩
    obtain ⟨n', h2, hf'⟩ := follows_step h n hf e
    refine ⟨n', ?_, hf'⟩
    rw [run_append, h1]
    simp only [NodeRun.run, h2]

/-- C68: the life of the registration threads of an ETR node, for every history of registrations added and
removed and sockets set: nothing raises an exception; exactly the registrations that are configured have a
thread, which was not asked to stop and has not ended; it was started — once — exactly if the node had
control plane sockets at some time since the registration was added; and every thread of a registration that
was removed has been asked to stop, was not started more than once, and has ended only if it was started. -/
theorem thread_lifecycle (h : List NodeEvent) : ∃ n, NodeRun.run {} h = .ok n ∧
    (∀ r, (∃ t, dictGet n.threads r = some t) ↔ Current h r) ∧
    (∀ r t, dictGet n.threads r = some t → t.stopped = false ∧ t.over = false ∧
      (Awake h r → t.starts = 1) ∧ (¬ Awake h r → t.starts = 0)) ∧
    (∀ t ∈ n.former, t.stopped = true ∧ t.starts ≤ 1 ∧ (t.over = true → t.starts = 1)) := by
  obtain ⟨n, h1, hf⟩ := follows_run h
  refine ⟨n, h1, fun r => ?_, fun r t ht => ?_, hf.former⟩
  · rw [← hf.current r, Option.isSome_iff_exists]
  · obtain ⟨h2, h3, h4, h5⟩ := hf.thread r t ht
    refine ⟨h2, h3, h5.mpr, fun hn => ?_⟩
    have : t.starts ≠ 1 := fun hc => hn (h5.mp hc)
    omega

/-- C68: a thread ends only when it was asked to stop, and then at once (the loop runs every five
seconds). -/
theorem thread_ends (s : RunState) (i : Pass) : runPass s i = none ↔ i.stop = true := by
  unfold runPass
  by_cases h : i.stop = true
  · simp [h]
  · simp only [h, Bool.false_eq_true, if_false, iff_false]
    split
    · split <;> simp
    · simp

/-- C68: an ETR node that nobody gives sockets — such as one that is added to a tree when lispd is already
running — never registers anything, whatever is done to it. -/
theorem late_node (h : List NodeEvent) (hs : ∀ c d, NodeEvent.sockets c d ∉ h) :
    ∃ n, NodeRun.run {} h = .ok n ∧ (∀ r t, dictGet n.threads r = some t → t.starts = 0) ∧
      n.control = [] := by
  obtain ⟨n, h1, hf⟩ := follows_run h
  have ho : ∀ k : List NodeEvent, (∀ c d, NodeEvent.sockets c d ∉ k) → ¬ Online k := by
    rintro k hk ⟨h1, c, d, h2, rfl, _⟩
    exact hk c d (by simp)
  refine ⟨n, h1, fun r t ht => ?_, ?_⟩
  · obtain ⟨_, _, h4, h5⟩ := hf.thread r t ht
    have : ¬ Awake h r := by
      rintro ⟨k1, k2, rfl, _, h6 | ⟨c, d, h6, _⟩⟩
      · exact ho k1 (fun c d hm => hs c d (by simp [hm])) h6
      · exact hs c d (by simp [h6])
    have h6 : t.starts ≠ 1 := fun hc => this (h5.mp hc)
    omega
  · exact Classical.byContradiction fun hc => ho h hs (hf.online.mp hc)

/-! ### The sockets in the trees -/

/-- the node with these sockets -/
def given (c d : List Udp) (n : NodeRun) : NodeRun := { n with control := c, data := d }

open Classical in
/-- the nodes after `set_sockets` for the leaves `L` and the containers `C` -/
noncomputable def afterSockets (c d : List Udp) (L C : Nat → Prop) (ns : Nodes) : Nodes := fun i =>
  if L i then woken c d (ns i) else if C i then given c d (ns i) else ns i

theorem woken_given (c d : List Udp) (n : NodeRun) : woken c d (given c d n) = woken c d n := rfl
theorem given_woken (c d : List Udp) (n : NodeRun) : given c d (woken c d n) = woken c d n := rfl
theorem given_given (c d : List Udp) (n : NodeRun) : given c d (given c d n) = given c d n := rfl
theorem woken_woken (c d : List Udp) (n : NodeRun) : woken c d (woken c d n) = woken c d n := by
  simp [woken, Function.comp_def]

theorem woken_ready {c d : List Udp} {n : NodeRun} (h : Ready n) : Ready (woken c d n) := by
  intro x hx
  simp only [woken, List.mem_map] at hx
  obtain ⟨y, hy, rfl⟩ := hx
  exact ⟨(h y hy).1, by simp⟩

theorem afterSockets_ready {c d : List Udp} {L C : Nat → Prop} {ns : Nodes} (h : ∀ i, Ready (ns i)) :
    ∀ i, Ready (afterSockets c d L C ns i) := by
  intro i
  unfold afterSockets
  split
  · exact woken_ready (h i)
  · split
    · exact h i
    · exact h i

theorem afterSockets_twice (c d : List Udp) (L C L' C' : Nat → Prop) (ns : Nodes) :
    afterSockets c d L' C' (afterSockets c d L C ns) =
      afterSockets c d (fun i => L i ∨ L' i) (fun i => C i ∨ C' i) ns := by
  funext i
  unfold afterSockets
  by_cases h1 : L i <;> by_cases h2 : C i <;> by_cases h3 : L' i <;> by_cases h4 : C' i <;>
    simp [h1, h2, h3, h4, woken_given, given_woken, given_given, woken_woken]

theorem afterSockets_congr {c d : List Udp} {L C L' C' : Nat → Prop} {ns : Nodes}
    (h1 : ∀ i, L i ↔ L' i) (h2 : ∀ i, C i ↔ C' i) :
    afterSockets c d L C ns = afterSockets c d L' C' ns := by
  have e1 : L = L' := funext fun i => propext (h1 i)
  have e2 : C = C' := funext fun i => propext (h2 i)
  rw [e1, e2]

/-- a leaf of the tree with this identity -/
def LeafIn (t : Node) (i : Nat) : Prop := ∃ k p, InTree t (.leaf k i p)
/-- a container of the tree with this identity -/
def ContIn (t : Node) (i : Nat) : Prop := ∃ a p cs, InTree t (.cont a i p cs)

theorem inTree_leaf {k i p n} : InTree (.leaf k i p) n ↔ n = .leaf k i p := by
  constructor
  · intro h; cases h; rfl
  · rintro rfl; exact .self _

theorem inTree_cont {a i p cs n} : InTree (.cont a i p cs) n ↔ n = .cont a i p cs ∨ ∃ c ∈ cs, InTree c n := by
  constructor
  · intro h
    cases h with
    | self => exact .inl rfl
    | child hc h => exact .inr ⟨_, hc, h⟩
  · rintro (rfl | ⟨c, hc, h⟩)
    · exact .self _
    · exact .child hc h

mutual
theorem setSockets_spec (c d : List Udp) (hc : c ≠ []) : ∀ (t : Node) (ns : Nodes), (∀ i, Ready (ns i)) →
    setSockets c d t ns = .ok (afterSockets c d (LeafIn t) (ContIn t) ns)
  | .leaf k i p, ns, h => by
    rw [setSockets, setSockets_ready (h i) c d hc]
    refine congrArg Except.ok ?_
    funext j
    have h1 : LeafIn (.leaf k i p) j ↔ j = i := by
      simp [LeafIn, inTree_leaf]
    have h2 : ¬ ContIn (.leaf k i p) j := by
      simp [ContIn, inTree_leaf]
    unfold afterSockets Nodes.set
    by_cases hj : j = i
    · subst hj; simp [h1]
    · simp [h1, h2, hj]
  | .cont a i p cs, ns, h => by
    have e : ns.set i { ns i with control := c, data := d } =
        afterSockets c d (fun _ => False) (fun j => j = i) ns := by
      funext j
      unfold afterSockets Nodes.set
      by_cases hj : j = i
      · subst hj; simp [given]
      · simp [hj]
    rw [setSockets, e, setSocketsAll_spec c d hc cs _ (afterSockets_ready h), afterSockets_twice]
    congr 1
    apply afterSockets_congr
    · intro j
      simp only [LeafIn, inTree_cont]
      constructor
      · rintro (h1 | ⟨x, hx, k, q, h1⟩)
        · exact h1.elim
        · exact ⟨k, q, .inr ⟨x, hx, h1⟩⟩
      · rintro ⟨k, q, h1 | ⟨x, hx, h1⟩⟩
        · cases h1
        · exact .inr ⟨x, hx, k, q, h1⟩
    · intro j
      simp only [ContIn, inTree_cont]
      constructor
      · rintro (rfl | ⟨x, hx, b, q, ds, h1⟩)
        · exact ⟨a, p, cs, .inl rfl⟩
        · exact ⟨b, q, ds, .inr ⟨x, hx, h1⟩⟩
      · rintro ⟨b, q, ds, h1 | ⟨x, hx, h1⟩⟩
        · cases h1; exact .inl rfl
        · exact .inr ⟨x, hx, b, q, ds, h1⟩
theorem setSocketsAll_spec (c d : List Udp) (hc : c ≠ []) : ∀ (ts : List Node) (ns : Nodes),
    (∀ i, Ready (ns i)) → setSocketsAll c d ts ns =
      .ok (afterSockets c d (fun i => ∃ t ∈ ts, LeafIn t i) (fun i => ∃ t ∈ ts, ContIn t i) ns)
  | [], ns, h => by
    rw [setSocketsAll]
    congr 1
    funext j
    simp [afterSockets]
  | x :: xs, ns, h => by
    rw [setSocketsAll, setSockets_spec c d hc x ns h]
    simp only
    rw [setSocketsAll_spec c d hc xs _ (afterSockets_ready h), afterSockets_twice]
    congr 1
    apply afterSockets_congr <;> intro j <;> simp
end

/-- a node of one of the trees -/
def InInstances (l : InstTrees) (n : Node) : Prop :=
  ∃ x ∈ l, ∃ y ∈ x.2, ∃ t, y.2 = .node t ∧ InTree t n

/-- every object in INSTANCES is a node -/
def OnlyNodes (l : InstTrees) : Prop := ∀ x ∈ l, ∀ y ∈ x.2, ∃ t, y.2 = .node t

theorem socketsToTrees_spec (c d : List Udp) (hc : c ≠ []) : ∀ (ts : List (Int × TreeObj)) (ns : Nodes),
    (∀ i, Ready (ns i)) → ((∀ y ∈ ts, ∃ t, y.2 = .node t) → socketsToTrees c d ts ns =
      .ok (afterSockets c d (fun i => ∃ y ∈ ts, ∃ t, y.2 = .node t ∧ LeafIn t i)
        (fun i => ∃ y ∈ ts, ∃ t, y.2 = .node t ∧ ContIn t i) ns)) ∧
      ((∃ y ∈ ts, y.2 = .other) → ∃ e, socketsToTrees c d ts ns = .error e) := by
  intro ts
  induction ts with
  | nil =>
    intro ns h
    refine ⟨fun _ => ?_, fun ⟨y, hy, _⟩ => by cases hy⟩
    rw [socketsToTrees]
    refine congrArg Except.ok ?_
    funext j
    simp [afterSockets]
  | cons y ts ih =>
    intro ns h
    obtain ⟨a, o⟩ := y
    cases o with
    | other =>
      refine ⟨fun ho => ?_, fun _ => ⟨_, rfl⟩⟩
      obtain ⟨t, ht⟩ := ho (a, .other) (by simp)
      cases ht
    | node t =>
      rw [socketsToTrees, setSockets_spec c d hc t ns h]
      simp only
      have ih' := ih (afterSockets c d (LeafIn t) (ContIn t) ns) (afterSockets_ready h)
      refine ⟨fun ho => ?_, fun ho => ?_⟩
      · rw [ih'.1 (fun y hy => ho y (by simp [hy])), afterSockets_twice]
        refine congrArg Except.ok (afterSockets_congr ?_ ?_) <;> intro j <;> simp
      · apply ih'.2
        obtain ⟨y, hy, hy2⟩ := ho
        rcases List.mem_cons.mp hy with rfl | hy
        · cases hy2
        · exact ⟨y, hy, hy2⟩

theorem socketsToInstances_spec (c d : List Udp) (hc : c ≠ []) : ∀ (l : InstTrees) (ns : Nodes),
    (∀ i, Ready (ns i)) → (OnlyNodes l → socketsToInstances c d l ns =
      .ok (afterSockets c d (fun i => ∃ k p, InInstances l (.leaf k i p))
        (fun i => ∃ a p cs, InInstances l (.cont a i p cs)) ns)) ∧
      (¬ OnlyNodes l → ∃ e, socketsToInstances c d l ns = .error e) := by
  intro l
  induction l with
  | nil =>
    intro ns h
    refine ⟨fun _ => ?_, fun ho => absurd (fun x hx => by cases hx) ho⟩
    rw [socketsToInstances]
    refine congrArg Except.ok ?_
    funext j
    simp [afterSockets, InInstances]
  | cons x l ih =>
    intro ns h
    obtain ⟨iid, ts⟩ := x
    have h0 := socketsToTrees_spec c d hc ts ns h
    by_cases hts : ∀ y ∈ ts, ∃ t, y.2 = .node t
    · rw [socketsToInstances, h0.1 hts]
      simp only
      have ih' := ih _ (afterSockets_ready (c := c) (d := d)
        (L := fun i => ∃ y ∈ ts, ∃ t, y.2 = .node t ∧ LeafIn t i)
        (C := fun i => ∃ y ∈ ts, ∃ t, y.2 = .node t ∧ ContIn t i) h)
      refine ⟨fun ho => ?_, fun ho => ?_⟩
      · rw [ih'.1 (fun y hy => ho y (by simp [hy])), afterSockets_twice]
        refine congrArg Except.ok (afterSockets_congr ?_ ?_)
        · intro j
          constructor
          · rintro (⟨y, hy, t, ht, k, p, hn⟩ | ⟨k, p, x, hx, hn⟩)
            · exact ⟨k, p, (iid, ts), by simp, y, hy, t, ht, hn⟩
            · exact ⟨k, p, x, by simp [hx], hn⟩
          · rintro ⟨k, p, x, hx, y, hy, t, ht, hn⟩
            rcases List.mem_cons.mp hx with rfl | hx
            · exact .inl ⟨y, hy, t, ht, k, p, hn⟩
            · exact .inr ⟨k, p, x, hx, y, hy, t, ht, hn⟩
        · intro j
          constructor
          · rintro (⟨y, hy, t, ht, a, p, cs, hn⟩ | ⟨a, p, cs, x, hx, hn⟩)
            · exact ⟨a, p, cs, (iid, ts), by simp, y, hy, t, ht, hn⟩
            · exact ⟨a, p, cs, x, by simp [hx], hn⟩
          · rintro ⟨a, p, cs, x, hx, y, hy, t, ht, hn⟩
            rcases List.mem_cons.mp hx with rfl | hx
            · exact .inl ⟨y, hy, t, ht, a, p, cs, hn⟩
            · exact .inr ⟨a, p, cs, x, hx, y, hy, t, ht, hn⟩
      · apply ih'.2
        intro hl
        apply ho
        intro x hx
        rcases List.mem_cons.mp hx with rfl | hx
        · exact hts
        · exact hl x hx
    · obtain ⟨e, he⟩ := h0.2 (Classical.byContradiction fun hn => hts fun y hy => by
        cases hy2 : y.2 with
        | node t => exact ⟨t, rfl⟩
        | other => exact absurd ⟨y, hy, hy2⟩ hn)
      refine ⟨fun ho => absurd (ho (iid, ts) (by simp)) hts, fun _ => ⟨e, ?_⟩⟩
      rw [socketsToInstances, he]

/-! ### Specification of the start -/

/-- a setting that counts as true -/
def On (v : PyVal) : Prop :=
  v ≠ .none ∧ v ≠ .bool false ∧ v ≠ .int 0 ∧ v ≠ .listen [] ∧ v ≠ .instances []

instance (v : PyVal) : Decidable (On v) := inferInstanceAs (Decidable (_ ∧ _))

theorem truth_iff (v : PyVal) : v.truth = true ↔ On v := by
  cases v <;> simp [PyVal.truth, On, List.isEmpty_iff]

/-- the queue numbers are set as they must be, and the queues that are needed can be opened -/
def QueuesOk (env : Env) (s : Settings) : Prop :=
  On (s "PROCESS_DATA") →
    ((∃ a, s "PETR" = .addr a) → s "NFQUEUE_IPV4" ≠ .none ∧ s "NFQUEUE_IPV6" ≠ .none) ∧
    (s "NFQUEUE_IPV4" ≠ .none → env.nfqueueModule = true ∧ env.openQueue .v4 = true) ∧
    (s "NFQUEUE_IPV6" ≠ .none → env.nfqueueModule = true ∧ env.openQueue .v6 = true)

/-- the queues that are opened -/
def queuesOf (s : Settings) : List (PyVal × Ver) :=
  if On (s "PROCESS_DATA") then
    (if s "NFQUEUE_IPV4" = .none then [] else [(s "NFQUEUE_IPV4", .v4)]) ++
    (if s "NFQUEUE_IPV6" = .none then [] else [(s "NFQUEUE_IPV6", .v6)])
  else []

/-- the node was made by the configuration: it has some history -/
def Made (n : NodeRun) : Prop := ∃ h, NodeRun.run {} h = .ok n

theorem made_ready {n : NodeRun} (h : Made n) : Ready n := by
  obtain ⟨k, hk⟩ := h
  obtain ⟨m, hm, hf⟩ := follows_run k
  rw [hk] at hm
  cases hm
  exact hf.ready

theorem listenOk_addrs : ∀ (l l' : List ListenItem), ListenOk l l' → ∃ as : List IP, l' = as.map .addr
  | [], [], _ => ⟨[], rfl⟩
  | _ :: l, _ :: l', h => by
    obtain ⟨⟨a, _, rfl⟩, h2⟩ := h
    obtain ⟨as, rfl⟩ := listenOk_addrs l l' h2
    exact ⟨a :: as, rfl⟩
  | [], _ :: _, h => h.elim
  | _ :: _, [], h => h.elim

theorem socketLoop_addrs (p : Bool) (as : List IP) : ∀ c d, socketLoop p (as.map .addr) (c, d) =
    (c ++ as.map (⟨·, 4342⟩), if p = true then d ++ as.map (⟨·, 4341⟩) else d) := by
  induction as with
  | nil => intro c d; simp [socketLoop]
  | cons a as ih =>
    intro c d
    rw [List.map_cons, socketLoop, ih]
    by_cases hp : p = true <;> simp [hp]

theorem setupQueues_iff (env : Env) (s : Settings) (ht : TypesOk s) :
    (QueuesOk env s → setupQueues env s = .ok (queuesOf s)) ∧
    (¬ QueuesOk env s → setupQueues env s = .error 2) := by
  unfold setupQueues QueuesOk queuesOf openQueues
  have hp : (s "PETR").truth = true ↔ ∃ a, s "PETR" = .addr a := by
    rcases ht.1 with h | ⟨a, h⟩
    · simp [h, PyVal.truth]
    · simp [h, PyVal.truth]
  rw [← hp]
  generalize (s "PETR").truth = petr
  simp only [← truth_iff]
  generalize (s "PROCESS_DATA").truth = pd
  generalize s "NFQUEUE_IPV4" = q4
  generalize s "NFQUEUE_IPV6" = q6
  generalize env.nfqueueModule = m
  generalize env.openQueue .v4 = o4
  generalize env.openQueue .v6 = o6
  by_cases h1 : q4 = .none <;> by_cases h2 : q6 = .none <;> cases petr <;>
    cases pd <;> cases m <;> cases o4 <;> cases o6 <;> simp [h1, h2]

/-- C68: when lispd gets to its main loop: exactly if the configuration loads (C59), it was not only asked
to show it, it lists an address to listen on, the queues are configured as they must be and can be opened,
and there are only nodes in INSTANCES.  Then it has one control plane socket (port 4342) for every address of
LISTEN_ON, in that order, one data plane socket (port 4341) each if PROCESS_DATA is set, and a queue for each
address family that has a number. -/
theorem startup_iff (defaults : Settings) (files : List ConfigFile) (env : Env) (ns : Nodes)
    (hm : ∀ i, Made (ns i)) :
    (∃ st, startup defaults files env ns = .ok st) ↔
      ∃ (s : Settings) (addrs : List IP), loadSettings defaults files = some s ∧ env.showConfig = false ∧
        s "LISTEN_ON" = .listen (addrs.map .addr) ∧ addrs ≠ [] ∧ QueuesOk env s ∧ OnlyNodes env.instances := by
  unfold startup
  cases hl : loadSettings defaults files with
  | none => simp
  | some s =>
    obtain ⟨_, l, l', d, _, hlo, _, _, hty, h1, h2⟩ := (load_settings_iff defaults s files).mp hl
    obtain ⟨as, rfl⟩ := listenOk_addrs l l' hlo
    have hty' : TypesOk s := by
      unfold TypesOk at hty ⊢
      rw [h2 "PETR" (by decide), h2 "NATT" (by decide), h2 "NFQUEUE_IPV4" (by decide),
        h2 "NFQUEUE_IPV6" (by decide)]
      exact hty
    have hq := setupQueues_iff env s hty'
    have hcs : (createSockets s).1 = as.map (⟨·, 4342⟩) := by
      simp [createSockets, h1, socketLoop_addrs]
    simp only [Option.some.injEq]
    by_cases hsh : env.showConfig = true
    · simp [hsh]
    · rw [if_neg hsh]
      by_cases hqo : QueuesOk env s
      · rw [hq.1 hqo]
        simp only
        by_cases has : as = []
        · subst has
          rw [if_pos (by rw [hcs]; rfl)]
          simp only [reduceCtorEq, exists_false, false_iff]
          rintro ⟨s', addrs, rfl, _, h3, h4, _⟩
          rw [h1] at h3
          simp at h3
          exact h4 h3
        · have hne : (createSockets s).1 ≠ [] := by rw [hcs]; simpa using has
          rw [if_neg hne]
          have hi := socketsToInstances_spec (createSockets s).1 (createSockets s).2 hne env.instances ns
            (fun i => made_ready (hm i))
          by_cases ho : OnlyNodes env.instances
          · rw [hi.1 ho]
            simp only [Except.ok.injEq, exists_eq', true_iff]
            exact ⟨s, as, rfl, by simpa using hsh, h1, has, hqo, ho⟩
          · obtain ⟨e, he⟩ := hi.2 ho
            rw [he]
            simp [ho]
      · rw [hq.2 hqo]
        simp only [reduceCtorEq, exists_false, false_iff]
        rintro ⟨s', addrs, rfl, _, _, _, h3, _⟩
        exact hqo h3

theorem startup_nodes_exact {defaults : Settings} {files : List ConfigFile} {env : Env} {ns : Nodes}
    (hm : ∀ i, Made (ns i)) {st : Started} (h : startup defaults files env ns = .ok st) :
    st.control ≠ [] ∧ st.nodes = afterSockets st.control st.data
      (fun i => ∃ k p, InInstances env.instances (.leaf k i p))
      (fun i => ∃ a p cs, InInstances env.instances (.cont a i p cs)) ns := by
  obtain ⟨s, _, hl, hsh, _, _, _, ho⟩ := (startup_iff defaults files env ns hm).mp ⟨st, h⟩
  unfold startup at h
  rw [hl] at h
  simp only [hsh, Bool.false_eq_true, if_false] at h
  split at h
  · cases h
  · split at h
    · cases h
    · rename_i hne
      rw [(socketsToInstances_spec _ _ hne env.instances ns (fun i => made_ready (hm i))).1 ho] at h
      cases h
      exact ⟨hne, rfl⟩

/-- C68: the sockets and queues of lispd. -/
theorem startup_sockets (defaults : Settings) (files : List ConfigFile) (env : Env) (ns : Nodes)
    (st : Started) (h : startup defaults files env ns = .ok st) :
    ∃ (s : Settings) (addrs : List IP), loadSettings defaults files = some s ∧ s "LISTEN_ON" = .listen (addrs.map .addr) ∧
      st.control = addrs.map (fun a => ⟨a, 4342⟩) ∧
      st.data = (if On (s "PROCESS_DATA") then addrs.map (fun a => ⟨a, 4341⟩) else []) ∧
      st.queues = queuesOf s := by
  unfold startup at h
  cases hl : loadSettings defaults files with
  | none => rw [hl] at h; cases h
  | some s =>
    obtain ⟨_, l, l', d, _, hlo, _, _, hty, h1, h2⟩ := (load_settings_iff defaults s files).mp hl
    obtain ⟨as, rfl⟩ := listenOk_addrs l l' hlo
    have hty' : TypesOk s := by
      unfold TypesOk at hty ⊢
      rw [h2 "PETR" (by decide), h2 "NATT" (by decide), h2 "NFQUEUE_IPV4" (by decide),
        h2 "NFQUEUE_IPV6" (by decide)]
      exact hty
    refine ⟨s, as, rfl, h1, ?_⟩
    have hcs : createSockets s = (as.map (⟨·, 4342⟩),
        if On (s "PROCESS_DATA") then as.map (⟨·, 4341⟩) else []) := by
      simp [createSockets, h1, socketLoop_addrs, truth_iff]
    rw [hl] at h
    simp only at h
    split at h
    · cases h
    · split at h
      · cases h
      · rename_i qs hqs
        split at h
        · cases h
        · split at h
          · cases h
          · cases h
            rw [hcs]
            refine ⟨rfl, rfl, ?_⟩
            have hq := setupQueues_iff env s hty'
            by_cases hqo : QueuesOk env s
            · rw [hq.1 hqo] at hqs; cases hqs; rfl
            · rw [hq.2 hqo] at hqs; cases hqs

/-- C68: when lispd gets to its main loop, every node of every tree of every instance has all the sockets;
the registrations of every ETR node are those it was configured with, each with a thread that was started
exactly once and is alive; and nodes that are in no tree are left alone. -/
theorem startup_nodes (defaults : Settings) (files : List ConfigFile) (env : Env) (ns : Nodes)
    (hm : ∀ i, Made (ns i)) (st : Started) (h : startup defaults files env ns = .ok st) :
    (∀ n, InInstances env.instances n →
      (st.nodes n.id).control = st.control ∧ (st.nodes n.id).data = st.data) ∧
    (∀ k i p, InInstances env.instances (.leaf k i p) → ∀ r,
      ((∃ t, dictGet (st.nodes i).threads r = some t) ↔ ∃ t, dictGet (ns i).threads r = some t) ∧
      ∀ t, dictGet (st.nodes i).threads r = some t → t.starts = 1 ∧ t.alive = true ∧ t.stopped = false) ∧
    (∀ i, (∀ n, InInstances env.instances n → n.id ≠ i) → st.nodes i = ns i) := by
  obtain ⟨hc, hn⟩ := startup_nodes_exact hm h
  rw [hn]
  refine ⟨fun n hi => ?_, fun k i p hi r => ?_, fun i hi => ?_⟩
  · unfold afterSockets
    split
    · exact ⟨rfl, rfl⟩
    · split
      · exact ⟨rfl, rfl⟩
      · rename_i h1 h2
        cases n with
        | leaf k i p => exact absurd ⟨k, p, hi⟩ h1
        | cont a i p cs => exact absurd ⟨a, p, cs, hi⟩ h2
  · have he : ∃ k p, InInstances env.instances (.leaf k i p) := ⟨k, p, hi⟩
    unfold afterSockets
    rw [if_pos he, woken_get]
    obtain ⟨hist, hh⟩ := hm i
    obtain ⟨m, hm', hf⟩ := follows_run hist
    rw [hh] at hm'
    cases hm'
    cases hg : dictGet (ns i).threads r with
    | none => simp
    | some t0 =>
      have := hf.thread r t0 hg
      refine ⟨by simp, fun t ht => ?_⟩
      simp only [Option.map_some, Option.some.injEq] at ht
      subst ht
      exact ⟨rfl, by simp [Thread.alive, this.2.1], this.1⟩
  · unfold afterSockets
    rw [if_neg, if_neg]
    · rintro ⟨a, p, cs, h1⟩; exact hi _ h1 rfl
    · rintro ⟨k, p, h1⟩; exact hi _ h1 rfl

/-- C68: and as long as lispd runs, whatever registrations are added to or removed from an ETR node of a tree:
exactly the registrations that are configured have a thread, and all these threads run, started once. -/
theorem registrations_run (defaults : Settings) (files : List ConfigFile) (env : Env) (ns : Nodes)
    (hm : ∀ i, Made (ns i)) (st : Started) (h : startup defaults files env ns = .ok st)
    {k : LeafKind} {i : Nat} {p : Net} (hi : InInstances env.instances (.leaf k i p))
    (later : List NodeEvent) (hl : ∀ c d, NodeEvent.sockets c d ∉ later) :
    ∃ n, (st.nodes i).run later = .ok n ∧ n.control = st.control ∧
      (∀ r t, dictGet n.threads r = some t → t.starts = 1 ∧ t.alive = true ∧ t.stopped = false) ∧
      (∀ r, (∃ t, dictGet n.threads r = some t) ↔
        Current later r ∨ ((∃ t, dictGet (ns i).threads r = some t) ∧ .remove r ∉ later)) := by
  obtain ⟨hc, hn⟩ := startup_nodes_exact hm h
  obtain ⟨h0, hh0⟩ := hm i
  have hw : st.nodes i = woken st.control st.data (ns i) := by
    have he : ∃ k p, InInstances env.instances (.leaf k i p) := ⟨k, p, hi⟩
    rw [hn]
    unfold afterSockets
    rw [if_pos he]
  have hrun : NodeRun.run {} (h0 ++ .sockets st.control st.data :: later) = (st.nodes i).run later := by
    rw [run_append, hh0]
    simp only [NodeRun.run, NodeRun.step]
    rw [setSockets_ready (made_ready ⟨h0, hh0⟩) _ _ hc, ← hw]
  obtain ⟨n, hn1, hf⟩ := follows_run (h0 ++ .sockets st.control st.data :: later)
  have hon : Online (h0 ++ .sockets st.control st.data :: later) :=
    ⟨h0, _, _, later, rfl, hc, hl⟩
  obtain ⟨m0, hm0, hf0⟩ := follows_run h0
  rw [hh0] at hm0
  cases hm0
  refine ⟨n, by rw [← hrun, hn1], ?_, fun r t ht => ?_, fun r => ?_⟩
  · have hctl : ∀ (l : List NodeEvent) (m m' : NodeRun), (∀ c d, NodeEvent.sockets c d ∉ l) → m.run l = .ok m' →
        m'.control = m.control := by
      intro l
      induction l with
      | nil => intro m m' _ hr; cases hr; rfl
      | cons e l ih =>
        intro m m' hns hr
        rw [NodeRun.run] at hr
        have hs : ∀ m1, m.step e = .ok m1 → m1.control = m.control := by
          intro m1 h1
          cases e with
          | sockets c d => exact absurd (by simp) (hns c d)
          | add r =>
            simp only [NodeRun.step, NodeRun.add, Thread.start] at h1
            split at h1
            · cases h1; rfl
            · split at h1
              · cases h1; rfl
              · simp at h1; subst h1; rfl
          | remove r =>
            simp only [NodeRun.step, NodeRun.remove] at h1
            cases h1
            split <;> rfl
          | ended who => cases h1; rfl
        split at hr
        · cases hr
        · rename_i m1 h1
          rw [ih m1 m' (fun c d hx => hns c d (by simp [hx])) hr, hs m1 h1]
    have := hctl later (st.nodes i) n hl (by rw [← hrun, hn1])
    rw [this, hw]; rfl
  · have h1 := hf.thread r t ht
    have h2 : Awake _ r := online_awake _ ((hf.current r).mp (by simp [ht])) hon
    have h3 := h1.2.2.2.mpr h2
    exact ⟨h3, by simp [Thread.alive, h3, h1.2.1], h1.1⟩
  · rw [← Option.isSome_iff_exists, hf.current r, ← Option.isSome_iff_exists, hf0.current r]
    have key : ∀ l : List NodeEvent, (Current (h0 ++ .sockets st.control st.data :: l) r ↔
        Current l r ∨ (Current h0 r ∧ .remove r ∉ l)) := by
      apply snoc_induction
      · rw [current_snoc]
        simp [Current]
      · intro l e ih
        have e1 : h0 ++ .sockets st.control st.data :: (l ++ [e]) =
            (h0 ++ .sockets st.control st.data :: l) ++ [e] := by simp
        rw [e1, current_snoc, current_snoc, ih]
        simp only [List.mem_append, List.mem_singleton, not_or]
        constructor
        · rintro (h1 | ⟨h1 | ⟨h1, h2⟩, h3⟩)
          · exact .inl (.inl h1)
          · exact .inl (.inr ⟨h1, h3⟩)
          · exact .inr ⟨h1, h2, fun hc => h3 hc.symm⟩
        · rintro ((h1 | h1) | ⟨h1, h2, h3⟩)
          · exact .inl h1
          · exact .inr ⟨.inl h1.1, h1.2⟩
          · exact .inr ⟨.inr ⟨h1, h2⟩, fun hc => h3 hc.symm⟩
    exact key later

/-- C68: the exit status: 1 for a configuration error; 2 if lispd does not get to its main loop for another
reason; otherwise it runs until it is told to stop, and the status is 0. -/
theorem exit_status (defaults : Settings) (files : List ConfigFile) (env : Env) (ns : Nodes) (s : Setup)
    (petr : Option IP) (maxint : Nat) (st : LispdState) (bs : List (List LispdEvent)) :
    (loadSettings defaults files = none → lispdMain defaults files env ns s petr maxint st bs = some 1) ∧
    (∀ x, loadSettings defaults files = some x → (∀ r, startup defaults files env ns ≠ .ok r) →
      lispdMain defaults files env ns s petr maxint st bs = some 2) ∧
    (∀ r, startup defaults files env ns = .ok r →
      ((∀ b ∈ bs, ∀ e ∈ b, ¬ IsStop e) → lispdMain defaults files env ns s petr maxint st bs = none) ∧
      ((∃ b bs1 bs2, bs = bs1 ++ b :: bs2 ∧ (∃ e ∈ b, IsStop e) ∧ ∀ b' ∈ bs1 ++ [b], ∀ e ∈ b', ¬ FailedHup e) →
        lispdMain defaults files env ns s petr maxint st bs = some 0)) := by
  refine ⟨fun h => by simp [lispdMain, startup, h], fun x hx hn => ?_, fun r hr => ⟨fun hb => ?_, ?_⟩⟩
  · have : startup defaults files env ns = .error 2 := by
      have hs : ∀ e, startup defaults files env ns = .error e → e = 2 := by
        intro e he
        unfold startup at he
        rw [hx] at he
        simp only at he
        split at he
        · cases he; rfl
        · split at he
          · rename_i n hq
            cases he
            have hty : TypesOk x := by
              obtain ⟨_, l, l', d, _, _, _, _, hty, _, h2⟩ := (load_settings_iff defaults x files).mp hx
              unfold TypesOk at hty ⊢
              rw [h2 "PETR" (by decide), h2 "NATT" (by decide), h2 "NFQUEUE_IPV4" (by decide),
                h2 "NFQUEUE_IPV6" (by decide)]
              exact hty
            have := setupQueues_iff env x hty
            by_cases hqo : QueuesOk env x
            · rw [this.1 hqo] at hq; cases hq
            · rw [this.2 hqo] at hq; cases hq; rfl
          · split at he
            · cases he; rfl
            · split at he
              · cases he; rfl
              · cases he
      cases hr : startup defaults files env ns with
      | ok r => exact absurd hr (hn r)
      | error e => rw [hs e hr]
    simp [lispdMain, this]
  · simp only [lispdMain, hr]
    rw [(never_stops s petr maxint bs _ rfl hb).1]
    rfl
  · rintro ⟨b, bs1, bs2, rfl, hst, hf⟩
    simp only [lispdMain, hr]
    have key : ∀ (l : List (List LispdEvent)) (st : LispdState), (∀ b' ∈ l ++ [b], ∀ e ∈ b', ¬ FailedHup e) →
        st.running = true → (lispdLoop s petr maxint st (l ++ b :: bs2)).1.running = false := by
      intro l
      induction l with
      | nil =>
        intro st hf hr
        exact (stop_stops s petr maxint b (hf b (by simp)) hst bs2 st hr).1
      | cons x l ih =>
        intro st hf hr
        rw [List.cons_append, lispdLoop, if_pos hr]
        simp only
        cases hx : (lispdBatch s petr maxint st x).1.running with
        | true => exact ih _ (fun b' hb' => hf b' (by simp at hb' ⊢; exact .inr hb')) hx
        | false =>
          cases l with
          | nil => rw [List.nil_append, lispdLoop, if_neg (by simp [hx])]; exact hx
          | cons y l => rw [List.cons_append, lispdLoop, if_neg (by simp [hx])]; exact hx
    rw [key bs1 _ hf rfl]
    rfl

/-- C68/C59: when lispd gets to its main loop, every instance has a tree for 0.0.0.0/0 and one for ::/0, and
these have the sockets. -/
theorem configured_trees (defaults : Settings) (files : List ConfigFile) (env : Env) (ns : Nodes)
    (hm : ∀ i, Made (ns i)) (st : Started) (h : startup defaults files env ns = .ok st)
    (hi : ∀ s, loadSettings defaults files = some s → s "INSTANCES" = .instances env.instances.val)
    {iid : Int} {ts : List (Int × TreeObj)} (hx : (iid, ts) ∈ env.instances) :
    (∃ a i cs, dictGet ts 1 = some (.node (.cont a i everyV4 cs)) ∧ (st.nodes i).control = st.control) ∧
    (∃ a i cs, dictGet ts 2 = some (.node (.cont a i everyV6 cs)) ∧ (st.nodes i).control = st.control) := by
  obtain ⟨s, _, hl, _⟩ := startup_sockets defaults files env ns st h
  obtain ⟨d, hd, hok⟩ := loaded_instances defaults s files hl
  rw [hi s hl] at hd
  cases hd
  have hmem : (InstKey.int iid, InstVal.dict (ts.map fun y => (y.1, y.2.val))) ∈ env.instances.val :=
    List.mem_map.mpr ⟨(iid, ts), hx, rfl⟩
  obtain ⟨i', t', h1, h2, h3, h4⟩ := hok _ _ hmem
  cases h2
  have hget : ∀ (a : Int) (r : Net), dictGet (ts.map fun y => (y.1, y.2.val)) a = some (.container r) →
      ∃ b i cs, dictGet ts a = some (.node (.cont b i r cs)) := by
    intro a r hg
    rw [dictGet_map ts TreeObj.val a] at hg
    cases ho : dictGet ts a with
    | none => rw [ho] at hg; cases hg
    | some o =>
      rw [ho] at hg
      cases o with
      | other => simp [TreeObj.val] at hg
      | node t =>
        cases t with
        | leaf k i p => simp [TreeObj.val] at hg
        | cont b i p cs => simp [TreeObj.val] at hg; subst hg; exact ⟨b, i, cs, rfl⟩
  have hsock : ∀ (a : Int) b i r cs, dictGet ts a = some (.node (.cont b i r cs)) →
      (st.nodes i).control = st.control := by
    intro a b i r cs hg
    have hin : InInstances env.instances (.cont b i r cs) := by
      refine ⟨(iid, ts), hx, (a, .node (.cont b i r cs)), ?_, _, rfl, .self _⟩
      have : ∀ l : List (Int × TreeObj), ∀ o, dictGet l a = some o → (a, o) ∈ l := by
        intro l o
        induction l with
        | nil => intro hc; cases hc
        | cons y l ih =>
          obtain ⟨k, v⟩ := y
          simp only [dictGet]
          split
          · rename_i hk; subst hk; intro hc; cases hc; simp
          · intro hc; simp [ih hc]
      exact this ts _ hg
    exact ((startup_nodes defaults files env ns hm st h).1 _ hin).1
  obtain ⟨b, i, cs, hg⟩ := hget 1 rootNet4 h3
  obtain ⟨b', j, cs', hg'⟩ := hget 2 rootNet6 h4
  exact ⟨⟨b, i, cs, hg, hsock 1 b i rootNet4 cs hg⟩, ⟨b', j, cs', hg', hsock 2 b' j rootNet6 cs' hg'⟩⟩

/-- C68: when an ETR node is deleted, all its threads are asked to stop. -/
theorem deleted_stops (n : NodeRun) (x : Nat × Thread) : x ∈ n.delete.threads → x.2.stopped = true := by
  intro h
  simp only [NodeRun.delete, List.mem_map] at h
  obtain ⟨y, _, rfl⟩ := h
  rfl

/-! ### The hypotheses are met -/

/-- a history: registered before and after the sockets are there, one removed again -/
example : ∃ n, NodeRun.run {} [.add 7, .add 8, .sockets [⟨.v4 1, 4342⟩] [], .add 9, .remove 8, .ended (fun _ => true)]
      = .ok n ∧ n.threads = [(7, { starts := 1 }), (9, { starts := 1 })] ∧
      n.former = [{ starts := 1, stopped := true, over := true }] :=
  ⟨_, rfl, by decide +kernel, by decide +kernel⟩
example : Awake [.add 7, .sockets [⟨.v4 1, 4342⟩] []] 7 :=
  ⟨[], [.sockets [⟨.v4 1, 4342⟩] []], rfl, by simp, .inr ⟨[⟨.v4 1, 4342⟩], [], by simp, by simp⟩⟩
example : Current [NodeEvent.add 7] 7 ∧ ¬ Online [NodeEvent.add 7] :=
  ⟨⟨[], [], rfl, by simp⟩, by rw [show [NodeEvent.add 7] = [] ++ [NodeEvent.add 7] from rfl,
    online_other _ _ (by simp)]; simp [Online]⟩

/-- two instances' worth of nodes: a tree with an ETR node in a container, and an empty IPv6 tree -/
def exStartEnv : Env where
  instances := [(0, [(1, .node (.cont none 1 everyV4 [.cont none 2 (mkNet4 0x0a000000 8) [.leaf .etr 3 (mkNet4 0x0a010000 16)]])),
    (2, .node (.cont none 4 everyV6 []))])]
/-- the ETR node has two registrations -/
def exStartNodes : Nodes := fun i => if i = 3 then { threads := [(7, {}), (8, {})] } else {}
def exStartFiles : List ConfigFile := [.ioError, exInstances [(1, .container everyV4), (2, .container everyV6)]]

theorem exStartNodes_made (i : Nat) : Made (exStartNodes i) := by
  by_cases h : i = 3
  · subst h; exact ⟨[.add 7, .add 8], by rfl⟩
  · refine ⟨[], ?_⟩
    simp [exStartNodes, h, NodeRun.run]

example : ∃ st, startup exDefaults exStartFiles exStartEnv exStartNodes = .ok st ∧
    (st.nodes 3).threads = [(7, { starts := 1 }), (8, { starts := 1 })] ∧
    (st.nodes 3).control = [⟨.v4 0xc0000201, 4342⟩] ∧ st.data = [] := by
  have key : (match startup exDefaults exStartFiles exStartEnv exStartNodes with
      | .error _ => false
      | .ok st => decide ((st.nodes 3).threads = [(7, { starts := 1 }), (8, { starts := 1 })] ∧
          (st.nodes 3).control = [⟨.v4 0xc0000201, 4342⟩] ∧ st.data = [])) = true := by decide +kernel
  cases h : startup exDefaults exStartFiles exStartEnv exStartNodes with
  | error e => rw [h] at key; cases key
  | ok st => rw [h] at key; exact ⟨st, rfl, of_decide_eq_true key⟩
example : InInstances exStartEnv.instances (.leaf .etr 3 (mkNet4 0x0a010000 16)) :=
  ⟨_, List.mem_cons_self .., _, List.mem_cons_self .., _, rfl, .child (List.mem_cons_self ..) (.child (List.mem_cons_self ..) (.self _))⟩

end PyLisp.Props
