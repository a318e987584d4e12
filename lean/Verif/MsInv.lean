import Verif.Dict
/-
The invariant of the registration store under every interleaving of `MsStep`s.
-/
namespace PyLisp

/-- what the store should contain -/
abbrev MsView := Net → Source → Option Registration

/-- the effect of an event, done in one go -/
def MsView.apply (v : MsView) : MsEvent → MsView
  | .register p src r => fun q s => if q = p ∧ s = src then some r else v q s
  | .pass t => fun q s => (v q s).filter fun r => decide (t ≤ r.deadline)

/-- what the store should contain after these events (specification of map_server_node.py:68-100, 161-178) -/
def MsView.after (evs : List MsEvent) : MsView := evs.foldl MsView.apply fun _ _ => none

/-- the store of map_server_node.py:117 holds exactly these registrations -/
def Store.Same (s : Store) (v : MsView) : Prop := ∀ p src, s.get p src = v p src

/-- no prefix is left with an empty dict (map_server_node.py:92-94) -/
def Store.NoEmpty (s : Store) : Prop := ∀ p m, dictGet s p = some m → m ≠ []

/-- the cleanup thread does not hold the lock (map_server_node.py:71-81) -/
def CleanPc.Waiting : CleanPc → Prop
  | .idle => True
  | .read _ => True
  | _ => False

/-- the clock value the cleanup thread works with -/
def CleanPc.time? : CleanPc → Option Int
  | .idle => none
  | .read t => some t
  | .outer t _ => some t
  | .inner t _ _ _ => some t

/-- how store, lock and positions of the two threads go together (map_server_node.py:81-94, 162-178) -/
inductive MsCtl (v : MsView) : Store → LockOwner → RegPc → CleanPc → Prop
  | free (s : Store) (c : CleanPc) (hc : c.Waiting) (h : s.Same v) (hn : s.NoEmpty) :
      MsCtl v s .nobody .idle c
  | locked (s : Store) (c : CleanPc) (p : Net) (src : Source) (record : Record) (proxy : Bool)
      (hc : c.Waiting) (h : s.Same v) (hn : s.NoEmpty) :
      MsCtl v s .handler (.locked p src record proxy) c
  | ensured (s : Store) (c : CleanPc) (p : Net) (src : Source) (record : Record) (proxy : Bool)
      (hc : c.Waiting) (h : s.Same v) (hp : p ∈ dictKeys s)
      (hn : ∀ q m, q ≠ p → dictGet s q = some m → m ≠ []) :
      MsCtl v s .handler (.ensured p src record proxy) c
  | stored (s : Store) (c : CleanPc) (hc : c.Waiting) (h : s.Same v) (hn : s.NoEmpty) :
      MsCtl v s .handler .stored c
  | outer (s : Store) (now : Int) (todo : List Net)
      (hf : ∀ p src, (s.get p src).filter (fun r => decide (now ≤ r.deadline)) = v p src)
      (hd : ∀ p, p ∉ todo → ∀ src, s.get p src = v p src)
      (hk : ∀ p ∈ todo, p ∈ dictKeys s) (hnd : todo.Nodup) (hn : s.NoEmpty) :
      MsCtl v s .cleaner .idle (.outer now todo)
  | inner (s : Store) (now : Int) (p : Net) (sources : List Source) (todo : List Net)
      (hf : ∀ p src, (s.get p src).filter (fun r => decide (now ≤ r.deadline)) = v p src)
      (hd : ∀ q, q ≠ p → q ∉ todo → ∀ src, s.get q src = v q src)
      (hp : ∀ src, src ∉ sources → s.get p src = v p src)
      (hs : ∀ src ∈ sources, s.get p src ≠ none)
      (hk : ∀ q ∈ p :: todo, q ∈ dictKeys s) (hnd : (p :: todo).Nodup) (hsd : sources.Nodup)
      (hn : ∀ q m, q ≠ p → dictGet s q = some m → m ≠ []) :
      MsCtl v s .cleaner .idle (.inner now p sources todo)

/-- the invariant of the store (map_server_node.py:81-94, 162-178) -/
structure MsInv (evs : List MsEvent) (s : MsState) : Prop where
  nodup : (dictKeys s.store).Nodup
  inner : ∀ p m, dictGet s.store p = some m → (dictKeys m).Nodup
  ctl : MsCtl (MsView.after evs) s.store s.owner s.reg s.clean

theorem MsView.after_snoc (evs : List MsEvent) (e : MsEvent) :
    MsView.after (evs ++ [e]) = (MsView.after evs).apply e := by
  simp [MsView.after, List.foldl_append]

theorem Store.get_of {s : Store} {p : Net} {m : List (Source × Registration)}
    (h : dictGet s p = some m) (src : Source) : s.get p src = dictGet m src := by
  simp [Store.get, h]

theorem MsInv.init (clock : Int) : MsInv [] (MsState.init clock) where
  nodup := List.nodup_nil
  inner := by intro p m h; cases h
  ctl := .free _ _ trivial (fun _ _ => rfl) (by intro p m h; cases h)

theorem MsInv.step {evs : List MsEvent} {s s' : MsState} {e : Option MsEvent}
    (hi : MsInv evs s) (hs : MsStep s e s') : MsInv (evs ++ e.toList) s' := by
  obtain ⟨nodup, inner, ctl⟩ := hi
  cases hs with
  | tick t =>
    simp only [Option.toList, List.append_nil]
    exact ⟨nodup, inner, ctl⟩
  | regLock p src record proxy h hr =>
    simp only [Option.toList, List.append_nil]
    refine ⟨nodup, inner, ?_⟩
    rw [h, hr] at ctl
    cases ctl with
    | free _ hc h hn => exact .locked _ _ _ _ _ _ hc h hn
  | regEnsure p src record proxy hr =>
    simp only [Option.toList, List.append_nil]
    rw [hr] at ctl
    generalize how : s.owner = ow at ctl
    cases ctl with
    | locked _ _ _ _ _ hc h hn =>
      by_cases hp : (dictGet s.store p).isNone = true
      · have hp' : dictGet s.store p = none := by simpa using hp
        simp only [if_pos hp]
        refine ⟨nodup_set _ _ nodup, ?_, ?_⟩
        · intro q m hq
          simp only [dictGet_set] at hq
          split at hq
          · cases hq; exact List.nodup_nil
          · exact inner q m hq
        · simp only [how]
          refine .ensured _ _ _ _ _ _ hc ?_ (keys_set.mpr (.inl rfl)) ?_
          · intro q src'
            rw [Store.get_set, ← h]
            split
            · rename_i hq; subst hq; simp [Store.get, hp', dictGet]
            · rfl
          · intro q m hq hm
            rw [dictGet_set, if_neg hq] at hm
            exact hn q m hm
      · simp only [if_neg hp]
        refine ⟨nodup, inner, ?_⟩
        simp only [how]
        refine .ensured _ _ _ _ _ _ hc h ?_ fun q m _ hm => hn q m hm
        rw [mem_keys]
        cases hg : dictGet s.store p with
        | none => simp [hg] at hp
        | some v => exact ⟨v, rfl⟩
  | regStore p src record proxy m hr hm =>
    simp only [Option.toList]
    rw [hr] at ctl
    generalize how : s.owner = ow at ctl
    cases ctl with
    | ensured _ _ _ _ _ hc h hp hn =>
      refine ⟨nodup_set _ _ nodup, ?_, ?_⟩
      · intro q m' hq
        simp only [dictGet_set] at hq
        split at hq
        · cases hq; exact nodup_set _ _ (inner p m hm)
        · exact inner q m' hq
      · simp only [how, MsView.after_snoc]
        refine .stored _ _ hc ?_ ?_
        · intro q src'
          rw [Store.get_set]
          simp only [MsView.apply]
          split
          · rename_i hq; subst hq
            rw [dictGet_set]
            simp only [true_and]
            split
            · rfl
            · rw [← h, Store.get_of hm]
          · rename_i hq; rw [if_neg (fun hh => hq hh.1), h]
        · intro q m' hq
          rw [dictGet_set] at hq
          split at hq
          · cases hq
            intro he
            have := dictGet_set m src src (newRegistration s.clock record proxy)
            rw [he] at this; simp [dictGet] at this
          · rename_i hne; exact hn q m' hne hq
  | regUnlock hr =>
    simp only [Option.toList, List.append_nil]
    rw [hr] at ctl
    refine ⟨nodup, inner, ?_⟩
    generalize how : s.owner = ow at ctl
    cases ctl with
    | stored _ hc h hn => exact .free _ _ hc h hn
  | cleanRead hc =>
    simp only [Option.toList, List.append_nil]
    rw [hc] at ctl
    refine ⟨nodup, inner, ?_⟩
    · generalize how : s.owner = ow at ctl
      generalize hre : s.reg = re at ctl
      simp only [how, hre]
      cases ctl with
      | free _ hc h hn => exact .free _ _ trivial h hn
      | locked _ _ _ _ _ hc h hn => exact .locked _ _ _ _ _ _ trivial h hn
      | ensured _ _ _ _ _ hc h hp hn => exact .ensured _ _ _ _ _ _ trivial h hp hn
      | stored _ hc h hn => exact .stored _ _ trivial h hn
  | cleanLock now h hc =>
    simp only [Option.toList]
    rw [h, hc] at ctl
    refine ⟨nodup, inner, ?_⟩
    · rw [MsView.after_snoc]
      generalize hre : s.reg = re at ctl
      cases ctl with
      | free _ hc h hn =>
        simp only [hre]
        refine .outer _ _ _ ?_ ?_ (fun p hp => hp) nodup hn
        · intro p src; simp only [MsView.apply]; rw [h]
        · intro p hp src
          simp only [MsView.apply]
          rw [← h]
          have := dictGet_none.mpr hp
          simp [Store.get, this]
  | cleanPrefix now p todo m hc hm =>
    simp only [Option.toList, List.append_nil]
    refine ⟨nodup, inner, ?_⟩
    rw [hc] at ctl
    generalize how : s.owner = ow at ctl
    generalize hre : s.reg = re at ctl
    simp only [how, hre]
    cases ctl with
    | free _ hc => exact hc.elim
    | locked _ _ _ _ _ hc => exact hc.elim
    | ensured _ _ _ _ _ hc => exact hc.elim
    | stored _ hc => exact hc.elim
    | outer _ _ hf hd hk hnd hn =>
      refine .inner _ _ _ _ _ hf ?_ ?_ ?_ hk hnd (inner p m hm) fun q m _ hm => hn q m hm
      · intro q hq hqt src
        exact hd q (by simp [hq, hqt]) src
      · intro src hsrc
        rw [← hf, Store.get_of hm, dictGet_none.mpr hsrc]; rfl
      · intro src hsrc
        rw [Store.get_of hm]
        obtain ⟨v, hv⟩ := mem_keys.mp hsrc
        rw [hv]; simp
  | cleanSource now p src sources todo m r hc hm hr =>
    simp only [Option.toList, List.append_nil]
    rw [hc] at ctl
    generalize how : s.owner = ow at ctl
    generalize hre : s.reg = re at ctl
    cases ctl with
    | free _ hc => exact hc.elim
    | locked _ _ _ _ _ hc => exact hc.elim
    | ensured _ _ _ _ _ hc => exact hc.elim
    | stored _ hc => exact hc.elim
    | inner _ _ _ _ hf hd hp hs hk hnd hsd hn =>
      obtain ⟨hs1, hs2⟩ := List.nodup_cons.mp hsd
      have hget : s.store.get p src = some r := by rw [Store.get_of hm, hr]
      by_cases hexp : now > r.deadline
      · simp only [if_pos hexp]
        have hg : ∀ q s', Store.get (dictSet s.store p (dictDel m src)) q s' =
            if q = p ∧ s' = src then none else s.store.get q s' := by
          intro q s'
          rw [Store.get_set]
          split
          · rename_i hq; subst hq
            rw [dictGet_del]
            simp only [true_and]
            split
            · rfl
            · rw [Store.get_of hm]
          · rename_i hq; rw [if_neg (fun hh => hq hh.1)]
        have hv : MsView.after evs p src = none := by
          rw [← hf, hget]; simp; omega
        refine ⟨nodup_set _ _ nodup, ?_, ?_⟩
        · intro q m' hq
          simp only [dictGet_set] at hq
          split at hq
          · cases hq; exact nodup_del _ (inner p m hm)
          · exact inner q m' hq
        · simp only [how, hre]
          refine .inner _ _ _ _ _ ?_ ?_ ?_ ?_ ?_ hnd hs2 ?_
          · intro q s'
            rw [hg]
            split
            · rename_i hq; rw [hq.1, hq.2, hv]; rfl
            · exact hf q s'
          · intro q hq hqt s'
            rw [hg, if_neg (fun hh => hq hh.1)]
            exact hd q hq hqt s'
          · intro s' hs'
            rw [hg]
            split
            · rename_i hq; rw [hq.2, hv]
            · rename_i hq
              refine hp s' ?_
              intro hmem
              rcases List.mem_cons.mp hmem with h | h
              · exact hq ⟨rfl, h⟩
              · exact hs' h
          · intro s' hs'
            rw [hg, if_neg]
            · exact hs s' (List.mem_cons_of_mem _ hs')
            · rintro ⟨_, rfl⟩; exact hs1 hs'
          · intro q hq
            exact keys_set.mpr (.inr (hk q hq))
          · intro q m' hq hq'
            rw [dictGet_set, if_neg hq] at hq'
            exact hn q m' hq hq'
      · simp only [if_neg hexp]
        refine ⟨nodup, inner, ?_⟩
        simp only [how, hre]
        refine .inner _ _ _ _ _ hf hd ?_ (fun s' hs' => hs s' (List.mem_cons_of_mem _ hs')) hk hnd
          hs2 hn
        intro s' hs'
        by_cases hq : s' = src
        · subst hq
          rw [← hf, hget]
          have : decide (now ≤ r.deadline) = true := by
            rw [decide_eq_true_iff]; omega
          simp [Option.filter, this]
        · refine hp s' ?_
          intro hmem
          rcases List.mem_cons.mp hmem with h | h
          · exact hq h
          · exact hs' h
  | cleanEmpty now p todo m hc hm =>
    simp only [Option.toList, List.append_nil]
    rw [hc] at ctl
    generalize how : s.owner = ow at ctl
    generalize hre : s.reg = re at ctl
    cases ctl with
    | free _ hc => exact hc.elim
    | locked _ _ _ _ _ hc => exact hc.elim
    | ensured _ _ _ _ _ hc => exact hc.elim
    | stored _ hc => exact hc.elim
    | inner _ _ _ _ hf hd hp hs hk hnd hsd hn =>
      obtain ⟨hp1, hp2⟩ := List.nodup_cons.mp hnd
      by_cases hl : m.length = 0
      · have hm0 : m = [] := List.length_eq_zero_iff.mp hl
        subst hm0
        simp only [if_pos hl]
        have hg : ∀ q s', Store.get (dictDel s.store p) q s' = s.store.get q s' := by
          intro q s'
          unfold Store.get
          rw [dictGet_del]
          by_cases hq : q = p
          · subst hq; rw [if_pos rfl, hm]; rfl
          · rw [if_neg hq]
        refine ⟨nodup_del _ nodup, ?_, ?_⟩
        · intro q m' hq
          simp only [dictGet_del] at hq
          split at hq
          · cases hq
          · exact inner q m' hq
        · simp only [how, hre]
          refine .outer _ _ _ ?_ ?_ ?_ hp2 ?_
          · intro q s'; rw [hg]; exact hf q s'
          · intro q hq s'
            rw [hg]
            by_cases hqp : q = p
            · subst hqp; exact hp s' (by simp)
            · exact hd q hqp hq s'
          · intro q hq
            obtain ⟨v, hv⟩ := mem_keys.mp (hk q (List.mem_cons_of_mem _ hq))
            refine mem_keys.mpr ⟨v, ?_⟩
            rw [dictGet_del, if_neg]
            · exact hv
            · rintro rfl; exact hp1 hq
          · intro q m' hq
            rw [dictGet_del] at hq
            split at hq
            · cases hq
            · rename_i hne; exact hn q m' hne hq
      · simp only [if_neg hl]
        refine ⟨nodup, inner, ?_⟩
        simp only [how, hre]
        refine .outer _ _ _ hf ?_ (fun q hq => hk q (List.mem_cons_of_mem _ hq)) hp2 ?_
        · intro q hq s'
          by_cases hqp : q = p
          · subst hqp; exact hp s' (by simp)
          · exact hd q hqp hq s'
        · intro q m' hq
          by_cases hqp : q = p
          · subst hqp; rw [hm] at hq; cases hq
            intro h0; subst h0; exact hl rfl
          · exact hn q m' hqp hq
  | cleanUnlock now hc =>
    simp only [Option.toList, List.append_nil]
    refine ⟨nodup, inner, ?_⟩
    rw [hc] at ctl
    generalize how : s.owner = ow at ctl
    generalize hre : s.reg = re at ctl
    cases ctl with
    | free _ hc => exact hc.elim
    | locked _ _ _ _ _ hc => exact hc.elim
    | ensured _ _ _ _ _ hc => exact hc.elim
    | stored _ hc => exact hc.elim
    | outer _ _ hf hd hk hnd hn =>
      simp only [hre]
      exact .free _ _ trivial (fun p src => hd p (by simp) src) hn
  | cleanNoPrefix now p todo hc hm =>
    exfalso
    rw [hc] at ctl
    generalize how : s.owner = ow at ctl
    generalize hre : s.reg = re at ctl
    cases ctl with
    | free _ hc => exact hc.elim
    | locked _ _ _ _ _ hc => exact hc.elim
    | ensured _ _ _ _ _ hc => exact hc.elim
    | stored _ hc => exact hc.elim
    | outer _ _ hf hd hk hnd hn =>
      exact dictGet_none.mp hm (hk p (by simp))
  | cleanNoSource now p src sources todo hc hm =>
    exfalso
    rw [hc] at ctl
    generalize how : s.owner = ow at ctl
    generalize hre : s.reg = re at ctl
    cases ctl with
    | free _ hc => exact hc.elim
    | locked _ _ _ _ _ hc => exact hc.elim
    | ensured _ _ _ _ _ hc => exact hc.elim
    | stored _ hc => exact hc.elim
    | inner _ _ _ _ hf hd hp hs hk hnd hsd hn => exact hs src (by simp) hm
  | cleanNoEntry now p todo hc hm =>
    exfalso
    rw [hc] at ctl
    generalize how : s.owner = ow at ctl
    generalize hre : s.reg = re at ctl
    cases ctl with
    | free _ hc => exact hc.elim
    | locked _ _ _ _ _ hc => exact hc.elim
    | ensured _ _ _ _ _ hc => exact hc.elim
    | stored _ hc => exact hc.elim
    | inner _ _ _ _ hf hd hp hs hk hnd hsd hn =>
      exact dictGet_none.mp hm (hk p (by simp))

theorem MsInv.run {evs : List MsEvent} {clock : Int} {s : MsState}
    (h : MsRun (MsState.init clock) evs s) : MsInv evs s := by
  induction h with
  | nil => exact MsInv.init clock
  | snoc _ hst ih => exact ih.step hst

/-- the pass times a cleanup thread works with -/
structure MsTimes (evs : List MsEvent) (s : MsState) : Prop where
  time : ∀ t, s.clean.time? = some t → t ≤ s.clock
  past : ∀ t, .pass t ∈ evs → t ≤ s.clock

/-- with a clock that never goes back, passes never work with a time in the future -/
theorem MsTimes.step {evs : List MsEvent} {s s' : MsState} {e : Option MsEvent}
    (hi : MsTimes evs s) (hs : MsStep s e s') (hm : s.clock ≤ s'.clock) :
    MsTimes (evs ++ e.toList) s' := by
  obtain ⟨time, past⟩ := hi
  have hp : ∀ t, .pass t ∈ evs → t ≤ s'.clock := fun t ht => Int.le_trans (past t ht) hm
  cases hs with
  | tick t =>
    exact ⟨fun u hu => Int.le_trans (time u hu) hm, by simpa using hp⟩
  | regLock => exact ⟨time, by simpa using hp⟩
  | regEnsure => exact ⟨time, by simpa using hp⟩
  | regStore => exact ⟨time, by simpa using hp⟩
  | regUnlock => exact ⟨time, by simpa using hp⟩
  | cleanRead hc => exact ⟨(fun t ht => by cases ht; exact Int.le_refl _), by simpa using hp⟩
  | cleanLock now h hc =>
    have hnow := time now (by rw [hc]; rfl)
    refine ⟨(fun t ht => by cases ht; exact hnow), fun t ht => ?_⟩
    rcases List.mem_append.mp ht with ht | ht
    · exact past t ht
    · simp at ht; subst ht; exact hnow
  | cleanPrefix now p todo m hc hm =>
    exact ⟨fun t ht => time t (by rw [hc]; exact ht), by simpa using hp⟩
  | cleanSource now p src sources todo m r hc hm =>
    exact ⟨fun t ht => time t (by rw [hc]; exact ht), by simpa using hp⟩
  | cleanEmpty now p todo m hc hm =>
    exact ⟨fun t ht => time t (by rw [hc]; exact ht), by simpa using hp⟩
  | cleanUnlock => exact ⟨(fun t ht => by cases ht), by simpa using hp⟩
  | cleanNoPrefix => exact ⟨(fun t ht => by cases ht), by simpa using hp⟩
  | cleanNoSource => exact ⟨(fun t ht => by cases ht), by simpa using hp⟩
  | cleanNoEntry => exact ⟨(fun t ht => by cases ht), by simpa using hp⟩

end PyLisp
