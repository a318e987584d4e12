import Verif.TreeLemmas
/-
C41–C43: the address tree.  `Net.containsIP n a` is "address a is in network n".
-/
namespace PyLisp.Props
open PyLisp

/-! ### Specification vocabulary -/

/-- every address of `m` is an address of `n` -/
def Inside (m n : Net) : Prop := ∀ x : IP, m.containsIP x = true → n.containsIP x = true

/-- no address is in both networks -/
def Apart (m n : Net) : Prop := ¬ ∃ x : IP, m.containsIP x = true ∧ n.containsIP x = true

theorem inside_iff {m n : Net} : Inside m n ↔ n.covers m = true := Net.covers_iff.symm
theorem apart_iff {m n : Net} : Apart m n ↔ m.overlaps n = false := by
  rw [Apart, ← Net.overlaps_iff, Bool.not_eq_true]
theorem not_apart_iff {m n : Net} : ¬ Apart m n ↔ m.overlaps n = true := by
  rw [apart_iff, Bool.not_eq_false]

/-! ### C41 -/

/-- the children of a container with prefix `pfx` are inside it, and those with different prefixes
are disjoint -/
def Sound (pfx : Net) (cs : List Node) : Prop :=
  (∀ c ∈ cs, Inside c.pfx pfx) ∧ ∀ c ∈ cs, ∀ d ∈ cs, c.pfx = d.pfx ∨ Apart c.pfx d.pfx

theorem sound_sub {pfx : Net} {cs cs' : List Node} (h : Sound pfx cs) (hs : ∀ c ∈ cs', c ∈ cs) :
    Sound pfx cs' :=
  ⟨fun c hc => h.1 c (hs c hc), fun c hc d hd => h.2 c (hs c hc) d (hs d hd)⟩

theorem mem_setAdd {cs : List Node} {c d : Node} (h : d ∈ setAdd cs c) : d = c ∨ d ∈ cs := by
  unfold setAdd at h
  split at h
  · exact .inr h
  · simpa using h

theorem findAll_ok {pfx : Net} {cs : List Node} {p : Net} {l : List Node}
    (h : findAll pfx cs p = .ok l) :
    pfx.covers p = true ∧ l = cs.filter fun c => p.overlaps c.pfx := by
  unfold findAll at h
  split at h
  · rename_i hc; cases h; exact ⟨hc, rfl⟩
  · cases h

theorem findAll_covers {pfx : Net} {cs : List Node} {p : Net} (h : pfx.covers p = true) :
    findAll pfx cs p = .ok (cs.filter fun c => p.overlaps c.pfx) := by
  unfold findAll; rw [if_pos h]

theorem findExact_some {pfx : Net} {cs : List Node} {p : Net} {m : Node}
    (h : findExact pfx cs p = .ok (some m)) :
    pfx.covers p = true ∧ cs.filter (fun c => p.overlaps c.pfx) = [m] ∧ m.pfx = p := by
  unfold findExact at h
  split at h
  · cases h
  · rename_i hm
    obtain ⟨hc, hl⟩ := findAll_ok hm
    split at h
    · cases h; exact ⟨hc, hl.symm, by assumption⟩
    · cases h
  · cases h

/-- exactly when and how `add` succeeds -/
theorem addChild_ok {pfx : Net} {cs cs' : List Node} {c : Node} : addChild pfx cs c = .ok cs' ↔
    pfx.covers c.pfx = true ∧ cs' = setAdd cs c ∧
    (cs.filter (fun d => c.pfx.overlaps d.pfx) = [] ∨
      ∃ m, cs.filter (fun d => c.pfx.overlaps d.pfx) = [m] ∧ m.pfx = c.pfx) := by
  unfold addChild
  by_cases hc : pfx.covers c.pfx = true
  · rw [if_pos hc]
    unfold findExact
    have hfa := findAll_covers (cs := cs) hc
    rw [hfa]
    generalize cs.filter (fun d => c.pfx.overlaps d.pfx) = F
    match F with
    | [] => exact ⟨fun h => ⟨hc, (Except.ok.inj h).symm, .inl rfl⟩, fun h => by rw [h.2.1]⟩
    | [m] =>
      by_cases hm : m.pfx = c.pfx
      · simp only [if_pos hm]
        exact ⟨fun h => ⟨hc, (Except.ok.inj h).symm, .inr ⟨m, rfl, hm⟩⟩, fun h => by rw [h.2.1]⟩
      · simp only [if_neg hm]
        refine ⟨(fun h => by cases h), ?_⟩
        rintro ⟨_, _, h | ⟨m', h, h'⟩⟩
        · cases h
        · cases h; exact absurd h' hm
    | _ :: _ :: _ =>
      refine ⟨(fun h => by cases h), ?_⟩
      rintro ⟨_, _, h | ⟨m', h, h'⟩⟩ <;> cases h
  · rw [if_neg hc]
    exact ⟨(fun h => by cases h), fun h => absurd h.1 hc⟩

/-- exactly how `add` fails -/
theorem addChild_error {pfx : Net} {cs : List Node} {c : Node} {e : Err} :
    addChild pfx cs c = .error e ↔
    (pfx.covers c.pfx = false ∧ e = .notMine) ∨
    (pfx.covers c.pfx = true ∧ e = .value ∧ cs.filter (fun d => c.pfx.overlaps d.pfx) ≠ [] ∧
      ¬ ∃ m, cs.filter (fun d => c.pfx.overlaps d.pfx) = [m] ∧ m.pfx = c.pfx) := by
  unfold addChild
  by_cases hc : pfx.covers c.pfx = true
  · rw [if_pos hc]
    unfold findExact
    have hfa := findAll_covers (cs := cs) hc
    rw [hfa]
    have hnf : ¬ (pfx.covers c.pfx = false ∧ e = .notMine) := by rw [hc]; simp
    generalize cs.filter (fun d => c.pfx.overlaps d.pfx) = F
    match F with
    | [] => exact ⟨(fun h => by cases h), fun h => h.elim (absurd · hnf) fun h => absurd rfl h.2.2.1⟩
    | [m] =>
      by_cases hm : m.pfx = c.pfx
      · simp only [if_pos hm]
        exact ⟨(fun h => by cases h),
          fun h => h.elim (absurd · hnf) fun h => absurd ⟨m, rfl, hm⟩ h.2.2.2⟩
      · simp only [if_neg hm]
        refine ⟨fun h => .inr ⟨hc, (Except.error.inj h).symm, by simp, ?_⟩,
          fun h => h.elim (absurd · hnf) fun h => by rw [h.2.1]⟩
        rintro ⟨m', h1, h2⟩; cases h1; exact hm h2
    | _ :: _ :: _ =>
      refine ⟨fun h => .inr ⟨hc, (Except.error.inj h).symm, by simp, ?_⟩,
          fun h => h.elim (absurd · hnf) fun h => by rw [h.2.1]⟩
      rintro ⟨m', h1, h2⟩; cases h1
  · rw [if_neg hc]
    rw [Bool.not_eq_true] at hc
    refine ⟨fun h => .inl ⟨hc, (Except.error.inj h).symm⟩, ?_⟩
    rintro (h | h)
    · rw [h.2]
    · rw [hc] at h; exact absurd h.1 (by simp)

theorem sound_add {pfx : Net} {cs cs' : List Node} {c : Node} (h : Sound pfx cs)
    (ha : addChild pfx cs c = .ok cs') : Sound pfx cs' := by
  obtain ⟨hc, rfl, hF⟩ := addChild_ok.mp ha
  have key : ∀ d ∈ cs, c.pfx = d.pfx ∨ Apart c.pfx d.pfx := by
    intro d hd
    by_cases ho : c.pfx.overlaps d.pfx = true
    · left
      have hm : d ∈ cs.filter (fun d => c.pfx.overlaps d.pfx) := List.mem_filter.mpr ⟨hd, ho⟩
      rcases hF with hF | ⟨m, hF, he⟩
      · rw [hF] at hm; simp at hm
      · rw [hF] at hm; simp at hm; subst hm; exact he.symm
    · right; rw [apart_iff]; simpa using ho
  have hsym : ∀ {a b : Net}, (a = b ∨ Apart a b) → (b = a ∨ Apart b a) := by
    rintro a b (h | h)
    · exact .inl h.symm
    · exact .inr fun ⟨x, h1, h2⟩ => h ⟨x, h2, h1⟩
  constructor
  · intro d hd
    rcases mem_setAdd hd with rfl | hd
    · exact inside_iff.mpr hc
    · exact h.1 d hd
  · intro d hd e he
    rcases mem_setAdd hd with hd' | hd' <;> rcases mem_setAdd he with he' | he'
    · exact .inl (by rw [hd', he'])
    · rw [hd']; exact key e he'
    · rw [he']; exact hsym (key d hd')
    · exact h.2 d hd' e he'

theorem sound_update {pfx : Net} (l : List Node) : ∀ {cs : List Node}, Sound pfx cs →
    Sound pfx (updateChildren pfx cs l).1 := by
  induction l with
  | nil => intro cs h; exact h
  | cons c l ih =>
    intro cs h
    unfold updateChildren
    split
    · rename_i cs' hcs; exact ih (sound_add h hcs)
    · exact h

theorem sound_discard {pfx : Net} {cs : List Node} {i : Nat} (h : Sound pfx cs) :
    Sound pfx (discardNode cs i) := sound_sub h fun _ hc => (List.mem_filter.mp hc).1

theorem sound_discardPrefix {pfx : Net} {cs cs' : List Node} {p : Net} (h : Sound pfx cs)
    (hd : discardPrefix pfx cs p = .ok cs') : Sound pfx cs' := by
  unfold discardPrefix at hd
  split at hd
  · cases hd
  · cases hd; exact sound_discard h
  · cases hd; exact h

theorem sound_removed {pfx : Net} {cs cs' : List Node} (h : Sound pfx cs') :
    Sound pfx (removed cs cs').1 := by
  unfold removed; split <;> exact h

/-- C41: one call of any mutating method keeps the children sound, whether or not it raises. -/
theorem container_step_sound (pfx : Net) (cs : List Node) (op : TreeOp) (h : Sound pfx cs) :
    Sound pfx (op.run pfx cs).1 := by
  cases op with
  | add c =>
    simp only [TreeOp.run]
    split
    · rename_i hcs; exact sound_add h hcs
    · exact h
  | discardNode c => exact sound_discard h
  | discardPrefix p =>
    simp only [TreeOp.run]
    split
    · rename_i hcs; exact sound_discardPrefix h hcs
    · exact h
  | removeNode c => exact sound_removed (sound_discard h)
  | removePrefix p =>
    simp only [TreeOp.run]
    split
    · rename_i hcs; exact sound_removed (sound_discardPrefix h hcs)
    · exact h
  | update l => exact sound_update l h
  | clear => exact ⟨by simp [TreeOp.run], by simp [TreeOp.run]⟩

/-- C41: after any sequence of calls on a new container (built with any list of children), its
children are inside its prefix and children with different prefixes are disjoint. -/
theorem container_sound (pfx : Net) (l : List Node) (ops : List TreeOp) :
    Sound pfx (runOps pfx (newChildren pfx l).1 ops) := by
  have h0 : Sound pfx (newChildren pfx l).1 :=
    sound_update l ⟨by simp, by simp⟩
  generalize (newChildren pfx l).1 = cs at h0
  induction ops generalizing cs with
  | nil => exact h0
  | cons op ops ih => exact ih _ (container_step_sound pfx cs op h0)

/-! ### C42 -/

/-- `n` is a node of the tree `t` -/
inductive InTree : Node → Node → Prop
  | self (t : Node) : InTree t t
  | child {a i p cs c n} (hc : c ∈ cs) (h : InTree c n) : InTree (.cont a i p cs) n

/-- a tree as C41 leaves it when no prefix was added twice: at every level the children are inside
the container and pairwise disjoint -/
inductive WellFormed : Node → Prop
  | leaf (k i p) : WellFormed (.leaf k i p)
  | cont (a i p cs) (inside : ∀ c ∈ cs, Inside c.pfx p)
      (apart : cs.Pairwise fun c d => Apart c.pfx d.pfx) (sub : ∀ c ∈ cs, WellFormed c) :
      WellFormed (.cont a i p cs)

theorem inTree_covers {t n : Node} (hw : WellFormed t) (h : InTree t n) :
    t.pfx.covers n.pfx = true := by
  induction h with
  | self t => exact Net.covers_refl _
  | @child a i p cs c n hc h ih =>
    cases hw with
    | cont _ _ _ _ inside apart sub =>
      exact Net.covers_trans (inside_iff.mp (inside c hc)) (ih (sub c hc))

/-- two members of a list of pairwise disjoint children that share an address are the same -/
theorem apart_eq {cs : List Node} (h : cs.Pairwise fun c d => Apart c.pfx d.pfx) {c d : Node}
    (hc : c ∈ cs) (hd : d ∈ cs) {x : IP} (h1 : c.pfx.containsIP x = true)
    (h2 : d.pfx.containsIP x = true) : c = d := by
  induction cs with
  | nil => simp at hc
  | cons a cs ih =>
    rw [List.pairwise_cons] at h
    rcases List.mem_cons.mp hc with rfl | hc' <;> rcases List.mem_cons.mp hd with rfl | hd'
    · rfl
    · exact absurd ⟨x, h1, h2⟩ (h.1 d hd')
    · exact absurd ⟨x, h2, h1⟩ (h.1 c hc')
    · exact ih h.2 hc' hd'

/-- what `resolve_path(prefix)` returns in a well-formed tree -/
def PathSpec (t : Node) (p : Net) : Except Err (List Node) → Prop
  | .ok path =>
    (∀ n, n ∈ path ↔ InTree t n ∧ Inside p n.pfx) ∧
    path.Pairwise (fun x y => InTree y x ∧ Inside x.pfx y.pfx) ∧
    path.getLast? = some t
  | .error e =>
    e = .moreSpecifics ∧ ∃ a i q cs c d, InTree t (.cont a i q cs) ∧ Inside p q ∧ c ∈ cs ∧ d ∈ cs ∧
      c.pfx ≠ d.pfx ∧ Inside c.pfx p ∧ Inside d.pfx p

theorem pathSpec (t : Node) (hw : WellFormed t) (p : Net) (hc : t.pfx.covers p = true) :
    PathSpec t p (t.resolvePath p) := by
  match t, hw, hc with
  | .leaf k i q, hw, hc =>
    rw [Node.resolvePath]
    refine ⟨?_, by simp, rfl⟩
    intro n
    simp only [List.mem_singleton]
    constructor
    · rintro rfl; exact ⟨.self _, inside_iff.mpr hc⟩
    · rintro ⟨h, _⟩; cases h; rfl
  | .cont a i q cs, .cont _ _ _ _ inside apart sub, hc =>
    have hq : q.covers p = true := hc
    have hw : WellFormed (.cont a i q cs) := .cont _ _ _ _ inside apart sub
    -- a child containing a node that covers p is among the matches
    have hmatch : ∀ c ∈ cs, ∀ n, InTree c n → Inside p n.pfx →
        c ∈ cs.filter (fun c => p.overlaps c.pfx) ∧ c.pfx.covers p = true := by
      intro c hcc n hn hpn
      have : c.pfx.covers p = true := Net.covers_trans (inTree_covers (sub c hcc) hn) (inside_iff.mp hpn)
      refine ⟨List.mem_filter.mpr ⟨hcc, ?_⟩, this⟩
      rw [Net.overlaps_comm]; exact Net.covers_overlaps this
    have hself : (∀ c ∈ cs, ∀ n, InTree c n → Inside p n.pfx → False) →
        PathSpec (.cont a i q cs) p (.ok [.cont a i q cs]) := by
      intro h0
      refine ⟨?_, by simp, rfl⟩
      intro n
      simp only [List.mem_singleton]
      constructor
      · rintro rfl; exact ⟨.self _, inside_iff.mpr hq⟩
      · rintro ⟨h, hp⟩
        cases h with
        | self => rfl
        | child hcc h => exact absurd hp (fun hp => h0 _ hcc _ h hp)
    have hext : ∀ m ∈ cs, m.pfx.covers p = true → ∀ path,
        PathSpec m p (.ok path) → PathSpec (.cont a i q cs) p (.ok (path ++ [.cont a i q cs])) := by
      rintro m hm hmp path ⟨h1, h2, h3⟩
      refine ⟨?_, ?_, by simp⟩
      · intro n
        rw [List.mem_append, List.mem_singleton, h1]
        constructor
        · rintro (⟨h, hp⟩ | rfl)
          · exact ⟨.child hm h, hp⟩
          · exact ⟨.self _, inside_iff.mpr hq⟩
        · rintro ⟨h, hp⟩
          cases h with
          | self => exact .inr rfl
          | @child _ _ _ _ c _ hcc h =>
            left
            have hcp := (hmatch c hcc n h hp).2
            have := apart_eq apart hcc hm (Net.covers_iff.mp hcp _ p.contains_first)
              (Net.covers_iff.mp hmp _ p.contains_first)
            subst this
            exact ⟨h, hp⟩
      · rw [List.pairwise_append]
        refine ⟨h2, by simp, ?_⟩
        intro x hx y hy
        rw [List.mem_singleton] at hy; subst hy
        have hxm := ((h1 x).mp hx).1
        have hx' : InTree (.cont a i q cs) x := .child hm hxm
        exact ⟨hx', inside_iff.mpr (inTree_covers hw hx')⟩
    rw [Node.resolvePath]
    -- the result of find_one
    have hfa : findAll q cs p = .ok (cs.filter fun c => p.overlaps c.pfx) := findAll_covers hq
    generalize hF : cs.filter (fun c => p.overlaps c.pfx) = F at hfa hmatch
    have hFmem : ∀ c ∈ F, c ∈ cs ∧ p.overlaps c.pfx = true := by
      intro c hcF; rw [← hF] at hcF; exact List.mem_filter.mp hcF
    have hFpw : F.Pairwise fun c d => Apart c.pfx d.pfx := by
      rw [← hF]; exact apart.filter _
    match F, hfa, hmatch, hFmem, hFpw with
    | [], hfa, hmatch, _, _ =>
      have hfo : findOne q cs p = .ok none := by simp [findOne, hfa]
      split
      · rename_i e he; rw [hfo] at he; cases he
      · exact hself fun c hcc n hn hp => by simpa using (hmatch c hcc n hn hp).1
      · rename_i he; rw [hfo] at he; cases he
      · rename_i he; rw [hfo] at he; cases he
    | [m], hfa, hmatch, hFmem, _ =>
      obtain ⟨hm, hmo⟩ := hFmem m (by simp)
      by_cases hcov : m.pfx.covers p = true
      · have hfo : findOne q cs p = .ok (some m) := by
          simp only [findOne, hfa]
          rw [if_pos]
          obtain ⟨_, e1, e2⟩ := Net.covers_num.mp hcov
          have s1 := m.pfx.size_pos
          have s2 := p.size_pos
          exact ⟨e1, by show m.pfx.base + (m.pfx.size - 1) ≥ p.base + (p.size - 1); omega⟩
        split
        · rename_i e he; rw [hfo] at he; cases he
        · rename_i he; rw [hfo] at he; cases he
        · rename_i k j q' he; rw [hfo] at he; cases he
          have := pathSpec (.leaf k j q') (sub _ hm) p hcov
          rw [Node.resolvePath] at this
          exact hext _ hm hcov _ this
        · rename_i b j q' ds he; rw [hfo] at he; cases he
          have ih := pathSpec (.cont b j q' ds) (sub _ hm) p hcov
          split
          · rename_i e hr
            rw [hr] at ih
            obtain ⟨rfl, a', i', q'', cs', c, d, h1, h2⟩ := ih
            exact ⟨rfl, a', i', q'', cs', c, d, .child hm h1, h2⟩
          · rename_i path hr
            rw [hr] at ih
            exact hext _ hm hcov _ ih
      · have hfo : findOne q cs p = .ok none := by
          simp only [findOne, hfa]
          rw [if_neg]
          rintro ⟨e1, e2⟩
          apply hcov
          rw [Net.covers, Bool.and_eq_true, Bool.and_eq_true, decide_eq_true_iff, decide_eq_true_iff]
          exact ⟨⟨by rw [Net.overlaps_comm]; exact hmo, e1⟩, e2⟩
        split
        · rename_i e he; rw [hfo] at he; cases he
        · refine hself fun c hcc n hn hp => ?_
          obtain ⟨h1, h2⟩ := hmatch c hcc n hn hp
          simp at h1; subst h1; exact hcov h2
        · rename_i he; rw [hfo] at he; cases he
        · rename_i he; rw [hfo] at he; cases he
    | m1 :: m2 :: F, hfa, _, hFmem, hFpw =>
      have hfo : findOne q cs p = .error .moreSpecifics := by simp [findOne, hfa]
      split
      · rename_i e he; rw [hfo] at he; cases he
        obtain ⟨c1, o1⟩ := hFmem m1 (by simp)
        obtain ⟨c2, o2⟩ := hFmem m2 (by simp)
        have hap : Apart m1.pfx m2.pfx := (List.pairwise_cons.mp hFpw).1 m2 (by simp)
        have hin : ∀ {c d : Net}, p.overlaps c = true → p.overlaps d = true → Apart c d →
            Inside c p := by
          intro c d hc hd hcd
          rcases Net.nested hc with h | h
          · exact inside_iff.mpr h
          · exfalso
            obtain ⟨x, hx1, hx2⟩ := Net.overlaps_iff.mp hd
            exact hcd ⟨x, Net.covers_iff.mp h x hx1, hx2⟩
        refine ⟨rfl, a, i, q, cs, m1, m2, .self _, inside_iff.mpr hq, c1, c2, ?_, hin o1 o2 hap,
          hin o2 o1 fun ⟨x, h1, h2⟩ => hap ⟨x, h2, h1⟩⟩
        intro he
        exact hap ⟨m1.pfx.first, m1.pfx.contains_first, he ▸ m1.pfx.contains_first⟩
      · rename_i he; rw [hfo] at he; cases he
      · rename_i he; rw [hfo] at he; cases he
      · rename_i he; rw [hfo] at he; cases he
termination_by sizeOf t
decreasing_by
  all_goals
    have := List.sizeOf_lt_of_mem hm
    simp_wf; simp at this; omega


/-- a container built by calls that never added a prefix that was already there is well-formed -/
theorem wellFormed_of_sound {a : Option (List IP)} {i : Nat} {pfx : Net} {cs : List Node}
    (hs : Sound pfx cs) (hd : cs.Pairwise fun c d => c.pfx ≠ d.pfx) (sub : ∀ c ∈ cs, WellFormed c) :
    WellFormed (.cont a i pfx cs) := by
  refine .cont _ _ _ _ hs.1 ?_ sub
  refine List.Pairwise.imp_of_mem ?_ hd
  intro c d hc hd hne
  exact (hs.2 c hc d hd).resolve_left hne

theorem resolvePath_cont (a : Option (List IP)) (i : Nat) (pfx : Net) (cs : List Node) (p : Net) :
    (Node.cont a i pfx cs).resolvePath p =
      match findOne pfx cs p with
      | .error e => .error e
      | .ok none => .ok [.cont a i pfx cs]
      | .ok (some m) => (m.resolvePath p).map (· ++ [.cont a i pfx cs]) := by
  rw [Node.resolvePath]
  split
  · rename_i h; rw [h]
  · rename_i h; rw [h]
  · rename_i h; rw [h]; simp only [Node.resolvePath]; rfl
  · rename_i h; rw [h]; simp only
    split
    · rename_i h'; rw [h']; rfl
    · rename_i h'; rw [h']; rfl

/-- C42: a container refuses everything that is not inside its prefix, addresses of the other family
included. -/
theorem resolve_outside (a : Option (List IP)) (i : Nat) (pfx : Net) (cs : List Node) (p : Net)
    (h : ¬ Inside p pfx) :
    (Node.cont a i pfx cs).resolvePath p = .error .notMine ∧
    (Node.cont a i pfx cs).resolve p = .error .notMine := by
  have hc : ¬ pfx.covers p = true := fun hc => h (inside_iff.mpr hc)
  have hf : findOne pfx cs p = .error .notMine := by simp [findOne, findAll, hc]
  have : (Node.cont a i pfx cs).resolvePath p = .error .notMine := by rw [resolvePath_cont, hf]
  exact ⟨this, by rw [Node.resolve, this]⟩

/-- C42: looking up a prefix inside the container.  Either the path consists of exactly the nodes of
the tree whose prefix contains all of it, each node below the ones after it, ending with the container
itself; or the lookup raises MoreSpecificsFoundError, and then some container on the way has two
children that are both inside the prefix asked for. -/
theorem resolve_prefix (a : Option (List IP)) (i : Nat) (pfx : Net) (cs : List Node)
    (hw : WellFormed (.cont a i pfx cs)) (p : Net) (hp : Inside p pfx) :
    PathSpec (.cont a i pfx cs) p ((Node.cont a i pfx cs).resolvePath p) :=
  pathSpec _ hw p (inside_iff.mp hp)

/-- C42: looking up an address inside the container always succeeds.  The path consists of exactly
the nodes of the tree whose prefix contains the address, each one below all that follow it, and its
first node is the answer of `resolve`: no node of the tree containing the address has a longer
prefix, and all of them are above it in the tree. -/
theorem resolve_address (a : Option (List IP)) (i : Nat) (pfx : Net) (cs : List Node)
    (hw : WellFormed (.cont a i pfx cs)) (x : IP) (hx : pfx.containsIP x = true) :
    ∃ m rest, (Node.cont a i pfx cs).resolvePath x.toNet = .ok (m :: rest) ∧
      (Node.cont a i pfx cs).resolve x.toNet = .ok m ∧
      (∀ n, n ∈ m :: rest ↔ InTree (.cont a i pfx cs) n ∧ n.pfx.containsIP x = true) ∧
      (m :: rest).Pairwise (fun d u => InTree u d ∧ Inside d.pfx u.pfx) ∧
      (∀ n, InTree (.cont a i pfx cs) n → n.pfx.containsIP x = true →
        n.pfx.plen ≤ m.pfx.plen ∧ InTree n m) := by
  have hcov : pfx.covers x.toNet = true := Net.covers_ip.mpr hx
  have h := pathSpec _ hw x.toNet hcov
  have hin : ∀ n : Net, Inside x.toNet n ↔ n.containsIP x = true := by
    intro n; rw [inside_iff, Net.covers_ip]
  match hr : (Node.cont a i pfx cs).resolvePath x.toNet with
  | .error e =>
    rw [hr] at h
    obtain ⟨rfl, b, j, q, ds, c, d, h1, h2, hc, hd, hne, hcx, hdx⟩ := h
    exfalso
    apply hne
    have hxi : ∀ n : Net, Inside n x.toNet → n = x.toNet := by
      intro n hn
      refine Net.covers_antisymm ?_ (inside_iff.mp hn)
      have := (IP.toNet_contains x n.first).mp (hn _ n.contains_first)
      exact Net.covers_ip.mpr (this ▸ n.contains_first)
    rw [hxi _ hcx, hxi _ hdx]
  | .ok path =>
    rw [hr] at h
    obtain ⟨h1, h2, h3⟩ := h
    match path, hr, h1, h2, h3 with
    | m :: rest, hr, h1, h2, _ =>
      refine ⟨m, rest, rfl, by rw [Node.resolve, hr], ?_, h2, ?_⟩
      · intro n; rw [h1, hin]
      · intro n hn hnx
        have hmem := (h1 n).mpr ⟨hn, (hin _).mpr hnx⟩
        rcases List.mem_cons.mp hmem with rfl | hmem
        · exact ⟨Nat.le_refl _, .self _⟩
        · obtain ⟨q1, q2⟩ := (List.pairwise_cons.mp h2).1 n hmem
          exact ⟨Net.covers_plen (inside_iff.mp q2), q1⟩

/-- two trees that differ only in the order in which the (unordered) children are iterated -/
inductive Reorder : Node → Node → Prop
  | refl (n) : Reorder n n
  | perm {a i p cs cs'} (h : cs.Perm cs') : Reorder (.cont a i p cs) (.cont a i p cs')
  | child {a i p l₁ l₂ c c'} (h : Reorder c c') :
      Reorder (.cont a i p (l₁ ++ c :: l₂)) (.cont a i p (l₁ ++ c' :: l₂))
  | trans {n₁ n₂ n₃} (h₁ : Reorder n₁ n₂) (h₂ : Reorder n₂ n₃) : Reorder n₁ n₃

/-- a node itself, without its children: class, own data, identity and prefix -/
def label : Node → (LeafKind ⊕ Option (List IP)) × Nat × Net
  | .leaf k i p => (.inl k, i, p)
  | .cont a i p _ => (.inr a, i, p)

theorem label_pfx {n m : Node} (h : label n = label m) : n.pfx = m.pfx := by
  cases n <;> cases m <;> simp [label] at h <;> simp [Node.pfx, h]

theorem reorder_label {n m : Node} (h : Reorder n m) : label n = label m := by
  induction h with
  | refl => rfl
  | perm => rfl
  | child => rfl
  | trans _ _ h1 h2 => exact h1.trans h2

theorem map_map_append (r r' : Except Err (List Node)) (n n' : Node) (hn : label n = label n')
    (h : r.map (List.map label) = r'.map (List.map label)) :
    (r.map (· ++ [n])).map (List.map label) = (r'.map (· ++ [n'])).map (List.map label) := by
  cases r with
  | error e => cases r' with
    | error e' => cases h; rfl
    | ok l' => cases h
  | ok l => cases r' with
    | error e' => cases h
    | ok l' =>
      have := Except.ok.inj h
      simp only [Except.map, List.map_append, this, List.map_cons, List.map_nil, hn]

/-- C42: the outcome of a lookup (the nodes on the path, or the exception) does not depend on the
order in which the children were added or are iterated, in any tree whatsoever. -/
theorem resolve_order_independent {t t' : Node} (h : Reorder t t') (p : Net) :
    (t.resolvePath p).map (List.map label) = (t'.resolvePath p).map (List.map label) := by
  induction h with
  | refl => rfl
  | trans _ _ h1 h2 => exact h1.trans h2
  | @perm a i q cs cs' hp =>
    rw [resolvePath_cont, resolvePath_cont]
    have hf : findOne q cs p = findOne q cs' p := by
      unfold findOne findAll
      by_cases hc : q.covers p = true
      · rw [if_pos hc, if_pos hc]
        have hp' := hp.filter (fun c => p.overlaps c.pfx)
        generalize cs.filter (fun c => p.overlaps c.pfx) = F at hp'
        generalize cs'.filter (fun c => p.overlaps c.pfx) = F' at hp'
        have hl := hp'.length_eq
        match F, F', hl, hp' with
        | [], [], _, _ => rfl
        | [m], [m'], _, hp' => rw [List.singleton_perm_singleton.mp hp']
        | _ :: _ :: _, _ :: _ :: _, _, _ => rfl
      · rw [if_neg hc, if_neg hc]
    rw [hf]
    match findOne q cs' p with
    | .error e => rfl
    | .ok none => rfl
    | .ok (some m) => exact map_map_append _ _ _ _ rfl rfl
  | @child a i q l₁ l₂ c c' hr ih =>
    rw [resolvePath_cont, resolvePath_cont]
    have hpf := label_pfx (reorder_label hr)
    have hf : findOne q (l₁ ++ c :: l₂) p = findOne q (l₁ ++ c' :: l₂) p ∨
        (findOne q (l₁ ++ c :: l₂) p = .ok (some c) ∧
          findOne q (l₁ ++ c' :: l₂) p = .ok (some c')) := by
      unfold findOne findAll
      by_cases hc : q.covers p = true
      · rw [if_pos hc, if_pos hc]
        rw [List.filter_append, List.filter_append, List.filter_cons, List.filter_cons, hpf]
        generalize l₁.filter (fun c => p.overlaps c.pfx) = F₁
        generalize l₂.filter (fun c => p.overlaps c.pfx) = F₂
        by_cases ho : p.overlaps c'.pfx = true
        · rw [if_pos ho, if_pos ho]
          match F₁, F₂ with
          | [], [] =>
            simp only [List.nil_append, hpf]
            split
            · exact .inr ⟨rfl, rfl⟩
            · exact .inl rfl
          | [], _ :: _ => exact .inl rfl
          | [_], _ => exact .inl rfl
          | _ :: _ :: _, _ => exact .inl rfl
        · rw [if_neg ho, if_neg ho]; exact .inl rfl
      · rw [if_neg hc, if_neg hc]; exact .inl rfl
    rcases hf with hf | ⟨h1, h2⟩
    · rw [hf]
      match findOne q (l₁ ++ c' :: l₂) p with
      | .error e => rfl
      | .ok none => rfl
      | .ok (some m) => exact map_map_append _ _ _ _ rfl rfl
    · rw [h1, h2]
      exact map_map_append _ _ _ _ rfl ih

/-! ### C43 -/

/-- the child with the prefix of `c` is the only one that overlaps `c` -/
def OnlySame (cs : List Node) (c : Node) : Prop :=
  ∃ l₁ m l₂, cs = l₁ ++ m :: l₂ ∧ m.pfx = c.pfx ∧ ∀ d ∈ l₁ ++ l₂, Apart c.pfx d.pfx

theorem filter_nil_iff {cs : List Node} {p : Net} :
    cs.filter (fun d => p.overlaps d.pfx) = [] ↔ ∀ d ∈ cs, Apart p d.pfx := by
  rw [List.filter_eq_nil_iff]
  constructor
  · intro h d hd; rw [apart_iff]; simpa using h d hd
  · intro h d hd; rw [apart_iff.mp (h d hd)]; simp

theorem filter_single_iff {cs : List Node} {p : Net} {m : Node} :
    cs.filter (fun d => p.overlaps d.pfx) = [m] ↔
      ∃ l₁ l₂, cs = l₁ ++ m :: l₂ ∧ ¬ Apart p m.pfx ∧ ∀ d ∈ l₁ ++ l₂, Apart p d.pfx := by
  rw [List.filter_eq_cons_iff]
  constructor
  · rintro ⟨l₁, l₂, rfl, h1, h2, h3⟩
    refine ⟨l₁, l₂, rfl, not_apart_iff.mpr h2, ?_⟩
    intro d hd
    rcases List.mem_append.mp hd with hd | hd
    · rw [apart_iff]; simpa using h1 d hd
    · exact filter_nil_iff.mp h3 d hd
  · rintro ⟨l₁, l₂, rfl, h1, h2⟩
    refine ⟨l₁, l₂, rfl, ?_, not_apart_iff.mp h1, ?_⟩
    · intro d hd; rw [apart_iff.mp (h2 d (List.mem_append.mpr (.inl hd)))]; simp
    · exact filter_nil_iff.mpr fun d hd => h2 d (List.mem_append.mpr (.inr hd))

theorem not_apart_self (p : Net) : ¬ Apart p p :=
  fun h => h ⟨p.first, p.contains_first, p.contains_first⟩

theorem apart_symm {p q : Net} (h : Apart p q) : Apart q p := fun ⟨x, h1, h2⟩ => h ⟨x, h2, h1⟩

theorem onlySame_iff {cs : List Node} {c : Node} : OnlySame cs c ↔
    ∃ m, cs.filter (fun d => c.pfx.overlaps d.pfx) = [m] ∧ m.pfx = c.pfx := by
  constructor
  · rintro ⟨l₁, m, l₂, rfl, h1, h2⟩
    exact ⟨m, filter_single_iff.mpr ⟨l₁, l₂, rfl, h1 ▸ not_apart_self _, h2⟩, h1⟩
  · rintro ⟨m, h1, h2⟩
    obtain ⟨l₁, l₂, rfl, _, h4⟩ := filter_single_iff.mp h1
    exact ⟨l₁, m, l₂, rfl, h2, h4⟩

/-- C43: what `add` does in every case.  It accepts a child inside the container's prefix that
overlaps no other child, or only one with the very same prefix; that one is kept, not replaced.  A
prefix outside the container gives NotAuthoritativeError, any other overlap ValueError, and then
nothing changes. -/
theorem add_cases (pfx : Net) (cs : List Node) (c : Node) :
    (¬ Inside c.pfx pfx → (TreeOp.add c).run pfx cs = (cs, some .notMine)) ∧
    (Inside c.pfx pfx → ((∀ d ∈ cs, Apart c.pfx d.pfx) ∨ OnlySame cs c) →
      (TreeOp.add c).run pfx cs = (if c.id ∈ cs.map Node.id then cs else c :: cs, none)) ∧
    (Inside c.pfx pfx → ¬ ((∀ d ∈ cs, Apart c.pfx d.pfx) ∨ OnlySame cs c) →
      (TreeOp.add c).run pfx cs = (cs, some .value)) := by
  rw [inside_iff, ← filter_nil_iff, onlySame_iff]
  have hok := @addChild_ok pfx cs (setAdd cs c) c
  have herr := @addChild_error pfx cs c
  refine ⟨fun h => ?_, fun h1 h2 => ?_, fun h1 h2 => ?_⟩
  · have := (herr (e := .notMine)).mpr (.inl ⟨by simpa using h, rfl⟩)
    simp only [TreeOp.run, this]
  · have := hok.mpr ⟨h1, rfl, h2⟩
    simp only [TreeOp.run, this]; rfl
  · have := (herr (e := .value)).mpr (.inr ⟨h1, rfl, fun h => h2 (.inl h), fun h => h2 (.inr h)⟩)
    simp only [TreeOp.run, this]

theorem findExact_eq {pfx : Net} {cs : List Node} {p : Net} (h : pfx.covers p = true) :
    findExact pfx cs p = match cs.filter (fun d => p.overlaps d.pfx) with
      | [m] => if m.pfx = p then .ok (some m) else .ok none
      | _ => .ok none := by
  unfold findExact
  rw [findAll_covers h]
  generalize cs.filter (fun d => p.overlaps d.pfx) = F
  match F with
  | [] => rfl
  | [_] => rfl
  | _ :: _ :: _ => rfl

theorem findOne_self {pfx : Net} {cs : List Node} {p : Net} {m : Node} (hp : pfx.covers p = true)
    (h : cs.filter (fun d => p.overlaps d.pfx) = [m]) (hm : m.pfx.covers p = true) :
    findOne pfx cs p = .ok (some m) := by
  unfold findOne
  rw [findAll_covers hp, h]
  simp only
  rw [if_pos]
  obtain ⟨_, e1, e2⟩ := Net.covers_num.mp hm
  have s1 := m.pfx.size_pos
  have s2 := p.size_pos
  exact ⟨e1, by show m.pfx.base + (m.pfx.size - 1) ≥ p.base + (p.size - 1); omega⟩

/-- C43: a new child that overlaps nothing is found again: by its prefix, and by the lookup of every
prefix inside it (the path continues inside the new child). -/
theorem add_fresh_found (a : Option (List IP)) (i : Nat) (pfx : Net) (cs : List Node) (c : Node)
    (hin : Inside c.pfx pfx) (hap : ∀ d ∈ cs, Apart c.pfx d.pfx) (hid : c.id ∉ cs.map Node.id) :
    (TreeOp.add c).run pfx cs = (c :: cs, none) ∧
    containsPrefix pfx (c :: cs) c.pfx = .ok true ∧
    findExact pfx (c :: cs) c.pfx = .ok (some c) ∧
    ∀ p, Inside p c.pfx → (Node.cont a i pfx (c :: cs)).resolvePath p =
      (c.resolvePath p).map (· ++ [.cont a i pfx (c :: cs)]) := by
  have hF : ∀ p, Inside p c.pfx → (c :: cs).filter (fun d => p.overlaps d.pfx) = [c] := by
    intro p hp
    refine filter_single_iff.mpr ⟨[], cs, rfl, ?_, ?_⟩
    · exact not_apart_iff.mpr (Net.overlaps_comm _ _ ▸ Net.covers_overlaps (inside_iff.mp hp))
    · intro d hd
      rintro ⟨x, h1, h2⟩
      exact hap d hd ⟨x, hp x h1, h2⟩
  have hex : findExact pfx (c :: cs) c.pfx = .ok (some c) := by
    rw [findExact_eq (inside_iff.mp hin), hF c.pfx (fun _ h => h)]
    simp only [if_true]
  refine ⟨?_, ?_, hex, ?_⟩
  · rw [(add_cases pfx cs c).2.1 hin (.inl hap), if_neg hid]
  · simp only [containsPrefix, hex]; rfl
  · intro p hp
    rw [resolvePath_cont]
    rw [findOne_self (inside_iff.mp fun x hx => hin x (hp x hx)) (hF p hp) (inside_iff.mp hp)]

/-- C43: adding a second node with the prefix of an existing child is accepted and makes that prefix
unusable: both nodes stay, the prefix is then reported as absent and cannot be discarded by prefix,
every lookup of something inside it raises MoreSpecificsFoundError, and a third node with that prefix
is refused with ValueError. -/
theorem add_same_prefix_breaks (a : Option (List IP)) (i : Nat) (pfx : Net) (cs : List Node)
    (c : Node) (hs : Sound pfx cs) (hpw : cs.Pairwise fun c d => c.pfx ≠ d.pfx)
    (hex : ∃ d ∈ cs, d.pfx = c.pfx) (hid : c.id ∉ cs.map Node.id) :
    (TreeOp.add c).run pfx cs = (c :: cs, none) ∧
    containsPrefix pfx (c :: cs) c.pfx = .ok false ∧
    discardPrefix pfx (c :: cs) c.pfx = .ok (c :: cs) ∧
    (∀ p, Inside p c.pfx →
      (Node.cont a i pfx (c :: cs)).resolvePath p = .error .moreSpecifics) ∧
    (∀ e : Node, e.pfx = c.pfx → (TreeOp.add e).run pfx (c :: cs) = (c :: cs, some .value)) := by
  obtain ⟨d, hd, hdc⟩ := hex
  obtain ⟨l₁, l₂, rfl⟩ := List.append_of_mem hd
  have hin : Inside c.pfx pfx := hdc ▸ hs.1 d hd
  have hap : ∀ e ∈ l₁ ++ l₂, Apart c.pfx e.pfx := by
    intro e he
    rw [List.pairwise_append] at hpw
    obtain ⟨_, q1, q2⟩ := hpw
    rw [List.pairwise_cons] at q1
    have hmem : e ∈ l₁ ++ d :: l₂ := by
      rcases List.mem_append.mp he with h | h
      · exact List.mem_append.mpr (.inl h)
      · exact List.mem_append.mpr (.inr (List.mem_cons_of_mem _ h))
    rw [← hdc]
    refine (hs.2 d hd e hmem).resolve_left ?_
    rcases List.mem_append.mp he with h | h
    · exact fun h' => q2 e h d (by simp) h'.symm
    · exact q1.1 e h
  have hF : ∀ p, Inside p c.pfx →
      (c :: (l₁ ++ d :: l₂)).filter (fun d => p.overlaps d.pfx) = [c, d] := by
    intro p hp
    have hpc : p.overlaps c.pfx = true :=
      Net.overlaps_comm _ _ ▸ Net.covers_overlaps (inside_iff.mp hp)
    have : (l₁ ++ d :: l₂).filter (fun d => p.overlaps d.pfx) = [d] := by
      refine filter_single_iff.mpr ⟨l₁, l₂, rfl, by rw [hdc]; exact not_apart_iff.mpr hpc, ?_⟩
      rintro e he ⟨x, h1, h2⟩
      exact hap e he ⟨x, hp x h1, h2⟩
    rw [List.filter_cons, if_pos hpc, this]
  have hfe : findExact pfx (c :: (l₁ ++ d :: l₂)) c.pfx = .ok none := by
    rw [findExact_eq (inside_iff.mp hin), hF c.pfx fun _ h => h]
  refine ⟨?_, ?_, ?_, ?_, ?_⟩
  · rw [(add_cases pfx _ c).2.1 hin (.inr ⟨l₁, d, l₂, rfl, hdc, hap⟩), if_neg hid]
  · simp only [containsPrefix, hfe]; rfl
  · simp only [discardPrefix, hfe]
  · intro p hp
    rw [resolvePath_cont]
    have : findOne pfx (c :: (l₁ ++ d :: l₂)) p = .error .moreSpecifics := by
      unfold findOne
      rw [findAll_covers (inside_iff.mp fun x hx => hin x (hp x hx)), hF p hp]
    rw [this]
  · intro e he
    apply (add_cases pfx _ e).2.2 (he ▸ hin)
    rw [← filter_nil_iff, onlySame_iff, he, hF c.pfx fun _ h => h]
    simp

/-- the identities of the children are distinct: `children` is a set -/
def DistinctIds (cs : List Node) : Prop := (cs.map Node.id).Nodup

theorem setAdd_distinct {cs : List Node} {c : Node} (h : DistinctIds cs) :
    DistinctIds (setAdd cs c) := by
  unfold setAdd
  split
  · exact h
  · rename_i hn; exact List.nodup_cons.mpr ⟨hn, h⟩

theorem update_distinct {pfx : Net} (l : List Node) : ∀ {cs : List Node}, DistinctIds cs →
    DistinctIds (updateChildren pfx cs l).1 := by
  induction l with
  | nil => intro cs h; exact h
  | cons c l ih =>
    intro cs h
    unfold updateChildren
    split
    · rename_i cs' hcs; rw [(addChild_ok.mp hcs).2.1]; exact ih (setAdd_distinct h)
    · exact h

theorem discard_distinct {cs : List Node} {i : Nat} (h : DistinctIds cs) :
    DistinctIds (discardNode cs i) :=
  List.Nodup.sublist (List.Sublist.map _ List.filter_sublist) h

theorem discardPrefix_distinct {pfx : Net} {cs cs' : List Node} {p : Net} (h : DistinctIds cs)
    (hd : discardPrefix pfx cs p = .ok cs') : DistinctIds cs' := by
  unfold discardPrefix at hd
  split at hd
  · cases hd
  · cases hd; exact discard_distinct h
  · cases hd; exact h

theorem removed_distinct {cs cs' : List Node} (h : DistinctIds cs') :
    DistinctIds (removed cs cs').1 := by
  unfold removed; split <;> exact h

/-- C43: after any sequence of calls no node is in the container twice. -/
theorem container_distinct (pfx : Net) (l : List Node) (ops : List TreeOp) :
    DistinctIds (runOps pfx (newChildren pfx l).1 ops) := by
  have h0 : DistinctIds (newChildren pfx l).1 := update_distinct l List.nodup_nil
  generalize (newChildren pfx l).1 = cs at h0
  induction ops generalizing cs with
  | nil => exact h0
  | cons op ops ih =>
    refine ih _ ?_
    cases op with
    | add c =>
      simp only [TreeOp.run]
      split
      · rename_i hcs; rw [(addChild_ok.mp hcs).2.1]; exact setAdd_distinct h0
      · exact h0
    | discardNode c => exact discard_distinct h0
    | discardPrefix p =>
      simp only [TreeOp.run]
      split
      · rename_i hcs; exact discardPrefix_distinct h0 hcs
      · exact h0
    | removeNode c => exact removed_distinct (discard_distinct h0)
    | removePrefix p =>
      simp only [TreeOp.run]
      split
      · rename_i hcs; exact removed_distinct (discardPrefix_distinct h0 hcs)
      · exact h0
    | update l => exact update_distinct l h0
    | clear => exact List.nodup_nil

theorem distinct_eq {cs : List Node} (h : DistinctIds cs) {c d : Node} (hc : c ∈ cs) (hd : d ∈ cs)
    (he : c.id = d.id) : c = d := by
  induction cs with
  | nil => simp at hc
  | cons a cs ih =>
    have h' := List.nodup_cons.mp h
    rcases List.mem_cons.mp hc with rfl | hc' <;> rcases List.mem_cons.mp hd with rfl | hd'
    · rfl
    · exact absurd (he ▸ List.mem_map_of_mem hd') h'.1
    · exact absurd (he ▸ List.mem_map_of_mem hc') h'.1
    · exact ih h'.2 hc' hd'

/-- in a container without two nodes of one prefix, what `find_exact` finds -/
theorem findExact_iff {pfx : Net} {cs : List Node} (hs : Sound pfx cs)
    (hpw : cs.Pairwise fun c d => c.pfx ≠ d.pfx) {p : Net} (hp : Inside p pfx) :
    (∀ m, findExact pfx cs p = .ok (some m) ↔ m ∈ cs ∧ m.pfx = p) ∧
    (findExact pfx cs p = .ok none ↔ ∀ m ∈ cs, m.pfx ≠ p) := by
  have h1 : ∀ m, m ∈ cs → m.pfx = p → findExact pfx cs p = .ok (some m) := by
    intro m hm hmp
    obtain ⟨l₁, l₂, rfl⟩ := List.append_of_mem hm
    have hap : (l₁ ++ m :: l₂).Pairwise fun c d => Apart c.pfx d.pfx :=
      List.Pairwise.imp_of_mem (fun hc hd hne => (hs.2 _ hc _ hd).resolve_left hne) hpw
    rw [List.pairwise_append, List.pairwise_cons] at hap
    obtain ⟨_, ⟨q1, _⟩, q2⟩ := hap
    rw [findExact_eq (inside_iff.mp hp)]
    rw [filter_single_iff.mpr ⟨l₁, l₂, rfl, hmp ▸ not_apart_self _, ?_⟩]
    · simp only; rw [if_pos hmp]
    · intro d hd
      rw [← hmp]
      rcases List.mem_append.mp hd with h | h
      · exact apart_symm (q2 d h m (by simp))
      · exact q1 d h
  have h2 : ∀ m, findExact pfx cs p = .ok (some m) → m ∈ cs ∧ m.pfx = p := by
    intro m h
    obtain ⟨_, hf, hm⟩ := findExact_some h
    have : m ∈ cs.filter (fun c => p.overlaps c.pfx) := by rw [hf]; simp
    exact ⟨(List.mem_filter.mp this).1, hm⟩
  refine ⟨fun m => ⟨h2 m, fun h => h1 m h.1 h.2⟩, ?_, ?_⟩
  · intro h m hm hmp; rw [h1 m hm hmp] at h; cases h
  · intro h
    have : ∃ o, findExact pfx cs p = .ok o := by
      rw [findExact_eq (inside_iff.mp hp)]
      split
      · split <;> exact ⟨_, rfl⟩
      · exact ⟨_, rfl⟩
    obtain ⟨o, ho⟩ := this
    match o, ho with
    | none, ho => exact ho
    | some m, ho => exact absurd (h2 m ho).2 (h m (h2 m ho).1)

/-- C43: as long as no prefix was added twice, `prefix in container` says whether a child has that
prefix, and `discard(prefix)` removes exactly the child with that prefix (nothing if there is none). -/
theorem discard_prefix (pfx : Net) (cs : List Node) (hs : Sound pfx cs) (hid : DistinctIds cs)
    (hpw : cs.Pairwise fun c d => c.pfx ≠ d.pfx) (p : Net) (hp : Inside p pfx) :
    containsPrefix pfx cs p = .ok (cs.any fun c => c.pfx = p) ∧
    (TreeOp.discardPrefix p).run pfx cs = (cs.filter fun c => c.pfx ≠ p, none) := by
  obtain ⟨h1, h2⟩ := findExact_iff hs hpw hp
  by_cases hex : ∃ m ∈ cs, m.pfx = p
  · obtain ⟨m, hm, hmp⟩ := hex
    have hf := (h1 m).mpr ⟨hm, hmp⟩
    constructor
    · simp only [containsPrefix, hf, Option.isSome]
      congr 1
      symm
      rw [List.any_eq_true]; exact ⟨m, hm, by simpa using hmp⟩
    · simp only [TreeOp.run, PyLisp.discardPrefix, hf, discardNode]
      congr 1
      refine List.filter_congr ?_
      intro d hd
      have : d.id = m.id ↔ d.pfx = p := by
        constructor
        · intro h; rw [distinct_eq hid hd hm h]; exact hmp
        · intro h
          have e : some d = some m := Except.ok.inj (((h1 d).mpr ⟨hd, h⟩).symm.trans hf)
          cases e; rfl
      simp [this]
  · have hno : ∀ m ∈ cs, m.pfx ≠ p := fun m hm h => hex ⟨m, hm, h⟩
    have hf := h2.mpr hno
    constructor
    · simp only [containsPrefix, hf, Option.isSome]
      congr 1
      symm
      rw [List.any_eq_false]; intro m hm; simpa using hno m hm
    · simp only [TreeOp.run, PyLisp.discardPrefix, hf]
      congr 1
      symm
      rw [List.filter_eq_self]; intro m hm; simpa using hno m hm

/-- C43: `remove(prefix)` removes like `discard(prefix)`, but raises KeyError exactly when it did
remove a node, and returns normally when there was none. -/
theorem remove_prefix (pfx : Net) (cs : List Node) (hs : Sound pfx cs) (hid : DistinctIds cs)
    (hpw : cs.Pairwise fun c d => c.pfx ≠ d.pfx) (p : Net) (hp : Inside p pfx) :
    (TreeOp.removePrefix p).run pfx cs =
      (cs.filter fun c => c.pfx ≠ p, if (∃ c ∈ cs, c.pfx = p) then some .key else none) := by
  have h := (discard_prefix pfx cs hs hid hpw p hp).2
  have hd : PyLisp.discardPrefix pfx cs p = .ok (cs.filter fun c => c.pfx ≠ p) := by
    simp only [TreeOp.run] at h
    split at h
    · rename_i cs' hcs; rw [hcs, (Prod.mk.inj h).1]
    · exact absurd (Prod.mk.inj h).2 (by simp)
  simp only [TreeOp.run, hd]
  have : (cs.filter fun c => c.pfx ≠ p).length ≠ cs.length ↔ ∃ c ∈ cs, c.pfx = p := by
    rw [ne_eq, List.length_filter_eq_length_iff]
    simp
  unfold removed
  by_cases hx : ∃ c ∈ cs, c.pfx = p
  · rw [if_pos (this.mpr hx), if_pos hx]
  · rw [if_neg (fun h => hx (this.mp h)), if_neg hx]

/-- C43: `remove(node)` removes exactly that node, but raises KeyError exactly when it was there, and
returns normally when it was not. -/
theorem remove_node (pfx : Net) (cs : List Node) (c : Node) :
    (TreeOp.removeNode c).run pfx cs =
      (cs.filter fun d => d.id ≠ c.id, if c.id ∈ cs.map Node.id then some .key else none) := by
  show removed cs (cs.filter fun d => d.id ≠ c.id) = _
  unfold removed
  have : (cs.filter fun d => d.id ≠ c.id).length ≠ cs.length ↔ c.id ∈ cs.map Node.id := by
    rw [ne_eq, List.length_filter_eq_length_iff]
    simp
  by_cases hx : c.id ∈ cs.map Node.id
  · rw [if_pos (this.mpr hx), if_pos hx]
  · rw [if_neg (fun h => hx (this.mp h)), if_neg hx]

/-- C43: with a network object the methods do what the theorems above say. -/
theorem lookup_by_network (pfx : Net) (cs : List Node) (p : Net) :
    findOneArg pfx cs (.net p) = findOne pfx cs p ∧ findExactArg pfx cs (.net p) = findExact pfx cs p ∧
    containsArg pfx cs (.net p) = containsPrefix pfx cs p ∧
    discardArg pfx cs (.net p) = (TreeOp.discardPrefix p).run pfx cs ∧
    removeArg pfx cs (.net p) = (TreeOp.removePrefix p).run pfx cs := by
  have h : findExactArg pfx cs (.net p) = findExact pfx cs p := by
    unfold findExactArg findExact
    simp only [LookupArg.toNet, LookupArg.equals, decide_eq_true_eq]
  have hd : discardArg pfx cs (.net p) = (TreeOp.discardPrefix p).run pfx cs := by
    unfold discardArg
    simp only [TreeOp.run, PyLisp.discardPrefix, h]
    cases findExact pfx cs p with
    | error e => rfl
    | ok o => cases o <;> rfl
  refine ⟨rfl, h, ?_, hd, ?_⟩
  · unfold containsArg containsPrefix
    rw [h]
  · unfold removeArg
    rw [hd]
    simp only [TreeOp.run]
    cases PyLisp.discardPrefix pfx cs p with
    | error e => rfl
    | ok l => rfl

/-- C43: an address or a text instead of a network object: `find_one` finds the node for it, but `in`, `discard` and
`remove` never find anything: they answer no and change nothing, without an exception if it is inside the container (even
if there is a child with exactly that prefix, and even `remove`); outside it raises NotAuthoritativeError. -/
theorem lookup_by_address (pfx : Net) (cs : List Node) (x : LookupArg) (p : Net)
    (hx : (∃ a : IP, x = .ip a ∧ p = a.toNet) ∨ x = .text (.ok p)) :
    findOneArg pfx cs x = findOne pfx cs p ∧
    (Inside p pfx → containsArg pfx cs x = .ok false ∧ discardArg pfx cs x = (cs, none) ∧
      removeArg pfx cs x = (cs, none)) ∧
    (¬ Inside p pfx → containsArg pfx cs x = .error .notMine ∧ discardArg pfx cs x = (cs, some .notMine) ∧
      removeArg pfx cs x = (cs, some .notMine)) := by
  have hn : x.toNet = .ok p := by rcases hx with ⟨a, rfl, rfl⟩ | rfl <;> rfl
  have he : ∀ n, x.equals n = false := by rcases hx with ⟨a, rfl, rfl⟩ | rfl <;> exact fun _ => rfl
  refine ⟨by unfold findOneArg; rw [hn], fun hi => ?_, fun hi => ?_⟩
  · have h : findExactArg pfx cs x = .ok none := by
      unfold findExactArg
      rw [hn]
      simp only [findAll, inside_iff.mp hi, if_true, he, Bool.false_eq_true, if_false]
      split <;> first | rfl | (rename_i e; cases e)
    have hd : discardArg pfx cs x = (cs, none) := by unfold discardArg; rw [h]
    refine ⟨by unfold containsArg; rw [h]; rfl, hd, ?_⟩
    unfold removeArg
    rw [hd]
    simp
  · have h : findExactArg pfx cs x = .error .notMine := by
      unfold findExactArg
      rw [hn]
      simp only [findAll, mt inside_iff.mpr hi, if_false]
      rfl
    have hd : discardArg pfx cs x = (cs, some .notMine) := by unfold discardArg; rw [h]
    refine ⟨by unfold containsArg; rw [h], hd, ?_⟩
    unfold removeArg
    rw [hd]

/-! ### The hypotheses are met: 0.0.0.0/0 ⊃ 10.0.0.0/8 ⊃ 10.1.0.0/16 -/

def exRoot : Net := ⟨.v4, 0, 0, by decide, by decide, by decide⟩
def exTen : Net := ⟨.v4, 10 * 2 ^ 24, 8, by decide, by decide, by decide⟩
def exTenOne : Net := ⟨.v4, 10 * 2 ^ 24 + 2 ^ 16, 16, by decide, by decide, by decide⟩
def exEleven : Net := ⟨.v4, 11 * 2 ^ 24, 8, by decide, by decide, by decide⟩
def exHost : IP := ⟨.v4, 10 * 2 ^ 24 + 2 ^ 16 + 5, by decide⟩
def exTree : Node :=
  .cont none 0 exRoot [.cont (some []) 1 exTen [.leaf .drop 2 exTenOne], .leaf .etr 3 exEleven]

theorem exTree_wf : WellFormed exTree := by
  have hin : ∀ {m n : Net}, n.covers m = true → Inside m n := fun h => inside_iff.mpr h
  refine .cont _ _ _ _ ?_ ?_ ?_
  · intro c hc
    simp only [List.mem_cons, List.not_mem_nil, or_false] at hc
    rcases hc with rfl | rfl <;> exact hin (by decide +kernel)
  · simp only [List.pairwise_cons, List.mem_cons, List.not_mem_nil, or_false, false_imp_iff,
      implies_true, List.Pairwise.nil, and_true, forall_eq]
    exact apart_iff.mpr (by decide +kernel)
  · intro c hc
    simp only [List.mem_cons, List.not_mem_nil, or_false] at hc
    rcases hc with rfl | rfl
    · refine .cont _ _ _ _ ?_ (by simp) ?_
      · intro c hc
        simp only [List.mem_cons, List.not_mem_nil, or_false] at hc
        subst hc; exact hin (by decide +kernel)
      · intro c hc
        simp only [List.mem_cons, List.not_mem_nil, or_false] at hc
        subst hc; exact .leaf ..
    · exact .leaf ..

example : ∃ m rest, exTree.resolvePath exHost.toNet = .ok (m :: rest) ∧
    exTree.resolve exHost.toNet = .ok m ∧ m.pfx = exTenOne := by
  obtain ⟨m, rest, h1, h2, h3, _, h5⟩ :=
    resolve_address _ _ _ _ exTree_wf exHost (by decide +kernel)
  refine ⟨m, rest, h1, h2, ?_⟩
  have : InTree exTree (.leaf .drop 2 exTenOne) :=
    .child (c := .cont (some []) 1 exTen [.leaf .drop 2 exTenOne]) (by simp) (.child (by simp) (.self _))
  have h6 := (h5 _ this (by decide +kernel)).2
  cases h6; rfl

/-- asking for 10.0.0.0/7 finds two more-specifics -/
example : (exTree.resolvePath ⟨.v4, 10 * 2 ^ 24, 7, by decide, by decide, by decide⟩).toOption.isNone
    = true := by decide +kernel

example : Sound exRoot [.leaf .drop 1 exTen, .leaf .etr 3 exEleven] := by
  have := container_sound exRoot [.leaf .etr 3 exEleven, .leaf .drop 1 exTen] []
  exact this

-- a child for one host: found with the network object and by `find_one`, not by `in` with the address
example : (containsArg exRoot [.leaf .drop 1 exHost.toNet] (.net exHost.toNet)).toOption = some true ∧
    (containsArg exRoot [.leaf .drop 1 exHost.toNet] (.ip exHost)).toOption = some false ∧
    ((findOneArg exRoot [.leaf .drop 1 exHost.toNet] (.ip exHost)).toOption.map (·.map Node.id)) = some (some 1) := by
  decide +kernel

end PyLisp.Props
