import Verif.DdtRoot
import Verif.Props.Tree
/-
C44: loading a DDT root file.
-/
namespace PyLisp.Props
open PyLisp

/-! ### Specification -/

/-- one delegation: (instance, AFI), prefix, address of a DDT node -/
abbrev Delegation := (Nat × Nat) × Net × IP

/-- the delegations a line stands for; AFI 0 is a wildcard for everything in both families -/
def delegations (l : DdtLine) : List Delegation :=
  match l.addr with
  | none => []
  | some x =>
    if l.afi = 0 then [((l.inst, 1), anyV4, x), ((l.inst, 2), anyV6, x)]
    else match l.pfx with
      | none => []
      | some p => [((l.inst, l.afi), p, x)]

/-- the address, and unless the AFI is 0 the prefix, are readable -/
def Readable (l : DdtLine) : Prop := l.addr.isSome = true ∧ (l.afi = 0 ∨ l.pfx.isSome = true)

/-- the AFI is the one of the prefix -/
def AfiFits (d : Delegation) : Prop :=
  (d.1.2 = 1 ∧ d.2.1.ver = .v4) ∨ (d.1.2 = 2 ∧ d.2.1.ver = .v6)

/-- two delegations in the same instance and AFI are for the same prefix or for disjoint ones -/
def Compatible (d e : Delegation) : Prop := d.1 = e.1 → d.2.1 = e.2.1 ∨ Apart d.2.1 e.2.1

/-! ### Proofs -/

/-- the delegations of one instance and AFI -/
def esFor (k : Nat × Nat) (es : List Delegation) : List (Net × IP) :=
  (es.filter fun e => e.1 = k).map (·.2)

theorem mem_esFor {k : Nat × Nat} {es : List Delegation} {e : Net × IP} :
    e ∈ esFor k es ↔ (k, e) ∈ es := by
  unfold esFor
  rw [List.mem_map]
  constructor
  · rintro ⟨⟨k', e'⟩, h, rfl⟩
    obtain ⟨h1, h2⟩ := List.mem_filter.mp h
    simp at h2; subst h2; exact h1
  · intro h; exact ⟨(k, e), List.mem_filter.mpr ⟨h, by simp⟩, rfl⟩

structure GoodRoot (r : Net) (cs : List Node) (es : List (Net × IP)) : Prop where
  kids : ∀ c ∈ cs, ∃ l i q, c = .leaf (.ddtReferral l) i q ∧ (∃ x, (q, x) ∈ es) ∧
    ∀ y, y ∈ l ↔ (q, y) ∈ es
  all : ∀ e ∈ es, ∃ c ∈ cs, c.pfx = e.1
  inside : ∀ c ∈ cs, r.covers c.pfx = true
  apart : cs.Pairwise fun c d => Apart c.pfx d.pfx
  ids : DistinctIds cs
  small : ∀ c ∈ cs, c.id ≤ cs.length

theorem GoodRoot.es_cover {r : Net} {cs : List Node} {es : List (Net × IP)} (g : GoodRoot r cs es) :
    ∀ e ∈ es, r.covers e.1 = true := by
  intro e he
  obtain ⟨c, hc, h⟩ := g.all e he
  exact h ▸ g.inside c hc

theorem GoodRoot.es_apart {r : Net} {cs : List Node} {es : List (Net × IP)} (g : GoodRoot r cs es) :
    ∀ e ∈ es, ∀ f ∈ es, e.1 = f.1 ∨ Apart e.1 f.1 := by
  intro e he f hf
  obtain ⟨c, hc, h⟩ := g.all e he
  obtain ⟨d, hd, h'⟩ := g.all f hf
  rw [← h, ← h']
  by_cases hx : ∃ x : IP, c.pfx.containsIP x = true ∧ d.pfx.containsIP x = true
  · obtain ⟨x, h1, h2⟩ := hx
    exact .inl (by rw [apart_eq g.apart hc hd h1 h2])
  · exact .inr hx

/-- what `resolve` finds in a root whose children are all leaves -/
theorem resolve_root {r : Net} {cs : List Node} {p : Net}
    (hk : ∀ c ∈ cs, ∃ k i q, c = .leaf k i q) :
    (rootNode r cs).resolve p =
      match findOne r cs p with
      | .error e => .error e
      | .ok none => .ok (rootNode r cs)
      | .ok (some m) => .ok m := by
  unfold Node.resolve
  rw [rootNode, resolvePath_cont]
  match hf : findOne r cs p with
  | .error e => rfl
  | .ok none => rfl
  | .ok (some m) =>
    obtain ⟨k, i, q, rfl⟩ := hk m (findOne_mem hf)
    simp only [Node.resolvePath, Except.map, List.cons_append, List.nil_append]

theorem findOne_none {r : Net} {cs : List Node} {p : Net} (hp : r.covers p = true)
    (h : cs.filter (fun d => p.overlaps d.pfx) = []) : findOne r cs p = .ok none := by
  unfold findOne; rw [findAll_covers hp, h]

theorem findOne_more {r : Net} {cs : List Node} {p : Net} (hp : r.covers p = true) {m m' : Node}
    {F : List Node} (h : cs.filter (fun d => p.overlaps d.pfx) = m :: m' :: F) :
    findOne r cs p = .error .moreSpecifics := by
  unfold findOne; rw [findAll_covers hp, h]

theorem findOne_inner {r : Net} {cs : List Node} {p : Net} {m : Node} (hp : r.covers p = true)
    (h : cs.filter (fun d => p.overlaps d.pfx) = [m]) (hm : ¬ m.pfx.covers p = true) :
    findOne r cs p = .ok none := by
  have hmo : p.overlaps m.pfx = true :=
    (List.mem_filter.mp (show m ∈ cs.filter (fun d => p.overlaps d.pfx) by rw [h]; simp)).2
  unfold findOne
  rw [findAll_covers hp, h]
  simp only
  rw [if_neg]
  rintro ⟨e1, e2⟩
  apply hm
  rw [Net.covers, Bool.and_eq_true, Bool.and_eq_true, decide_eq_true_iff, decide_eq_true_iff]
  exact ⟨⟨by rw [Net.overlaps_comm]; exact hmo, e1⟩, e2⟩

/-- all outcomes of adding one delegation to a root -/
theorem addToRoot_cases {r : Net} {cs : List Node} {es : List (Net × IP)} (g : GoodRoot r cs es)
    (p : Net) (x : IP) :
    (r.covers p = false → addToRoot r cs p x = .error .notMine) ∧
    (r.covers p = true → (∀ e ∈ es, Apart p e.1) →
      addToRoot r cs p x = .ok (.leaf (.ddtReferral [x]) (cs.length + 1) p :: cs)) ∧
    (∀ l i, .leaf (.ddtReferral l) i p ∈ cs → addToRoot r cs p x = .ok (addToReferral cs i x)) ∧
    (r.covers p = true → (∃ e ∈ es, ¬ Apart p e.1 ∧ e.1 ≠ p) →
      (addToRoot r cs p x = .error .value ∧
        ∀ e ∈ es, ∀ f ∈ es, ¬ Apart p e.1 → ¬ Apart p f.1 → e.1 = f.1) ∨
      (addToRoot r cs p x = .error .moreSpecifics ∧
        ∃ e ∈ es, ∃ f ∈ es, ¬ Apart p e.1 ∧ ¬ Apart p f.1 ∧ e.1 ≠ f.1)) := by
  have hk : ∀ c ∈ cs, ∃ k i q, c = .leaf k i q := by
    intro c hc; obtain ⟨l, i, q, h, _⟩ := g.kids c hc; exact ⟨_, i, q, h⟩
  have hres := @resolve_root r cs p hk
  refine ⟨?_, ?_, ?_, ?_⟩
  · intro h
    have : findOne r cs p = .error .notMine := by simp [findOne, findAll, h]
    unfold addToRoot; rw [hres, this]
  · intro hp hap
    have hF : cs.filter (fun d => p.overlaps d.pfx) = [] := by
      refine filter_nil_iff.mpr ?_
      intro d hd
      obtain ⟨l, i, q, rfl, ⟨y, hy⟩, _⟩ := g.kids d hd
      exact hap _ hy
    unfold addToRoot
    rw [hres, findOne_none hp hF]
    show addChild r cs (.leaf (.ddtReferral [x]) (cs.length + 1) p) = _
    refine addChild_ok.mpr ⟨hp, ?_, .inl hF⟩
    unfold setAdd
    rw [if_neg]
    intro h
    obtain ⟨c, hc, he⟩ := List.mem_map.mp h
    have := g.small c hc
    rw [he] at this
    exact absurd this (by show ¬ cs.length + 1 ≤ cs.length; omega)
  · intro l i hm
    have hp : r.covers p = true := g.inside _ hm
    obtain ⟨l₁, l₂, rfl⟩ := List.append_of_mem hm
    have hap := g.apart
    rw [List.pairwise_append, List.pairwise_cons] at hap
    obtain ⟨_, ⟨q1, _⟩, q2⟩ := hap
    have hF : (l₁ ++ Node.leaf (.ddtReferral l) i p :: l₂).filter (fun d => p.overlaps d.pfx) =
        [.leaf (.ddtReferral l) i p] := by
      refine filter_single_iff.mpr ⟨l₁, l₂, rfl, not_apart_self _, ?_⟩
      intro d hd
      rcases List.mem_append.mp hd with h | h
      · exact apart_symm (q2 d h _ List.mem_cons_self)
      · exact q1 d h
    unfold addToRoot
    rw [hres, findOne_self hp hF (Net.covers_refl _)]
    simp only [if_true]
  · rintro hp ⟨⟨q, y⟩, he, hna, hne⟩
    obtain ⟨c, hc, hcq⟩ := g.all _ he
    have hcF : c ∈ cs.filter (fun d => p.overlaps d.pfx) :=
      List.mem_filter.mpr ⟨hc, by rw [hcq]; exact not_apart_iff.mp hna⟩
    unfold addToRoot
    rw [hres]
    match hF : cs.filter (fun d => p.overlaps d.pfx) with
    | [] => rw [hF] at hcF; cases hcF
    | [m] =>
      left
      have hone : ∀ e ∈ es, ∀ f ∈ es, ¬ Apart p e.1 → ¬ Apart p f.1 → e.1 = f.1 := by
        have : ∀ e ∈ es, ¬ Apart p e.1 → m.pfx = e.1 := by
          intro e he hn
          obtain ⟨c', hc', hcq'⟩ := g.all e he
          have : c' ∈ cs.filter (fun d => p.overlaps d.pfx) :=
            List.mem_filter.mpr ⟨hc', by rw [hcq']; exact not_apart_iff.mp hn⟩
          rw [hF, List.mem_singleton] at this
          rw [← this, hcq']
        intro e he f hf h1 h2
        exact (this e he h1).symm.trans (this f hf h2)
      refine ⟨?_, hone⟩
      rw [hF] at hcF
      rw [List.mem_singleton] at hcF
      subst hcF
      obtain ⟨l, i, q', rfl, _⟩ := g.kids c hc
      by_cases hm : q'.covers p = true
      · rw [findOne_self hp hF hm]
        simp only
        rw [if_neg]
        intro h; exact hne (hcq.symm.trans h)
      · rw [findOne_inner hp hF hm]
        show addChild r cs (.leaf (.ddtReferral [x]) (cs.length + 1) p) = _
        refine addChild_error.mpr (.inr ⟨hp, rfl, ?_, ?_⟩)
        · show cs.filter (fun d => p.overlaps d.pfx) ≠ []
          rw [hF]; simp
        · rintro ⟨m, h1, h2⟩
          have h1 : cs.filter (fun d => p.overlaps d.pfx) = [m] := h1
          rw [hF] at h1; cases h1
          exact hne (hcq.symm.trans h2)
    | m :: m' :: F =>
      right
      rw [findOne_more hp hF]
      refine ⟨rfl, ?_⟩
      have hsub : List.Sublist (m :: m' :: F) cs := hF ▸ List.filter_sublist
      have hap := g.apart.sublist hsub
      rw [List.pairwise_cons] at hap
      have hmm : Apart m.pfx m'.pfx := hap.1 m' (by simp)
      have h1 : m ∈ cs.filter (fun d => p.overlaps d.pfx) := by rw [hF]; simp
      have h2 : m' ∈ cs.filter (fun d => p.overlaps d.pfx) := by rw [hF]; simp
      obtain ⟨h1, o1⟩ := List.mem_filter.mp h1
      obtain ⟨h2, o2⟩ := List.mem_filter.mp h2
      obtain ⟨l, i, q1, rfl, ⟨y1, e1⟩, _⟩ := g.kids m h1
      obtain ⟨l', i', q2, rfl, ⟨y2, e2⟩, _⟩ := g.kids m' h2
      refine ⟨_, e1, _, e2, not_apart_iff.mpr o1, not_apart_iff.mpr o2, ?_⟩
      intro he
      have he : q1 = q2 := he
      subst he
      exact not_apart_self _ hmm

theorem addToReferral_map (cs : List Node) (i : Nat) (x : IP) :
    (addToReferral cs i x).map Node.pfx = cs.map Node.pfx ∧
    (addToReferral cs i x).map Node.id = cs.map Node.id := by
  unfold addToReferral
  rw [List.map_map, List.map_map]
  constructor
  · refine List.map_congr_left ?_
    intro c _
    simp only [Function.comp]
    split
    · split <;> rfl
    · rfl
  · refine List.map_congr_left ?_
    intro c _
    simp only [Function.comp]
    split
    · split <;> rfl
    · rfl

theorem pairwise_pfx {cs : List Node} :
    (cs.Pairwise fun c d => Apart c.pfx d.pfx) ↔ (cs.map Node.pfx).Pairwise Apart := by
  rw [List.pairwise_map]

/-- adding a delegation keeps the invariant -/
theorem goodRoot_step {r : Net} {cs cs' : List Node} {es : List (Net × IP)} (g : GoodRoot r cs es)
    {p : Net} {x : IP} (h : addToRoot r cs p x = .ok cs') : GoodRoot r cs' (es ++ [(p, x)]) := by
  obtain ⟨h1, h2, h3, h4⟩ := addToRoot_cases g p x
  have hp : r.covers p = true := by
    by_cases hc : r.covers p = true
    · exact hc
    · rw [h1 (by simpa using hc)] at h; cases h
  have hm : ∀ {e : Net × IP}, e ∈ es ++ [(p, x)] ↔ e ∈ es ∨ e = (p, x) := by simp
  by_cases hex : ∃ e ∈ es, ¬ Apart p e.1 ∧ e.1 ≠ p
  · rcases h4 hp hex with h' | h' <;> rw [h'.1] at h <;> cases h
  by_cases hsame : ∃ e ∈ es, e.1 = p
  · -- an existing referral
    obtain ⟨e, he, rfl⟩ := hsame
    obtain ⟨c, hc, hce⟩ := g.all e he
    obtain ⟨l, i, q, rfl, hq, hl⟩ := g.kids c hc
    have hqe : q = e.1 := hce
    subst hqe
    rw [h3 l i hc] at h
    cases h
    obtain ⟨m1, m2⟩ := addToReferral_map cs i x
    have hlen : (addToReferral cs i x).length = cs.length := by
      simp [addToReferral]
    have hpf : ∀ {c}, c ∈ addToReferral cs i x → ∃ d ∈ cs, d.pfx = c.pfx ∧ d.id = c.id := by
      intro c hc
      obtain ⟨d, hd, rfl⟩ := List.mem_map.mp hc
      refine ⟨d, hd, ?_⟩
      split
      · split <;> exact ⟨rfl, rfl⟩
      · exact ⟨rfl, rfl⟩
    refine ⟨?_, ?_, ?_, ?_, ?_, ?_⟩
    · intro c' hc'
      obtain ⟨d, hd, rfl⟩ := List.mem_map.mp hc'
      obtain ⟨l', i', q', rfl, ⟨z, hz⟩, hl'⟩ := g.kids d hd
      simp only
      by_cases hii : i' = i
      · rw [if_pos hii]
        have := distinct_eq g.ids hd hc hii
        cases this
        refine ⟨_, _, _, rfl, ⟨x, hm.mpr (.inr rfl)⟩, ?_⟩
        intro y
        rw [hm, ← hl y, Prod.mk.injEq]
        simp only [true_and]
        unfold addAddr
        split
        · rename_i hx
          exact ⟨.inl, fun h => h.elim id fun h => h ▸ hx⟩
        · simp
      · rw [if_neg hii]
        refine ⟨_, _, _, rfl, ⟨z, hm.mpr (.inl hz)⟩, ?_⟩
        intro y
        rw [hm, hl' y, Prod.mk.injEq]
        refine ⟨.inl, fun h => h.elim id ?_⟩
        rintro ⟨hqq, _⟩
        exfalso
        apply hii
        have h5 := apart_eq g.apart hd hc (x := q'.first) q'.contains_first
          (show Net.containsIP e.1 q'.first = true by rw [← hqq]; exact q'.contains_first)
        cases h5; rfl
    · intro f hf
      have : ∃ c ∈ cs, c.pfx = f.1 := by
        rcases hm.mp hf with hf | rfl
        · exact g.all f hf
        · exact ⟨_, hc, rfl⟩
      obtain ⟨d, hd, hdf⟩ := this
      have : f.1 ∈ (addToReferral cs i x).map Node.pfx := by
        rw [m1, ← hdf]; exact List.mem_map_of_mem hd
      obtain ⟨c', hc', h'⟩ := List.mem_map.mp this
      exact ⟨c', hc', h'⟩
    · intro c' hc'
      obtain ⟨d, hd, h5, _⟩ := hpf hc'
      rw [← h5]; exact g.inside d hd
    · rw [pairwise_pfx, m1, ← pairwise_pfx]; exact g.apart
    · unfold DistinctIds; rw [m2]; exact g.ids
    · intro c' hc'
      obtain ⟨d, hd, _, h5⟩ := hpf hc'
      rw [← h5, hlen]; exact g.small d hd
  · -- a new referral
    have hap : ∀ e ∈ es, Apart p e.1 := by
      intro e he
      apply Classical.byContradiction
      intro hna
      exact hex ⟨e, he, hna, fun h => hsame ⟨e, he, h⟩⟩
    rw [h2 hp hap] at h
    cases h
    refine ⟨?_, ?_, ?_, ?_, ?_, ?_⟩
    · intro c hc
      rcases List.mem_cons.mp hc with rfl | hc
      · refine ⟨_, _, _, rfl, ⟨x, hm.mpr (.inr rfl)⟩, ?_⟩
        intro y
        rw [hm, List.mem_singleton, Prod.mk.injEq]
        refine ⟨fun h => .inr ⟨rfl, h⟩, fun h => h.elim (fun h => ?_) And.right⟩
        exact absurd ⟨_, h, rfl⟩ hsame
      · obtain ⟨l, i, q, rfl, ⟨z, hz⟩, hl⟩ := g.kids c hc
        refine ⟨l, i, q, rfl, ⟨z, hm.mpr (.inl hz)⟩, ?_⟩
        intro y
        rw [hm, hl y, Prod.mk.injEq]
        refine ⟨.inl, fun h => h.elim id ?_⟩
        rintro ⟨hqq, _⟩
        exact absurd ⟨_, hz, hqq⟩ hsame
    · intro f hf
      rcases hm.mp hf with hf | rfl
      · obtain ⟨c, hc, h'⟩ := g.all f hf
        exact ⟨c, List.mem_cons_of_mem _ hc, h'⟩
      · exact ⟨_, List.mem_cons_self, rfl⟩
    · intro c hc
      rcases List.mem_cons.mp hc with rfl | hc
      · exact hp
      · exact g.inside c hc
    · rw [List.pairwise_cons]
      refine ⟨?_, g.apart⟩
      intro d hd
      obtain ⟨l, i, q, rfl, ⟨z, hz⟩, _⟩ := g.kids d hd
      exact hap _ hz
    · refine List.nodup_cons.mpr ⟨?_, g.ids⟩
      intro h
      obtain ⟨c, hc, he⟩ := List.mem_map.mp h
      have := g.small c hc
      rw [he] at this
      exact absurd this (by show ¬ cs.length + 1 ≤ cs.length; omega)
    · intro c hc
      rw [List.length_cons]
      rcases List.mem_cons.mp hc with rfl | hc
      · exact Nat.le_refl _
      · have := g.small c hc; omega

/-- the delegations of a list, one after the other -/
def addAll : Instances → List Delegation → Except Err Instances
  | st, [] => .ok st
  | st, e :: es =>
    match addDelegation st e.1.1 e.1.2 e.2.1 e.2.2 with
    | .error e => .error e
    | .ok st => addAll st es

theorem addAll_append (es fs : List Delegation) (st : Instances) : addAll st (es ++ fs) =
    match addAll st es with
    | .error e => .error e
    | .ok st => addAll st fs := by
  induction es generalizing st with
  | nil => rfl
  | cons e es ih =>
    rw [List.cons_append, addAll, addAll]
    match addDelegation st e.1.1 e.1.2 e.2.1 e.2.2 with
    | .error e => rfl
    | .ok st => exact ih st

theorem loadLine_eq (st : Instances) (l : DdtLine) (h : Readable l) :
    loadLine st l = addAll st (delegations l) := by
  obtain ⟨h1, h2⟩ := h
  unfold loadLine delegations
  match hx : l.addr with
  | none => rw [hx] at h1; cases h1
  | some x =>
    simp only
    by_cases h0 : l.afi = 0
    · rw [if_pos h0, if_pos h0]
      simp only [addAll]
      match addDelegation st l.inst 1 anyV4 x with
      | .error e => rfl
      | .ok st' =>
        simp only
        match addDelegation st' l.inst 2 anyV6 x with
        | .error e => rfl
        | .ok st'' => rfl
    · rw [if_neg h0, if_neg h0]
      match hp : l.pfx with
      | none => rw [hp] at h2; exact absurd (h2.resolve_left h0) (by simp)
      | some p =>
        simp only [addAll]
        match addDelegation st l.inst l.afi p x with
        | .error e => rfl
        | .ok st' => rfl

theorem loadLine_unreadable (st : Instances) (l : DdtLine) (h : ¬ Readable l) :
    loadLine st l = .error .value := by
  unfold Readable at h
  unfold loadLine
  match hx : l.addr with
  | none => rfl
  | some x =>
    simp only
    by_cases h0 : l.afi = 0
    · exact absurd ⟨by rw [hx]; rfl, .inl h0⟩ h
    · rw [if_neg h0]
      match hp : l.pfx with
      | none => rfl
      | some p => exact absurd ⟨by rw [hx]; rfl, .inr (by rw [hp]; rfl)⟩ h

theorem loadLines_ok (ls : List DdtLine) (st st' : Instances) :
    loadLines st ls = .ok st' ↔
      (∀ l ∈ ls, Readable l) ∧ addAll st (ls.flatMap delegations) = .ok st' := by
  induction ls generalizing st with
  | nil => simp [loadLines, addAll]
  | cons l ls ih =>
    rw [loadLines, List.flatMap_cons, addAll_append]
    by_cases hr : Readable l
    · rw [loadLine_eq st l hr]
      match addAll st (delegations l) with
      | .error e => simp
      | .ok st2 => simp only [ih, List.mem_cons, forall_eq_or_imp, hr, true_and]
    · rw [loadLine_unreadable st l hr]
      simp [hr]

theorem rootNet_covers {d : Delegation} :
    (∃ r, rootNet d.1.2 = some r ∧ r.covers d.2.1 = true) ↔ AfiFits d := by
  have hany : ∀ (r p : Net), r.base = 0 → r.plen = 0 → (r.covers p = true ↔ r.ver = p.ver) := by
    intro r p hb hl
    rw [Net.covers_num]
    have hs : r.size = 2 ^ r.ver.width := by rw [Net.size, hl, Nat.sub_zero]
    constructor
    · exact And.left
    · intro hv
      refine ⟨hv, by omega, ?_⟩
      rw [hb, hs, hv, Nat.zero_add]
      have := p.last.lt
      have h3 := p.size_pos
      have : p.base + (p.size - 1) < 2 ^ p.ver.width := this
      omega
  unfold AfiFits rootNet
  constructor
  · rintro ⟨r, h, hc⟩
    split at h
    · cases h; exact .inl ⟨by assumption, ((hany anyV4 _ rfl rfl).mp hc).symm⟩
    · split at h
      · cases h; exact .inr ⟨by assumption, ((hany anyV6 _ rfl rfl).mp hc).symm⟩
      · cases h
  · rintro (⟨h, hv⟩ | ⟨h, hv⟩)
    · exact ⟨anyV4, by rw [h]; rfl, (hany anyV4 _ rfl rfl).mpr hv.symm⟩
    · exact ⟨anyV6, by rw [h]; rfl, (hany anyV6 _ rfl rfl).mpr hv.symm⟩

/-- the state holds exactly the delegations `es` -/
def GoodAll (st : Instances) (es : List Delegation) : Prop :=
  ∀ k, match st k with
    | none => esFor k es = []
    | some cs => ∃ r, rootNet k.2 = some r ∧ GoodRoot r cs (esFor k es) ∧ esFor k es ≠ []

theorem goodRoot_nil (r : Net) : GoodRoot r [] [] := by
  refine ⟨?_, ?_, ?_, .nil, List.nodup_nil, ?_⟩ <;> simp

theorem goodAll_root {st : Instances} {es : List Delegation} (g : GoodAll st es) (k : Nat × Nat)
    {r : Net} (hr : rootNet k.2 = some r) : GoodRoot r ((st k).getD []) (esFor k es) := by
  have := g k
  split at this
  · rename_i h; rw [h, this]; exact goodRoot_nil r
  · rename_i cs h
    obtain ⟨r', h1, h2, _⟩ := this
    rw [hr] at h1; cases h1
    rw [h]; exact h2

theorem esFor_append (k : Nat × Nat) (es fs : List Delegation) :
    esFor k (es ++ fs) = esFor k es ++ esFor k fs := by
  simp [esFor]

theorem esFor_single (k : Nat × Nat) (e : Delegation) :
    esFor k [e] = if e.1 = k then [e.2] else [] := by
  unfold esFor
  by_cases h : e.1 = k <;> simp [h]

theorem goodAll_step {st st' : Instances} {es : List Delegation} (g : GoodAll st es) {e : Delegation}
    (h : addDelegation st e.1.1 e.1.2 e.2.1 e.2.2 = .ok st') : GoodAll st' (es ++ [e]) := by
  unfold addDelegation at h
  split at h
  · cases h
  · rename_i r hr
    split at h
    · cases h
    · rename_i cs hcs
      cases h
      have g1 := goodAll_root g e.1 hr
      have g2 := goodRoot_step g1 hcs
      intro k
      simp only
      by_cases hk : k = e.1
      · rw [if_pos hk]
        simp only
        subst hk
        rw [esFor_append, esFor_single, if_pos rfl]
        exact ⟨r, hr, g2, by simp⟩
      · rw [if_neg hk, esFor_append, esFor_single, if_neg (fun h => hk h.symm), List.append_nil]
        exact g k

theorem goodAll_addAll {st st' : Instances} {es fs : List Delegation} (g : GoodAll st es)
    (h : addAll st fs = .ok st') : GoodAll st' (es ++ fs) := by
  induction fs generalizing st es with
  | nil => cases h; rw [List.append_nil]; exact g
  | cons f fs ih =>
    rw [addAll] at h
    split at h
    · cases h
    · rename_i st2 h2
      have := ih (goodAll_step g h2) h
      rwa [List.append_assoc] at this

theorem goodAll_sound {st : Instances} {es : List Delegation} (g : GoodAll st es) :
    (∀ e ∈ es, AfiFits e) ∧ ∀ e ∈ es, ∀ f ∈ es, Compatible e f := by
  constructor
  · intro e he
    have := g e.1
    have hm : e.2 ∈ esFor e.1 es := mem_esFor.mpr he
    split at this
    · rw [this] at hm; cases hm
    · obtain ⟨r, h1, h2, _⟩ := this
      exact rootNet_covers.mp ⟨r, h1, h2.es_cover _ hm⟩
  · rintro ⟨k, e⟩ he ⟨k', f⟩ hf (rfl : k = k')
    have := g k
    have hm : e ∈ esFor k es := mem_esFor.mpr he
    have hm' : f ∈ esFor k es := mem_esFor.mpr hf
    split at this
    · rw [this] at hm; cases hm
    · obtain ⟨r, h1, h2, _⟩ := this
      exact h2.es_apart e hm f hm'

theorem addAll_total {st : Instances} {es fs : List Delegation} (g : GoodAll st es)
    (h1 : ∀ e ∈ es ++ fs, AfiFits e)
    (h2 : ∀ e ∈ es ++ fs, ∀ f ∈ es ++ fs, Compatible e f) : ∃ st', addAll st fs = .ok st' := by
  induction fs generalizing st es with
  | nil => exact ⟨st, rfl⟩
  | cons f fs ih =>
    rw [addAll]
    have hmf : f ∈ es ++ f :: fs := by simp
    obtain ⟨r, hr, hc⟩ := rootNet_covers.mpr (h1 f hmf)
    have g1 := goodAll_root g f.1 hr
    have hstep : ∃ st2, addDelegation st f.1.1 f.1.2 f.2.1 f.2.2 = .ok st2 := by
      unfold addDelegation
      rw [hr]
      simp only
      obtain ⟨_, q2, q3, _⟩ := addToRoot_cases g1 f.2.1 f.2.2
      have hcomp : ∀ e ∈ esFor f.1 es, e.1 = f.2.1 ∨ Apart e.1 f.2.1 := by
        intro e he
        exact h2 (f.1, e) (List.mem_append.mpr (.inl (mem_esFor.mp he))) f hmf rfl
      by_cases hs : ∃ e ∈ esFor f.1 es, e.1 = f.2.1
      · obtain ⟨e, he, hef⟩ := hs
        obtain ⟨c, hc, hce⟩ := g1.all e he
        obtain ⟨l, i, q, rfl, _⟩ := g1.kids c hc
        have : q = f.2.1 := by rw [← hef, ← hce]; rfl
        subst this
        have h := q3 l i hc
        rw [show (f.1.1, f.1.2) = f.1 from rfl, h]
        exact ⟨_, rfl⟩
      · have h := q2 hc fun e he =>
          apart_symm ((hcomp e he).resolve_left fun h => hs ⟨e, he, h⟩)
        rw [show (f.1.1, f.1.2) = f.1 from rfl, h]
        exact ⟨_, rfl⟩
    obtain ⟨st2, h⟩ := hstep
    rw [h]
    simp only
    refine ih (es := es ++ [f]) (goodAll_step g h) ?_ ?_
    · intro e he; exact h1 e (by simpa [List.append_assoc] using he)
    · intro e he e' he'
      exact h2 e (by simpa [List.append_assoc] using he) e' (by simpa [List.append_assoc] using he')

theorem goodAll_empty : GoodAll (fun _ => none) [] := fun k => rfl

/-- C44: the file loads exactly when every line is readable, every prefix has the family of its AFI
(1 or 2, or 0 for the wildcard), and any two prefixes of one instance and AFI are equal or
disjoint; the order of the lines does not matter. -/
theorem ddt_load_ok_iff (ls : List DdtLine) :
    (∃ st, loadDdtRoot ls = .ok st) ↔
      (∀ l ∈ ls, Readable l) ∧ (∀ d ∈ ls.flatMap delegations, AfiFits d) ∧
      (∀ d ∈ ls.flatMap delegations, ∀ e ∈ ls.flatMap delegations, Compatible d e) := by
  constructor
  · rintro ⟨st, h⟩
    obtain ⟨h1, h2⟩ := (loadLines_ok ls _ st).mp h
    have := goodAll_sound (goodAll_addAll goodAll_empty h2)
    rw [List.nil_append] at this
    exact ⟨h1, this⟩
  · rintro ⟨h1, h2, h3⟩
    obtain ⟨st, h⟩ := addAll_total (fs := ls.flatMap delegations) goodAll_empty
      (by rw [List.nil_append]; exact h2) (by rw [List.nil_append]; exact h3)
    exact ⟨st, (loadLines_ok ls _ st).mpr ⟨h1, h⟩⟩

theorem goodRoot_resolve {r : Net} {cs : List Node} {es : List (Net × IP)} (g : GoodRoot r cs es)
    {q : Net} {z : IP} (h : (q, z) ∈ es) {p : Net} (hp : Inside p q) :
    ∃ nodes i, (rootNode r cs).resolve p = .ok (.leaf (.ddtReferral nodes) i q) ∧
      ∀ y, y ∈ nodes ↔ (q, y) ∈ es := by
  obtain ⟨c, hc, hcq⟩ := g.all _ h
  obtain ⟨l, i, q', rfl, _, hl⟩ := g.kids c hc
  have : q' = q := hcq
  subst this
  refine ⟨l, i, ?_, hl⟩
  have hk : ∀ c ∈ cs, ∃ k i q, c = .leaf k i q := by
    intro c hc; obtain ⟨l, i, q, h, _⟩ := g.kids c hc; exact ⟨_, i, q, h⟩
  rw [resolve_root hk]
  have hrp : r.covers p = true := Net.covers_trans (g.es_cover _ h) (inside_iff.mp hp)
  obtain ⟨l₁, l₂, rfl⟩ := List.append_of_mem hc
  have hap := g.apart
  rw [List.pairwise_append, List.pairwise_cons] at hap
  obtain ⟨_, ⟨q1, _⟩, q2⟩ := hap
  have hF : (l₁ ++ Node.leaf (.ddtReferral l) i q' :: l₂).filter (fun d => p.overlaps d.pfx) =
      [.leaf (.ddtReferral l) i q'] := by
    refine filter_single_iff.mpr ⟨l₁, l₂, rfl, ?_, ?_⟩
    · exact not_apart_iff.mpr (Net.overlaps_comm _ _ ▸ Net.covers_overlaps (inside_iff.mp hp))
    · rintro d hd ⟨x, hx1, hx2⟩
      have : Apart q' d.pfx := by
        rcases List.mem_append.mp hd with h | h
        · exact apart_symm (q2 d h _ List.mem_cons_self)
        · exact q1 d h
      exact this ⟨x, hp x hx1, hx2⟩
  rw [findOne_self hrp hF (inside_iff.mp hp)]

/-- C44: after a successful load, in every instance and AFI, looking up any prefix or address inside a
delegated prefix gives the referral for that delegated prefix, with exactly the addresses the file
lists for it: no delegation is lost, whatever follows it. -/
theorem ddt_load_resolves (ls : List DdtLine) (st : Instances) (h : loadDdtRoot ls = .ok st)
    (k : Nat × Nat) (q : Net) (x : IP) (hd : (k, q, x) ∈ ls.flatMap delegations) :
    ∃ r cs, rootNet k.2 = some r ∧ st k = some cs ∧
      ∀ p, Inside p q → ∃ nodes i,
        (rootNode r cs).resolve p = .ok (.leaf (.ddtReferral nodes) i q) ∧
        ∀ y, y ∈ nodes ↔ (k, q, y) ∈ ls.flatMap delegations := by
  have g := goodAll_addAll goodAll_empty ((loadLines_ok ls _ st).mp h).2
  rw [List.nil_append] at g
  have hm := mem_esFor.mpr hd
  have gk := g k
  split at gk
  · rw [gk] at hm; cases hm
  · rename_i cs hcs
    obtain ⟨r, h1, h2, _⟩ := gk
    refine ⟨r, cs, h1, hcs, ?_⟩
    intro p hp
    obtain ⟨nodes, i, h3, h4⟩ := goodRoot_resolve h2 hm hp
    exact ⟨nodes, i, h3, fun y => by rw [h4, mem_esFor]⟩

/-- C44: after a successful load nothing else is there: an instance and AFI without delegations has no
tree, and an address in none of the delegated prefixes finds the root itself, an authoritative container of
everything without DDT nodes of its own. -/
theorem ddt_load_nothing_else (ls : List DdtLine) (st : Instances) (h : loadDdtRoot ls = .ok st)
    (k : Nat × Nat) :
    (st k = none ↔ ∀ d ∈ ls.flatMap delegations, d.1 ≠ k) ∧
    ∀ r cs, rootNet k.2 = some r → st k = some cs → ∀ z : IP, r.containsIP z = true →
      (∀ d ∈ ls.flatMap delegations, d.1 = k → d.2.1.containsIP z = false) →
      (rootNode r cs).resolve z.toNet = .ok (.cont (some []) 0 r cs) := by
  have g := goodAll_addAll goodAll_empty ((loadLines_ok ls _ st).mp h).2
  rw [List.nil_append] at g
  have gk := g k
  constructor
  · split at gk
    · rename_i hn
      refine ⟨fun _ d hd hk => ?_, fun _ => hn⟩
      have hm : d.2 ∈ esFor k (ls.flatMap delegations) := mem_esFor.mpr (hk ▸ hd)
      rw [gk] at hm; cases hm
    · rename_i cs hcs
      obtain ⟨r, _, _, h3⟩ := gk
      refine ⟨fun hn => (by rw [hn] at hcs; cases hcs), fun hno => ?_⟩
      exfalso
      obtain ⟨e, l', he⟩ := List.exists_cons_of_ne_nil h3
      exact hno (k, e) (mem_esFor.mp (by rw [he]; simp)) rfl
  · intro r cs hr hcs z hz hno
    rw [hcs] at gk
    obtain ⟨r', h1, h2, _⟩ := gk
    rw [hr] at h1; cases h1
    have hk : ∀ c ∈ cs, ∃ k i q, c = .leaf k i q := by
      intro c hc; obtain ⟨l, i, q, h, _⟩ := h2.kids c hc; exact ⟨_, i, q, h⟩
    rw [resolve_root hk, findOne_none (Net.covers_ip.mpr hz)]
    · rfl
    refine filter_nil_iff.mpr ?_
    intro c hc
    obtain ⟨l, i, q, rfl, ⟨y, hy⟩, _⟩ := h2.kids c hc
    have := hno _ (mem_esFor.mp hy) rfl
    rintro ⟨w, hw1, hw2⟩
    rw [(IP.toNet_contains z w).mp hw1] at hw2
    have hw2 : q.containsIP z = true := hw2
    rw [this] at hw2; cases hw2

/-- C44: an AFI 0 line makes every IPv4 and every IPv6 address of its instance resolve to a referral
that lists its address. -/
theorem ddt_load_wildcard (ls : List DdtLine) (st : Instances) (h : loadDdtRoot ls = .ok st)
    (l : DdtLine) (hl : l ∈ ls) (h0 : l.afi = 0) (x : IP) (hx : l.addr = some x) (z : IP) :
    ∃ r cs nodes i q, rootNet (if z.ver = .v4 then 1 else 2) = some r ∧
      st (l.inst, if z.ver = .v4 then 1 else 2) = some cs ∧
      (rootNode r cs).resolve z.toNet = .ok (.leaf (.ddtReferral nodes) i q) ∧ x ∈ nodes := by
  have hm : ∀ d ∈ delegations l, d ∈ ls.flatMap delegations :=
    fun d hd => List.mem_flatMap.mpr ⟨l, hl, hd⟩
  have hdl : delegations l = [((l.inst, 1), anyV4, x), ((l.inst, 2), anyV6, x)] := by
    unfold delegations; rw [hx]; simp only; rw [if_pos h0]
  have hin : ∀ n : Net, n.base = 0 → n.plen = 0 → n.ver = z.ver → Inside z.toNet n := by
    intro n hb hp hv
    rw [inside_iff, Net.covers_ip, Net.containsIP_iff]
    refine ⟨hv, by omega, ?_⟩
    have : n.size = 2 ^ n.ver.width := by rw [Net.size, hp, Nat.sub_zero]
    rw [hb, this, hv, Nat.zero_add]; exact z.lt
  match hv : z.ver with
  | .v4 =>
    rw [if_pos rfl]
    have hd := hm ((l.inst, 1), anyV4, x) (by rw [hdl]; simp)
    obtain ⟨r, cs, h1, h2, h3⟩ := ddt_load_resolves ls st h _ _ _ hd
    obtain ⟨nodes, i, h4, h5⟩ := h3 z.toNet (hin anyV4 rfl rfl hv.symm)
    exact ⟨r, cs, nodes, i, _, h1, h2, h4, (h5 x).mpr hd⟩
  | .v6 =>
    rw [if_neg (by simp)]
    have hd := hm ((l.inst, 2), anyV6, x) (by rw [hdl]; simp)
    obtain ⟨r, cs, h1, h2, h3⟩ := ddt_load_resolves ls st h _ _ _ hd
    obtain ⟨nodes, i, h4, h5⟩ := h3 z.toNet (hin anyV6 rfl rfl hv.symm)
    exact ⟨r, cs, nodes, i, _, h1, h2, h4, (h5 x).mpr hd⟩

/-! ### Examples -/

/-! ### Which exception a file that does not load raises -/

/-- Specification: the prefixes of two delegations of one instance and AFI have addresses in common -/
def Overlap (d e : Delegation) : Prop := d.1 = e.1 ∧ ¬ Apart d.2.1 e.2.1

/-- Specification: what is wrong with a delegation, after others, and the exception this raises: an unknown AFI
(ValueError), a prefix of another family than the AFI (NotAuthoritativeError), a prefix that overlaps with one other
prefix (ValueError) or with more than one (MoreSpecificsFoundError) -/
inductive DelegationError (earlier : List Delegation) (d : Delegation) : Err → Prop
  | afi (h : d.1.2 ≠ 1 ∧ d.1.2 ≠ 2) : DelegationError earlier d .value
  | family (h : (d.1.2 = 1 ∧ d.2.1.ver = .v6) ∨ (d.1.2 = 2 ∧ d.2.1.ver = .v4)) : DelegationError earlier d .notMine
  | one (hf : AfiFits d) (e : Delegation) (he : e ∈ earlier) (ho : Overlap d e) (hne : e.2.1 ≠ d.2.1)
      (hall : ∀ f ∈ earlier, Overlap d f → f.2.1 = e.2.1) : DelegationError earlier d .value
  | many (hf : AfiFits d) (e f : Delegation) (he : e ∈ earlier) (hf : f ∈ earlier) (h1 : Overlap d e) (h2 : Overlap d f)
      (hne : e.2.1 ≠ f.2.1) : DelegationError earlier d .moreSpecifics

/-- Specification: what is wrong with a line, after others: it is not readable (ValueError), or one of its delegations
(two, if the AFI is 0) cannot be added -/
def LineError (earlier : List Delegation) (l : DdtLine) (e : Err) : Prop :=
  (¬ Readable l ∧ e = .value) ∨
  (Readable l ∧ ∃ ds d rest, delegations l = ds ++ d :: rest ∧ (∀ x ∈ ds, ∀ y ∈ earlier, Compatible x y) ∧
    DelegationError (earlier ++ ds) d e)

theorem compatible_iff {d e : Delegation} : Compatible d e ↔ (Overlap d e → e.2.1 = d.2.1) := by
  constructor
  · rintro h ⟨h1, h2⟩
    exact ((h h1).resolve_right h2).symm
  · intro h h1
    by_cases ha : Apart d.2.1 e.2.1
    · exact .inr ha
    · exact .inl (h ⟨h1, ha⟩).symm

theorem addDelegation_cases {st : Instances} {es : List Delegation} (g : GoodAll st es) (d : Delegation) :
    (∃ st', addDelegation st d.1.1 d.1.2 d.2.1 d.2.2 = .ok st') ∨
    ∃ e, addDelegation st d.1.1 d.1.2 d.2.1 d.2.2 = .error e ∧ DelegationError es d e := by
  by_cases hk : d.1.2 ≠ 1 ∧ d.1.2 ≠ 2
  · refine .inr ⟨.value, ?_, .afi hk⟩
    have : rootNet d.1.2 = none := by
      unfold rootNet
      rw [if_neg hk.1, if_neg hk.2]
    unfold addDelegation
    rw [this]
  · have hk : d.1.2 = 1 ∨ d.1.2 = 2 := by omega
    by_cases hf : AfiFits d
    · obtain ⟨r, hr, hc⟩ := rootNet_covers.mpr hf
      have g1 := goodAll_root g d.1 hr
      by_cases hcomp : ∀ e ∈ es, Compatible d e
      · have gs := goodAll_sound g
        obtain ⟨st', h⟩ := addAll_total (fs := [d]) g
          (by
            intro e he
            rcases List.mem_append.mp he with h | h
            · exact gs.1 e h
            · rw [List.mem_singleton] at h; subst h; exact hf)
          (by
            intro e he f hf'
            have hsym : ∀ a b : Delegation, Compatible a b → Compatible b a := by
              intro a b h hk
              rcases h hk.symm with h | h
              · exact .inl h.symm
              · exact .inr (apart_symm h)
            rcases List.mem_append.mp he with h | h <;> rcases List.mem_append.mp hf' with h' | h'
            · exact gs.2 e h f h'
            · rw [List.mem_singleton] at h'; subst h'; exact hsym _ _ (hcomp e h)
            · rw [List.mem_singleton] at h; subst h; exact hcomp f h'
            · rw [List.mem_singleton] at h h'; subst h; subst h'; exact fun _ => .inl rfl)
        rw [addAll] at h
        left
        cases ha : addDelegation st d.1.1 d.1.2 d.2.1 d.2.2 with
        | error e => rw [ha] at h; cases h
        | ok st2 => exact ⟨st2, rfl⟩
      · right
        have hx : ∃ e ∈ es, Overlap d e ∧ e.2.1 ≠ d.2.1 := by
          refine Classical.byContradiction fun hn => hcomp fun e he => compatible_iff.mpr fun ho => ?_
          exact Classical.byContradiction fun hne => hn ⟨e, he, ho, hne⟩
        obtain ⟨e, he, ⟨ho1, ho2⟩, hne⟩ := hx
        have hm : e.2 ∈ esFor d.1 es := mem_esFor.mpr (by rw [ho1]; exact he)
        have hadd : ∀ err, addToRoot r ((st (d.1.1, d.1.2)).getD []) d.2.1 d.2.2 = .error err →
            addDelegation st d.1.1 d.1.2 d.2.1 d.2.2 = .error err := by
          intro err h
          unfold addDelegation
          rw [hr]
          simp only [h]
        rcases (addToRoot_cases g1 d.2.1 d.2.2).2.2.2 hc ⟨_, hm, ho2, hne⟩ with ⟨h1, h2⟩ | ⟨h1, f1, hf1, f2, hf2, n1, n2, hn⟩
        · refine ⟨_, hadd _ h1, .one hf e he ⟨ho1, ho2⟩ hne ?_⟩
          rintro f hf' ⟨p1, p2⟩
          exact h2 f.2 (mem_esFor.mpr (by rw [p1]; exact hf')) e.2 hm p2 ho2
        · exact ⟨_, hadd _ h1, .many hf (d.1, f1) (d.1, f2) (mem_esFor.mp hf1) (mem_esFor.mp hf2) ⟨rfl, n1⟩ ⟨rfl, n2⟩ hn⟩
    · refine .inr ⟨.notMine, ?_, .family ?_⟩
      · have hr : ∃ r, rootNet d.1.2 = some r := by
          unfold rootNet
          rcases hk with h | h
          · exact ⟨_, if_pos h⟩
          · rw [if_neg (by omega), if_pos h]; exact ⟨_, rfl⟩
        obtain ⟨r, hr⟩ := hr
        have hc : r.covers d.2.1 = false := by
          cases hc : r.covers d.2.1 with
          | false => rfl
          | true => exact absurd (rootNet_covers.mp ⟨r, hr, hc⟩) hf
        unfold addDelegation
        rw [hr]
        simp only
        have := (addToRoot_cases (goodAll_root g d.1 hr) d.2.1 d.2.2).1 hc
        rw [show (d.1.1, d.1.2) = d.1 from rfl, this]
      · unfold AfiFits at hf
        cases hv : d.2.1.ver with
        | v4 => rw [hv] at hf; simp at hf; exact .inr ⟨by omega, rfl⟩
        | v6 => rw [hv] at hf; simp at hf; exact .inl ⟨by omega, rfl⟩

theorem delegationError_not_ok {st st' : Instances} {es : List Delegation} (g : GoodAll st es) {d : Delegation} {e : Err}
    (h : DelegationError es d e) : addDelegation st d.1.1 d.1.2 d.2.1 d.2.2 ≠ .ok st' := by
  intro hok
  obtain ⟨s1, s2⟩ := goodAll_sound (goodAll_step g hok)
  have hd : d ∈ es ++ [d] := by simp
  have hfit := s1 d hd
  have hcomp : ∀ x ∈ es, Overlap d x → x.2.1 = d.2.1 := fun x hx =>
    compatible_iff.mp (s2 d hd x (List.mem_append_left _ hx))
  cases h with
  | afi h =>
    unfold AfiFits at hfit
    omega
  | family h =>
    unfold AfiFits at hfit
    rcases h with ⟨h, hv⟩ | ⟨h, hv⟩ <;> rw [hv] at hfit <;> simp at hfit <;> omega
  | one hf x hx ho hne hall => exact hne (hcomp x hx ho)
  | many hf x y hx hy h1 h2 hne => exact hne ((hcomp x hx h1).trans (hcomp y hy h2).symm)

theorem delegationError_unique {es : List Delegation} {d : Delegation} {e e' : Err}
    (h : DelegationError es d e) (h' : DelegationError es d e') : e = e' := by
  have hfit : ∀ {d : Delegation}, AfiFits d → ¬ (d.1.2 ≠ 1 ∧ d.1.2 ≠ 2) := by
    intro d h; unfold AfiFits at h; omega
  have hfam : ∀ {d : Delegation}, AfiFits d →
      ¬ ((d.1.2 = 1 ∧ d.2.1.ver = .v6) ∨ (d.1.2 = 2 ∧ d.2.1.ver = .v4)) := by
    rintro d h (⟨h1, h2⟩ | ⟨h1, h2⟩) <;> unfold AfiFits at h <;> rw [h2] at h <;> simp at h <;> omega
  cases h with
  | afi h =>
    cases h' with
    | afi => rfl
    | family h' => omega
    | one => rfl
    | many hf => exact absurd h (hfit hf)
  | family h =>
    cases h' with
    | afi h' => omega
    | family => rfl
    | one hf => exact absurd h (hfam hf)
    | many hf => exact absurd h (hfam hf)
  | one hf x hx ho hne hall =>
    cases h' with
    | afi => rfl
    | family h' => exact absurd h' (hfam hf)
    | one => rfl
    | many _ y z hy hz h1 h2 hne' => exact absurd ((hall y hy h1).trans (hall z hz h2).symm) hne'
  | many hf y z hy hz h1 h2 hne' =>
    cases h' with
    | afi h' => exact absurd h' (hfit hf)
    | family h' => exact absurd h' (hfam hf)
    | one _ x hx ho hne hall => exact absurd ((hall y hy h1).trans (hall z hz h2).symm) hne'
    | many => rfl

theorem addDelegation_error_iff {st : Instances} {es : List Delegation} (g : GoodAll st es) (d : Delegation) (e : Err) :
    addDelegation st d.1.1 d.1.2 d.2.1 d.2.2 = .error e ↔ DelegationError es d e := by
  rcases addDelegation_cases g d with ⟨st', h⟩ | ⟨e', h, hd⟩
  · constructor
    · intro h'; rw [h] at h'; cases h'
    · intro h'; exact absurd h (delegationError_not_ok g h')
  · constructor
    · intro h'; rw [h] at h'; cases h'; exact hd
    · intro h'; rw [delegationError_unique h' hd]; exact h

theorem addAll_error_iff {st : Instances} {es : List Delegation} (g : GoodAll st es) (fs : List Delegation) (e : Err) :
    addAll st fs = .error e ↔ ∃ ds d rest, fs = ds ++ d :: rest ∧ (∃ st', addAll st ds = .ok st') ∧
      DelegationError (es ++ ds) d e := by
  constructor
  · intro h
    induction fs generalizing st es with
    | nil => cases h
    | cons f fs ih =>
      rw [addAll] at h
      split at h
      · rename_i e' he
        cases h
        exact ⟨[], f, fs, rfl, ⟨st, rfl⟩, by rw [List.append_nil]; exact (addDelegation_error_iff g f e).mp he⟩
      · rename_i st2 h2
        obtain ⟨ds, d, rest, rfl, ⟨st', hs⟩, hd⟩ := ih (goodAll_step g h2) h
        refine ⟨f :: ds, d, rest, rfl, ⟨st', by rw [addAll, h2]; exact hs⟩, ?_⟩
        rwa [List.append_assoc] at hd
  · rintro ⟨ds, d, rest, rfl, ⟨st', hs⟩, hd⟩
    rw [addAll_append, hs]
    simp only [addAll, (addDelegation_error_iff (goodAll_addAll g hs) d e).mpr hd]

/-- the delegations of a line before another one of the line -/
theorem delegations_before {l : DdtLine} {ds rest : List Delegation} {d : Delegation} (h : delegations l = ds ++ d :: rest) :
    ds = [] ∨ ∃ x, ds = [((l.inst, 1), anyV4, x)] := by
  have hlen : (delegations l).length ≤ 2 := by
    unfold delegations
    split
    · simp
    · split
      · simp
      · split <;> simp
  cases ds with
  | nil => exact .inl rfl
  | cons a ds =>
    right
    cases ds with
    | cons b ds => rw [h] at hlen; simp at hlen
    | nil =>
      unfold delegations at h
      split at h
      · cases h
      · rename_i x _
        split at h
        · cases h; exact ⟨x, rfl⟩
        · split at h <;> cases h

theorem lineError_iff {st : Instances} {es : List Delegation} (g : GoodAll st es) (l : DdtLine) (e : Err) :
    loadLine st l = .error e ↔ LineError es l e := by
  by_cases hr : Readable l
  · rw [loadLine_eq st l hr, addAll_error_iff g]
    have key : ∀ ds d rest, delegations l = ds ++ d :: rest →
        ((∃ st', addAll st ds = .ok st') ↔ ∀ x ∈ ds, ∀ y ∈ es, Compatible x y) := by
      intro ds d rest h
      rcases delegations_before h with rfl | ⟨x, rfl⟩
      · exact ⟨fun _ _ hx => (by cases hx), fun _ => ⟨st, rfl⟩⟩
      · have gs := goodAll_sound g
        constructor
        · rintro ⟨st', hs⟩ y hy z hz
          exact (goodAll_sound (goodAll_addAll g hs)).2 y (List.mem_append_right _ hy) z (List.mem_append_left _ hz)
        · intro hc
          rcases addDelegation_cases g ((l.inst, 1), anyV4, x) with ⟨st', hs⟩ | ⟨e', _, hd⟩
          · exact ⟨st', by rw [addAll, hs]; rfl⟩
          · exfalso
            have hc : ∀ z ∈ es, Overlap ((l.inst, 1), anyV4, x) z → z.2.1 = anyV4 := fun z hz =>
              compatible_iff.mp (hc _ (by simp) z hz)
            cases hd with
            | afi h => exact absurd rfl h.1
            | family h =>
              rcases h with ⟨_, h⟩ | ⟨h, _⟩ <;> cases h
            | one hf z hz ho hne hall => exact hne (hc z hz ho)
            | many hf y z hy hz h1 h2 hne => exact hne ((hc y hy h1).trans (hc z hz h2).symm)
    constructor
    · rintro ⟨ds, d, rest, h, hs, hd⟩
      exact .inr ⟨hr, ds, d, rest, h, (key ds d rest h).mp hs, hd⟩
    · rintro (⟨h, _⟩ | ⟨_, ds, d, rest, h, hs, hd⟩)
      · exact absurd hr h
      · exact ⟨ds, d, rest, h, (key ds d rest h).mpr hs, hd⟩
  · rw [loadLine_unreadable st l hr]
    constructor
    · intro h; cases h; exact .inl ⟨hr, rfl⟩
    · rintro (⟨_, rfl⟩ | ⟨h, _⟩)
      · rfl
      · exact absurd h hr

theorem loadLines_append (ls ms : List DdtLine) (st : Instances) : loadLines st (ls ++ ms) =
    match loadLines st ls with
    | .error e => .error e
    | .ok st => loadLines st ms := by
  induction ls generalizing st with
  | nil => rfl
  | cons l ls ih =>
    rw [List.cons_append, loadLines, loadLines]
    match loadLine st l with
    | .error e => rfl
    | .ok st => exact ih st

theorem loaded_good {ls : List DdtLine} {st : Instances} (h : loadDdtRoot ls = .ok st) :
    GoodAll st (ls.flatMap delegations) := by
  have := goodAll_addAll goodAll_empty ((loadLines_ok ls _ st).mp h).2
  rwa [List.nil_append] at this

/-- C44: a file that does not load raises an exception that says what is wrong with its first bad line: ValueError if
the line is not readable, its AFI is unknown or its prefix overlaps with one other prefix of its instance and AFI,
MoreSpecificsFoundError if it overlaps with several, and NotAuthoritativeError if the prefix is not of the family of the
AFI. -/
theorem ddt_load_raises (ls : List DdtLine) (e : Err) :
    loadDdtRoot ls = .error e ↔ ∃ pre l post, ls = pre ++ l :: post ∧ (∃ st, loadDdtRoot pre = .ok st) ∧
      LineError (pre.flatMap delegations) l e := by
  constructor
  · intro h
    have key : ∀ (post pre : List DdtLine) (st : Instances), loadDdtRoot pre = .ok st → loadLines st post = .error e →
        ∃ pre' l post', pre ++ post = pre' ++ l :: post' ∧ (∃ st, loadDdtRoot pre' = .ok st) ∧
          LineError (pre'.flatMap delegations) l e := by
      intro post
      induction post with
      | nil => intro pre st _ h; cases h
      | cons l post ih =>
        intro pre st hpre h
        rw [loadLines] at h
        split at h
        · rename_i e' he
          cases h
          exact ⟨pre, l, post, rfl, ⟨st, hpre⟩, (lineError_iff (loaded_good hpre) l e).mp he⟩
        · rename_i st2 h2
          have hp : loadDdtRoot (pre ++ [l]) = .ok st2 := by
            unfold loadDdtRoot
            rw [loadLines_append]
            have hpre : loadLines (fun _ => none) pre = .ok st := hpre
            rw [hpre]
            simp only [loadLines, h2]
          have := ih (pre ++ [l]) st2 hp h
          rwa [List.append_assoc] at this
    exact key ls [] (fun _ => none) rfl h
  · rintro ⟨pre, l, post, rfl, ⟨st, hpre⟩, hl⟩
    unfold loadDdtRoot
    rw [loadLines_append]
    have hpre' : loadLines (fun _ => none) pre = .ok st := hpre
    rw [hpre']
    simp only [loadLines, (lineError_iff (loaded_good hpre) l e).mpr hl]


def exDdt : IP := ⟨.v4, 3232235521, by decide⟩
def exDdt2 : IP := ⟨.v6, 2 ^ 125 + 1, by decide⟩
def exDdtLines : List DdtLine :=
  [⟨0, 1, some exTen, some exDdt⟩, ⟨0, 1, some exEleven, some exDdt⟩,
   ⟨0, 1, some exTen, some exDdt2⟩, ⟨7, 0, none, some exDdt⟩]

example : ∃ st, loadDdtRoot exDdtLines = .ok st := by
  have : (loadDdtRoot exDdtLines).toOption.isSome = true := by decide +kernel
  match h : loadDdtRoot exDdtLines with
  | .ok st => exact ⟨st, rfl⟩
  | .error e => rw [h] at this; cases this

/-- 10.0.0.0/8 after 10.1.0.0/16 is refused -/
example : (loadDdtRoot [⟨0, 1, some exTenOne, some exDdt⟩, ⟨0, 1, some exTen, some exDdt⟩]).toOption.isSome
    = false := by decide +kernel
/-- 0.0.0.0/0 after two prefixes: MoreSpecificsFoundError; after one: ValueError -/
example : ((loadDdtRoot [⟨0, 1, some exTen, some exDdt⟩, ⟨0, 1, some exEleven, some exDdt⟩, ⟨0, 0, none, some exDdt⟩])
    matches .error .moreSpecifics) ∧
    ((loadDdtRoot [⟨0, 1, some exTen, some exDdt⟩, ⟨0, 0, none, some exDdt⟩]) matches .error .value) := by
  decide +kernel
/-- IPv4 prefix with AFI 2 -/
example : (loadDdtRoot [⟨0, 2, some exTenOne, some exDdt⟩]).toOption.isSome = false := by
  decide +kernel

end PyLisp.Props
