import Verif.TreeCopy
import Verif.Props.Tree
import Verif.Props.Addr
/-
Property C73: copies of tree nodes, and DDT referral nodes as sets of addresses.
-/
namespace PyLisp.Props
open PyLisp

/-! ### Containers -/

/-- at most two children have the same prefix -/
def AtMostTwo (cs : List Node) : Prop := ∀ p : Net, (cs.filter fun c => c.pfx = p).length ≤ 2

theorem atMostTwo_sub {cs cs' : List Node} (h : AtMostTwo cs) (hs : cs'.Sublist cs) : AtMostTwo cs' :=
  fun p => Nat.le_trans (hs.filter _).length_le (h p)

theorem apart_self {p : Net} : ¬ Apart p p := by
  intro h
  apply h
  refine ⟨p.first, ?_, ?_⟩ <;> exact Net.contains_first p

theorem filter_same_nil {cs : List Node} {c : Node} (h : ∀ d ∈ cs, Apart c.pfx d.pfx) :
    cs.filter (fun d => d.pfx = c.pfx) = [] := by
  rw [List.filter_eq_nil_iff]
  intro d hd he
  have he : d.pfx = c.pfx := by simpa using he
  have := h d hd
  rw [he] at this
  exact apart_self this

theorem atMostTwo_add {pfx : Net} {cs : List Node} (h : AtMostTwo cs) (c : Node) :
    AtMostTwo ((TreeOp.add c).run pfx cs).1 := by
  obtain ⟨h1, h2, h3⟩ := add_cases pfx cs c
  by_cases hin : Inside c.pfx pfx
  · by_cases hap : (∀ d ∈ cs, Apart c.pfx d.pfx) ∨ OnlySame cs c
    · rw [h2 hin hap]
      dsimp only
      split
      · exact h
      · intro p
        by_cases hp : c.pfx = p
        · subst hp
          rw [List.filter_cons_of_pos (p := fun d : Node => decide (d.pfx = c.pfx)) (by simp)]
          rcases hap with hap | ⟨l₁, m, l₂, rfl, hm, hap⟩
          · rw [filter_same_nil hap]; simp
          · have a1 := filter_same_nil (cs := l₁) (c := c) fun d hd => hap d (by simp [hd])
            have a2 := filter_same_nil (cs := l₂) (c := c) fun d hd => hap d (by simp [hd])
            simp [List.filter_append, a1, a2, hm]
        · rw [List.filter_cons_of_neg (p := fun d : Node => decide (d.pfx = p)) (by simp [hp])]
          exact h p
    · rw [h3 hin hap]; exact h
  · rw [h1 hin]; exact h

theorem atMostTwo_update {pfx : Net} (l : List Node) : ∀ {cs : List Node}, AtMostTwo cs →
    AtMostTwo (updateChildren pfx cs l).1 := by
  induction l with
  | nil => intro cs h; exact h
  | cons c l ih =>
    intro cs h
    have ha := atMostTwo_add (pfx := pfx) h c
    simp only [TreeOp.run] at ha
    unfold updateChildren
    split
    · rename_i cs' hcs
      rw [hcs] at ha
      exact ih ha
    · exact h

theorem atMostTwo_step {pfx : Net} {cs : List Node} (h : AtMostTwo cs) (op : TreeOp) :
    AtMostTwo (op.run pfx cs).1 := by
  have hd : ∀ i, AtMostTwo (discardNode cs i) := fun i => atMostTwo_sub h List.filter_sublist
  have hp : ∀ p cs', discardPrefix pfx cs p = .ok cs' → AtMostTwo cs' := by
    intro p cs' he
    unfold discardPrefix at he
    split at he
    · cases he
    · cases he; exact hd _
    · cases he; exact h
  have hr : ∀ cs', AtMostTwo cs' → AtMostTwo (removed cs cs').1 := by
    intro cs' h'; unfold removed; split <;> exact h'
  cases op with
  | add c => exact atMostTwo_add h c
  | discardNode c => exact hd _
  | discardPrefix p =>
    simp only [TreeOp.run]
    split
    · rename_i hcs; exact hp _ _ hcs
    · exact h
  | removeNode c => exact hr _ (hd _)
  | removePrefix p =>
    simp only [TreeOp.run]
    split
    · rename_i hcs; exact hr _ (hp _ _ hcs)
    · exact h
  | update l => exact atMostTwo_update l h
  | clear => intro p; simp [TreeOp.run]

/-- C73: after any sequence of calls a container has at most two children with the same prefix. -/
theorem container_at_most_two (pfx : Net) (l : List Node) (ops : List TreeOp) :
    AtMostTwo (runOps pfx (newChildren pfx l).1 ops) := by
  have h0 : AtMostTwo (newChildren pfx l).1 := atMostTwo_update l (fun p => by simp)
  generalize (newChildren pfx l).1 = cs at h0
  induction ops generalizing cs with
  | nil => exact h0
  | cons op ops ih => exact ih _ (atMostTwo_step h0 op)

theorem split_of_count {cs : List Node} {c : Node}
    (hs : ∀ d ∈ cs, c.pfx = d.pfx ∨ Apart c.pfx d.pfx)
    (h2 : (cs.filter fun d => d.pfx = c.pfx).length ≤ 1) :
    (∀ d ∈ cs, Apart c.pfx d.pfx) ∨ OnlySame cs c := by
  induction cs with
  | nil => left; simp
  | cons m cs ih =>
    by_cases hm : m.pfx = c.pfx
    · right
      rw [List.filter_cons_of_pos (p := fun d : Node => decide (d.pfx = c.pfx)) (by simp [hm])] at h2
      have hnil : cs.filter (fun d => d.pfx = c.pfx) = [] :=
        List.length_eq_zero_iff.mp (by simp only [List.length_cons] at h2; omega)
      refine ⟨[], m, cs, rfl, hm, fun d hd => ?_⟩
      have hd : d ∈ cs := by simpa using hd
      rcases hs d (by simp [hd]) with e | e
      · have := List.filter_eq_nil_iff.mp hnil d hd
        simp [e] at this
      · exact e
    · rw [List.filter_cons_of_neg (p := fun d : Node => decide (d.pfx = c.pfx)) (by simp [hm])] at h2
      have hmap : Apart c.pfx m.pfx := by
        rcases hs m (by simp) with e | e
        · exact absurd e.symm hm
        · exact e
      rcases ih (fun d hd => hs d (by simp [hd])) h2 with h | ⟨l₁, m', l₂, rfl, h3, h4⟩
      · left
        intro d hd
        rcases List.mem_cons.mp hd with rfl | hd
        · exact hmap
        · exact h d hd
      · right
        refine ⟨m :: l₁, m', l₂, rfl, h3, fun d hd => ?_⟩
        rcases List.mem_cons.mp hd with rfl | hd
        · exact hmap
        · exact h4 d hd

theorem update_all {pfx : Net} (l : List Node) : ∀ acc : List Node, Sound pfx (l.reverse ++ acc) →
    DistinctIds (l.reverse ++ acc) → AtMostTwo (l.reverse ++ acc) →
    updateChildren pfx acc l = (l.reverse ++ acc, none) := by
  induction l with
  | nil => intro acc _ _ _; rfl
  | cons c l ih =>
    intro acc hs hd h2
    rw [List.reverse_cons, List.append_assoc] at hs hd h2 ⊢
    have hs' : Sound pfx (c :: acc) := sound_sub hs (by intro x hx; simp at hx ⊢; exact .inr hx)
    have hsub : (c :: acc).Sublist (l.reverse ++ ([c] ++ acc)) := by
      simp
    have hd' : DistinctIds (c :: acc) := List.Nodup.sublist (hsub.map _) hd
    have h2' : AtMostTwo (c :: acc) := atMostTwo_sub h2 hsub
    have hid : c.id ∉ acc.map Node.id := (List.nodup_cons.mp hd').1
    have hcase : (∀ d ∈ acc, Apart c.pfx d.pfx) ∨ OnlySame acc c := by
      refine split_of_count (fun d hd => hs'.2 c (by simp) d (by simp [hd])) ?_
      have := h2' c.pfx
      rw [List.filter_cons_of_pos (p := fun d : Node => decide (d.pfx = c.pfx)) (by simp)] at this
      simp only [List.length_cons] at this
      omega
    have hadd := (add_cases pfx acc c).2.1 (hs'.1 c (by simp)) hcase
    rw [if_neg hid] at hadd
    have : addChild pfx acc c = .ok (c :: acc) := by
      simp only [TreeOp.run] at hadd
      split at hadd
      · rename_i cs' hcs
        rw [hcs]
        have : cs' = c :: acc := congrArg Prod.fst hadd
        rw [this]
      · have := congrArg Prod.snd hadd; cases this
    unfold updateChildren
    rw [this]
    exact ih (c :: acc) (by simpa using hs) (by simpa using hd) (by simpa using h2)

theorem perm_atMostTwo {cs cs' : List Node} (h : cs.Perm cs') (h2 : AtMostTwo cs) : AtMostTwo cs' :=
  fun p => by rw [← (h.filter _).length_eq]; exact h2 p

/-- C73: copying a container never fails, whatever was done with it before and in whatever order its
children come: the copy has the same prefix and exactly the same children (the very same nodes).  It is
authoritative exactly when the original is, but without the DDT nodes of the original. -/
theorem container_copy (a : Option (List IP)) (pfx : Net) (l : List Node) (ops : List TreeOp)
    (order : List Node) (ho : order.Perm (runOps pfx (newChildren pfx l).1 ops)) (j : Nat) :
    ∃ cs, copyContainer a j pfx order = .ok (.cont (if a = none then none else some []) j pfx cs) ∧
      cs.Perm (runOps pfx (newChildren pfx l).1 ops) := by
  have hs := container_sound pfx l ops
  have hd := container_distinct pfx l ops
  have h2 := container_at_most_two pfx l ops
  generalize runOps pfx (newChildren pfx l).1 ops = cs at *
  have hp : (order.reverse ++ []).Perm cs := by
    rw [List.append_nil]; exact (List.reverse_perm order).trans ho
  have := update_all (pfx := pfx) order [] (sound_sub hs fun c hc => hp.mem_iff.mp hc)
    ((hp.map _).nodup_iff.mpr hd) (perm_atMostTwo hp.symm h2)
  refine ⟨order.reverse ++ [], ?_, hp⟩
  simp only [copyContainer, newChildren, this]
  cases a <;> simp

theorem path_own_identity (a b : Option (List IP)) (i j : Nat) (pfx : Net) (cs : List Node) (p : Net) :
    ((Node.cont a i pfx cs).resolvePath p).map List.dropLast =
    ((Node.cont b j pfx cs).resolvePath p).map List.dropLast := by
  rw [Node.resolvePath, Node.resolvePath]
  split
  · rfl
  · rfl
  · rfl
  · split <;> simp [Except.map]

/-- C73: so the copy finds everything that the original finds: a lookup gives the same nodes below the
container, in the same order, or the same exception. -/
theorem container_copy_lookup (a b : Option (List IP)) (i j : Nat) (pfx : Net) (cs cs' : List Node)
    (h : cs.Perm cs') (p : Net) :
    ((Node.cont a i pfx cs).resolvePath p).map (fun r => r.dropLast.map label) =
    ((Node.cont b j pfx cs').resolvePath p).map (fun r => r.dropLast.map label) := by
  have h1 := resolve_order_independent (.perm (a := b) (i := j) (p := pfx) h) p
  have h2 := path_own_identity a b i j pfx cs p
  cases e1 : (Node.cont a i pfx cs).resolvePath p with
  | error e =>
    rw [e1] at h2
    cases e2 : (Node.cont b j pfx cs).resolvePath p with
    | error e' =>
      rw [e2] at h2 h1
      cases e3 : (Node.cont b j pfx cs').resolvePath p with
      | error e'' =>
        rw [e3] at h1
        simp only [Except.map, Except.error.injEq] at h1 h2 ⊢
        rw [h2, h1]
      | ok z => rw [e3] at h1; simp [Except.map] at h1
    | ok y => rw [e2] at h2; simp [Except.map] at h2
  | ok x =>
    rw [e1] at h2
    cases e2 : (Node.cont b j pfx cs).resolvePath p with
    | error e' => rw [e2] at h2; simp [Except.map] at h2
    | ok y =>
      rw [e2] at h2 h1
      cases e3 : (Node.cont b j pfx cs').resolvePath p with
      | error e'' => rw [e3] at h1; simp [Except.map] at h1
      | ok z =>
        rw [e3] at h1
        simp only [Except.map, Except.ok.injEq] at h1 h2 ⊢
        rw [h2, List.map_dropLast, List.map_dropLast, h1]

/-! ### DDT referral nodes -/

/-- the addresses that a list of arguments stands for, up to the first that is none -/
inductive Parsed : List AddrArg → List IP → Bool → Prop
  | nil : Parsed [] [] true
  | addr {a : IP} {l : List AddrArg} {r : List IP} {b : Bool} : Parsed l r b →
    Parsed (.addr a :: l) (a :: r) b
  | text {a : IP} {l : List AddrArg} {r : List IP} {b : Bool} : Parsed l r b →
    Parsed (.other (some a) :: l) (a :: r) b
  | bad {l : List AddrArg} : Parsed (.other none :: l) [] false

theorem parsed_total : ∀ l : List AddrArg, ∃ r b, Parsed l r b
  | [] => ⟨_, _, .nil⟩
  | .addr _ :: l => by obtain ⟨r, b, h⟩ := parsed_total l; exact ⟨_, _, .addr h⟩
  | .other (some _) :: l => by obtain ⟨r, b, h⟩ := parsed_total l; exact ⟨_, _, .text h⟩
  | .other none :: _ => ⟨_, _, .bad⟩

theorem mem_ipSetAdd {s : List IP} {a x : IP} : x ∈ ipSetAdd s a ↔ x ∈ s ∨ x = a := by
  unfold ipSetAdd
  split
  · exact ⟨.inl, fun h => by rcases h with h | rfl <;> assumption⟩
  · simp [or_comm]

theorem nodup_ipSetAdd {s : List IP} (h : s.Nodup) (a : IP) : (ipSetAdd s a).Nodup := by
  unfold ipSetAdd
  split
  · exact h
  · rename_i hn; exact List.nodup_cons.mpr ⟨hn, h⟩

/-- C73: `update` (and the constructor) adds the addresses given, as objects or as text, up to the first
argument that is no address; that one raises ValueError. -/
theorem referral_update {l : List AddrArg} {r : List IP} {b : Bool} (hp : Parsed l r b) :
    ∀ s : List IP, (∀ x, x ∈ ((RefOp.update l).run s).1 ↔ x ∈ s ∨ x ∈ r) ∧
      ((RefOp.update l).run s).2 = (if b then none else some .value) := by
  induction hp with
  | nil => intro s; simp [RefOp.run, refUpdate]
  | @addr a l r b h ih =>
    intro s
    obtain ⟨h1, h2⟩ := ih (ipSetAdd s a)
    have e : (RefOp.update (.addr a :: l)).run s = (RefOp.update l).run (ipSetAdd s a) := rfl
    rw [e]
    refine ⟨fun x => ?_, h2⟩
    rw [h1, mem_ipSetAdd, List.mem_cons, or_assoc]
  | @text a l r b h ih =>
    intro s
    obtain ⟨h1, h2⟩ := ih (ipSetAdd s a)
    have e : (RefOp.update (.other (some a) :: l)).run s = (RefOp.update l).run (ipSetAdd s a) := rfl
    rw [e]
    refine ⟨fun x => ?_, h2⟩
    rw [h1, mem_ipSetAdd, List.mem_cons, or_assoc]
  | bad => intro s; exact ⟨fun x => by simp [RefOp.run, refUpdate, refAdd, AddrArg.ipAddress], rfl⟩

/-- C73: what the other calls do to the addresses of a DDT referral node, in every case.  Adding takes
addresses and their text; discarding, removing and looking up take address objects only: for the text of an
address that is there, `in` says no, `discard` does nothing and `remove` raises KeyError. -/
theorem referral_calls (s : List IP) (a : IP) (t : Option IP) :
    (((RefOp.add (.addr a)).run s).2 = none ∧ ∀ x, x ∈ ((RefOp.add (.addr a)).run s).1 ↔ x ∈ s ∨ x = a) ∧
    (((RefOp.add (.other (some a))).run s).2 = none ∧
      ∀ x, x ∈ ((RefOp.add (.other (some a))).run s).1 ↔ x ∈ s ∨ x = a) ∧
    (RefOp.add (.other none)).run s = (s, some .value) ∧
    (refContains s (.addr a) = true ↔ a ∈ s) ∧ refContains s (.other t) = false ∧
    (((RefOp.discard (.addr a)).run s).2 = none ∧
      ∀ x, x ∈ ((RefOp.discard (.addr a)).run s).1 ↔ x ∈ s ∧ x ≠ a) ∧
    (RefOp.discard (.other t)).run s = (s, none) ∧
    (a ∈ s → (RefOp.remove (.addr a)).run s = (RefOp.discard (.addr a)).run s) ∧
    (a ∉ s → (RefOp.remove (.addr a)).run s = (s, some .key)) ∧
    (RefOp.remove (.other t)).run s = (s, some .key) ∧
    RefOp.clear.run s = ([], none) := by
  refine ⟨⟨rfl, fun x => mem_ipSetAdd⟩, ⟨rfl, fun x => mem_ipSetAdd⟩, rfl, by simp [refContains], rfl,
    ⟨rfl, fun x => by simp [RefOp.run, refDiscard]⟩, rfl, fun h => ?_, fun h => ?_, rfl, rfl⟩
  · simp [RefOp.run, refContains, h]
  · simp [RefOp.run, refContains, h]

theorem nodup_update (l : List AddrArg) : ∀ {s : List IP}, s.Nodup → (refUpdate s l).1.Nodup := by
  induction l with
  | nil => intro s h; exact h
  | cons a l ih =>
    intro s h
    unfold refUpdate
    split
    · rename_i s' hs
      cases a with
      | addr a => cases hs; exact ih (nodup_ipSetAdd h a)
      | other o =>
        cases o with
        | some a => cases hs; exact ih (nodup_ipSetAdd h a)
        | none => cases hs
    · exact h

/-- C73: after any sequence of calls on a new node each address is in it once; so its length is the number
of different addresses. -/
theorem referral_nodup (l : List AddrArg) (ops : List RefOp) : (runRefOps (newReferral l).1 ops).Nodup := by
  have h0 : (newReferral l).1.Nodup := nodup_update l List.nodup_nil
  generalize (newReferral l).1 = s at h0
  induction ops generalizing s with
  | nil => exact h0
  | cons op ops ih =>
    refine ih _ ?_
    cases op with
    | add a =>
      have := nodup_update [a] h0
      unfold refUpdate at this
      simp only [RefOp.run]
      split <;> simp_all [refUpdate]
    | discard a => cases a with
      | addr a => exact h0.sublist List.filter_sublist
      | other o => exact h0
    | remove a =>
      simp only [RefOp.run]
      split
      · cases a with
        | addr a => exact h0.sublist List.filter_sublist
        | other o => exact h0
      · exact h0
    | update l => exact nodup_update l h0
    | clear => exact List.nodup_nil

/-- C73: copying a referral node never fails, and the copy has exactly the same addresses, in whatever
order they come. -/
theorem referral_copy (s order : List IP) (hs : s.Nodup) (ho : order.Perm s) :
    (copyReferral order).2 = none ∧ (copyReferral order).1.Perm s := by
  have hp : ∀ l : List IP, Parsed (l.map .addr) l true := by
    intro l
    induction l with
    | nil => exact .nil
    | cons a l ih => exact .addr ih
  obtain ⟨h1, h2⟩ := referral_update (hp order) []
  refine ⟨h2, (List.perm_ext_iff_of_nodup (nodup_update _ List.nodup_nil) hs).mpr fun x => ?_⟩
  have := h1 x
  simp only [List.not_mem_nil, false_or] at this
  exact this.trans ho.mem_iff

/-! Non-vacuity: a container with two children of the same prefix and a third one is copied; a referral node
filled from text. -/

def exNetB : Net := ⟨.v4, 0xc0000300, 24, by decide, by decide, by decide⟩
def exCopyRoot : Net := ⟨.v4, 0xc0000000, 16, by decide, by decide, by decide⟩
def exKids : List Node := [.leaf .etr 1 exNet, .leaf .mapServer 2 exNet, .leaf .etr 3 exNetB]
example : (runOps exCopyRoot (newChildren exCopyRoot []).1
    [.add exKids[0], .add exKids[2], .add exKids[1], .add (.leaf .etr 4 exNet)]).map Node.id = [2, 3, 1] := by
  decide +kernel
example : (copyContainer (some [.v4 1]) 9 exCopyRoot [exKids[1], exKids[2], exKids[0]]).toOption.isSome = true := by
  decide +kernel
example : (newReferral [.other (some (.v4 7)), .addr (.v4 8), .addr (.v4 7)]) = ([.v4 8, .v4 7], none) := by
  decide +kernel

end PyLisp.Props
