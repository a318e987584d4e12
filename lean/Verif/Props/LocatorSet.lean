import Verif.LocatorSet
import Verif.Props.Etr
/-
Property C75: the set of locators of an ETR, as objects.
-/
namespace PyLisp.Props
open PyLisp

/-! ### Specification -/

/-- two addresses compare as equal: the same IP address at the moment, whether automatic or not, or
the same object -/
inductive SameAddress (w : LocWorld) : AddrRef → AddrRef → Prop
  | ip (r r' : AddrRef) (a : IP) (h : w.addrOf r = .ip a) (h' : w.addrOf r' = .ip a)
      (hr : ∀ id x, r ≠ .other id x) (hr' : ∀ id x, r' ≠ .other id x) : SameAddress w r r'
  | object (id : Nat) (a a' : Addr) : SameAddress w (.other id a) (.other id a')

/-- two locators are equal at the moment: the same attributes and the same address -/
def SameLocator (w : LocWorld) (i j : Nat) : Prop :=
  { (w.obj i).attrs with address := .none } = { (w.obj j).attrs with address := .none } ∧
  SameAddress w (w.obj i).ref (w.obj j).ref

/-- the object is in the set of the ETR -/
def Has (w : LocWorld) (i : Nat) : Prop := ∃ h, (h, i) ∈ w.entries

/-- the object is in the set, and filed where a search for it looks -/
def Filed (H : Hashes) (w : LocWorld) (i : Nat) : Prop := (w.hashOf H i, i) ∈ w.entries

/-! ### Auxiliary -/

theorem addrEq_iff (w : LocWorld) (r r' : AddrRef) : w.addrEq r r' = true ↔ SameAddress w r r' := by
  constructor
  · intro h
    cases r <;> cases r' <;> simp only [LocWorld.addrEq, decide_eq_true_eq] at h
    case plain.plain a b => cases h; exact .ip _ _ a rfl rfl (by simp) (by simp)
    case plain.auto a id n => exact .ip _ _ a rfl h.symm (by simp) (by simp)
    case plain.other => cases h
    case auto.plain id n a => exact .ip _ _ a h rfl (by simp) (by simp)
    case auto.auto id n id' n' => exact .ip _ _ _ rfl h.symm (by simp) (by simp)
    case auto.other => cases h
    case other.plain => cases h
    case other.auto => cases h
    case other.other => subst h; exact .object _ _ _
  · intro h
    cases h with
    | ip r r' a h h' hr hr' =>
      cases r <;> cases r' <;>
        simp_all [LocWorld.addrEq]
    | object id a a' => simp [LocWorld.addrEq]

theorem locEq_iff (w : LocWorld) (i j : Nat) : w.locEq i j = true ↔ SameLocator w i j := by
  unfold LocWorld.locEq SameLocator
  simp only [Bool.and_eq_true, decide_eq_true_eq, addrEq_iff, Locator.mk.injEq]
  constructor
  · rintro ⟨⟨⟨⟨⟨⟨⟨⟨a, b⟩, c⟩, d⟩, e⟩, f⟩, g⟩, h⟩, k⟩
    exact ⟨⟨a, b, c, d, e, f, g, trivial, k⟩, h⟩
  · rintro ⟨⟨a, b, c, d, e, f, g, _, k⟩, h⟩
    exact ⟨⟨⟨⟨⟨⟨⟨⟨a, b⟩, c⟩, d⟩, e⟩, f⟩, g⟩, h⟩, k⟩

theorem hit_iff (H : Hashes) (w : LocWorld) (i : Nat) (e : Int × Nat) :
    w.hit H i e = true ↔ e.1 = w.hashOf H i ∧ (e.2 = i ∨ SameLocator w e.2 i) := by
  simp [LocWorld.hit, locEq_iff]

theorem hashOf_congr (H : Hashes) {w w' : LocWorld} {i : Nat} (h : (w'.obj i).ref = (w.obj i).ref) :
    w'.hashOf H i = w.hashOf H i := by simp only [LocWorld.hashOf, h]

theorem step_ref (H : Hashes) (w : LocWorld) (ev : LocEvent) (i : Nat)
    (h : ∀ r, ev ≠ .readdress i r) : ((w.step H ev).obj i).ref = (w.obj i).ref := by
  cases ev with
  | add j => simp only [LocWorld.step, LocWorld.add]; split <;> rfl
  | remove j => rfl
  | interface id a => rfl
  | edit j attrs =>
    simp only [LocWorld.step]
    split
    · rename_i hj; subst hj; rfl
    · rfl
  | readdress j r =>
    simp only [LocWorld.step]
    split
    · rename_i hj; subst hj; exact absurd rfl (h r)
    · rfl
  | rehash es => simp only [LocWorld.step]; split <;> rfl

/-! ### The property -/

/-- C75: adding a locator files it, unless a locator that is the same object or equal at the moment is
filed under the same hash; nothing else changes. -/
theorem locator_add (H : Hashes) (w : LocWorld) (i : Nat) :
    ((∃ j, (w.hashOf H i, j) ∈ w.entries ∧ (j = i ∨ SameLocator w j i)) → w.step H (.add i) = w) ∧
    ((¬ ∃ j, (w.hashOf H i, j) ∈ w.entries ∧ (j = i ∨ SameLocator w j i)) →
      w.step H (.add i) = { w with entries := w.entries ++ [(w.hashOf H i, i)] }) := by
  have hany : w.entries.any (w.hit H i) = true ↔
      ∃ j, (w.hashOf H i, j) ∈ w.entries ∧ (j = i ∨ SameLocator w j i) := by
    rw [List.any_eq_true]
    constructor
    · rintro ⟨⟨h, j⟩, hm, he⟩
      obtain ⟨h1, h2⟩ := (hit_iff H w i _).mp he
      dsimp only at h1 h2; subst h1
      exact ⟨j, hm, h2⟩
    · rintro ⟨j, hm, hj⟩
      exact ⟨_, hm, (hit_iff H w i _).mpr ⟨rfl, hj⟩⟩
  constructor
  · intro h; simp only [LocWorld.step, LocWorld.add, if_pos (hany.mpr h)]
  · intro h; simp only [LocWorld.step, LocWorld.add, if_neg (mt hany.mp h)]

/-- C75: removing a locator that is filed where a search for it looks takes out exactly one entry: the
object itself or one that is equal at the moment.  A locator that is not, and has no equal filed under
its hash, cannot be removed: nothing happens. -/
theorem locator_remove (H : Hashes) (w : LocWorld) (i : Nat) :
    ((∃ j, (w.hashOf H i, j) ∈ w.entries ∧ (j = i ∨ SameLocator w j i)) →
      ∃ pre j post, w.entries = pre ++ (w.hashOf H i, j) :: post ∧ (j = i ∨ SameLocator w j i) ∧
        w.step H (.remove i) = { w with entries := pre ++ post }) ∧
    ((¬ ∃ j, (w.hashOf H i, j) ∈ w.entries ∧ (j = i ∨ SameLocator w j i)) →
      w.step H (.remove i) = w) := by
  constructor
  · rintro ⟨j, hm, hj⟩
    obtain ⟨e, pre, post, hpre, he, heq, her⟩ := List.exists_of_eraseP (p := w.hit H i) hm
      ((hit_iff H w i _).mpr ⟨rfl, hj⟩)
    obtain ⟨h, k⟩ := e
    obtain ⟨h1, h2⟩ := (hit_iff H w i _).mp he
    dsimp only at h1 h2; subst h1
    exact ⟨pre, k, post, heq, h2, by simp only [LocWorld.step, LocWorld.remove, her]⟩
  · intro hno
    have : w.entries.eraseP (w.hit H i) = w.entries := by
      apply List.eraseP_of_forall_not
      rintro ⟨h, j⟩ hm he
      obtain ⟨h1, h2⟩ := (hit_iff H w i _).mp he
      dsimp only at h1 h2; subst h1
      exact hno ⟨j, hm, h2⟩
    simp only [LocWorld.step, LocWorld.remove, this]

/-- C75: a locator whose address attribute is not assigned to stays filed where a search for it looks,
whatever becomes of its other attributes and of the interface its address follows, until a locator is
removed that is the same object or equal at that moment. -/
theorem locator_stays (H : Hashes) (evs : List LocEvent) (w : LocWorld) (i : Nat) (h : Filed H w i)
    (hr : ∀ r, .readdress i r ∉ evs)
    (hd : ∀ pre j post, evs = pre ++ .remove j :: post →
      j ≠ i ∧ ¬ SameLocator (pre.foldl (LocWorld.step H) w) i j) :
    Filed H (evs.foldl (LocWorld.step H) w) i := by
  induction evs generalizing w with
  | nil => exact h
  | cons ev evs ih =>
    rw [List.foldl_cons]
    apply ih
    · have hh : (w.step H ev).hashOf H i = w.hashOf H i :=
        hashOf_congr H (step_ref H w ev i (fun r he => hr r (he ▸ List.mem_cons_self)))
      unfold Filed
      rw [hh]
      cases ev with
      | add j =>
        simp only [LocWorld.step, LocWorld.add]
        split
        · exact h
        · exact List.mem_append_left _ h
      | remove j =>
        have := hd [] j evs rfl
        simp only [LocWorld.step, LocWorld.remove]
        rw [List.mem_eraseP_of_neg]
        · exact h
        · intro he
          obtain ⟨_, h2⟩ := (hit_iff H w j _).mp he
          rcases h2 with h2 | h2
          · exact this.1 h2.symm
          · exact this.2 h2
      | interface id a => exact h
      | edit j attrs => exact h
      | readdress j r => exact h
      | rehash es =>
        simp only [LocWorld.step]
        split
        · rename_i hp
          exact (List.isPerm_iff.mp hp).mem_iff.mpr h
        · exact h
    · intro r hm; exact hr r (List.mem_cons_of_mem _ hm)
    · intro pre j post he
      have := hd (ev :: pre) j post (by rw [he]; rfl)
      exact this

/-- one event leaves an automatic address as it is unless it is a change of that address -/
theorem step_auto (H : Hashes) (w : LocWorld) (ev : LocEvent) (id : Nat)
    (h : ∀ b, ev ≠ .interface id b) : (w.step H ev).auto id = w.auto id := by
  cases ev with
  | add j => simp only [LocWorld.step, LocWorld.add]; split <;> rfl
  | remove j => rfl
  | interface k b =>
    have : id ≠ k := fun e => h b (e ▸ rfl)
    simp only [LocWorld.step, if_neg this]
  | edit j attrs => rfl
  | readdress j r => rfl
  | rehash es => simp only [LocWorld.step]; split <;> rfl

/-- and the attributes of a locator unless it assigns to them -/
theorem step_attrs (H : Hashes) (w : LocWorld) (ev : LocEvent) (i : Nat)
    (h : ∀ l, ev ≠ .edit i l) : ((w.step H ev).obj i).attrs = (w.obj i).attrs := by
  cases ev with
  | add j => simp only [LocWorld.step, LocWorld.add]; split <;> rfl
  | remove j => rfl
  | interface k b => rfl
  | edit j attrs =>
    have : i ≠ j := fun e => h attrs (e ▸ rfl)
    simp only [LocWorld.step, if_neg this]
  | readdress j r =>
    simp only [LocWorld.step]
    split
    · rename_i he; subst he; rfl
    · rfl
  | rehash es => simp only [LocWorld.step]; split <;> rfl

theorem auto_unchanged (H : Hashes) (evs : List LocEvent) (w : LocWorld) (id : Nat)
    (h : ∀ b, .interface id b ∉ evs) : (evs.foldl (LocWorld.step H) w).auto id = w.auto id := by
  induction evs generalizing w with
  | nil => rfl
  | cons ev evs ih =>
    rw [List.foldl_cons, ih _ (fun b hm => h b (List.mem_cons_of_mem _ hm))]
    exact step_auto H w ev id (fun b he => h b (he ▸ List.mem_cons_self))

theorem attrs_unchanged (H : Hashes) (evs : List LocEvent) (w : LocWorld) (i : Nat)
    (h : ∀ l, .edit i l ∉ evs) :
    ((evs.foldl (LocWorld.step H) w).obj i).attrs = (w.obj i).attrs := by
  induction evs generalizing w with
  | nil => rfl
  | cons ev evs ih =>
    rw [List.foldl_cons, ih _ (fun b hm => h b (List.mem_cons_of_mem _ hm))]
    exact step_attrs H w ev i (fun b he => h b (he ▸ List.mem_cons_self))

/-- C75: the address an automatic address has after a history is the one its interface got last, or
the one it had if the interface got none; and the attributes of a locator are those assigned last. -/
theorem locator_now (H : Hashes) (pre post : List LocEvent) (w : LocWorld) (id i : Nat) :
    ((∀ b, .interface id b ∉ post) →
      (post.foldl (LocWorld.step H) w).auto id = w.auto id ∧
      ∀ a, ((pre ++ .interface id a :: post).foldl (LocWorld.step H) w).auto id = a) ∧
    ((∀ l, .edit i l ∉ post) →
      ((post.foldl (LocWorld.step H) w).obj i).attrs = (w.obj i).attrs ∧
      ∀ l, (((pre ++ .edit i l :: post).foldl (LocWorld.step H) w).obj i).attrs = l) := by
  refine ⟨fun h => ⟨auto_unchanged H post w id h, fun a => ?_⟩,
    fun h => ⟨attrs_unchanged H post w i h, fun l => ?_⟩⟩
  · rw [List.foldl_append, List.foldl_cons, auto_unchanged H post _ id h]
    simp only [LocWorld.step, if_true]
  · rw [List.foldl_append, List.foldl_cons, attrs_unchanged H post _ i h]
    simp only [LocWorld.step, if_true]

/-- C75: so the ETR announces such a locator with the address that its interface has now, as long as
that is set and not local. -/
theorem locator_follows (H : Hashes) (evs : List LocEvent) (w w' : LocWorld) (i : Nat)
    (h : Filed H w i) (hr : ∀ r, .readdress i r ∉ evs)
    (hd : ∀ pre j post, evs = pre ++ .remove j :: post →
      j ≠ i ∧ ¬ SameLocator (pre.foldl (LocWorld.step H) w) i j)
    (hw : evs.foldl (LocWorld.step H) w = w') (id : Nat) (name : String)
    (ha : (w.obj i).ref = .auto id name) (hset : (w'.auto id).val ≠ 0)
    (s : EtrState) (hs : s.locators = w'.locators) (sockets : List IP)
    (hl : ∀ sock ∈ sockets, sock.val ≠ (w'.auto id).val) (tentative : List Addr)
    (ls : List Locator) (hls : getEtrLocators s sockets tentative = .ok ls) :
    ∃ x ∈ ls, x.address = .ip (w'.auto id) ∧ x.priority = (w'.obj i).attrs.priority ∧
      x.weight = (w'.obj i).attrs.weight ∧ x.mPriority = (w'.obj i).attrs.mPriority ∧
      x.mWeight = (w'.obj i).attrs.mWeight ∧ x.isLocal = false := by
  have hf := locator_stays H evs w i h hr hd
  rw [hw] at hf
  have href : ∀ (evs : List LocEvent) (w : LocWorld), (∀ r, .readdress i r ∉ evs) →
      ((evs.foldl (LocWorld.step H) w).obj i).ref = (w.obj i).ref := by
    intro evs
    induction evs with
    | nil => intro w _; rfl
    | cons ev evs ih =>
      intro w hr
      rw [List.foldl_cons, ih _ (fun r hm => hr r (List.mem_cons_of_mem _ hm))]
      exact step_ref H w ev i (fun r he => hr r (he ▸ List.mem_cons_self))
  have hra := href evs w hr
  rw [hw, ha] at hra
  have hmem : ({ (w'.obj i).attrs with address := .ip (w'.auto id) } : Locator) ∈ s.locators := by
    rw [hs]
    refine List.mem_map.mpr ⟨_, hf, ?_⟩
    rw [hra]; rfl
  obtain ⟨_, hx⟩ := etr_locators_spec s sockets tentative ls hls
  refine ⟨{ (w'.obj i).attrs with
    address := .ip (w'.auto id), isLocal := false, reachable := true, probed := false, reserved1 := 0 },
    (hx _).mpr (.inl ⟨_, hmem, w'.auto id, rfl, hset, .inl ⟨?_, ?_⟩⟩), rfl, rfl, rfl, rfl, rfl, rfl⟩
  · rintro ⟨a, hae, _, sock, hsock, hv⟩
    cases hae
    exact hl sock hsock hv
  · exact ⟨rfl, rfl, rfl, rfl, rfl, rfl, rfl, rfl, rfl⟩

/-- invariant: every locator is filed under the hash it has, and once -/
structure FiledOnce (H : Hashes) (w : LocWorld) : Prop where
  hash : ∀ e ∈ w.entries, e.1 = w.hashOf H e.2
  once : (w.entries.map Prod.snd).Nodup

theorem filedOnce_step (H : Hashes) (w : LocWorld) (ev : LocEvent) (h : FiledOnce H w)
    (hr : ∀ i r, ev ≠ .readdress i r) : FiledOnce H (w.step H ev) := by
  have hh : ∀ i, (w.step H ev).hashOf H i = w.hashOf H i := fun i =>
    hashOf_congr H (step_ref H w ev i (hr i))
  have key : ∀ es, (w.step H ev).entries = es → (∀ e ∈ es, e.1 = w.hashOf H e.2) →
      (es.map Prod.snd).Nodup → FiledOnce H (w.step H ev) := by
    rintro es rfl h1 h2
    exact ⟨fun e he => by rw [hh]; exact h1 e he, h2⟩
  cases ev with
  | add i =>
    by_cases hx : ∃ j, (w.hashOf H i, j) ∈ w.entries ∧ (j = i ∨ SameLocator w j i)
    · rw [(locator_add H w i).1 hx]; exact h
    · refine key (w.entries ++ [(w.hashOf H i, i)]) (by rw [(locator_add H w i).2 hx]) ?_ ?_
      · intro e he
        rcases List.mem_append.mp he with he | he
        · exact h.hash e he
        · cases List.mem_singleton.mp he; rfl
      · rw [List.map_append, List.nodup_append]
        refine ⟨h.once, by simp, ?_⟩
        rintro a ha b hb rfl
        obtain ⟨e, he, rfl⟩ := List.mem_map.mp ha
        have : e.2 = i := by simpa using hb
        exact hx ⟨e.2, by rw [← this, ← h.hash e he]; exact he, .inl this⟩
  | remove i =>
    refine key _ rfl ?_ ?_
    · intro e he; exact h.hash e (List.mem_of_mem_eraseP he)
    · exact h.once.sublist (List.eraseP_sublist.map _)
  | interface id a => exact key _ rfl h.hash h.once
  | edit j attrs => exact key _ rfl h.hash h.once
  | readdress j r => exact absurd rfl (hr j r)
  | rehash es =>
    by_cases hp : es.isPerm w.entries = true
    · have hp' := List.isPerm_iff.mp hp
      refine key es (by simp [LocWorld.step, hp]) ?_ ?_
      · intro e he; exact h.hash e (hp'.mem_iff.mp he)
      · exact (hp'.map _).nodup_iff.mpr h.once
    · have : w.step H (.rehash es) = w := by simp [LocWorld.step, hp]
      rw [this]; exact h

theorem filedOnce_run (H : Hashes) (evs : List LocEvent) (w : LocWorld) (h : FiledOnce H w)
    (hr : ∀ i r, .readdress i r ∉ evs) : FiledOnce H (evs.foldl (LocWorld.step H) w) := by
  induction evs generalizing w with
  | nil => exact h
  | cons ev evs ih =>
    exact ih _ (filedOnce_step H w ev h (fun i r he => hr i r (he ▸ List.mem_cons_self)))
      (fun i r hm => hr i r (List.mem_cons_of_mem _ hm))

/-- C75: in a program that never assigns to the address of a locator, a locator is at most once in the
set, and removing it removes it, unless another locator in the set is equal to it at that moment; the
others stay. -/
theorem locator_removed (H : Hashes) (evs : List LocEvent) (w₀ w : LocWorld) (hw₀ : w₀.entries = [])
    (hr : ∀ i r, .readdress i r ∉ evs) (hw : evs.foldl (LocWorld.step H) w₀ = w) (i : Nat)
    (hd : ∀ j, Has w j → j ≠ i → ¬ SameLocator w j i) :
    (w.entries.map Prod.snd).Nodup ∧
    ∀ j, Has (w.step H (.remove i)) j ↔ Has w j ∧ j ≠ i := by
  have hf : FiledOnce H w := hw ▸ filedOnce_run H evs w₀ ⟨by simp [hw₀], by simp [hw₀]⟩ hr
  refine ⟨hf.once, fun j => ?_⟩
  by_cases hx : ∃ j, (w.hashOf H i, j) ∈ w.entries ∧ (j = i ∨ SameLocator w j i)
  · obtain ⟨pre, k, post, he, hk, hs⟩ := (locator_remove H w i).1 hx
    have hki : k = i := by
      by_cases hki : k = i
      · exact hki
      · refine absurd (hk.resolve_left hki) (hd k ⟨w.hashOf H i, ?_⟩ hki)
        rw [he]; exact List.mem_append_right _ List.mem_cons_self
    subst hki
    have hn := hf.once
    rw [he, List.map_append, List.map_cons] at hn
    obtain ⟨_, h2, h3⟩ := List.nodup_append.mp hn
    have h4 := (List.nodup_cons.mp h2).1
    rw [hs]
    unfold Has
    rw [he]
    dsimp only
    constructor
    · rintro ⟨h, hm⟩
      refine ⟨⟨h, ?_⟩, ?_⟩
      · rcases List.mem_append.mp hm with hm | hm
        · exact List.mem_append_left _ hm
        · exact List.mem_append_right _ (List.mem_cons_of_mem _ hm)
      · rintro rfl
        rcases List.mem_append.mp hm with hm | hm
        · exact h3 j (List.mem_map.mpr ⟨_, hm, rfl⟩) j List.mem_cons_self rfl
        · exact h4 (List.mem_map.mpr ⟨_, hm, rfl⟩)
    · rintro ⟨⟨h, hm⟩, hne⟩
      refine ⟨h, ?_⟩
      rcases List.mem_append.mp hm with hm | hm
      · exact List.mem_append_left _ hm
      · rcases List.mem_cons.mp hm with hm | hm
        · cases hm; exact absurd rfl hne
        · exact List.mem_append_right _ hm
  · rw [(locator_remove H w i).2 hx]
    refine ⟨fun h => ⟨h, ?_⟩, fun h => h.1⟩
    rintro rfl
    obtain ⟨h, hm⟩ := h
    have := hf.hash _ hm
    dsimp only at this; subst this
    exact hx ⟨j, hm, .inl rfl⟩

/-- C75: but a locator that is given another address while it is in the set is lost to searches, when
neither it nor an equal one is filed under the hash of the new address: removing it then does nothing,
and adding it files it a second time. -/
theorem locator_lost (H : Hashes) (w : LocWorld) (i : Nat) (r : AddrRef) (h : Filed H w i)
    (hno : ∀ j, (r.hash H, j) ∈ w.entries → j ≠ i ∧ ¬ SameLocator (w.step H (.readdress i r)) j i) :
    (w.step H (.readdress i r)).step H (.remove i) = w.step H (.readdress i r) ∧
    Has ((w.step H (.readdress i r)).step H (.remove i)) i ∧
    (w.hashOf H i, i) ∈ ((w.step H (.readdress i r)).step H (.add i)).entries ∧
    (r.hash H, i) ∈ ((w.step H (.readdress i r)).step H (.add i)).entries := by
  have hh : (w.step H (.readdress i r)).hashOf H i = r.hash H := by
    simp [LocWorld.step, LocWorld.hashOf]
  have hno' : ¬ ∃ j, ((w.step H (.readdress i r)).hashOf H i, j) ∈ (w.step H (.readdress i r)).entries ∧
      (j = i ∨ SameLocator (w.step H (.readdress i r)) j i) := by
    rw [hh]
    rintro ⟨j, hm, hj⟩
    have := hno j hm
    rcases hj with hj | hj
    · exact this.1 hj
    · exact this.2 hj
  have h1 := (locator_remove H _ i).2 hno'
  have h2 := (locator_add H _ i).2 hno'
  refine ⟨h1, ?_, ?_, ?_⟩
  · rw [h1]; exact ⟨_, h⟩
  · rw [h2]; exact List.mem_append_left _ h
  · rw [h2, hh]; exact List.mem_append_right _ (List.mem_singleton.mpr rfl)

/-- C75: an automatic address and a plain one are filed under unrelated hashes: an ETR keeps two
locators that are equal, when the one has an automatic address, whose value is at the moment the address
of the other (and no equal one is filed under the hash of the interface's name). -/
theorem locator_equal_twice (H : Hashes) (w : LocWorld) (i j : Nat) (hi : Filed H w i)
    (a : IP) (id : Nat) (name : String) (hri : (w.obj i).ref = .plain a) (hrj : (w.obj j).ref = .auto id name)
    (hv : w.auto id = a) (hat : (w.obj i).attrs = (w.obj j).attrs)
    (hno : ∀ k, (H.ofName name, k) ∈ w.entries → k ≠ j ∧ ¬ SameLocator w k j) :
    SameLocator w i j ∧ Filed H (w.step H (.add j)) i ∧ Filed H (w.step H (.add j)) j := by
  have hh : w.hashOf H j = H.ofName name := by simp only [LocWorld.hashOf, hrj, AddrRef.hash]
  have h2 := (locator_add H w j).2 (by
    rw [hh]
    rintro ⟨k, hm, hk⟩
    rcases hk with hk | hk
    · exact (hno k hm).1 hk
    · exact (hno k hm).2 hk)
  refine ⟨⟨by rw [hat], ?_⟩, ?_, ?_⟩
  · rw [hri, hrj]
    exact .ip _ _ a rfl (by simp only [LocWorld.addrOf, hv]) (by simp) (by simp)
  · rw [h2]; exact List.mem_append_left _ hi
  · rw [h2]; exact List.mem_append_right _ (List.mem_singleton.mpr rfl)

/-! ### Examples -/

def exLocHashes : Hashes := { ofIP := fun a => a.val, ofName := fun n => n.length, ofId := fun i => i }
def exLocA : IP := ⟨.v4, 3221225985, by decide⟩
def exLocB : IP := ⟨.v4, 3221225986, by decide⟩
def exLocZ : IP := ⟨.v4, 0, by decide⟩

/-- locator 0 has a plain address, locator 1 one that follows eth0, both with the same attributes;
locator 2 follows eth0 with another priority -/
def exLocWorld : LocWorld :=
  { obj := fun i => if i = 0 then ⟨{ priority := 1 }, .plain exLocA⟩
      else if i = 1 then ⟨{ priority := 1 }, .auto 7 "eth0"⟩
      else ⟨{ priority := 9 }, .auto 7 "eth0"⟩,
    auto := fun _ => exLocZ }

def exLocRun : LocWorld :=
  ([.add 0, .add 1, .add 2, .interface 7 exLocA, .edit 2 { priority := 3 }, .add 1] :
    List LocEvent).foldl (LocWorld.step exLocHashes) exLocWorld

/-- all three are kept, and 0 and 1 are equal now -/
example : exLocRun.entries = [(3221225985, 0), (4, 1), (4, 2)] ∧ exLocRun.locEq 0 1 = true ∧
    exLocRun.locEq 1 2 = false := by decide +kernel

example : Filed exLocHashes exLocRun 1 := by
  show (_, 1) ∈ exLocRun.entries
  decide +kernel

/-- the announcement merges the two that are equal -/
example : (getEtrLocators { locators := exLocRun.locators } [] []).toOption.map List.length = some 2 := by
  decide +kernel

/-- `locator_now`: eth0 gets an address, and locator 2 other attributes -/
example : exLocRun.auto 7 = exLocA ∧ exLocRun.auto 8 = exLocZ ∧
    (exLocRun.obj 2).attrs.priority = 3 ∧ (exLocRun.obj 1).attrs.priority = 1 := by decide +kernel

example : (([.interface 7 exLocA, .interface 7 exLocB, .interface 8 exLocA] : List LocEvent).foldl
    (LocWorld.step exLocHashes) exLocWorld).auto 7 = exLocB :=
  ((locator_now exLocHashes [.interface 7 exLocA] [.interface 8 exLocA] exLocWorld 7 0).1
    (by simp)).2 exLocB

/-- the hypotheses of `locator_stays` -/
example : Filed exLocHashes (([.interface 7 exLocB, .edit 1 { priority := 4 }, .remove 2] :
    List LocEvent).foldl (LocWorld.step exLocHashes) exLocRun) 1 := by
  refine locator_stays _ _ _ _ (by show (_, 1) ∈ exLocRun.entries; decide +kernel) (by simp) ?_
  intro pre j post he
  match pre, he with
  | [a, b], he =>
    cases he
    refine ⟨by decide, ?_⟩
    rw [← locEq_iff]
    decide +kernel
  | [], he => cases he
  | [a], he => cases he
  | [a, b, c], he => cases he
  | a :: b :: c :: d :: _, he => cases he

/-- of `locator_follows`: eth0 gets another address -/
example : ∃ ls, getEtrLocators { locators := (exLocRun.step exLocHashes (.interface 7 exLocB)).locators } []
      [] = .ok ls ∧ ∃ x ∈ ls, x.address = .ip exLocB ∧ x.priority = 1 := by
  obtain ⟨ls, hls⟩ := (etr_locators_defined
    { locators := (exLocRun.step exLocHashes (.interface 7 exLocB)).locators } [] []).mpr
    ⟨by
      have h : (exLocRun.step exLocHashes (.interface 7 exLocB)).locators.map Locator.address =
          [.ip exLocA, .ip exLocB, .ip exLocB] := by decide +kernel
      intro l hl
      have hm := List.mem_map_of_mem (f := Locator.address) hl
      dsimp only at hm
      rw [h] at hm
      simp only [List.mem_cons, List.not_mem_nil, or_false] at hm
      rcases hm with hm | hm | hm <;> exact ⟨_, hm⟩, by simp⟩
  obtain ⟨x, hx, h1, h2, _⟩ := locator_follows exLocHashes [.interface 7 exLocB] exLocRun _ 1
    (by show (_, 1) ∈ exLocRun.entries; decide +kernel) (by simp)
    (by intro pre j post he
        match pre, he with
        | [], he => cases he
        | [_], he => cases he
        | _ :: _ :: _, he => cases he)
    rfl 7 "eth0" (by decide +kernel) (by decide +kernel) _ rfl [] (by simp) [] ls hls
  exact ⟨ls, hls, x, hx, h1, by rw [h2]; decide +kernel⟩

/-- of `locator_removed`, for locator 2 -/
example : ¬ Has (exLocRun.step exLocHashes (.remove 2)) 2 ∧ Has (exLocRun.step exLocHashes (.remove 2)) 0 := by
  have h := (locator_removed exLocHashes _ exLocWorld exLocRun rfl (by simp) rfl 2 (by
    rintro j ⟨h, hm⟩ hj
    rw [show exLocRun.entries = [(3221225985, 0), (4, 1), (4, 2)] from by decide +kernel] at hm
    rw [← locEq_iff]
    simp only [List.mem_cons, Prod.mk.injEq, List.not_mem_nil, or_false] at hm
    rcases hm with ⟨_, rfl⟩ | ⟨_, rfl⟩ | ⟨_, rfl⟩
    · decide +kernel
    · decide +kernel
    · exact absurd rfl hj)).2
  refine ⟨fun hh => ((h 2).mp hh).2 rfl, (h 0).mpr ⟨⟨3221225985, ?_⟩, by decide⟩⟩
  decide +kernel

/-- locator 0 given another address cannot be removed any more -/
example : Has ((exLocRun.step exLocHashes (.readdress 0 (.plain exLocB))).step exLocHashes (.remove 0)) 0 := by
  refine (locator_lost exLocHashes exLocRun 0 (.plain exLocB)
    (by show (_, 0) ∈ exLocRun.entries; decide +kernel) ?_).2.1
  intro j hm
  rw [show exLocRun.entries = [(3221225985, 0), (4, 1), (4, 2)] from by decide +kernel] at hm
  simp [AddrRef.hash, exLocHashes, exLocB] at hm

/-- of `locator_equal_twice` -/
example : SameLocator { exLocRun with entries := [(3221225985, 0)] } 0 1 :=
  (locator_equal_twice exLocHashes { exLocRun with entries := [(3221225985, 0)] } 0 1
    (by show (_, 0) ∈ [((3221225985 : Int), 0)]; decide +kernel) exLocA 7 "eth0" (by decide +kernel)
    (by decide +kernel) (by decide +kernel) (by decide +kernel) (by
      intro k hm
      have h4 : exLocHashes.ofName "eth0" = 4 := by decide +kernel
      rw [h4] at hm
      simp at hm)).1

end PyLisp.Props
