import Verif.EtrRace
import Verif.Props.Etr
/-
C92: registering while addresses change.
-/
namespace PyLisp.Props
open PyLisp

/-! ### specification -/

/-- the locator has the address `a` all the time -/
def Steady (mem : Nat → Nat → IP) (l : EtrLocator) (a : IP) : Prop := ∀ k, (l.now (mem k)).address = .ip a

/-- the locator is set at the read `i`, has the address of one of the sockets (or none has) as compared between the
reads `i` and `j`, and has the address `a` at the read `j` -/
def SeenAs (mem : Nat → Nat → IP) (sockets : List IpRef) (l : EtrLocator) (isLocal : Bool) (a : IP) : Prop :=
  ∃ i j, i < j ∧ (∃ a₀, (l.now (mem i)).address = .ip a₀ ∧ a₀.val ≠ 0) ∧ (l.now (mem j)).address = .ip a ∧
    (isLocal = true → ∃ s ∈ sockets, ∃ k, i < k ∧ k + 1 < j ∧ (s.at (mem k)).val = l.val (mem (k + 1))) ∧
    (isLocal = false → ∀ s ∈ sockets, ∃ k, i < k ∧ k + 1 < j ∧ (s.at (mem k)).val ≠ l.val (mem (k + 1)))

/-! ### lemmas -/

theorem localAt_le (mem : Nat → Nat → IP) (l : EtrLocator) (ss : List IpRef) : ∀ k, k ≤ (localAt mem l k ss).2 := by
  induction ss with
  | nil => intro k; exact Nat.le_refl _
  | cons s ss ih =>
    intro k
    rw [localAt]
    split
    · exact Nat.le_add_right _ _
    · exact Nat.le_trans (Nat.le_add_right _ _) (ih _)

theorem localAt_spec (mem : Nat → Nat → IP) (l : EtrLocator) (ss : List IpRef) : ∀ k,
    ((localAt mem l k ss).1 = true → ∃ s ∈ ss, ∃ j, k ≤ j ∧ j + 1 < (localAt mem l k ss).2 ∧
      (s.at (mem j)).val = l.val (mem (j + 1))) ∧
    ((localAt mem l k ss).1 = false → ∀ s ∈ ss, ∃ j, k ≤ j ∧ j + 1 < (localAt mem l k ss).2 ∧
      (s.at (mem j)).val ≠ l.val (mem (j + 1))) := by
  induction ss with
  | nil => intro k; exact ⟨(fun h => by cases h), fun _ s hs => by cases hs⟩
  | cons s ss ih =>
    intro k
    rw [localAt]
    split
    · rename_i h
      exact ⟨fun _ => ⟨s, by simp, k, Nat.le_refl _, by simp, h⟩, fun h => by cases h⟩
    · rename_i h
      obtain ⟨i1, i2⟩ := ih (k + 2)
      have hle := localAt_le mem l ss (k + 2)
      refine ⟨fun ht => ?_, fun hf s' hs' => ?_⟩
      · obtain ⟨s', hs', j, h1, h2, h3⟩ := i1 ht
        exact ⟨s', by simp [hs'], j, by omega, h2, h3⟩
      · rcases List.mem_cons.mp hs' with rfl | hs'
        · exact ⟨k, Nat.le_refl _, by omega, h⟩
        · obtain ⟨j, h1, h2, h3⟩ := i2 hf s' hs'
          exact ⟨j, by omega, h2, h3⟩

theorem now_ip {l : EtrLocator} {m : Nat → IP} (h : ∃ a, (l.now m).address = .ip a) (m' : Nat → IP) :
    ∃ a, (l.now m').address = .ip a := by
  obtain ⟨a, h⟩ := h
  cases hc : l.cell with
  | none => exact ⟨a, by simp only [EtrLocator.now, hc] at h ⊢; exact h⟩
  | some i => exact ⟨m' i, by simp only [EtrLocator.now, hc]⟩

/-- what the loop adds for a locator -/
theorem loopAt_spec (mem : Nat → Nat → IP) (sockets : List IpRef) (rtrs : List Addr) (ls : List EtrLocator) :
    ∀ (inc : Bool) (acc out : List Locator) (k : Nat), locatorLoopAt mem sockets rtrs ls inc acc k = .ok out →
    (∀ l ∈ ls, ∀ m, ∃ a, (l.now m).address = .ip a) ∧ (acc.Nodup → out.Nodup) ∧ (∀ x ∈ acc, x ∈ out) ∧
    (∀ x ∈ out, x ∈ acc ∨
      (∃ l ∈ ls, ∃ b a, SeenAs mem sockets l b a ∧ (b = true → rtrs = []) ∧ AnnouncedFor l.base b (.ip a) x) ∨
      (inc = false ∧ ∃ l ∈ ls, ∃ a, SeenAs mem sockets l true a ∧ ∃ r ∈ rtrs, AnnouncedFor l.base false r x)) ∧
    (∀ l ∈ ls, (∀ j, l.val (mem j) ≠ 0) → ∃ b a, SeenAs mem sockets l b a ∧
      ((b = false ∨ rtrs = []) → ∃ x ∈ out, AnnouncedFor l.base b (.ip a) x) ∧
      (b = true → inc = false → ∀ r ∈ rtrs, ∃ x ∈ out, ∃ l' ∈ ls, AnnouncedFor l'.base false r x)) := by
  induction ls with
  | nil =>
    intro inc acc out k h
    cases h
    exact ⟨(fun _ h => by cases h), id, fun _ h => h, fun _ h => .inl h, fun _ h => by cases h⟩
  | cons l ls ih =>
    intro inc acc out k h
    rw [locatorLoopAt] at h
    cases hl : (l.now (mem k)).address with
    | ip a =>
      rw [hl] at h
      dsimp only at h
      have hip := now_ip (l := l) ⟨a, hl⟩
      have first : (∀ l ∈ ls, ∀ m, ∃ a, (l.now m).address = .ip a) →
          ∀ l' ∈ l :: ls, ∀ m, ∃ a, (l'.now m).address = .ip a := by
        intro hh l' hl'
        rcases List.mem_cons.mp hl' with rfl | hl'
        · exact hip
        · exact hh l' hl'
      have hval : l.val (mem k) = a.val := by simp only [EtrLocator.val, hl]
      split at h
      · rename_i h0
        obtain ⟨i1, i2, i3, i4, i5⟩ := ih _ _ _ _ h
        refine ⟨first i1, i2, i3, fun x hx => ?_, fun l' hl' hset => ?_⟩
        · rcases i4 x hx with h | ⟨m, hm, r⟩ | ⟨h1, m, hm, r⟩
          · exact .inl h
          · exact .inr (.inl ⟨m, by simp [hm], r⟩)
          · exact .inr (.inr ⟨h1, m, by simp [hm], r⟩)
        · rcases List.mem_cons.mp hl' with rfl | hl'
          · exact absurd (hval.trans h0) (hset k)
          · obtain ⟨b, a', h1, h2, h3⟩ := i5 l' hl' hset
            refine ⟨b, a', h1, h2, fun hb hi r hr => ?_⟩
            obtain ⟨x, hx, m, hm, hxa⟩ := h3 hb hi r hr
            exact ⟨x, hx, m, by simp [hm], hxa⟩
      · rename_i h0
        have hle := localAt_le mem l sockets (k + 1)
        obtain ⟨s1, s2⟩ := localAt_spec mem l sockets (k + 1)
        obtain ⟨a', ha'⟩ := hip (mem (localAt mem l (k + 1) sockets).2)
        have hseen : SeenAs mem sockets l (localAt mem l (k + 1) sockets).1 a' := by
          refine ⟨k, (localAt mem l (k + 1) sockets).2, by omega, ⟨a, hl, h0⟩, ha', fun hb => ?_, fun hb s hs => ?_⟩
          · obtain ⟨s, hs, j, h1, h2, h3⟩ := s1 hb
            exact ⟨s, hs, j, by omega, h2, h3⟩
          · obtain ⟨j, h1, h2, h3⟩ := s2 hb s hs
            exact ⟨j, by omega, h2, h3⟩
        generalize localAt mem l (k + 1) sockets = q at *
        obtain ⟨b, k'⟩ := q
        dsimp only at *
        split at h
        · rename_i hb
          obtain ⟨hb, hr⟩ := hb
          subst hb
          obtain ⟨i1, i2, i3, i4, i5⟩ := ih _ _ _ _ h
          have hfold : ∀ x, x ∈ (if inc = true then acc
              else rtrs.foldl (fun acc r => addNew acc (copyLocator l.base false r)) acc) ↔
              x ∈ acc ∨ (inc = false ∧ ∃ r ∈ rtrs, AnnouncedFor l.base false r x) := by
            intro x
            cases inc with
            | true => simp
            | false =>
              simp only [Bool.false_eq_true, if_false, mem_foldl_copy, true_and, announcedFor_iff]
          refine ⟨first i1, fun hn => i2 ?_, fun x hx => i3 x ((hfold x).mpr (.inl hx)), fun x hx => ?_,
            fun l' hl' hset => ?_⟩
          · split
            · exact hn
            · exact nodup_foldl_copy _ _ _ hn
          · rcases i4 x hx with h | ⟨m, hm, r⟩ | ⟨h1, _⟩
            · rcases (hfold x).mp h with h | ⟨h1, h2⟩
              · exact .inl h
              · exact .inr (.inr ⟨h1, l, by simp, a', hseen, h2⟩)
            · exact .inr (.inl ⟨m, by simp [hm], r⟩)
            · cases h1
          · have hall : inc = false → ∀ r ∈ rtrs, ∃ x ∈ out, ∃ l' ∈ l :: ls, AnnouncedFor l'.base false r x :=
              fun hi r hr => ⟨copyLocator l.base false r,
                i3 _ ((hfold _).mpr (.inr ⟨hi, r, hr, announcedFor_iff.mpr rfl⟩)), l, by simp,
                announcedFor_iff.mpr rfl⟩
            rcases List.mem_cons.mp hl' with rfl | hl'
            · exact ⟨true, a', hseen, (fun h => by
                rcases h with h | h
                · cases h
                · exact absurd h hr), fun _ hi => hall hi⟩
            · obtain ⟨b, a2, h1, h2, _⟩ := i5 l' hl' hset
              exact ⟨b, a2, h1, h2, fun _ hi => hall hi⟩
        · rename_i hb
          have hbr : b = true → rtrs = [] := by
            intro hb'
            by_cases hr : rtrs = []
            · exact hr
            · exact absurd ⟨hb', hr⟩ hb
          obtain ⟨i1, i2, i3, i4, i5⟩ := ih _ _ _ _ h
          rw [ha'] at i2 i3 i4
          refine ⟨first i1, fun hn => i2 (nodup_addNew hn), fun x hx => i3 x (mem_addNew.mpr (.inl hx)),
            fun x hx => ?_, fun l' hl' hset => ?_⟩
          · rcases i4 x hx with h | ⟨m, hm, r⟩ | ⟨h1, m, hm, r⟩
            · rcases mem_addNew.mp h with h | h
              · exact .inl h
              · exact .inr (.inl ⟨l, by simp, b, a', hseen, hbr, announcedFor_iff.mpr h⟩)
            · exact .inr (.inl ⟨m, by simp [hm], r⟩)
            · exact .inr (.inr ⟨h1, m, by simp [hm], r⟩)
          · rcases List.mem_cons.mp hl' with rfl | hl'
            · refine ⟨b, a', hseen, fun _ => ⟨_, i3 _ (mem_addNew.mpr (.inr rfl)), announcedFor_iff.mpr rfl⟩,
                fun hb' _ r hr => ?_⟩
              rw [hbr hb'] at hr; cases hr
            · obtain ⟨b2, a2, h1, h2, h3⟩ := i5 l' hl' hset
              refine ⟨b2, a2, h1, h2, fun hb' hi r hr => ?_⟩
              obtain ⟨x, hx, m, hm, hxa⟩ := h3 hb' hi r hr
              exact ⟨x, hx, m, by simp [hm], hxa⟩
    | _ => rw [hl] at h; cases h

theorem steady_val {mem : Nat → Nat → IP} {l : EtrLocator} {a : IP} (h : Steady mem l a) (k : Nat) :
    l.val (mem k) = a.val := by
  simp only [EtrLocator.val, h k]

theorem localAt_const (m : Nat → IP) (l : EtrLocator) (a : IP) (h : (l.now m).address = .ip a) (ss : List IpRef) :
    ∀ k, (localAt (fun _ => m) l k ss).1 = isLocalAddr (ss.map (·.at m)) a := by
  have hv : l.val m = a.val := by simp only [EtrLocator.val, h]
  induction ss with
  | nil => intro k; rfl
  | cons s ss ih =>
    intro k
    rw [localAt]
    simp only [hv]
    split
    · rename_i he
      simp [isLocalAddr, he]
    · rename_i he
      rw [ih]
      simp [isLocalAddr, he]

theorem copy_now (l : EtrLocator) (m : Nat → IP) (b : Bool) (a : Addr) :
    copyLocator (l.now m) b a = copyLocator l.base b a := by
  cases hc : l.cell <;> simp only [EtrLocator.now, hc] <;> rfl

theorem loopAt_const (m : Nat → IP) (sockets : List IpRef) (rtrs : List Addr) (ls : List EtrLocator) :
    ∀ (inc : Bool) (acc : List Locator) (k : Nat), locatorLoopAt (fun _ => m) sockets rtrs ls inc acc k =
      locatorLoop (sockets.map (·.at m)) rtrs (ls.map (·.now m)) inc acc := by
  induction ls with
  | nil => intro inc acc k; rfl
  | cons l ls ih =>
    intro inc acc k
    rw [locatorLoopAt, List.map_cons, locatorLoop]
    cases hl : (l.now m).address with
    | ip a =>
      dsimp only
      rw [localAt_const m l a hl]
      simp only [ih, copy_now]
    | _ => rfl

/-! ### the property -/

/-- C92: a registration during which no address changes announces the locators of C51. -/
theorem register_quiet (mem : Nat → Nat → IP) (hq : ∀ k i, mem k i = mem 0 i) (s : EtrState) (ls : List EtrLocator)
    (sockets : List IpRef) (tentative : List Addr) :
    getEtrLocatorsAt mem s ls sockets tentative =
      getEtrLocators { s with locators := ls.map (·.now (mem 0)) } (sockets.map (·.at (mem 0))) tentative := by
  have hm : mem = fun _ => mem 0 := funext fun k => funext fun i => hq k i
  rw [hm]
  rw [getEtrLocatorsAt, getEtrLocators]
  have : getRtrs { s with locators := ls.map (·.now (mem 0)) } = getRtrs s := rfl
  simp only [this]
  cases getRtrs s with
  | error e => rfl
  | ok rs => exact loopAt_const _ _ _ _ _ _ _

/-- C92: whenever addresses change, registering works or fails as it always does. -/
theorem register_defined (mem : Nat → Nat → IP) (s : EtrState) (ls : List EtrLocator) (sockets : List IpRef)
    (tentative : List Addr) :
    (∃ out, getEtrLocatorsAt mem s ls sockets tentative = .ok out) ↔
      (∀ l ∈ ls, l.cell = none → ∃ a, l.base.address = .ip a) ∧
      (∀ p ∈ s.rtrs, ∀ r ∈ p.2, ∃ a, r.asIP = .ok a) := by
  constructor
  · rintro ⟨out, h⟩
    rw [getEtrLocatorsAt] at h
    split at h
    · cases h
    · rename_i rs hr
      refine ⟨fun l hl hc => ?_, (addAllRtrs_iff _ _ _ hr).1⟩
      obtain ⟨a, ha⟩ := (loopAt_spec _ _ _ _ _ _ _ _ h).1 l hl (mem 0)
      exact ⟨a, by simpa only [EtrLocator.now, hc] using ha⟩
  · rintro ⟨h1, h2⟩
    obtain ⟨rs, hr⟩ := addAllRtrs_ok s.rtrs [] h2
    have hr' : getRtrs s = .ok rs := hr
    rw [getEtrLocatorsAt]
    simp only [hr']
    generalize tentative.foldl addNew (rs.map .ip) = rtrs
    suffices ∀ (ls : List EtrLocator), (∀ l ∈ ls, l.cell = none → ∃ a, l.base.address = .ip a) →
        ∀ inc acc k, ∃ out, locatorLoopAt mem sockets rtrs ls inc acc k = .ok out from this ls h1 _ _ _
    clear h1 ls
    intro ls
    induction ls with
    | nil => intro _ inc acc k; exact ⟨acc, rfl⟩
    | cons l ls ih =>
      intro h inc acc k
      have ih := ih fun l' hl' => h l' (by simp [hl'])
      have hl : ∃ a, (l.now (mem k)).address = .ip a := by
        cases hc : l.cell with
        | none =>
          obtain ⟨a, ha⟩ := h l (by simp) hc
          exact ⟨a, by simpa only [EtrLocator.now, hc] using ha⟩
        | some i => exact ⟨mem k i, by simp only [EtrLocator.now, hc]⟩
      obtain ⟨a, ha⟩ := hl
      rw [locatorLoopAt, ha]
      dsimp only
      split
      · exact ih _ _ _
      · split <;> exact ih _ _ _

/-- C92: whenever addresses change, every locator announced is one of these, and none is announced twice: a configured
locator, with its priorities and weights and an address it had during the registration, which was set at a moment before
that; marked local only if it had the address of a socket in between, and then no RTR is in use; or an RTR in use, with
the priorities and weights of a configured locator that had the address of a socket during the registration. -/
theorem register_announces (mem : Nat → Nat → IP) (s : EtrState) (ls : List EtrLocator) (sockets : List IpRef)
    (tentative : List Addr) (out : List Locator) (h : getEtrLocatorsAt mem s ls sockets tentative = .ok out) :
    out.Nodup ∧ ∀ x ∈ out,
      (∃ l ∈ ls, ∃ b a, SeenAs mem sockets l b a ∧ (b = true → ∀ r, ¬ UsableRtr s tentative r) ∧
        AnnouncedFor l.base b (.ip a) x) ∨
      (∃ l ∈ ls, ∃ a, SeenAs mem sockets l true a ∧ ∃ r, UsableRtr s tentative r ∧ AnnouncedFor l.base false r x) := by
  rw [getEtrLocatorsAt] at h
  split at h
  · cases h
  · rename_i rs hr
    obtain ⟨_, h2, _, h4, _⟩ := loopAt_spec _ _ _ _ _ _ _ _ h
    refine ⟨h2 List.nodup_nil, fun x hx => ?_⟩
    rcases h4 x hx with h | ⟨l, hl, b, a, h1, h2, h3⟩ | ⟨_, l, hl, a, h1, r, h2, h3⟩
    · cases h
    · refine .inl ⟨l, hl, b, a, h1, fun hb r hu => ?_, h3⟩
      rw [← mem_rtrs hr, h2 hb] at hu
      cases hu
    · exact .inr ⟨l, hl, a, h1, r, (mem_rtrs hr _ _).mp h2, h3⟩

/-- C92: the unset address is announced only for a configured locator that loses its address during the registration
(or if an RTR is itself the unset address). -/
theorem register_unset (mem : Nat → Nat → IP) (s : EtrState) (ls : List EtrLocator) (sockets : List IpRef)
    (tentative : List Addr) (out : List Locator) (h : getEtrLocatorsAt mem s ls sockets tentative = .ok out)
    (x : Locator) (hx : x ∈ out) (a : IP) (ha : x.address = .ip a) (hz : a.val = 0) :
    UsableRtr s tentative (.ip a) ∨
      ∃ l ∈ ls, ∃ c, l.cell = some c ∧ ∃ i j, i < j ∧ (mem i c).val ≠ 0 ∧ (mem j c).val = 0 := by
  rcases (register_announces mem s ls sockets tentative out h).2 x hx with
    ⟨l, hl, b, a', ⟨i, j, hij, ⟨a₀, h0, hn⟩, h1, _⟩, _, h3⟩ | ⟨l, hl, a', _, r, hu, h3⟩
  · have he : a' = a := by
      have h4 : x.address = .ip a' := h3.2.2.2.2.2.2.2.1
      rw [ha] at h4; cases h4; rfl
    subst he
    refine .inr ⟨l, hl, ?_⟩
    cases hc : l.cell with
    | none =>
      simp only [EtrLocator.now, hc] at h0 h1
      rw [h0] at h1; cases h1; exact absurd hz hn
    | some c =>
      simp only [EtrLocator.now, hc, Addr.ip.injEq] at h0 h1
      exact ⟨c, rfl, i, j, hij, by rw [h0]; exact hn, by rw [h1]; exact hz⟩
  · have h4 : x.address = r := h3.2.2.2.2.2.2.2.1
    rw [ha] at h4
    exact .inl (h4 ▸ hu)

/-- C92: a configured locator that keeps its address is not disturbed by changes of others: if no socket has its address
at any time, it is announced with this address, not local. -/
theorem register_steady_remote (mem : Nat → Nat → IP) (s : EtrState) (ls : List EtrLocator) (sockets : List IpRef)
    (tentative : List Addr) (out : List Locator) (h : getEtrLocatorsAt mem s ls sockets tentative = .ok out)
    (l : EtrLocator) (hl : l ∈ ls) (a : IP) (ha : Steady mem l a) (hz : a.val ≠ 0)
    (hs : ∀ q ∈ sockets, ∀ k, (q.at (mem k)).val ≠ a.val) :
    ∃ x ∈ out, AnnouncedFor l.base false (.ip a) x := by
  rw [getEtrLocatorsAt] at h
  split at h
  · cases h
  · obtain ⟨_, _, _, _, h5⟩ := loopAt_spec _ _ _ _ _ _ _ _ h
    obtain ⟨b, a', ⟨i, j, _, _, h1, h2, _⟩, h3, _⟩ := h5 l hl (fun j => by rw [steady_val ha]; exact hz)
    rw [ha j] at h1; cases h1
    cases b with
    | false => exact h3 (.inl rfl)
    | true =>
      obtain ⟨q, hq, k, _, _, he⟩ := h2 rfl
      exact absurd (he.trans (steady_val ha _)) (hs q hq k)

/-- C92: … and if a socket has its address all the time, it is announced with this address as local, or, if RTRs are in
use, all of them are announced. -/
theorem register_steady_local (mem : Nat → Nat → IP) (s : EtrState) (ls : List EtrLocator) (sockets : List IpRef)
    (tentative : List Addr) (out : List Locator) (h : getEtrLocatorsAt mem s ls sockets tentative = .ok out)
    (l : EtrLocator) (hl : l ∈ ls) (a : IP) (ha : Steady mem l a) (hz : a.val ≠ 0)
    (hs : ∃ q ∈ sockets, ∀ k, (q.at (mem k)).val = a.val) :
    ((∀ r, ¬ UsableRtr s tentative r) → ∃ x ∈ out, AnnouncedFor l.base true (.ip a) x) ∧
    (∀ r, UsableRtr s tentative r → ∃ x ∈ out, ∃ l' ∈ ls, AnnouncedFor l'.base false r x) := by
  rw [getEtrLocatorsAt] at h
  split at h
  · cases h
  · rename_i rs hr
    obtain ⟨_, _, _, _, h5⟩ := loopAt_spec _ _ _ _ _ _ _ _ h
    obtain ⟨b, a', ⟨i, j, _, _, h1, _, h2⟩, h3, h4⟩ := h5 l hl (fun j => by rw [steady_val ha]; exact hz)
    rw [ha j] at h1; cases h1
    obtain ⟨q, hq, hk⟩ := hs
    cases b with
    | false =>
      obtain ⟨k, _, _, hne⟩ := h2 rfl q hq
      exact absurd ((hk k).trans (steady_val ha _).symm) hne
    | true =>
      refine ⟨fun hno => h3 (.inr ?_), fun r hu => h4 rfl rfl r ((mem_rtrs hr _ _).mpr hu)⟩
      apply List.eq_nil_iff_forall_not_mem.mpr
      intro r hu
      exact hno r ((mem_rtrs hr _ _).mp hu)

/-- C92: a registration can go out with the unset address: the address of the interface disappears right after it was
found to be set. -/
theorem register_can_announce_unset (s : EtrState) (hs : s.rtrs = []) (l : EtrLocator) (c : Nat) (hc : l.cell = some c)
    (sockets : List IpRef) (a z : IP) (_hz : z.val = 0) (ha : a.val ≠ 0) :
    ∃ mem : Nat → Nat → IP, (∀ i, mem 0 i = a) ∧ (∀ k i, mem (k + 1) i = z) ∧
      ∃ b, getEtrLocatorsAt mem s [l] sockets [] = .ok [copyLocator l.base b (.ip z)] := by
  refine ⟨fun k _ => if k = 0 then a else z, fun _ => rfl, fun _ _ => rfl, ?_⟩
  generalize hm : (fun (k : Nat) (_ : Nat) => if k = 0 then a else z) = mem
  have h0 : mem 0 c = a := by rw [← hm]; rfl
  have h1 : ∀ k, 1 ≤ k → mem k c = z := by
    intro k hk; rw [← hm]; exact if_neg (by omega)
  have hle := localAt_le mem l sockets 1
  refine ⟨(localAt mem l 1 sockets).1, ?_⟩
  have hr : getRtrs s = .ok [] := by rw [getRtrs, hs]; rfl
  rw [getEtrLocatorsAt, hr]
  dsimp only
  rw [locatorLoopAt]
  have hn : ∀ k, (l.now (mem k)).address = .ip (mem k c) := by
    intro k; simp only [EtrLocator.now, hc]
  rw [hn, h0]
  dsimp only
  rw [if_neg ha, if_neg (by simp), hn, h1 _ hle]
  rfl

/-- C92: behind a NAT a registration can go out with the own, private address instead of the RTRs: the address changes
between the reads of the address of the socket and of that of the locator, which are the same automatic address. -/
theorem register_can_bypass_rtr (s : EtrState) (l : EtrLocator) (c : Nat) (hc : l.cell = some c) (a b : IP)
    (ha : a.val ≠ 0) (hab : a.val ≠ b.val) (r : IP) (hs : s.rtrs = []) :
    ∃ mem : Nat → Nat → IP, (∀ i, mem 0 i = a ∧ mem 1 i = a) ∧ (∀ k i, mem (k + 2) i = b) ∧
      getEtrLocatorsAt mem s [l] [.auto c] [.ip r] = .ok [copyLocator l.base false (.ip b)] := by
  refine ⟨fun k _ => if k ≤ 1 then a else b, fun _ => ⟨rfl, rfl⟩, fun k _ => if_neg (by omega), ?_⟩
  have hr : getRtrs s = .ok [] := by rw [getRtrs, hs]; rfl
  rw [getEtrLocatorsAt, hr]
  simp [locatorLoopAt, EtrLocator.now, hc, ha, localAt, IpRef.at, EtrLocator.val, hab, addNew]

/-! ### the theorems apply -/

section
private def ipA : IP := ⟨.v4, 0xc0000201, by decide⟩
private def ipB : IP := ⟨.v4, 0xc0000202, by decide⟩
private def ipZ : IP := ⟨.v4, 0, by decide⟩
private def autoLocator : EtrLocator := { base := { priority := 1, weight := 100 }, cell := some 0 }
private def fixedLocator : EtrLocator := { base := { priority := 2, weight := 50, address := .ip ipB } }
/-- the automatic address is lost before the second read -/
private def lost : Nat → Nat → IP := fun k _ => if k = 0 then ipA else ipZ

example : (getEtrLocatorsAt lost {} [autoLocator, fixedLocator] [.auto 0, .auto 1] []).toOption =
    some [copyLocator autoLocator.base true (.ip ipZ), copyLocator fixedLocator.base false (.ip ipB)] := by
  decide +kernel

/-- the fixed locator keeps its address, and no socket has it -/
example (out : List Locator)
    (h : getEtrLocatorsAt lost {} [autoLocator, fixedLocator] [.auto 0, .auto 1] [] = .ok out) :
    ∃ x ∈ out, AnnouncedFor fixedLocator.base false (.ip ipB) x :=
  register_steady_remote lost {} _ _ _ out h fixedLocator (by simp) ipB (fun _ => rfl) (by decide) (by
    intro q hq k
    simp at hq
    rcases hq with rfl | rfl <;> show (if k = 0 then ipA else ipZ).val ≠ ipB.val <;> split <;> decide)

/-- a locator with the fixed address of a socket -/
example (out : List Locator)
    (h : getEtrLocatorsAt lost {} [autoLocator, fixedLocator] [.auto 0, .fixed ipB] [] = .ok out) :
    ∃ x ∈ out, AnnouncedFor fixedLocator.base true (.ip ipB) x :=
  (register_steady_local lost {} _ _ _ out h fixedLocator (by simp) ipB (fun _ => rfl) (by decide)
    ⟨.fixed ipB, by simp, fun _ => rfl⟩).1 (by
      rintro r (⟨_, _, h, _⟩ | h)
      · cases h
      · cases h)

example : ∃ mem : Nat → Nat → IP, (∀ i, mem 0 i = ipA ∧ mem 1 i = ipA) ∧ (∀ k i, mem (k + 2) i = ipB) ∧
    getEtrLocatorsAt mem {} [autoLocator] [.auto 0] [.ip ipZ] = .ok [copyLocator autoLocator.base false (.ip ipB)] :=
  register_can_bypass_rtr {} autoLocator 0 rfl ipA ipB (by decide) (by decide) ipZ rfl
end

end PyLisp.Props
