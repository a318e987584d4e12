import Verif.Pending
/-
C76: answers to the requests of an ETR under every schedule of the threads.  What a reader needs:
`Pending.Shared.run s acts = some s'` says that the steps `acts` (of the main thread and of all
registration threads, interleaved) lead from `s` to `s'`; a new node is `Pending.Shared.new kind`.
-/
namespace PyLisp.Props
open PyLisp.Pending

variable {α : Type}

/-! ### Specification -/

/-- an answer is for a request: it came from the Map-Server the request is for, with its nonce -/
def IsFor (m : Delivery α) (q : Waiting α) : Prop := m.source = q.server ∧ m.nonce = q.nonce

/-- the thread of the request has not taken it off the list: it still tries, or it was told to stop (or
could not send) meanwhile -/
def OnList : Pc α → Prop
  | .sending | .waiting | .leaving | .abandoned => True
  | _ => False

/-- the thread uses this answer -/
def Uses (p : Pc α) (m : Delivery α) : Prop :=
  p = .comparing m ∨ (∃ m' a, p = .answered m m' a) ∨ ∃ m' a, p = .answered m' m a

/-! ### The invariant -/

structure PInv (R : Delivery α → Prop) (s : Shared α) : Prop where
  nodup : s.list.Nodup
  mem : ∀ r, r ∈ s.list ↔ r < s.count ∧ OnList (s.reqs r).pc
  ans : ∀ r m p, (s.reqs r).answer = some (m, p) → R m ∧ IsFor m (s.reqs r)
  pcs : ∀ r m, Uses (s.reqs r).pc m → R m ∧ IsFor m (s.reqs r)
  event : ∀ r, (s.reqs r).event = true → (s.reqs r).answer ≠ none
  comparing : ∀ r m, (s.reqs r).pc = .comparing m → (s.reqs r).answer ≠ none
  next : ∀ m i, s.handler = .next m i → R m
  holding : ∀ m i r, s.handler = .holding m i r → R m ∧ r < s.count
  stored : ∀ m r, s.handler = .stored m r →
    r < s.count ∧ ∃ p, (s.reqs r).answer = some (m, p)
  filled : ∀ m r, s.handler = .filled m r →
    r < s.count ∧ ∃ p, (s.reqs r).answer = some (m, p)

theorem set_reqs (s : Shared α) (r : Nat) (f : Waiting α → Waiting α) (j : Nat) :
    (s.set r f).reqs j = if j = r then f (s.reqs r) else s.reqs j := rfl

theorem add_reqs (s : Shared α) (server : IP) (nonce : Bytes) (j : Nat) :
    (s.add server nonce).reqs j =
      if j = s.count then { server := server, nonce := nonce } else s.reqs j := rfl

theorem remove_reqs (s : Shared α) (r j : Nat) :
    (s.remove r).reqs j = if j = r then { s.reqs r with pc := .judging } else s.reqs j := rfl

theorem not_uses {p : Pc α} {m : Delivery α} (hu : Uses p m)
    (h : OnList p ∨ p = .judging ∨ p = .unanswered) : False := by
  rcases hu with rfl | ⟨_, _, rfl⟩ | ⟨_, _, rfl⟩ <;> rcases h with h | h | h <;> cases h

/-- a step that changes only where the thread of `r` is (not whether it is on the list), its count of
attempts and `sent_from` -/
theorem PInv.setPc {R : Delivery α → Prop} {s : Shared α} (h : PInv R s) (r : Nat)
    (f : Waiting α → Waiting α)
    (h1 : (f (s.reqs r)).server = (s.reqs r).server) (h2 : (f (s.reqs r)).nonce = (s.reqs r).nonce)
    (h3 : (f (s.reqs r)).answer = (s.reqs r).answer) (h4 : (f (s.reqs r)).event = (s.reqs r).event)
    (h5 : OnList (f (s.reqs r)).pc ↔ OnList (s.reqs r).pc)
    (h6 : ∀ m, Uses (f (s.reqs r)).pc m → R m ∧ IsFor m (s.reqs r))
    (h7 : ∀ m, (f (s.reqs r)).pc = .comparing m → (s.reqs r).answer ≠ none) : PInv R (s.set r f) where
  nodup := h.nodup
  mem j := by
    rw [set_reqs]
    by_cases hj : j = r
    · subst hj; rw [if_pos rfl, h5]; exact h.mem j
    · rw [if_neg hj]; exact h.mem j
  ans j m p := by
    rw [set_reqs]
    by_cases hj : j = r
    · subst hj; rw [if_pos rfl, h3, IsFor, h1, h2]; exact h.ans j m p
    · rw [if_neg hj]; exact h.ans j m p
  pcs j m := by
    rw [set_reqs]
    by_cases hj : j = r
    · subst hj; rw [if_pos rfl, IsFor, h1, h2]; exact h6 m
    · rw [if_neg hj]; exact h.pcs j m
  event j := by
    rw [set_reqs]
    by_cases hj : j = r
    · subst hj; rw [if_pos rfl, h3, h4]; exact h.event j
    · rw [if_neg hj]; exact h.event j
  comparing j m := by
    rw [set_reqs]
    by_cases hj : j = r
    · subst hj; rw [if_pos rfl, h3]; exact h7 m
    · rw [if_neg hj]; exact h.comparing j m
  next := h.next
  holding := h.holding
  stored m j hh := by
    obtain ⟨a, p, b⟩ := h.stored m j hh
    refine ⟨a, p, ?_⟩
    rw [set_reqs]
    by_cases hj : j = r
    · subst hj; rw [if_pos rfl, h3]; exact b
    · rw [if_neg hj]; exact b
  filled m j hh := by
    obtain ⟨a, p, b⟩ := h.filled m j hh
    refine ⟨a, p, ?_⟩
    rw [set_reqs]
    by_cases hj : j = r
    · subst hj; rw [if_pos rfl, h3]; exact b
    · rw [if_neg hj]; exact b

theorem PInv.mono {R R' : Delivery α → Prop} (hR : ∀ m, R m → R' m) {s : Shared α} (h : PInv R s) :
    PInv R' s where
  nodup := h.nodup
  mem := h.mem
  ans r m p hm := ⟨hR m (h.ans r m p hm).1, (h.ans r m p hm).2⟩
  pcs r m hm := ⟨hR m (h.pcs r m hm).1, (h.pcs r m hm).2⟩
  event := h.event
  comparing := h.comparing
  next m i hh := hR m (h.next m i hh)
  holding m i r hh := ⟨hR m (h.holding m i r hh).1, (h.holding m i r hh).2⟩
  stored := h.stored
  filled := h.filled

/-- the main thread stores an answer or sets the event -/
theorem PInv.setAnswer {R : Delivery α → Prop} {s : Shared α} (h : PInv R s) (r : Nat)
    (f : Waiting α → Waiting α) (hd : Handler α) (lg : List (Handled α))
    (h1 : (f (s.reqs r)).server = (s.reqs r).server) (h2 : (f (s.reqs r)).nonce = (s.reqs r).nonce)
    (h3 : (f (s.reqs r)).pc = (s.reqs r).pc)
    (h4 : ∀ m p, (f (s.reqs r)).answer = some (m, p) → R m ∧ IsFor m (s.reqs r))
    (h5 : (f (s.reqs r)).answer ≠ none)
    (n1 : ∀ m i, hd ≠ .next m i) (n2 : ∀ m i r, hd ≠ .holding m i r)
    (n3 : ∀ m j, hd = .stored m j → j < s.count ∧ j = r ∧ ∃ p, (f (s.reqs r)).answer = some (m, p))
    (n4 : ∀ m j, hd = .filled m j → j < s.count ∧ j = r ∧ ∃ p, (f (s.reqs r)).answer = some (m, p)) :
    PInv R { s.set r f with handler := hd, log := lg } where
  nodup := h.nodup
  mem j := by
    show j ∈ s.list ↔ j < s.count ∧ OnList ((s.set r f).reqs j).pc
    rw [set_reqs]
    by_cases hj : j = r
    · subst hj; rw [if_pos rfl, h3]; exact h.mem j
    · rw [if_neg hj]; exact h.mem j
  ans j m p := by
    show ((s.set r f).reqs j).answer = _ → _ ∧ IsFor m ((s.set r f).reqs j)
    rw [set_reqs]
    by_cases hj : j = r
    · subst hj; rw [if_pos rfl, IsFor, h1, h2]; exact h4 m p
    · rw [if_neg hj]; exact h.ans j m p
  pcs j m := by
    show Uses ((s.set r f).reqs j).pc m → _ ∧ IsFor m ((s.set r f).reqs j)
    rw [set_reqs]
    by_cases hj : j = r
    · subst hj; rw [if_pos rfl, IsFor, h1, h2, h3]; exact h.pcs j m
    · rw [if_neg hj]; exact h.pcs j m
  event j := by
    show ((s.set r f).reqs j).event = true → ((s.set r f).reqs j).answer ≠ none
    rw [set_reqs]
    by_cases hj : j = r
    · subst hj; rw [if_pos rfl]; exact fun _ => h5
    · rw [if_neg hj]; exact h.event j
  comparing j m := by
    show ((s.set r f).reqs j).pc = _ → ((s.set r f).reqs j).answer ≠ none
    rw [set_reqs]
    by_cases hj : j = r
    · subst hj; rw [if_pos rfl]; exact fun _ => h5
    · rw [if_neg hj]; exact h.comparing j m
  next m i hh := absurd hh (n1 m i)
  holding m i j hh := absurd hh (n2 m i j)
  stored m j hh := by
    obtain ⟨a, b, c⟩ := n3 m j hh
    refine ⟨a, ?_⟩
    show ∃ p, ((s.set r f).reqs j).answer = _
    rw [set_reqs, if_pos b]; exact c
  filled m j hh := by
    obtain ⟨a, b, c⟩ := n4 m j hh
    refine ⟨a, ?_⟩
    show ∃ p, ((s.set r f).reqs j).answer = _
    rw [set_reqs, if_pos b]; exact c

/-- the main thread makes a step that changes no request -/
theorem PInv.setHandler {R : Delivery α → Prop} {s : Shared α} (h : PInv R s) (hd : Handler α)
    (lg : List (Handled α)) (n1 : ∀ m i, hd = .next m i → R m)
    (n2 : ∀ m i r, hd = .holding m i r → R m ∧ r < s.count) (n3 : ∀ m j, hd ≠ .stored m j)
    (n4 : ∀ m j, hd ≠ .filled m j) : PInv R { s with handler := hd, log := lg } where
  nodup := h.nodup
  mem := h.mem
  ans := h.ans
  pcs := h.pcs
  event := h.event
  comparing := h.comparing
  next := n1
  holding := n2
  stored m j hh := absurd hh (n3 m j)
  filled m j hh := absurd hh (n4 m j)

theorem PInv.proceed {R : Delivery α → Prop} {s s' : Shared α} (h : PInv R s)
    (hs : s.proceed = some s') : PInv R s' := by
  unfold Shared.proceed at hs
  cases hh : s.handler with
  | idle => rw [hh] at hs; cases hs
  | next m i =>
    rw [hh] at hs
    dsimp only at hs
    cases hi : s.list[i]? with
    | none =>
      rw [hi] at hs; cases hs
      exact h.setHandler _ _ (fun _ _ e => by cases e) (fun _ _ _ e => by cases e)
        (fun _ _ e => by cases e) (fun _ _ e => by cases e)
    | some r =>
      rw [hi] at hs; cases hs
      refine h.setHandler _ s.log (fun _ _ e => by cases e) (fun _ _ _ e => ?_)
        (fun _ _ e => by cases e) (fun _ _ e => by cases e)
      cases e
      exact ⟨h.next m i hh, ((h.mem r).mp (List.mem_of_getElem? hi)).1⟩
  | holding m i r =>
    rw [hh] at hs
    dsimp only at hs
    split at hs
    · cases hs
      refine h.setHandler _ s.log (fun _ _ e => ?_) (fun _ _ _ e => by cases e)
        (fun _ _ e => by cases e) (fun _ _ e => by cases e)
      cases e
      exact (h.holding m i r hh).1
    · rename_i hm
      cases hs
      have hm : IsFor m (s.reqs r) :=
        ⟨Classical.byContradiction fun e => hm (.inl e), Classical.byContradiction fun e => hm (.inr e)⟩
      refine h.setAnswer r _ _ s.log rfl rfl rfl (fun _ _ e => ?_) (fun e => by cases e)
        (fun _ _ e => by cases e) (fun _ _ _ e => by cases e) (fun _ _ e => ?_) (fun _ _ e => by cases e)
      · cases e; exact ⟨(h.holding m i r hh).1, hm⟩
      · cases e; exact ⟨(h.holding m i r hh).2, rfl, _, rfl⟩
  | stored m r =>
    obtain ⟨h1, p, h2⟩ := h.stored m r hh
    rw [hh] at hs
    dsimp only at hs
    cases hk : s.kind with
    | notify =>
      rw [hk] at hs; cases hs
      refine h.setAnswer r _ _ _ rfl rfl rfl (h.ans r) (by show (s.reqs r).answer ≠ none; rw [h2]; exact fun e => by cases e)
        (fun _ _ e => by cases e) (fun _ _ _ e => by cases e) (fun _ _ e => by cases e) (fun _ _ e => by cases e)
    | info =>
      rw [hk] at hs
      dsimp only at hs
      cases hf : (s.reqs r).sentFrom with
      | none =>
        rw [hf] at hs; cases hs
        have := h.setHandler .idle (s.log ++ [.raised m r]) (fun _ _ e => by cases e)
          (fun _ _ _ e => by cases e) (fun _ _ e => by cases e) (fun _ _ e => by cases e)
        rwa [hk] at this
      | some a =>
        rw [hf] at hs; cases hs
        refine h.setAnswer r _ _ s.log rfl rfl rfl (fun _ _ e => ?_) (fun e => by cases e)
          (fun _ _ e => by cases e) (fun _ _ _ e => by cases e) (fun _ _ e => by cases e) (fun _ _ e => ?_)
        · cases e; exact h.ans r m p h2
        · cases e; exact ⟨h1, rfl, _, rfl⟩
  | filled m r =>
    obtain ⟨h1, p, h2⟩ := h.filled m r hh
    rw [hh] at hs
    cases hs
    refine h.setAnswer r _ _ _ rfl rfl rfl (h.ans r) (by show (s.reqs r).answer ≠ none; rw [h2]; exact fun e => by cases e)
      (fun _ _ e => by cases e) (fun _ _ _ e => by cases e) (fun _ _ e => by cases e) (fun _ _ e => by cases e)

theorem mem_erase_nodup {l : List Nat} (h : l.Nodup) (r j : Nat) :
    j ∈ l.erase r ↔ j ≠ r ∧ j ∈ l := h.mem_erase_iff

theorem PInv.step {R : Delivery α → Prop} {s s' : Shared α} (h : PInv R s) (a : Act α)
    (hs : s.step a = some s') : PInv (fun m => R m ∨ a = .receives m) s' := by
  cases a with
  | start server nonce =>
    refine PInv.mono (R := R) (fun m hm => .inl hm) ?_
    cases hs
    have hc : s.count ∉ s.list := fun hc => Nat.lt_irrefl _ ((h.mem _).mp hc).1
    refine ⟨?_, ?_, ?_, ?_, ?_, ?_, h.next, ?_, ?_, ?_⟩
    · refine List.nodup_append.mpr ⟨h.nodup, by simp, ?_⟩
      intro x hx y hy e
      rw [List.mem_singleton.mp hy] at e
      exact hc (e ▸ hx)
    · intro j
      show j ∈ s.list ++ [s.count] ↔ j < s.count + 1 ∧ OnList ((s.add server nonce).reqs j).pc
      rw [add_reqs, List.mem_append, List.mem_singleton]
      by_cases hj : j = s.count
      · subst hj; rw [if_pos rfl]
        exact ⟨fun _ => ⟨Nat.lt_succ_self _, trivial⟩, fun _ => .inr rfl⟩
      · rw [if_neg hj, h.mem j]
        constructor
        · rintro (⟨a, b⟩ | e)
          · exact ⟨Nat.lt_succ_of_lt a, b⟩
          · exact absurd e hj
        · rintro ⟨a, b⟩
          exact .inl ⟨by omega, b⟩
    · intro j m p
      show ((s.add server nonce).reqs j).answer = _ → _ ∧ IsFor m ((s.add server nonce).reqs j)
      rw [add_reqs]
      by_cases hj : j = s.count
      · rw [if_pos hj]; intro e; cases e
      · rw [if_neg hj]; exact h.ans j m p
    · intro j m
      show Uses ((s.add server nonce).reqs j).pc m → _ ∧ IsFor m ((s.add server nonce).reqs j)
      rw [add_reqs]
      by_cases hj : j = s.count
      · rw [if_pos hj]; intro e; exact (not_uses e (.inl trivial)).elim
      · rw [if_neg hj]; exact h.pcs j m
    · intro j
      show ((s.add server nonce).reqs j).event = _ → ((s.add server nonce).reqs j).answer ≠ none
      rw [add_reqs]
      by_cases hj : j = s.count
      · rw [if_pos hj]; intro e; cases e
      · rw [if_neg hj]; exact h.event j
    · intro j m
      show ((s.add server nonce).reqs j).pc = _ → ((s.add server nonce).reqs j).answer ≠ none
      rw [add_reqs]
      by_cases hj : j = s.count
      · rw [if_pos hj]; intro e; cases e
      · rw [if_neg hj]; exact h.comparing j m
    · intro m i r hh
      exact ⟨(h.holding m i r hh).1, Nat.lt_succ_of_lt (h.holding m i r hh).2⟩
    · intro m r hh
      obtain ⟨a, b⟩ := h.stored m r hh
      refine ⟨Nat.lt_succ_of_lt a, ?_⟩
      show ∃ p, ((s.add server nonce).reqs r).answer = _
      rw [add_reqs, if_neg (Nat.ne_of_lt a)]; exact b
    · intro m r hh
      obtain ⟨a, b⟩ := h.filled m r hh
      refine ⟨Nat.lt_succ_of_lt a, ?_⟩
      show ∃ p, ((s.add server nonce).reqs r).answer = _
      rw [add_reqs, if_neg (Nat.ne_of_lt a)]; exact b
  | sent r src =>
    refine PInv.mono (R := R) (fun m hm => .inl hm) ?_
    simp only [Shared.step] at hs
    split at hs
    · rename_i hpc
      split at hs
      · cases hs
        exact h.setPc r _ rfl rfl rfl rfl (by rw [hpc]; exact Iff.rfl)
          (fun m hm => (not_uses hm (.inl trivial)).elim) (fun m e => by cases e)
      · cases hs
    · cases hs
  | fails r =>
    refine PInv.mono (R := R) (fun m hm => .inl hm) ?_
    simp only [Shared.step] at hs
    split at hs
    · rename_i hpc
      split at hs
      · cases hs
        exact h.setPc r _ rfl rfl rfl rfl (by rw [hpc]; exact Iff.rfl)
          (fun m hm => (not_uses hm (.inl trivial)).elim) (fun m e => by cases e)
      · cases hs
    · cases hs
  | wakes r stop =>
    refine PInv.mono (R := R) (fun m hm => .inl hm) ?_
    simp only [Shared.step] at hs
    split at hs
    · rename_i hpc
      cases hs
      have key : ∀ f : Waiting α → Waiting α, (∀ q, f q = { q with pc := .abandoned } ∨
          f q = { q with pc := .leaving } ∨ f q = { q with pc := .sending, left := q.left - 1 }) →
          PInv R (s.set r f) := by
        intro f hf
        rcases hf (s.reqs r) with hf | hf | hf
        all_goals
          refine h.setPc r f ?_ ?_ ?_ ?_ ?_ ?_ ?_ <;> (try rw [hf])
          · rw [hpc]; exact Iff.rfl
          · exact fun m hm => (not_uses hm (.inl trivial)).elim
          · exact fun m e => by cases e
      apply key
      intro q
      split
      · exact .inl rfl
      · split
        · exact .inr (.inl rfl)
        · split
          · exact .inr (.inl rfl)
          · exact .inr (.inr rfl)
    · cases hs
  | leaves r =>
    refine PInv.mono (R := R) (fun m hm => .inl hm) ?_
    simp only [Shared.step] at hs
    split at hs
    · rename_i hpc
      split at hs
      · rename_i hr
        cases hs
        have other : ∀ j, j ≠ r → (s.remove r).reqs j = s.reqs j :=
          fun j hj => by rw [remove_reqs, if_neg hj]
        have self : (s.remove r).reqs r =
            { s.reqs r with pc := .judging } := by rw [remove_reqs, if_pos rfl]
        refine ⟨h.nodup.sublist List.erase_sublist, ?_, ?_, ?_, ?_, ?_, h.next, h.holding, ?_, ?_⟩
        · intro j
          show j ∈ s.list.erase r ↔ _
          rw [mem_erase_nodup h.nodup]
          by_cases hj : j = r
          · subst hj
            show _ ↔ _ ∧ OnList ((s.remove j).reqs j).pc
            rw [self]
            exact ⟨fun e => absurd rfl e.1, fun e => absurd e.2 (by exact fun x => x)⟩
          · show _ ↔ j < s.count ∧ OnList ((s.remove r).reqs j).pc
            rw [other j hj, ← h.mem j]
            exact ⟨fun e => e.2, fun e => ⟨hj, e⟩⟩
        · intro j m p
          show ((s.remove r).reqs j).answer = _ → _ ∧ IsFor m ((s.remove r).reqs j)
          by_cases hj : j = r
          · subst hj; rw [self]; exact h.ans j m p
          · rw [other j hj]; exact h.ans j m p
        · intro j m
          show Uses ((s.remove r).reqs j).pc m → _ ∧ IsFor m ((s.remove r).reqs j)
          by_cases hj : j = r
          · subst hj; rw [self]; intro e; exact (not_uses e (.inr (.inl rfl))).elim
          · rw [other j hj]; exact h.pcs j m
        · intro j
          show ((s.remove r).reqs j).event = _ → ((s.remove r).reqs j).answer ≠ none
          by_cases hj : j = r
          · subst hj; rw [self]; exact h.event j
          · rw [other j hj]; exact h.event j
        · intro j m
          show ((s.remove r).reqs j).pc = _ → ((s.remove r).reqs j).answer ≠ none
          by_cases hj : j = r
          · subst hj; rw [self]; intro e; cases e
          · rw [other j hj]; exact h.comparing j m
        · intro m j hh
          obtain ⟨a, b⟩ := h.stored m j hh
          refine ⟨a, ?_⟩
          show ∃ p, ((s.remove r).reqs j).answer = _
          by_cases hj : j = r
          · subst hj; rw [self]; exact b
          · rw [other j hj]; exact b
        · intro m j hh
          obtain ⟨a, b⟩ := h.filled m j hh
          refine ⟨a, ?_⟩
          show ∃ p, ((s.remove r).reqs j).answer = _
          by_cases hj : j = r
          · subst hj; rw [self]; exact b
          · rw [other j hj]; exact b
      · cases hs
    · cases hs
  | judges r =>
    refine PInv.mono (R := R) (fun m hm => .inl hm) ?_
    simp only [Shared.step] at hs
    split at hs
    · rename_i hpc
      split at hs
      · split at hs
        · cases hs
        · rename_i m p ha
          split at hs <;> cases hs
          · refine h.setPc r _ rfl rfl rfl rfl (by rw [hpc]; exact Iff.rfl) (fun m' hm => ?_)
              (fun m e => by rw [ha]; exact fun e => by cases e)
            rcases hm with hm | ⟨_, _, hm⟩ | ⟨_, _, hm⟩ <;> cases hm
            exact h.ans r m p ha
          · refine h.setPc r _ rfl rfl rfl rfl (by rw [hpc]; exact Iff.rfl) (fun m' hm => ?_)
              (fun m e => by cases e)
            rcases hm with hm | ⟨_, _, hm⟩ | ⟨_, _, hm⟩ <;> cases hm
            · exact h.ans r m p ha
            · exact h.ans r m p ha
      · cases hs
        exact h.setPc r _ rfl rfl rfl rfl (by rw [hpc]; exact Iff.rfl)
          (fun m hm => (not_uses hm (.inr (.inr rfl))).elim) (fun m e => by cases e)
    · cases hs
  | compares r =>
    refine PInv.mono (R := R) (fun m hm => .inl hm) ?_
    simp only [Shared.step] at hs
    split at hs
    · rename_i m hpc
      split at hs
      · cases hs
      · rename_i m' p ha
        cases hs
        refine h.setPc r _ rfl rfl rfl rfl (by rw [hpc]; exact Iff.rfl) (fun m' hm => ?_)
          (fun m e => by cases e)
        rcases hm with hm | ⟨_, _, hm⟩ | ⟨_, _, hm⟩ <;> cases hm
        · exact h.pcs r m (.inl hpc)
        · exact h.ans r m' p ha
    · cases hs
  | receives m =>
    simp only [Shared.step] at hs
    split at hs
    · cases hs
      refine (PInv.mono (R := R) (fun m hm => .inl hm) h).setHandler _ s.log (fun _ _ e => ?_)
        (fun _ _ _ e => by cases e) (fun _ _ e => by cases e) (fun _ _ e => by cases e)
      cases e; exact .inr rfl
    · cases hs
  | proceeds =>
    exact (PInv.mono (R := R) (fun m hm => .inl hm) (h.proceed hs))

theorem PInv.run {s s' : Shared α} {acts : List (Act α)} : ∀ {R : Delivery α → Prop},
    PInv R s → s.run acts = some s' → PInv (fun m => R m ∨ .receives m ∈ acts) s' := by
  induction acts generalizing s with
  | nil =>
    intro R h hs
    cases hs
    exact h.mono fun m hm => .inl hm
  | cons a as ih =>
    intro R h hs
    simp only [Shared.run, Option.bind_eq_some_iff] at hs
    obtain ⟨s1, h1, h2⟩ := hs
    refine (ih (h.step a h1) h2).mono ?_
    rintro m ((hm | hm) | hm)
    · exact .inl hm
    · exact .inr (hm ▸ List.mem_cons_self)
    · exact .inr (List.mem_cons_of_mem _ hm)

theorem PInv.new (k : Requests) : PInv (fun _ => False) (Shared.new (α := α) k) where
  nodup := List.nodup_nil
  mem r := ⟨fun h => (by cases h), fun h => absurd h.1 (Nat.not_lt_zero _)⟩
  ans r m p h := by cases h
  pcs r _ h := (not_uses h (.inl trivial)).elim
  event r h := by cases h
  comparing r m h := by cases h
  next m i h := by cases h
  holding m i r h := by cases h
  stored m r h := by cases h
  filled m r h := by cases h

theorem PInv.reach {k : Requests} {acts : List (Act α)} {s : Shared α}
    (h : (Shared.new k).run acts = some s) : PInv (fun m => .receives m ∈ acts) s :=
  ((PInv.new k).run h).mono fun _ hm => hm.elim (fun x => x.elim) id

/-! ### What a step leaves alone -/

/-- the steps that only the thread of `r` makes -/
def ThreadOf (r : Nat) : Act α → Prop
  | .sent j _ | .fails j | .wakes j _ | .leaves j | .judges j | .compares j => j = r
  | _ => False

theorem set_other (s : Shared α) {r j : Nat} (f : Waiting α → Waiting α) (h : j ≠ r) :
    (s.set r f).reqs j = s.reqs j := if_neg h

theorem set_self (s : Shared α) (r : Nat) (f : Waiting α → Waiting α) :
    (s.set r f).reqs r = f (s.reqs r) := if_pos rfl

/-- the main thread changes the answer and the event of requests only -/
theorem proceed_frame {s s' : Shared α} (hs : s.proceed = some s') :
    s'.count = s.count ∧ s'.list = s.list ∧ s'.kind = s.kind ∧ ∀ r,
      (s'.reqs r).pc = (s.reqs r).pc ∧ (s'.reqs r).server = (s.reqs r).server ∧
      (s'.reqs r).nonce = (s.reqs r).nonce ∧ (s'.reqs r).sentFrom = (s.reqs r).sentFrom ∧
      ((s.reqs r).event = true → (s'.reqs r).event = true) := by
  have set : ∀ (r : Nat) (f : Waiting α → Waiting α), (∀ q, (f q).pc = q.pc ∧ (f q).server = q.server ∧
      (f q).nonce = q.nonce ∧ (f q).sentFrom = q.sentFrom ∧ (q.event = true → (f q).event = true)) →
      ∀ j, ((s.set r f).reqs j).pc = (s.reqs j).pc ∧ ((s.set r f).reqs j).server = (s.reqs j).server ∧
      ((s.set r f).reqs j).nonce = (s.reqs j).nonce ∧
      ((s.set r f).reqs j).sentFrom = (s.reqs j).sentFrom ∧
      ((s.reqs j).event = true → ((s.set r f).reqs j).event = true) := by
    intro r f hf j
    by_cases hj : j = r
    · subst hj; rw [set_self]; exact hf _
    · rw [set_other s f hj]; exact ⟨rfl, rfl, rfl, rfl, id⟩
  unfold Shared.proceed at hs
  split at hs
  · cases hs
  · split at hs <;> cases hs <;> exact ⟨rfl, rfl, rfl, fun r => ⟨rfl, rfl, rfl, rfl, id⟩⟩
  · rename_i m i r _
    split at hs <;> cases hs
    · exact ⟨rfl, rfl, rfl, fun r => ⟨rfl, rfl, rfl, rfl, id⟩⟩
    · exact ⟨rfl, rfl, rfl, set r (fun q => { q with answer := some (m, none) })
        fun q => ⟨rfl, rfl, rfl, rfl, id⟩⟩
  · rename_i m r _
    split at hs
    · cases hs
      exact ⟨rfl, rfl, rfl, set r (fun q => { q with event := true })
        fun q => ⟨rfl, rfl, rfl, rfl, fun _ => rfl⟩⟩
    · split at hs <;> cases hs
      · exact ⟨rfl, rfl, rfl, fun r => ⟨rfl, rfl, rfl, rfl, id⟩⟩
      · rename_i a _
        exact ⟨rfl, rfl, rfl, set r (fun q => { q with answer := some (m, some a) })
          fun q => ⟨rfl, rfl, rfl, rfl, id⟩⟩
  · rename_i m r _
    cases hs
    exact ⟨rfl, rfl, rfl, set r (fun q => { q with event := true })
      fun q => ⟨rfl, rfl, rfl, rfl, fun _ => rfl⟩⟩

/-- a step of a registration thread (or the arrival of an answer) does not log, does not touch the
answers of requests there are, and leaves the other threads where they are -/
theorem step_frame {s s' : Shared α} {a : Act α} (hs : s.step a = some s') (ha : a ≠ .proceeds) :
    s'.log = s.log ∧ s'.kind = s.kind ∧ s.count ≤ s'.count ∧
    (s'.handler = s.handler ∨ ∃ m, a = .receives m ∧ s.handler = .idle ∧ s'.handler = .next m 0) ∧
    (s'.list = s.list ∨ (∃ x y, a = .start x y ∧ s'.list = s.list ++ [s.count]) ∨
      ∃ j, a = .leaves j ∧ s'.list = s.list.erase j) ∧
    ∀ r, r < s.count → (s'.reqs r).server = (s.reqs r).server ∧ (s'.reqs r).nonce = (s.reqs r).nonce ∧
      (s'.reqs r).event = (s.reqs r).event ∧ (s'.reqs r).answer = (s.reqs r).answer ∧
      (¬ ThreadOf r a → s'.reqs r = s.reqs r) := by
  have set : ∀ (r : Nat) (f : Waiting α → Waiting α), (∀ j, ¬ ThreadOf j a → j ≠ r) →
      (∀ q, (f q).server = q.server ∧
      (f q).nonce = q.nonce ∧ (f q).event = q.event ∧ (f q).answer = q.answer) →
      ∀ j, ((s.set r f).reqs j).server = (s.reqs j).server ∧
      ((s.set r f).reqs j).nonce = (s.reqs j).nonce ∧
      ((s.set r f).reqs j).event = (s.reqs j).event ∧
      ((s.set r f).reqs j).answer = (s.reqs j).answer ∧
      (¬ ThreadOf j a → (s.set r f).reqs j = s.reqs j) := by
    intro r f ht hf j
    refine ⟨?_, ?_, ?_, ?_, fun hj => set_other s f (ht j hj)⟩ <;>
    · by_cases hj : j = r
      · subst hj; rw [set_self]; simp only [hf]
      · rw [set_other s f hj]
  cases a with
  | proceeds => exact absurd rfl ha
  | start server nonce =>
    cases hs
    refine ⟨rfl, rfl, Nat.le_succ _, .inl rfl, .inr (.inl ⟨_, _, rfl, rfl⟩), fun r hr => ?_⟩
    rw [add_reqs, if_neg (Nat.ne_of_lt hr)]
    exact ⟨rfl, rfl, rfl, rfl, fun _ => rfl⟩
  | sent r src =>
    simp only [Shared.step] at hs
    split at hs
    · split at hs <;> cases hs
      refine ⟨rfl, rfl, Nat.le_refl _, .inl rfl, .inl rfl, fun j _ => set _ _ ?_ ?_ j⟩
      · exact fun j hj e => hj e.symm
      · exact fun q => ⟨rfl, rfl, rfl, rfl⟩
    · cases hs
  | fails r =>
    simp only [Shared.step] at hs
    split at hs
    · split at hs <;> cases hs
      refine ⟨rfl, rfl, Nat.le_refl _, .inl rfl, .inl rfl, fun j _ => set _ _ ?_ ?_ j⟩
      · exact fun j hj e => hj e.symm
      · exact fun q => ⟨rfl, rfl, rfl, rfl⟩
    · cases hs
  | wakes r stop =>
    simp only [Shared.step] at hs
    split at hs
    · cases hs
      refine ⟨rfl, rfl, Nat.le_refl _, .inl rfl, .inl rfl, fun j _ =>
        set _ _ (fun j hj e => hj e.symm) (fun q => ?_) j⟩
      split
      · exact ⟨rfl, rfl, rfl, rfl⟩
      · split
        · exact ⟨rfl, rfl, rfl, rfl⟩
        · split <;> exact ⟨rfl, rfl, rfl, rfl⟩
    · cases hs
  | leaves r =>
    simp only [Shared.step] at hs
    split at hs
    · split at hs <;> cases hs
      refine ⟨rfl, rfl, Nat.le_refl _, .inl rfl, .inr (.inr ⟨_, rfl, rfl⟩), fun j _ => ?_⟩
      rw [remove_reqs]
      by_cases hj : j = r
      · subst hj; rw [if_pos rfl]; exact ⟨rfl, rfl, rfl, rfl, fun h => absurd rfl h⟩
      · rw [if_neg hj]; exact ⟨rfl, rfl, rfl, rfl, fun _ => rfl⟩
    · cases hs
  | judges r =>
    simp only [Shared.step] at hs
    split at hs
    · split at hs
      · split at hs
        · cases hs
        · split at hs <;> cases hs
          all_goals
            refine ⟨rfl, rfl, Nat.le_refl _, .inl rfl, .inl rfl, fun j _ => set _ _ ?_ ?_ j⟩
            · exact fun j hj e => hj e.symm
            · exact fun q => ⟨rfl, rfl, rfl, rfl⟩
      · cases hs
        refine ⟨rfl, rfl, Nat.le_refl _, .inl rfl, .inl rfl, fun j _ => set _ _ ?_ ?_ j⟩
        · exact fun j hj e => hj e.symm
        · exact fun q => ⟨rfl, rfl, rfl, rfl⟩
    · cases hs
  | compares r =>
    simp only [Shared.step] at hs
    split at hs
    · split at hs <;> cases hs
      refine ⟨rfl, rfl, Nat.le_refl _, .inl rfl, .inl rfl, fun j _ => set _ _ ?_ ?_ j⟩
      · exact fun j hj e => hj e.symm
      · exact fun q => ⟨rfl, rfl, rfl, rfl⟩
    · cases hs
  | receives m =>
    simp only [Shared.step] at hs
    split at hs
    · rename_i hh
      cases hs
      exact ⟨rfl, rfl, Nat.le_refl _, .inr ⟨m, rfl, hh, rfl⟩, .inl rfl,
        fun r hr => ⟨rfl, rfl, rfl, rfl, fun _ => rfl⟩⟩
    · cases hs

theorem step_count {s s' : Shared α} {a : Act α} (hs : s.step a = some s') : s.count ≤ s'.count := by
  by_cases ha : a = .proceeds
  · subst ha; exact Nat.le_of_eq (proceed_frame hs).1.symm
  · exact (step_frame hs ha).2.2.1

theorem step_ident {s s' : Shared α} {a : Act α} (hs : s.step a = some s') (r : Nat)
    (hr : r < s.count) : (s'.reqs r).server = (s.reqs r).server ∧ (s'.reqs r).nonce = (s.reqs r).nonce ∧
      ((s.reqs r).event = true → (s'.reqs r).event = true) ∧
      (¬ ThreadOf r a → (s'.reqs r).pc = (s.reqs r).pc) := by
  by_cases ha : a = .proceeds
  · subst ha
    obtain ⟨a, b, c, d, e⟩ := (proceed_frame hs).2.2.2 r
    exact ⟨b, c, e, fun _ => a⟩
  · obtain ⟨a, b, c, d, e⟩ := (step_frame hs ha).2.2.2.2.2 r hr
    exact ⟨a, b, fun h => by rw [c]; exact h, fun h => by rw [e h]⟩

/-! ### The properties -/

/-- C76: in every schedule, an answer that a registration thread uses was received, from the Map-Server
the request was sent to and with its nonce. -/
theorem answer_genuine {k : Requests} {acts : List (Act α)} {s : Shared α}
    (h : (Shared.new k).run acts = some s) (r : Nat) (m : Delivery α) (hu : Uses (s.reqs r).pc m) :
    .receives m ∈ acts ∧ IsFor m (s.reqs r) := (PInv.reach h).pcs r m hu

/-- C76: in every schedule, the list has every request once whose thread has not taken it off: those still
waited for, and those whose thread was told to stop or could not send. -/
theorem list_exact {k : Requests} {acts : List (Act α)} {s : Shared α}
    (h : (Shared.new k).run acts = some s) :
    s.list.Nodup ∧ ∀ r, r ∈ s.list ↔ r < s.count ∧ OnList (s.reqs r).pc :=
  ⟨(PInv.reach h).nodup, (PInv.reach h).mem⟩

/-- C76: in every schedule, no thread fails for what another one did: taking the request off the list finds
it there (`list.remove` raises no ValueError), a request whose event is set has an answer (which is not
None), and a handler in the middle of an answer goes on. -/
theorem threads_go_on {k : Requests} {acts : List (Act α)} {s : Shared α}
    (h : (Shared.new k).run acts = some s) :
    (∀ r, r < s.count → (s.reqs r).pc = .sending →
      (∀ src, s.step (.sent r src) ≠ none) ∧ s.step (.fails r) ≠ none) ∧
    (∀ r stop, (s.reqs r).pc = .waiting → s.step (.wakes r stop) ≠ none) ∧
    (∀ r, r < s.count → (s.reqs r).pc = .leaving → s.step (.leaves r) ≠ none) ∧
    (∀ r, (s.reqs r).pc = .judging → s.step (.judges r) ≠ none) ∧
    (∀ r m, (s.reqs r).pc = .comparing m → s.step (.compares r) ≠ none) ∧
    (s.handler ≠ .idle → s.step .proceeds ≠ none) := by
  have inv := PInv.reach h
  refine ⟨fun r hr hp => ⟨fun src => ?_, ?_⟩, fun r stop hp => ?_, fun r hr hp => ?_, fun r hp => ?_,
    fun r m hp => ?_, fun hh => ?_⟩
  · simp [Shared.step, hp, hr]
  · simp [Shared.step, hp, hr]
  · simp [Shared.step, hp]
  · have : r ∈ s.list := (inv.mem r).mpr ⟨hr, by rw [hp]; trivial⟩
    simp [Shared.step, hp, this]
  · by_cases he : (s.reqs r).event = true
    · obtain ⟨⟨m, p⟩, ha⟩ := Option.ne_none_iff_exists'.mp (inv.event r he)
      cases hk : s.kind <;> simp [Shared.step, hp, he, ha, hk]
    · simp [Shared.step, hp, he]
  · obtain ⟨⟨m, p⟩, ha⟩ := Option.ne_none_iff_exists'.mp (inv.comparing r m hp)
    simp [Shared.step, hp, ha]
  · show s.proceed ≠ none
    unfold Shared.proceed
    split
    · rename_i e; exact absurd e hh
    · split <;> exact fun e => by cases e
    · split <;> exact fun e => by cases e
    · split
      · exact fun e => by cases e
      · split <;> exact fun e => by cases e
    · exact fun e => by cases e

/-- C76: a request whose thread was told to stop, or could not send, stays on the list for ever. -/
theorem abandoned_stays {k : Requests} {before acts : List (Act α)} {s s' : Shared α}
    (hb : (Shared.new k).run before = some s) (h : s.run acts = some s') (r : Nat) (hr : r < s.count)
    (hp : (s.reqs r).pc = .abandoned) : (s'.reqs r).pc = .abandoned ∧ r ∈ s'.list := by
  have key : ∀ (acts : List (Act α)) (s : Shared α) (R : Delivery α → Prop), PInv R s →
      s.run acts = some s' → r < s.count → (s.reqs r).pc = .abandoned →
      (s'.reqs r).pc = .abandoned ∧ r ∈ s'.list := by
    intro acts
    induction acts with
    | nil =>
      intro s R inv h hr hp
      cases h
      exact ⟨hp, (inv.mem r).mpr ⟨hr, by rw [hp]; trivial⟩⟩
    | cons a as ih =>
      intro s R inv h hr hp
      simp only [Shared.run, Option.bind_eq_some_iff] at h
      obtain ⟨s1, h1, h2⟩ := h
      refine ih s1 _ (inv.step a h1) h2 (Nat.lt_of_lt_of_le hr (step_count h1)) ?_
      by_cases ht : ThreadOf r a
      · cases a <;> first
          | exact absurd ht (by exact fun x => x)
          | (cases ht; simp [Shared.step, hp] at h1)
      · rw [(step_ident h1 r hr).2.2.2 ht, hp]
  exact key acts s _ (PInv.reach hb) h hr hp

/-- the handling of an answer for `r`, none of the requests before `r` on the list (nor `r`) being taken off
meanwhile -/
structure Underway (m : Delivery α) (pre : List Nat) (r : Nat) (s : Shared α) : Prop where
  lt : r < s.count
  list : ∃ post, s.list = pre ++ r :: post
  isFor : IsFor m (s.reqs r)
  next : ∀ m' i, s.handler = .next m' i → m' = m ∧ i ≤ pre.length
  holding : ∀ m' i q, s.handler = .holding m' i q → m' = m ∧ (i ≤ pre.length ∨ q = r)

theorem Underway.proceed {m : Delivery α} {pre : List Nat} {r : Nat} {s s' : Shared α}
    (h : Underway m pre r s) (hs : s.proceed = some s') :
    Underway m pre r s' ∧ ∀ m', s'.log ≠ s.log ++ [.unexpected m'] := by
  obtain ⟨post, hl⟩ := h.list
  obtain ⟨f1, f2, -, f3⟩ := proceed_frame hs
  have base : (∀ m' i, s'.handler = .next m' i → m' = m ∧ i ≤ pre.length) →
      (∀ m' i q, s'.handler = .holding m' i q → m' = m ∧ (i ≤ pre.length ∨ q = r)) →
      Underway m pre r s' := fun a b =>
    ⟨by rw [f1]; exact h.lt, ⟨post, by rw [f2]; exact hl⟩,
      ⟨by rw [(f3 r).2.1]; exact h.isFor.1, by rw [(f3 r).2.2.1]; exact h.isFor.2⟩, a, b⟩
  have nolog : ∀ m', s.log ≠ s.log ++ [.unexpected m'] := fun m' e => by
    have := congrArg List.length e; simp at this
  unfold Shared.proceed at hs
  cases hh : s.handler with
  | idle => rw [hh] at hs; cases hs
  | next m' i =>
    obtain ⟨rfl, hi⟩ := h.next m' i hh
    rw [hh] at hs
    dsimp only at hs
    cases hg : s.list[i]? with
    | none =>
      rw [hl] at hg
      have := List.getElem?_eq_none_iff.mp hg
      simp at this; omega
    | some q =>
      rw [hg] at hs; cases hs
      refine ⟨base (fun _ _ e => by cases e) (fun _ _ _ e => ?_), nolog⟩
      cases e
      refine ⟨rfl, ?_⟩
      by_cases hlt : i < pre.length
      · exact .inl hlt
      · have : i = pre.length := by omega
        subst this
        rw [hl, List.getElem?_append_right (Nat.le_refl _), Nat.sub_self] at hg
        exact .inr (Option.some.inj hg).symm
  | holding m' i q =>
    obtain ⟨rfl, hi⟩ := h.holding m' i q hh
    rw [hh] at hs
    dsimp only at hs
    split at hs
    · rename_i hm
      cases hs
      refine ⟨base (fun _ _ e => ?_) (fun _ _ _ e => by cases e), nolog⟩
      cases e
      refine ⟨rfl, hi.resolve_right ?_⟩
      rintro rfl
      rcases hm with hm | hm
      · exact hm h.isFor.1
      · exact hm h.isFor.2
    · cases hs
      exact ⟨base (fun _ _ e => by cases e) (fun _ _ _ e => by cases e), nolog⟩
  | stored m' q =>
    rw [hh] at hs
    dsimp only at hs
    split at hs
    · cases hs
      exact ⟨base (fun _ _ e => by cases e) (fun _ _ _ e => by cases e), fun m' e => by simp at e⟩
    · split at hs <;> cases hs
      · exact ⟨base (fun _ _ e => by cases e) (fun _ _ _ e => by cases e), fun m' e => by simp at e⟩
      · exact ⟨base (fun _ _ e => by cases e) (fun _ _ _ e => by cases e), nolog⟩
  | filled m' q =>
    rw [hh] at hs
    cases hs
    exact ⟨base (fun _ _ e => by cases e) (fun _ _ _ e => by cases e), fun m' e => by simp at e⟩

theorem erase_after {pre post : List Nat} {r j : Nat} (h : j ∉ pre) (hr : j ≠ r) :
    (pre ++ r :: post).erase j = pre ++ r :: post.erase j := by
  rw [List.erase_append_right _ h, List.erase_cons_tail (by simpa using fun e => hr e.symm)]

theorem Underway.step {m : Delivery α} {pre : List Nat} {r : Nat} {s s' : Shared α} {a : Act α}
    (h : Underway m pre r s) (hs : s.step a = some s') (hn : ∀ m', a ≠ .receives m')
    (hl : ∀ q ∈ pre ++ [r], a ≠ .leaves q) : Underway m pre r s' := by
  by_cases ha : a = .proceeds
  · subst ha; exact (h.proceed hs).1
  · obtain ⟨-, -, f1, f2, f3, f4⟩ := step_frame hs ha
    obtain ⟨post, hp⟩ := h.list
    obtain ⟨g1, g2, -⟩ := f4 r h.lt
    have f2 : s'.handler = s.handler := f2.resolve_right fun ⟨m', e, _⟩ => hn m' e
    refine ⟨Nat.lt_of_lt_of_le h.lt f1, ?_, ⟨by rw [g1]; exact h.isFor.1, by rw [g2]; exact h.isFor.2⟩,
      by rw [f2]; exact h.next, by rw [f2]; exact h.holding⟩
    rcases f3 with e | ⟨_, _, _, e⟩ | ⟨j, ej, e⟩
    · exact ⟨post, by rw [e, hp]⟩
    · exact ⟨post ++ [s.count], by rw [e, hp]; simp⟩
    · have hj : j ∉ pre ++ [r] := fun hj => hl j hj ej
      rw [List.mem_append, not_or, List.mem_singleton] at hj
      exact ⟨post.erase j, by rw [e, hp, erase_after hj.1 hj.2]⟩

theorem Underway.run {m : Delivery α} {pre : List Nat} {r : Nat} {acts : List (Act α)} :
    ∀ {s s' : Shared α}, Underway m pre r s → s.run acts = some s' →
    (∀ m', .receives m' ∉ acts) → (∀ q ∈ pre ++ [r], .leaves q ∉ acts) → Underway m pre r s' := by
  induction acts with
  | nil => intro s s' h hs _ _; cases hs; exact h
  | cons a as ih =>
    intro s s' h hs hn hl
    simp only [Shared.run, Option.bind_eq_some_iff] at hs
    obtain ⟨s1, h1, h2⟩ := hs
    exact ih (h.step h1 (fun m' e => hn m' (e ▸ List.mem_cons_self))
        (fun q hq e => hl q hq (e ▸ List.mem_cons_self))) h2
      (fun m' hm => hn m' (List.mem_cons_of_mem _ hm)) (fun q hq hm => hl q hq (List.mem_cons_of_mem _ hm))

theorem Underway.begin {m : Delivery α} {pre post : List Nat} {r : Nat} {R : Delivery α → Prop}
    {s s1 : Shared α} (inv : PInv R s) (h1 : s.step (.receives m) = some s1)
    (hl : s.list = pre ++ r :: post) (hm : IsFor m (s.reqs r)) : Underway m pre r s1 := by
  have hr : r ∈ s.list := by rw [hl]; simp
  simp only [Shared.step] at h1
  split at h1
  · cases h1
    refine ⟨((inv.mem r).mp hr).1, ⟨post, hl⟩, hm, fun _ _ e => ?_, fun _ _ _ e => by cases e⟩
    cases e
    exact ⟨rfl, Nat.zero_le _⟩
  · cases h1

/-- C76: an answer for a request on the list is reported as unexpected only if, while it was handled, that
request or one before it on the list was taken off.  (The main thread goes through the list by index, so it
then skips a request.) -/
theorem missed_only_if_left {k : Requests} {before acts : List (Act α)} {s s1 s2 s3 : Shared α}
    {m : Delivery α} (hb : (Shared.new k).run before = some s)
    (h1 : s.step (.receives m) = some s1) (h2 : s1.run acts = some s2)
    (hn : ∀ m', .receives m' ∉ acts)
    (h3 : s2.step .proceeds = some s3) (hu : s3.log = s2.log ++ [.unexpected m])
    (pre post : List Nat) (r : Nat) (hl : s.list = pre ++ r :: post) (hm : IsFor m (s.reqs r)) :
    ∃ q, q ∈ pre ++ [r] ∧ .leaves q ∈ acts := by
  apply Classical.byContradiction
  intro hc
  have hc : ∀ q ∈ pre ++ [r], .leaves q ∉ acts := fun q hq hx => hc ⟨q, hq, hx⟩
  exact (((Underway.begin (PInv.reach hb) h1 hl hm).run h2 hn hc).proceed h3).2 m hu

/-- the handling of an answer for `r`, the first request on the list that it is for; `L` is what was
logged before -/
structure Settling (m : Delivery α) (pre : List Nat) (r : Nat) (L : List (Handled α)) (s : Shared α) :
    Prop where
  way : Underway m pre r s
  before : ∀ q ∈ pre, q < s.count ∧ ¬ IsFor m (s.reqs q)
  held : ∀ m' i q, s.handler = .holding m' i q → q ∈ pre ∨ q = r
  at_ : (s.log = L ∧ ((∃ i, s.handler = .next m i) ∨ (∃ i q, s.handler = .holding m i q) ∨
      s.handler = .stored m r ∨ s.handler = .filled m r)) ∨
    (s.handler = .idle ∧ (s.log = L ++ [.taken m r] ∨ (s.kind = .info ∧ s.log = L ++ [.raised m r])))

theorem Settling.proceed {m : Delivery α} {pre : List Nat} {r : Nat} {L : List (Handled α)}
    {s s' : Shared α} (h : Settling m pre r L s) (hs : s.proceed = some s') : Settling m pre r L s' := by
  obtain ⟨post, hl⟩ := h.way.list
  have way := (h.way.proceed hs).1
  obtain ⟨f1, f2, f5, f3⟩ := proceed_frame hs
  have before : ∀ q ∈ pre, q < s'.count ∧ ¬ IsFor m (s'.reqs q) := by
    intro q hq
    rw [f1, IsFor, (f3 q).2.1, (f3 q).2.2.1]
    exact h.before q hq
  rcases h.at_ with ⟨hL, ⟨i, hh⟩ | ⟨i, q, hh⟩ | hh | hh⟩ | ⟨hh, _⟩
  · obtain ⟨-, hi⟩ := h.way.next m i hh
    unfold Shared.proceed at hs
    rw [hh] at hs
    dsimp only at hs
    cases hg : s.list[i]? with
    | none =>
      rw [hl] at hg
      have := List.getElem?_eq_none_iff.mp hg
      simp at this; omega
    | some q =>
      rw [hg] at hs; cases hs
      refine ⟨way, before, fun _ _ _ e => ?_, .inl ⟨hL, .inr (.inl ⟨_, _, rfl⟩)⟩⟩
      cases e
      rw [hl] at hg
      by_cases hlt : i < pre.length
      · rw [List.getElem?_append_left hlt] at hg
        exact .inl (List.mem_of_getElem? hg)
      · have : i = pre.length := by omega
        subst this
        rw [List.getElem?_append_right (Nat.le_refl _), Nat.sub_self] at hg
        exact .inr (Option.some.inj hg).symm
  · unfold Shared.proceed at hs
    have hq := h.held m i q hh
    rw [hh] at hs
    dsimp only at hs
    split at hs
    · cases hs
      exact ⟨way, before, fun _ _ _ e => (by cases e), .inl ⟨hL, .inl ⟨_, rfl⟩⟩⟩
    · rename_i hm
      cases hs
      have hm : IsFor m (s.reqs q) :=
        ⟨Classical.byContradiction fun e => hm (.inl e), Classical.byContradiction fun e => hm (.inr e)⟩
      have hq : q = r := hq.resolve_left fun hx => (h.before q hx).2 hm
      subst hq
      exact ⟨way, before, fun _ _ _ e => (by cases e), .inl ⟨hL, .inr (.inr (.inl rfl))⟩⟩
  · unfold Shared.proceed at hs
    rw [hh] at hs
    dsimp only at hs
    split at hs
    · cases hs
      exact ⟨way, before, fun _ _ _ e => (by cases e), .inr ⟨rfl, .inl (by rw [← hL])⟩⟩
    · rename_i hk
      split at hs <;> cases hs
      · exact ⟨way, before, fun _ _ _ e => (by cases e), .inr ⟨rfl, .inr ⟨hk, by rw [← hL]⟩⟩⟩
      · exact ⟨way, before, fun _ _ _ e => (by cases e), .inl ⟨hL, .inr (.inr (.inr rfl))⟩⟩
  · unfold Shared.proceed at hs
    rw [hh] at hs
    cases hs
    exact ⟨way, before, fun _ _ _ e => (by cases e), .inr ⟨rfl, .inl (by rw [← hL])⟩⟩
  · unfold Shared.proceed at hs
    rw [hh] at hs
    cases hs

theorem Settling.step {m : Delivery α} {pre : List Nat} {r : Nat} {L : List (Handled α)}
    {s s' : Shared α} {a : Act α} (h : Settling m pre r L s) (hs : s.step a = some s')
    (hn : ∀ m', a ≠ .receives m') (hl : ∀ q ∈ pre ++ [r], a ≠ .leaves q) : Settling m pre r L s' := by
  by_cases ha : a = .proceeds
  · subst ha; exact h.proceed hs
  · obtain ⟨e1, e2, f1, f2, -, f4⟩ := step_frame hs ha
    have f2 : s'.handler = s.handler := f2.resolve_right fun ⟨m', e, _⟩ => hn m' e
    refine ⟨h.way.step hs hn hl, fun q hq => ?_, by rw [f2]; exact h.held, by rw [e1, e2, f2]; exact h.at_⟩
    obtain ⟨a, b⟩ := h.before q hq
    obtain ⟨g1, g2, -⟩ := f4 q a
    refine ⟨Nat.lt_of_lt_of_le a f1, ?_⟩
    rw [IsFor, g1, g2]; exact b

theorem Settling.run {m : Delivery α} {pre : List Nat} {r : Nat} {L : List (Handled α)}
    {acts : List (Act α)} :
    ∀ {s s' : Shared α}, Settling m pre r L s → s.run acts = some s' →
    (∀ m', .receives m' ∉ acts) → (∀ q ∈ pre ++ [r], .leaves q ∉ acts) → Settling m pre r L s' := by
  induction acts with
  | nil => intro s s' h hs _ _; cases hs; exact h
  | cons a as ih =>
    intro s s' h hs hn hl
    simp only [Shared.run, Option.bind_eq_some_iff] at hs
    obtain ⟨s1, h1, h2⟩ := hs
    exact ih (h.step h1 (fun m' e => hn m' (e ▸ List.mem_cons_self))
        (fun q hq e => hl q hq (e ▸ List.mem_cons_self))) h2
      (fun m' hm => hn m' (List.mem_cons_of_mem _ hm)) (fun q hq hm => hl q hq (List.mem_cons_of_mem _ hm))

/-- C76: when none of them is taken off the list before the answer is handled, the first request on the list
that an answer is for takes it; only an Info-Reply can fail, with a TypeError. -/
theorem answer_taken {k : Requests} {before acts : List (Act α)} {s s1 s2 : Shared α}
    {m : Delivery α} (hb : (Shared.new k).run before = some s)
    (h1 : s.step (.receives m) = some s1) (h2 : s1.run acts = some s2)
    (hn : ∀ m', .receives m' ∉ acts) (hi : s2.handler = .idle)
    (pre post : List Nat) (r : Nat) (hl : s.list = pre ++ r :: post) (hm : IsFor m (s.reqs r))
    (hpre : ∀ q ∈ pre, ¬ IsFor m (s.reqs q)) (hleft : ∀ q ∈ pre ++ [r], .leaves q ∉ acts) :
    s2.log = s.log ++ [.taken m r] ∨ (s2.kind = .info ∧ s2.log = s.log ++ [.raised m r]) := by
  have inv := PInv.reach hb
  have h0 : Settling m pre r s.log s1 := by
    refine ⟨Underway.begin inv h1 hl hm, ?_, ?_, ?_⟩ <;> simp only [Shared.step] at h1 <;>
      split at h1 <;> cases h1
    · exact fun q hq => ⟨((inv.mem q).mp (by rw [hl]; simp [hq])).1, hpre q hq⟩
    · exact fun _ _ _ e => by cases e
    · exact .inl ⟨rfl, .inl ⟨0, rfl⟩⟩
  rcases (h0.run h2 hn hleft).at_ with ⟨_, ⟨_, e⟩ | ⟨_, _, e⟩ | e | e⟩ | ⟨_, h⟩
  · rw [hi] at e; cases e
  · rw [hi] at e; cases e
  · rw [hi] at e; cases e
  · rw [hi] at e; cases e
  · exact h

/-- what the log says: an answer taken has set the event of its request, and nothing but an Info-Reply
raises an exception -/
structure LInv (s : Shared α) : Prop where
  taken : ∀ m r, .taken m r ∈ s.log → r < s.count ∧ (s.reqs r).event = true
  raised : ∀ m r, .raised m r ∈ s.log → s.kind = .info

theorem LInv.step {R : Delivery α → Prop} {s s' : Shared α} {a : Act α} (inv : PInv R s) (h : LInv s)
    (hs : s.step a = some s') : LInv s' := by
  by_cases ha : a = .proceeds
  · subst ha
    obtain ⟨f1, -, f5, f3⟩ := proceed_frame hs
    have old : ∀ m r, .taken m r ∈ s.log → r < s'.count ∧ (s'.reqs r).event = true := fun m r hx =>
      ⟨by rw [f1]; exact (h.taken m r hx).1, (f3 r).2.2.2.2 (h.taken m r hx).2⟩
    have old' : ∀ m r, .raised m r ∈ s.log → s'.kind = .info := fun m r hx => by
      rw [f5]; exact h.raised m r hx
    have hs : s.proceed = some s' := hs
    unfold Shared.proceed at hs
    cases hh : s.handler with
    | idle => rw [hh] at hs; cases hs
    | next m i =>
      rw [hh] at hs; dsimp only at hs
      split at hs
      · cases hs
        refine ⟨fun m' r hx => ?_, fun m' r hx => ?_⟩
        · rcases List.mem_append.mp hx with hx | hx
          · exact old m' r hx
          · cases List.mem_singleton.mp hx
        · rcases List.mem_append.mp hx with hx | hx
          · exact old' m' r hx
          · cases List.mem_singleton.mp hx
      · cases hs; exact ⟨old, old'⟩
    | holding m i q =>
      rw [hh] at hs; dsimp only at hs
      split at hs <;> cases hs
      · exact ⟨old, old'⟩
      · exact ⟨old, old'⟩
    | stored m q =>
      have hq := (inv.stored m q hh).1
      rw [hh] at hs; dsimp only at hs
      split at hs
      · cases hs
        refine ⟨fun m' r hx => ?_, fun m' r hx => ?_⟩
        · rcases List.mem_append.mp hx with hx | hx
          · exact old m' r hx
          · cases List.mem_singleton.mp hx
            exact ⟨hq, by show ((s.set q fun q => { q with event := true }).reqs q).event = _; rw [set_self]⟩
        · rcases List.mem_append.mp hx with hx | hx
          · exact old' m' r hx
          · cases List.mem_singleton.mp hx
      · rename_i hk
        split at hs <;> cases hs
        · refine ⟨fun m' r hx => ?_, fun m' r hx => ?_⟩
          · rcases List.mem_append.mp hx with hx | hx
            · exact old m' r hx
            · cases List.mem_singleton.mp hx
          · exact hk
        · exact ⟨old, old'⟩
    | filled m q =>
      have hq := (inv.filled m q hh).1
      rw [hh] at hs
      cases hs
      refine ⟨fun m' r hx => ?_, fun m' r hx => ?_⟩
      · rcases List.mem_append.mp hx with hx | hx
        · exact old m' r hx
        · cases List.mem_singleton.mp hx
          exact ⟨hq, by show ((s.set q fun q => { q with event := true }).reqs q).event = _; rw [set_self]⟩
      · rcases List.mem_append.mp hx with hx | hx
        · exact old' m' r hx
        · cases List.mem_singleton.mp hx
  · obtain ⟨e1, e2, f1, -, -, f4⟩ := step_frame hs ha
    refine ⟨fun m r hx => ?_, fun m r hx => by rw [e2]; exact h.raised m r (e1 ▸ hx)⟩
    obtain ⟨a, b⟩ := h.taken m r (e1 ▸ hx)
    exact ⟨Nat.lt_of_lt_of_le a f1, by rw [(f4 r a).2.2.1]; exact b⟩

theorem LInv.run {s' : Shared α} {acts : List (Act α)} : ∀ {s : Shared α} {R : Delivery α → Prop},
    PInv R s → LInv s → s.run acts = some s' → LInv s' := by
  induction acts with
  | nil => intro s R _ h hs; cases hs; exact h
  | cons a as ih =>
    intro s R inv h hs
    simp only [Shared.run, Option.bind_eq_some_iff] at hs
    obtain ⟨s1, h1, h2⟩ := hs
    exact ih (inv.step a h1) (h.step inv h1) h2

theorem LInv.reach {k : Requests} {acts : List (Act α)} {s : Shared α}
    (h : (Shared.new k).run acts = some s) : LInv s :=
  LInv.run (PInv.new k) ⟨(fun _ _ h => by cases h), (fun _ _ h => by cases h)⟩ h

theorem kind_run {s' : Shared α} {acts : List (Act α)} : ∀ {s : Shared α}, s.run acts = some s' →
    s'.kind = s.kind := by
  induction acts with
  | nil => intro s hs; cases hs; rfl
  | cons a as ih =>
    intro s hs
    simp only [Shared.run, Option.bind_eq_some_iff] at hs
    obtain ⟨s1, h1, h2⟩ := hs
    rw [ih h2]
    by_cases ha : a = .proceeds
    · subst ha; exact (proceed_frame h1).2.2.1
    · exact (step_frame h1 ha).2.1

/-- C76: no Map-Notify makes the main thread raise an exception, in any schedule. -/
theorem notify_never_raises {acts : List (Act α)} {s : Shared α}
    (h : (Shared.new .notify).run acts = some s) (m : Delivery α) (r : Nat) : .raised m r ∉ s.log := by
  intro hx
  have := (LInv.reach h).raised m r hx
  rw [kind_run h] at this
  cases this

/-- C76: an Info-Reply makes it raise one exactly when the request it was stored with has no `sent_from`
yet: when it comes in after the Info-Request was handed to the socket and before the sending thread noted
which socket that was (or when the last attempt found no socket). -/
theorem info_reply_raises_iff {s s' : Shared α} (h : s.step .proceeds = some s') (m : Delivery α) (r : Nat) :
    s'.log = s.log ++ [.raised m r] ↔
      s.handler = .stored m r ∧ s.kind = .info ∧ (s.reqs r).sentFrom = none := by
  have nolog : ∀ x, s.log ≠ s.log ++ [x] := fun x e => by
    have := congrArg List.length e; simp at this
  have h : s.proceed = some s' := h
  unfold Shared.proceed at h
  split at h
  · cases h
  · rename_i hh
    split at h <;> cases h
    · simp [hh]
    · simp [hh]
  · rename_i hh
    split at h <;> cases h
    · simp [hh]
    · refine ⟨fun e => absurd e (nolog _), fun e => ?_⟩
      rw [hh] at e; cases e.1
  · rename_i m' r' hh
    split at h
    · rename_i hk
      cases h
      simp [hk]
    · rename_i hk
      split at h <;> cases h
      · rename_i hf
        simp only [List.append_cancel_left_eq, List.cons.injEq, and_true, Handled.raised.injEq, hh,
          Handler.stored.injEq, hk, true_and]
        refine ⟨fun ⟨a, b⟩ => ⟨⟨a, b⟩, b ▸ hf⟩, fun e => e.1⟩
      · rename_i hf
        refine ⟨fun e => absurd e (nolog _), fun e => ?_⟩
        rw [hh] at e
        obtain ⟨e1, _, e2⟩ := e
        cases e1
        rw [hf] at e2; cases e2
  · rename_i hh
    cases h
    simp [hh]

/-- where the last attempt to send request `r` went out, by the schedule: the address of the socket, if there
was one -/
def lastSource (r : Nat) (acts : List (Act α)) : Option IP :=
  acts.foldl (fun x a => match a with | .sent r' src => if r' = r then src else x | _ => x) none

theorem step_source {s s' : Shared α} {a : Act α} (h : s.step a = some s')
    (hn : ∀ r, s.count ≤ r → (s.reqs r).sentFrom = none) :
    (∀ r, s'.count ≤ r → (s'.reqs r).sentFrom = none) ∧
    ∀ r, (s'.reqs r).sentFrom =
      (match a with | .sent r' src => if r' = r then src else (s.reqs r).sentFrom | _ => (s.reqs r).sentFrom) := by
  have set : ∀ (j : Nat) (f : Waiting α → Waiting α), (∀ q, (f q).sentFrom = q.sentFrom) →
      ∀ r, ((s.set j f).reqs r).sentFrom = (s.reqs r).sentFrom := by
    intro j f hf r
    by_cases hj : r = j
    · subst hj; rw [set_self, hf]
    · rw [set_other s f hj]
  have quiet : s'.count = s.count → (∀ r, (s'.reqs r).sentFrom = (s.reqs r).sentFrom) →
      (∀ r, s'.count ≤ r → (s'.reqs r).sentFrom = none) ∧ ∀ r, (s'.reqs r).sentFrom = (s.reqs r).sentFrom :=
    fun hc h => ⟨fun r hr => by rw [h, hn r (by omega)], h⟩
  cases a with
  | start server nonce =>
    cases h
    have hr : ∀ r, ((s.add server nonce).reqs r).sentFrom = (s.reqs r).sentFrom := by
      intro r
      unfold Shared.add
      dsimp only
      split
      · next e => exact (hn r (by omega)).symm
      · rfl
    refine ⟨fun r hc => ?_, hr⟩
    have hc : s.count + 1 ≤ r := hc
    rw [hr, hn r (by omega)]
  | sent j src =>
    unfold Shared.step at h
    dsimp only at h
    split at h
    · split at h
      · next hj =>
        cases h
        have hr : ∀ r, ((s.set j fun q => { q with pc := .waiting, sentFrom := src }).reqs r).sentFrom =
            if j = r then src else (s.reqs r).sentFrom := by
          intro r
          by_cases e : r = j
          · subst e; rw [set_self, if_pos rfl]
          · rw [set_other s _ e, if_neg fun e' => e e'.symm]
        refine ⟨fun r hc => ?_, hr⟩
        have hc : s.count ≤ r := hc
        rw [hr, if_neg (by omega), hn r hc]
      · cases h
    · cases h
  | fails j =>
    unfold Shared.step at h
    dsimp only at h
    split at h
    · split at h
      · cases h; exact quiet rfl (set j _ fun _ => rfl)
      · cases h
    · cases h
  | wakes j stop =>
    unfold Shared.step at h
    dsimp only at h
    split at h
    · cases h
      refine quiet rfl (set j _ fun q => ?_)
      repeat' split
      all_goals rfl
    · cases h
  | leaves j =>
    unfold Shared.step at h
    dsimp only at h
    split at h
    · split at h
      · cases h
        refine quiet rfl fun r => ?_
        unfold Shared.remove
        dsimp only
        split
        · next e => rw [e]
        · rfl
      · cases h
    · cases h
  | judges j =>
    unfold Shared.step at h
    dsimp only at h
    repeat' split at h
    all_goals first
      | (cases h; exact quiet rfl (set j _ fun _ => rfl))
      | cases h
  | compares j =>
    unfold Shared.step at h
    dsimp only at h
    repeat' split at h
    all_goals first
      | (cases h; exact quiet rfl (set j _ fun _ => rfl))
      | cases h
  | receives m =>
    unfold Shared.step at h
    dsimp only at h
    split at h
    · cases h; exact quiet rfl fun _ => rfl
    · cases h
  | proceeds =>
    obtain ⟨f1, _, _, f2⟩ := proceed_frame (show s.proceed = some s' from h)
    exact quiet f1 fun r => (f2 r).2.2.2.1

/-- `sent_from` of a request is the address its last attempt went out from -/
theorem source_reach {k : Requests} {acts : List (Act α)} {s : Shared α} (h : (Shared.new k).run acts = some s)
    (r : Nat) : (s.reqs r).sentFrom = lastSource r acts := by
  have key : ∀ (acts : List (Act α)) (s0 s : Shared α), (∀ r, s0.count ≤ r → (s0.reqs r).sentFrom = none) →
      s0.run acts = some s → (s.reqs r).sentFrom =
        acts.foldl (fun x a => match a with | .sent r' src => if r' = r then src else x | _ => x)
          (s0.reqs r).sentFrom := by
    intro acts
    induction acts with
    | nil => intro s0 s _ h; cases h; rfl
    | cons a as ih =>
      intro s0 s hn h
      unfold Shared.run at h
      cases hs : s0.step a with
      | none => rw [hs] at h; cases h
      | some s1 =>
        rw [hs] at h
        obtain ⟨k1, k2⟩ := step_source hs hn
        rw [ih s1 s k1 h, k2 r, List.foldl_cons]
        cases a <;> rfl
  exact key acts (Shared.new k) s (fun _ _ => rfl) h

/-- C76: in every schedule, an Info-Reply makes the main thread raise exactly when it has just been stored with a
request whose last attempt had not (yet) been noted with the address of a socket; otherwise that very address is
stored with the reply, as the private address of the ETR. -/
theorem info_reply_source {acts : List (Act α)} {s s' : Shared α} (h : (Shared.new .info).run acts = some s)
    {m : Delivery α} {r : Nat} (hh : s.handler = .stored m r) (hp : s.step .proceeds = some s') :
    (lastSource r acts = none → s'.log = s.log ++ [.raised m r] ∧ (s'.reqs r).answer = (s.reqs r).answer) ∧
    ∀ a, lastSource r acts = some a → (s'.reqs r).answer = some (m, some a) ∧ s'.log = s.log := by
  have hp : s.proceed = some s' := hp
  have hk : s.kind = .info := kind_run h
  rw [← source_reach h r]
  unfold Shared.proceed at hp
  rw [hh] at hp
  dsimp only at hp
  rw [hk] at hp
  dsimp only at hp
  cases hf : (s.reqs r).sentFrom with
  | none =>
    rw [hf] at hp
    cases hp
    exact ⟨fun _ => ⟨rfl, rfl⟩, fun a e => by cases e⟩
  | some a =>
    rw [hf] at hp
    cases hp
    refine ⟨(fun e => by cases e), fun a' e => ?_⟩
    cases e
    refine ⟨?_, rfl⟩
    show ((s.set r fun q => { q with answer := some (m, some a) }).reqs r).answer = _
    rw [set_self]

theorem unanswered_step {R : Delivery α → Prop} {s s' : Shared α} {a : Act α} (_ : PInv R s)
    (hs : s.step a = some s') (r : Nat) (hr : r < s.count) (he : (s.reqs r).event = true)
    (hp : (s.reqs r).pc ≠ .unanswered) : (s'.reqs r).pc ≠ .unanswered := by
  by_cases ht : ThreadOf r a
  · cases a with
    | start _ _ => exact absurd ht (by exact fun x => x)
    | receives _ => exact absurd ht (by exact fun x => x)
    | proceeds => exact absurd ht (by exact fun x => x)
    | sent j src =>
      cases ht
      simp only [Shared.step] at hs
      split at hs
      · split at hs <;> cases hs
        all_goals rw [set_self]; exact fun e => by cases e
      · cases hs
    | fails j =>
      cases ht
      simp only [Shared.step] at hs
      split at hs
      · split at hs <;> cases hs
        all_goals rw [set_self]; exact fun e => by cases e
      · cases hs
    | wakes j stop =>
      cases ht
      simp only [Shared.step] at hs
      split at hs
      · cases hs
        rw [set_self, he]
        cases stop <;> exact fun e => by cases e
      · cases hs
    | leaves j =>
      cases ht
      simp only [Shared.step] at hs
      split at hs
      · split at hs <;> cases hs
        rw [remove_reqs, if_pos rfl]; exact fun e => by cases e
      · cases hs
    | judges j =>
      cases ht
      simp only [Shared.step] at hs
      split at hs
      · split at hs
        · split at hs
          · cases hs
          · split at hs <;> cases hs
            all_goals rw [set_self]; exact fun e => by cases e
        · rename_i hx; exact absurd he hx
      · cases hs
    | compares j =>
      cases ht
      simp only [Shared.step] at hs
      split at hs
      · split at hs <;> cases hs
        rw [set_self]; exact fun e => by cases e
      · cases hs
  · rw [(step_ident hs r hr).2.2.2 ht]; exact hp

theorem unanswered_run {s' : Shared α} {acts : List (Act α)} : ∀ {s : Shared α} {R : Delivery α → Prop},
    PInv R s → s.run acts = some s' → ∀ r, r < s.count → (s.reqs r).event = true →
    (s.reqs r).pc ≠ .unanswered → (s'.reqs r).pc ≠ .unanswered := by
  induction acts with
  | nil => intro s R _ hs; cases hs; exact fun _ _ _ h => h
  | cons a as ih =>
    intro s R inv hs r hr he hp
    simp only [Shared.run, Option.bind_eq_some_iff] at hs
    obtain ⟨s1, h1, h2⟩ := hs
    exact ih (inv.step a h1) h2 r (Nat.lt_of_lt_of_le hr (step_count h1))
      ((step_ident h1 r hr).2.2.1 he) (unanswered_step inv h1 r hr he hp)

/-- C76: an answer that was taken counts: unless the thread of the request has already concluded that there was
none, it never will, whatever the schedule (even if the last attempt has timed out and the request is off
the list). -/
theorem taken_counts {k : Requests} {before acts : List (Act α)} {s s' : Shared α} {m : Delivery α} {r : Nat}
    (hb : (Shared.new k).run before = some s) (ht : .taken m r ∈ s.log)
    (hp : (s.reqs r).pc ≠ .unanswered) (h : s.run acts = some s') : (s'.reqs r).pc ≠ .unanswered := by
  obtain ⟨hr, he⟩ := (LInv.reach hb).taken m r ht
  exact unanswered_run (PInv.reach hb) h r hr he hp

/-- the main thread is in the middle of giving an answer to `r` -/
def Busy (r : Nat) : Handler α → Prop
  | .holding _ _ q | .stored _ q | .filled _ q => q = r
  | _ => False

/-- `r` is off the list, and the main thread does not have it -/
structure Settled (r : Nat) (s : Shared α) : Prop where
  lt : r < s.count
  off : r ∉ s.list
  notBusy : ¬ Busy r s.handler
  judging : (s.reqs r).pc = .judging ∨ (∃ m p, (s.reqs r).pc = .comparing m ∧
      (s.reqs r).answer = some (m, p)) ∨ (∃ m p, (s.reqs r).pc = .answered m m p) ∨
      (s.reqs r).pc = .unanswered

theorem Settled.step {r : Nat} {s s' : Shared α} {a : Act α} (h : Settled r s)
    (hs : s.step a = some s') : Settled r s' := by
  by_cases ha : a = .proceeds
  · subst ha
    obtain ⟨f1, f2, -, f3⟩ := proceed_frame hs
    have hs : s.proceed = some s' := hs
    have key : ¬ Busy r s'.handler ∧ s'.reqs r = s.reqs r := by
      have nb := h.notBusy
      have off := h.off
      unfold Shared.proceed at hs
      cases hh : s.handler with
      | idle => rw [hh] at hs; cases hs
      | next m i =>
        rw [hh] at hs; dsimp only at hs
        cases hg : s.list[i]? with
        | none => rw [hg] at hs; cases hs; exact ⟨fun x => x, rfl⟩
        | some q =>
          rw [hg] at hs; cases hs
          exact ⟨fun e => off (by cases e; exact List.mem_of_getElem? hg), rfl⟩
      | holding m i q =>
        rw [hh] at hs nb; dsimp only at hs
        have hq : r ≠ q := fun e => nb e.symm
        split at hs <;> cases hs
        · exact ⟨fun x => x, rfl⟩
        · exact ⟨nb, if_neg hq⟩
      | stored m q =>
        rw [hh] at hs nb; dsimp only at hs
        have hq : r ≠ q := fun e => nb e.symm
        split at hs
        · cases hs; exact ⟨fun x => x, if_neg hq⟩
        · split at hs <;> cases hs
          · exact ⟨fun x => x, rfl⟩
          · exact ⟨nb, if_neg hq⟩
      | filled m q =>
        rw [hh] at hs nb
        have hq : r ≠ q := fun e => nb e.symm
        cases hs
        exact ⟨fun x => x, if_neg hq⟩
    exact ⟨by rw [f1]; exact h.lt, by rw [f2]; exact h.off, key.1, by rw [key.2]; exact h.judging⟩
  · obtain ⟨-, -, f1, f2, f3, f4⟩ := step_frame hs ha
    refine ⟨Nat.lt_of_lt_of_le h.lt f1, ?_, ?_, ?_⟩
    · rcases f3 with e | ⟨_, _, _, e⟩ | ⟨j, _, e⟩
      · rw [e]; exact h.off
      · rw [e, List.mem_append, List.mem_singleton]
        rintro (hx | hx)
        · exact h.off hx
        · exact Nat.ne_of_lt h.lt hx
      · rw [e]; exact fun hx => h.off (List.mem_of_mem_erase hx)
    · rcases f2 with e | ⟨_, _, _, e⟩
      · rw [e]; exact h.notBusy
      · rw [e]; exact fun x => x
    · by_cases ht : ThreadOf r a
      · cases a with
        | start _ _ => exact absurd ht (by exact fun x => x)
        | receives _ => exact absurd ht (by exact fun x => x)
        | proceeds => exact absurd ht (by exact fun x => x)
        | judges j =>
          cases ht
          simp only [Shared.step] at hs
          split at hs
          · split at hs
            · split at hs
              · cases hs
              · rename_i m p hm
                split at hs <;> cases hs
                · rw [set_self]
                  exact .inr (.inl ⟨m, p, rfl, hm⟩)
                · rw [set_self]
                  exact .inr (.inr (.inl ⟨m, p, rfl⟩))
            · cases hs
              rw [set_self]
              exact .inr (.inr (.inr rfl))
          · cases hs
        | compares j =>
          cases ht
          simp only [Shared.step] at hs
          split at hs
          · rename_i m hm
            rcases h.judging with e | ⟨m', p', e, e'⟩ | ⟨_, _, e⟩ | e
            · rw [hm] at e; cases e
            · rw [hm] at e; cases e
              rw [e'] at hs
              cases hs
              rw [set_self]
              exact .inr (.inr (.inl ⟨m, p', rfl⟩))
            · rw [hm] at e; cases e
            · rw [hm] at e; cases e
          · cases hs
        | sent j src =>
          cases ht
          rcases h.judging with e | ⟨_, _, e, _⟩ | ⟨_, _, e⟩ | e <;> simp [Shared.step, e] at hs
        | fails j =>
          cases ht
          rcases h.judging with e | ⟨_, _, e, _⟩ | ⟨_, _, e⟩ | e <;> simp [Shared.step, e] at hs
        | wakes j stop =>
          cases ht
          rcases h.judging with e | ⟨_, _, e, _⟩ | ⟨_, _, e⟩ | e <;> simp [Shared.step, e] at hs
        | leaves j =>
          cases ht
          rcases h.judging with e | ⟨_, _, e, _⟩ | ⟨_, _, e⟩ | e <;> simp [Shared.step, e] at hs
      · rw [(f4 r h.lt).2.2.2.2 ht]; exact h.judging

theorem Settled.run {r : Nat} {s' : Shared α} {acts : List (Act α)} : ∀ {s : Shared α}, Settled r s →
    s.run acts = some s' → Settled r s' := by
  induction acts with
  | nil => intro s h hs; cases hs; exact h
  | cons a as ih =>
    intro s h hs
    simp only [Shared.run, Option.bind_eq_some_iff] at hs
    obtain ⟨s1, h1, h2⟩ := hs
    exact ih (h.step h1) h2

/-- C76: the Map-Notify whose contents are compared with the registration is the one that was authenticated,
unless the main thread was giving the request a further one when it was taken off the list. -/
theorem compared_authenticated {k : Requests} {before acts : List (Act α)} {s s1 s2 : Shared α} {r : Nat}
    (hb : (Shared.new k).run before = some s) (hl : s.step (.leaves r) = some s1)
    (hh : ¬ Busy r s.handler) (h : s1.run acts = some s2) (m m' : Delivery α) (p : Option IP)
    (hp : (s2.reqs r).pc = .answered m m' p) : m = m' := by
  have inv := PInv.reach hb
  have h0 : Settled r s1 := by
    simp only [Shared.step] at hl
    split at hl
    · split at hl <;> cases hl
      rename_i hr
      refine ⟨((inv.mem r).mp hr).1, ?_, hh, .inl ?_⟩
      · exact fun hx => ((mem_erase_nodup inv.nodup r r).mp hx).1 rfl
      · rw [remove_reqs, if_pos rfl]
    · cases hl
  rcases (h0.run h).judging with e | ⟨_, _, e, _⟩ | ⟨_, _, e⟩ | e <;> rw [hp] at e <;> cases e
  rfl

/-- the answers handled in a schedule -/
def received : List (Act α) → List (Delivery α)
  | [] => []
  | .receives m :: as => m :: received as
  | _ :: as => received as

/-- every answer received is with one request at most -/
structure Once (D : List (Delivery α)) (s : Shared α) : Prop where
  ans : ∀ r m p, (s.reqs r).answer = some (m, p) → m ∈ D
  once : ∀ r r' m p p', (s.reqs r).answer = some (m, p) → (s.reqs r').answer = some (m, p') → r = r'
  next : ∀ m i, s.handler = .next m i → m ∈ D ∧ ∀ r p, (s.reqs r).answer ≠ some (m, p)
  holding : ∀ m i q, s.handler = .holding m i q → m ∈ D ∧ ∀ r p, (s.reqs r).answer ≠ some (m, p)
  stored : ∀ m q, s.handler = .stored m q → ∃ p, (s.reqs q).answer = some (m, p)
  filled : ∀ m q, s.handler = .filled m q → ∃ p, (s.reqs q).answer = some (m, p)

/-- an answer stored with `q` that it already has, or that none has -/
theorem Once.setAnswer {D : List (Delivery α)} {s : Shared α} (h : Once D s) (q : Nat) (m : Delivery α)
    (p : Option IP) (hm : m ∈ D) (hq : ∀ r p, (s.reqs r).answer = some (m, p) → r = q) (hd : Handler α)
    (n1 : ∀ m' i, hd ≠ .next m' i) (n2 : ∀ m' i q', hd ≠ .holding m' i q')
    (n3 : ∀ m' q', hd = .stored m' q' → m' = m ∧ q' = q)
    (n4 : ∀ m' q', hd = .filled m' q' → m' = m ∧ q' = q) :
    Once D { s.set q (fun w => { w with answer := some (m, p) }) with handler := hd } := by
  have self : ((s.set q (fun w => { w with answer := some (m, p) })).reqs q).answer = some (m, p) := by
    rw [set_self]
  have cases : ∀ r m' p', ((s.set q (fun w => { w with answer := some (m, p) })).reqs r).answer =
      some (m', p') → (r = q ∧ m' = m) ∨ (r ≠ q ∧ (s.reqs r).answer = some (m', p')) := by
    intro r m' p' hr
    by_cases e : r = q
    · subst e; rw [self] at hr; cases hr; exact .inl ⟨rfl, rfl⟩
    · rw [set_other s _ e] at hr; exact .inr ⟨e, hr⟩
  refine ⟨?_, ?_, fun m' i e => absurd e (n1 m' i), fun m' i q' e => absurd e (n2 m' i q'), ?_, ?_⟩
  · intro r m' p' hr
    rcases cases r m' p' hr with ⟨_, rfl⟩ | ⟨_, hr⟩
    · exact hm
    · exact h.ans r m' p' hr
  · intro r r' m' p1 p2 hr hr'
    rcases cases r m' p1 hr with ⟨e1, e2⟩ | ⟨hn, g⟩ <;> rcases cases r' m' p2 hr' with ⟨e3, e4⟩ | ⟨hn', g'⟩
    · rw [e1, e3]
    · rw [e2] at g'; exact absurd (hq r' p2 g') hn'
    · rw [e4] at g; exact absurd (hq r p1 g) hn
    · exact h.once r r' m' p1 p2 g g'
  · intro m' q' e
    obtain ⟨rfl, rfl⟩ := n3 m' q' e
    exact ⟨p, self⟩
  · intro m' q' e
    obtain ⟨rfl, rfl⟩ := n4 m' q' e
    exact ⟨p, self⟩

/-- a step that changes no answer -/
theorem Once.keep {D : List (Delivery α)} {s s' : Shared α} (h : Once D s)
    (ha : ∀ r, (s'.reqs r).answer = (s.reqs r).answer)
    (n1 : ∀ m i, s'.handler = .next m i → m ∈ D ∧ ∀ r p, (s.reqs r).answer ≠ some (m, p))
    (n2 : ∀ m i q, s'.handler = .holding m i q → m ∈ D ∧ ∀ r p, (s.reqs r).answer ≠ some (m, p))
    (n3 : ∀ m q, s'.handler = .stored m q → s.handler = .stored m q)
    (n4 : ∀ m q, s'.handler = .filled m q → s.handler = .filled m q) : Once D s' := by
  refine ⟨fun r m p => ?_, fun r r' m p p' => ?_, fun m i e => ⟨(n1 m i e).1, fun r p => ?_⟩,
    fun m i q e => ⟨(n2 m i q e).1, fun r p => ?_⟩, fun m q e => ?_, fun m q e => ?_⟩
  · rw [ha]; exact h.ans r m p
  · rw [ha, ha]; exact h.once r r' m p p'
  · rw [ha]; exact (n1 m i e).2 r p
  · rw [ha]; exact (n2 m i q e).2 r p
  · rw [ha]; exact h.stored m q (n3 m q e)
  · rw [ha]; exact h.filled m q (n4 m q e)

theorem Once.proceed {D : List (Delivery α)} {s s' : Shared α} (h : Once D s)
    (hs : s.proceed = some s') : Once D s' := by
  unfold Shared.proceed at hs
  cases hh : s.handler with
  | idle => rw [hh] at hs; cases hs
  | next m i =>
    rw [hh] at hs; dsimp only at hs
    split at hs <;> cases hs
    · exact h.keep (fun _ => rfl) (fun _ _ e => by cases e) (fun _ _ _ e => by cases e)
        (fun _ _ e => by cases e) (fun _ _ e => by cases e)
    · exact h.keep (fun _ => rfl) (fun _ _ e => by cases e) (fun _ _ _ e => by cases e; exact h.next m i hh)
        (fun _ _ e => by cases e) (fun _ _ e => by cases e)
  | holding m i q =>
    rw [hh] at hs; dsimp only at hs
    split at hs <;> cases hs
    · exact h.keep (fun _ => rfl) (fun _ _ e => by cases e; exact h.holding m i q hh)
        (fun _ _ _ e => by cases e) (fun _ _ e => by cases e) (fun _ _ e => by cases e)
    · obtain ⟨hm, hno⟩ := h.holding m i q hh
      exact h.setAnswer q m none hm (fun r p e => absurd e (hno r p)) _ (fun _ _ e => by cases e)
        (fun _ _ _ e => by cases e) (fun _ _ e => by cases e; exact ⟨rfl, rfl⟩) (fun _ _ e => by cases e)
  | stored m q =>
    rw [hh] at hs; dsimp only at hs
    split at hs
    · cases hs
      refine h.keep (fun r => ?_) (fun _ _ e => by cases e) (fun _ _ _ e => by cases e)
        (fun _ _ e => by cases e) (fun _ _ e => by cases e)
      show ((s.set q fun w => { w with event := true }).reqs r).answer = _
      rw [set_reqs]; split
      · rename_i e; rw [e]
      · rfl
    · split at hs <;> cases hs
      · exact h.keep (fun _ => rfl) (fun _ _ e => by cases e) (fun _ _ _ e => by cases e)
          (fun _ _ e => by cases e) (fun _ _ e => by cases e)
      · obtain ⟨p, hp⟩ := h.stored m q hh
        exact h.setAnswer q m _ (h.ans q m p hp) (fun r p' e => h.once r q m p' p e hp) _
          (fun _ _ e => by cases e) (fun _ _ _ e => by cases e) (fun _ _ e => by cases e)
          (fun _ _ e => by cases e; exact ⟨rfl, rfl⟩)
  | filled m q =>
    rw [hh] at hs
    cases hs
    refine h.keep (fun r => ?_) (fun _ _ e => by cases e) (fun _ _ _ e => by cases e)
      (fun _ _ e => by cases e) (fun _ _ e => by cases e)
    show ((s.set q fun w => { w with event := true }).reqs r).answer = _
    rw [set_reqs]; split
    · rename_i e; rw [e]
    · rfl

theorem Once.step {R : Delivery α → Prop} {D : List (Delivery α)} {s s' : Shared α} {a : Act α}
    (inv : PInv R s) (h : Once D s) (hs : s.step a = some s') (hn : ∀ m, a = .receives m → m ∉ D) :
    Once (D ++ received [a]) s' := by
  have more : ∀ D', Once D s' → Once (D ++ D') s' := fun D' h =>
    ⟨fun r m p e => List.mem_append_left _ (h.ans r m p e), h.once,
      fun m i e => ⟨List.mem_append_left _ (h.next m i e).1, (h.next m i e).2⟩,
      fun m i q e => ⟨List.mem_append_left _ (h.holding m i q e).1, (h.holding m i q e).2⟩,
      h.stored, h.filled⟩
  by_cases ha : a = .proceeds
  · subst ha; exact more _ (h.proceed hs)
  by_cases hr : ∃ m, a = .receives m
  · obtain ⟨m, rfl⟩ := hr
    simp only [Shared.step] at hs
    split at hs <;> cases hs
    have hm := hn m rfl
    refine ⟨fun r m' p e => List.mem_append_left _ (h.ans r m' p e), h.once, fun m' i e => ?_,
      (fun _ _ _ e => by cases e), (fun _ _ e => by cases e), (fun _ _ e => by cases e)⟩
    cases e
    exact ⟨List.mem_append_right _ List.mem_cons_self, fun r p e => hm (h.ans r m p e)⟩
  · obtain ⟨-, -, f1, f2, -, f4⟩ := step_frame hs ha
    have f2 : s'.handler = s.handler := f2.resolve_right fun ⟨m, e, _⟩ => hr ⟨m, e⟩
    refine more _ ?_
    have old : ∀ r m p, (s'.reqs r).answer = some (m, p) → (s.reqs r).answer = some (m, p) := by
      intro r m p e
      by_cases hlt : r < s.count
      · rw [← (f4 r hlt).2.2.2.1]; exact e
      · cases a with
        | start x y =>
          cases hs
          rw [add_reqs] at e
          split at e
          · cases e
          · exact e
        | proceeds => exact absurd rfl ha
        | receives m => exact absurd ⟨m, rfl⟩ hr
        | sent j src =>
          simp only [Shared.step] at hs
          split at hs
          · split at hs <;> cases hs
            rw [set_reqs] at e
            split at e
            · rename_i e'; rw [e']; exact e
            · exact e
          · cases hs
        | fails j =>
          simp only [Shared.step] at hs
          split at hs
          · split at hs <;> cases hs
            rw [set_reqs] at e
            split at e
            · rename_i e'; rw [e']; exact e
            · exact e
          · cases hs
        | wakes j stop =>
          simp only [Shared.step] at hs
          split at hs <;> cases hs
          rw [set_reqs] at e
          split at e
          · rename_i e'; rw [e']
            revert e
            split
            · exact id
            · split
              · exact id
              · split <;> exact id
          · exact e
        | leaves j =>
          simp only [Shared.step] at hs
          split at hs
          · split at hs <;> cases hs
            rw [remove_reqs] at e
            split at e
            · rename_i e'; rw [e']; exact e
            · exact e
          · cases hs
        | judges j =>
          simp only [Shared.step] at hs
          split at hs
          · split at hs
            · split at hs
              · cases hs
              · split at hs <;> cases hs
                all_goals
                  rw [set_reqs] at e
                  split at e
                  · rename_i e'; rw [e']; exact e
                  · exact e
            · cases hs
              rw [set_reqs] at e
              split at e
              · rename_i e'; rw [e']; exact e
              · exact e
          · cases hs
        | compares j =>
          simp only [Shared.step] at hs
          split at hs
          · split at hs <;> cases hs
            rw [set_reqs] at e
            split at e
            · rename_i e'; rw [e']; exact e
            · exact e
          · cases hs
    have new : ∀ q m p, q < s.count → (s.reqs q).answer = some (m, p) → (s'.reqs q).answer = some (m, p) :=
      fun q m p hlt e => by rw [(f4 q hlt).2.2.2.1]; exact e
    refine ⟨fun r m p e => h.ans r m p (old r m p e),
      fun r r' m p p' e e' => h.once r r' m p p' (old r m p e) (old r' m p' e'),
      fun m i e => ?_, fun m i q e => ?_, fun m q e => ?_, fun m q e => ?_⟩
    · rw [f2] at e
      exact ⟨(h.next m i e).1, fun r p e' => (h.next m i e).2 r p (old r m p e')⟩
    · rw [f2] at e
      exact ⟨(h.holding m i q e).1, fun r p e' => (h.holding m i q e).2 r p (old r m p e')⟩
    · rw [f2] at e
      obtain ⟨p, hp⟩ := h.stored m q e
      exact ⟨p, new q m p (inv.stored m q e).1 hp⟩
    · rw [f2] at e
      obtain ⟨p, hp⟩ := h.filled m q e
      exact ⟨p, new q m p (inv.filled m q e).1 hp⟩

theorem received_cons (a : Act α) (as : List (Act α)) : received (a :: as) = received [a] ++ received as := by
  cases a <;> rfl

theorem Once.run {s' : Shared α} {acts : List (Act α)} : ∀ {s : Shared α} {R : Delivery α → Prop}
    {D : List (Delivery α)}, PInv R s → Once D s → s.run acts = some s' → (D ++ received acts).Nodup →
    Once (D ++ received acts) s' := by
  induction acts with
  | nil => intro s R D _ h hs _; cases hs; simpa [received] using h
  | cons a as ih =>
    intro s R D inv h hs hd
    simp only [Shared.run, Option.bind_eq_some_iff] at hs
    obtain ⟨s1, h1, h2⟩ := hs
    rw [received_cons, ← List.append_assoc] at hd ⊢
    refine ih (inv.step a h1) (h.step inv h1 fun m e hm => ?_) h2 hd
    subst e
    have := (List.nodup_append.mp (List.nodup_append.mp hd).1).2.2 m hm m List.mem_cons_self
    exact this rfl

/-- C76: in every schedule, an answer received once is with one request at most. -/
theorem answer_once {k : Requests} {acts : List (Act α)} {s : Shared α}
    (h : (Shared.new k).run acts = some s) (hd : (received acts).Nodup) (r r' : Nat) (m : Delivery α)
    (p p' : Option IP) (hr : (s.reqs r).answer = some (m, p)) (hr' : (s.reqs r').answer = some (m, p')) :
    r = r' := by
  have h0 : Once [] (Shared.new (α := α) k) :=
    ⟨fun _ _ _ e => (by cases e), fun _ _ _ _ _ e => (by cases e), fun _ _ e => (by cases e),
      fun _ _ _ e => (by cases e), fun _ _ e => (by cases e), fun _ _ e => (by cases e)⟩
  exact (Once.run (PInv.new k) h0 h (by simpa using hd)).once r r' m p p' hr hr'

/-! ### How a thread goes on with its request -/

/-- Specification: how often request `r` was sent, by the schedule -/
def sends (r : Nat) : List (Act α) → Nat
  | [] => 0
  | .sent j _ :: acts => (if j = r then 1 else 0) + sends r acts
  | _ :: acts => sends r acts

/-- Specification: sending request `r` raised an exception, or its thread was told to stop while it waited -/
def GivenUp (r : Nat) (acts : List (Act α)) : Prop := .fails r ∈ acts ∨ .wakes r true ∈ acts

theorem sends_append (r : Nat) (as bs : List (Act α)) : sends r (as ++ bs) = sends r as + sends r bs := by
  induction as with
  | nil => simp [sends]
  | cons a as ih => cases a <;> simp [sends, ih, Nat.add_assoc]

/-- where the thread of a request can be after `n` sends, having given up or not -/
def LifeOk (q : Waiting α) (n : Nat) (g : Prop) : Prop :=
  match q.pc with
  | .sending => n + q.left = 2 ∧ ¬ g
  | .waiting => n + q.left = 3 ∧ 1 ≤ n ∧ ¬ g
  | .leaving | .judging => 1 ≤ n ∧ n ≤ 3 ∧ (q.event = true ∨ n = 3) ∧ ¬ g
  | .comparing _ | .answered .. => 1 ≤ n ∧ n ≤ 3 ∧ ¬ g
  | .unanswered => n = 3 ∧ ¬ g
  | .abandoned => n ≤ 3 ∧ g

structure Life (acts : List (Act α)) (s : Shared α) : Prop where
  old : ∀ r, r < s.count → LifeOk (s.reqs r) (sends r acts) (GivenUp r acts)
  new : ∀ r, s.count ≤ r → (s.reqs r).pc = .sending ∧ sends r acts = 0 ∧ ¬ GivenUp r acts

theorem LifeOk.event {q : Waiting α} {n : Nat} {g : Prop} (h : LifeOk q n g) {q' : Waiting α}
    (hp : q'.pc = q.pc) (hl : q'.left = q.left) (he : q.event = true → q'.event = true) : LifeOk q' n g := by
  unfold LifeOk at h ⊢
  rw [hp, hl]
  split <;> simp_all
  all_goals
    rcases h with ⟨h1, h2, h3, h4⟩
    rcases h3 with h3 | h3
    · exact .inl (he h3)
    · exact .inr h3

theorem proceed_left {s s' : Shared α} (hs : s.proceed = some s') (r : Nat) : (s'.reqs r).left = (s.reqs r).left := by
  have set : ∀ (j : Nat) (f : Waiting α → Waiting α), (∀ q, (f q).left = q.left) →
      ((s.set j f).reqs r).left = (s.reqs r).left := by
    intro j f hf
    by_cases hj : r = j
    · subst hj; rw [set_self]; exact hf _
    · rw [set_other s f hj]
  unfold Shared.proceed at hs
  repeat' split at hs
  all_goals first
    | (cases hs; done)
    | (cases hs; rfl)
    | (cases hs; dsimp only; apply set; intro q; rfl)

/-- an action that neither sends request `r` nor gives it up -/
theorem quiet_life {r : Nat} {a : Act α} {acts : List (Act α)} (h1 : ∀ src, a ≠ .sent r src) (h2 : a ≠ .fails r)
    (h3 : a ≠ .wakes r true) : sends r (acts ++ [a]) = sends r acts ∧ (GivenUp r (acts ++ [a]) ↔ GivenUp r acts) := by
  constructor
  · rw [sends_append]
    cases a with
    | sent j src =>
      have : j ≠ r := fun e => h1 src (by rw [e])
      simp [sends, this]
    | _ => rfl
  · unfold GivenUp
    rw [List.mem_append, List.mem_append, List.mem_singleton, List.mem_singleton]
    constructor
    · rintro ((h | h) | (h | h))
      · exact .inl h
      · exact absurd h.symm h2
      · exact .inr h
      · exact absurd h.symm h3
    · rintro (h | h)
      · exact .inl (.inl h)
      · exact .inr (.inl h)

theorem Life.step {acts : List (Act α)} {s s' : Shared α} {a : Act α} (L : Life acts s) (h : s.step a = some s') :
    Life (acts ++ [a]) s' := by
  have known : ∀ r, (s.reqs r).pc ≠ .sending → r < s.count := fun r hp =>
    Nat.lt_of_not_le fun hc => hp (L.new r hc).1
  -- the action concerns request `j` (below the count) only
  have one : ∀ (j : Nat) (q : Waiting α), j < s.count →
      (∀ r, r ≠ j → (∀ src, a ≠ .sent r src) ∧ a ≠ .fails r ∧ a ≠ .wakes r true) →
      s'.count = s.count → (∀ r, s'.reqs r = if r = j then q else s.reqs r) →
      LifeOk q (sends j (acts ++ [a])) (GivenUp j (acts ++ [a])) → Life (acts ++ [a]) s' := by
    intro j q hj ha hc hq hok
    constructor
    · intro r hr
      rw [hq]
      by_cases e : r = j
      · rw [if_pos e, e]; exact hok
      · obtain ⟨a1, a2, a3⟩ := ha r e
        obtain ⟨b1, b2⟩ := quiet_life (acts := acts) a1 a2 a3
        rw [if_neg e, b1, show GivenUp r (acts ++ [a]) = GivenUp r acts from propext b2]
        exact L.old r (by omega)
    · intro r hr
      have e : r ≠ j := by omega
      obtain ⟨a1, a2, a3⟩ := ha r e
      obtain ⟨b1, b2⟩ := quiet_life (acts := acts) a1 a2 a3
      rw [hq, if_neg e, b1, b2]
      exact L.new r (by omega)
  -- a quiet action that leaves requests as they are
  have none' : (∀ r, (∀ src, a ≠ .sent r src) ∧ a ≠ .fails r ∧ a ≠ .wakes r true) → s'.count = s.count →
      (∀ r, (s'.reqs r).pc = (s.reqs r).pc ∧ (s'.reqs r).left = (s.reqs r).left ∧
        ((s.reqs r).event = true → (s'.reqs r).event = true)) → Life (acts ++ [a]) s' := by
    intro ha hc hq
    constructor
    · intro r hr
      obtain ⟨a1, a2, a3⟩ := ha r
      obtain ⟨b1, b2⟩ := quiet_life (acts := acts) a1 a2 a3
      rw [b1, show GivenUp r (acts ++ [a]) = GivenUp r acts from propext b2]
      exact (L.old r (by omega)).event (hq r).1 (hq r).2.1 (hq r).2.2
    · intro r hr
      obtain ⟨a1, a2, a3⟩ := ha r
      obtain ⟨b1, b2⟩ := quiet_life (acts := acts) a1 a2 a3
      rw [b1, b2, (hq r).1]
      exact L.new r (by omega)
  have setq : ∀ (j : Nat) (f : Waiting α → Waiting α) (r : Nat),
      (s.set j f).reqs r = if r = j then f (s.reqs j) else s.reqs r := fun j f r => rfl
  cases a with
  | start server nonce =>
    cases h
    constructor
    · intro r hr
      obtain ⟨b1, b2⟩ := quiet_life (acts := acts) (r := r) (a := .start server nonce)
        (fun _ e => by cases e) (fun e => by cases e) (fun e => by cases e)
      rw [b1, show GivenUp r (acts ++ [.start server nonce]) = GivenUp r acts from propext b2]
      have hr : r < s.count + 1 := hr
      by_cases e : r = s.count
      · obtain ⟨_, c2, c3⟩ := L.new r (by omega)
        have : (s.add server nonce).reqs r = { server := server, nonce := nonce } := by
          unfold Shared.add; dsimp only; rw [if_pos e]
        rw [this]
        exact ⟨by rw [c2]; rfl, c3⟩
      · have : (s.add server nonce).reqs r = s.reqs r := by
          unfold Shared.add; dsimp only; rw [if_neg e]
        rw [this]
        exact L.old r (by omega)
    · intro r hr
      have hr : s.count + 1 ≤ r := hr
      obtain ⟨b1, b2⟩ := quiet_life (acts := acts) (r := r) (a := .start server nonce)
        (fun _ e => by cases e) (fun e => by cases e) (fun e => by cases e)
      have : (s.add server nonce).reqs r = s.reqs r := by
        unfold Shared.add; dsimp only; rw [if_neg (by omega)]
      rw [this, b1, b2]
      exact L.new r (by omega)
  | sent j src =>
    unfold Shared.step at h
    dsimp only at h
    split at h
    · rename_i hp
      split at h
      · next hj =>
        cases h
        refine one j _ hj (fun r hr => ⟨fun _ e => by cases e; exact hr rfl, (fun e => by cases e), (fun e => by cases e)⟩)
          rfl (setq j _) ?_
        have := L.old j hj
        unfold LifeOk at this
        rw [hp] at this
        dsimp only at this
        have hg : GivenUp j (acts ++ [.sent j src]) ↔ GivenUp j acts := by simp [GivenUp]
        show _ ∧ _ ∧ _
        rw [sends_append]
        simp only [sends, if_true]
        exact ⟨by omega, by omega, fun e => this.2 (hg.mp e)⟩
      · cases h
    · cases h
  | fails j =>
    unfold Shared.step at h
    dsimp only at h
    split at h
    · rename_i hp
      split at h
      · next hj =>
        cases h
        refine one j _ hj (fun r hr => ⟨(fun _ e => by cases e), (fun e => by cases e; exact hr rfl), (fun e => by cases e)⟩)
          rfl (setq j _) ?_
        have := L.old j hj
        unfold LifeOk at this
        rw [hp] at this
        dsimp only at this
        show _ ∧ _
        rw [sends_append]
        exact ⟨by simp only [sends]; omega, .inl (by simp)⟩
      · cases h
    · cases h
  | wakes j stop =>
    unfold Shared.step at h
    dsimp only at h
    split at h
    · rename_i hp
      have hj := known j (by rw [hp]; simp)
      have := L.old j hj
      unfold LifeOk at this
      rw [hp] at this
      dsimp only at this
      cases h
      refine one j _ hj (fun r hr => ⟨(fun _ e => by cases e), (fun e => by cases e), (fun e => by cases e; exact hr rfl)⟩)
        rfl (setq j _) ?_
      have hs : sends j (acts ++ [.wakes j stop]) = sends j acts := by rw [sends_append]; rfl
      rw [hs]
      cases stop with
      | true =>
        rw [if_pos rfl]
        exact ⟨by omega, .inr (by simp)⟩
      | false =>
        have hg : GivenUp j (acts ++ [.wakes j false]) ↔ GivenUp j acts := by simp [GivenUp]
        rw [if_neg (by simp), show GivenUp j (acts ++ [.wakes j false]) = GivenUp j acts from propext hg]
        split
        · rename_i he
          exact ⟨this.2.1, by omega, .inl he, this.2.2⟩
        · split
          · exact ⟨this.2.1, by omega, .inr (by omega), this.2.2⟩
          · exact ⟨by show sends j acts + ((s.reqs j).left - 1) = 2; omega, this.2.2⟩
    · cases h
  | leaves j =>
    unfold Shared.step at h
    dsimp only at h
    split at h
    · rename_i hp
      have hj := known j (by rw [hp]; simp)
      have := L.old j hj
      unfold LifeOk at this
      rw [hp] at this
      dsimp only at this
      split at h
      · cases h
        obtain ⟨b1, b2⟩ := quiet_life (acts := acts) (r := j) (a := .leaves j)
          (fun _ e => by cases e) (fun e => by cases e) (fun e => by cases e)
        refine one j { s.reqs j with pc := .judging } hj
          (fun r hr => ⟨(fun _ e => by cases e), (fun e => by cases e), (fun e => by cases e)⟩) rfl (fun r => rfl) ?_
        rw [b1, show GivenUp j (acts ++ [.leaves j]) = GivenUp j acts from propext b2]
        exact this
      · cases h
    · cases h
  | judges j =>
    unfold Shared.step at h
    dsimp only at h
    split at h
    · rename_i hp
      have hj := known j (by rw [hp]; simp)
      have := L.old j hj
      unfold LifeOk at this
      rw [hp] at this
      dsimp only at this
      obtain ⟨b1, b2⟩ := quiet_life (acts := acts) (r := j) (a := .judges j)
        (fun _ e => by cases e) (fun e => by cases e) (fun e => by cases e)
      have b2 : GivenUp j (acts ++ [.judges j]) = GivenUp j acts := propext b2
      split at h
      · split at h
        · cases h
        · split at h <;> cases h
          all_goals
            refine one j _ hj (fun r hr => ⟨(fun _ e => by cases e), (fun e => by cases e), (fun e => by cases e)⟩)
              rfl (setq j _) ?_
            rw [b1, b2]
            exact ⟨this.1, this.2.1, this.2.2.2⟩
      · rename_i he
        cases h
        refine one j _ hj (fun r hr => ⟨(fun _ e => by cases e), (fun e => by cases e), (fun e => by cases e)⟩)
          rfl (setq j _) ?_
        rw [b1, b2]
        exact ⟨this.2.2.1.resolve_left he, this.2.2.2⟩
    · cases h
  | compares j =>
    unfold Shared.step at h
    dsimp only at h
    split at h
    · rename_i hp
      have hj := known j (by rw [hp]; simp)
      have := L.old j hj
      unfold LifeOk at this
      rw [hp] at this
      dsimp only at this
      obtain ⟨b1, b2⟩ := quiet_life (acts := acts) (r := j) (a := .compares j)
        (fun _ e => by cases e) (fun e => by cases e) (fun e => by cases e)
      have b2 : GivenUp j (acts ++ [.compares j]) = GivenUp j acts := propext b2
      split at h
      · cases h
      · cases h
        refine one j _ hj (fun r hr => ⟨(fun _ e => by cases e), (fun e => by cases e), (fun e => by cases e)⟩)
          rfl (setq j _) ?_
        rw [b1, b2]
        exact this
    · cases h
  | receives m =>
    unfold Shared.step at h
    dsimp only at h
    split at h
    · cases h
      exact none' (fun r => ⟨(fun _ e => by cases e), (fun e => by cases e), (fun e => by cases e)⟩) rfl
        fun r => ⟨rfl, rfl, id⟩
    · cases h
  | proceeds =>
    have hpr : s.proceed = some s' := h
    obtain ⟨f1, _, _, f2⟩ := proceed_frame hpr
    exact none' (fun r => ⟨(fun _ e => by cases e), (fun e => by cases e), (fun e => by cases e)⟩) f1
      fun r => ⟨(f2 r).1, proceed_left hpr r, (f2 r).2.2.2.2⟩

theorem Life.reach {k : Requests} {acts : List (Act α)} {s : Shared α} (h : (Shared.new k).run acts = some s) :
    Life acts s := by
  have key : ∀ (acts before : List (Act α)) (s0 s : Shared α), Life before s0 → s0.run acts = some s →
      Life (before ++ acts) s := by
    intro acts
    induction acts with
    | nil => intro before s0 s hl h; cases h; rw [List.append_nil]; exact hl
    | cons a as ih =>
      intro before s0 s hl h
      unfold Shared.run at h
      cases hs : s0.step a with
      | none => rw [hs] at h; cases h
      | some s1 =>
        rw [hs] at h
        have := ih (before ++ [a]) s1 s (hl.step hs) h
        rwa [List.append_assoc] at this
  exact key acts [] _ s ⟨fun r hr => absurd hr (Nat.not_lt_zero r),
    fun r _ => ⟨rfl, rfl, fun e => e.elim (fun e => by cases e) (fun e => by cases e)⟩⟩ h

/-- C76: in every schedule a request is sent three times at most, and once more only while its thread has not given up.
Its thread has abandoned it exactly if sending raised an exception or the thread was told to stop while it waited; that
there was no answer is concluded after three attempts only. -/
theorem request_life {k : Requests} {acts : List (Act α)} {s : Shared α} (h : (Shared.new k).run acts = some s)
    (r : Nat) (hr : r < s.count) :
    sends r acts ≤ 3 ∧ ((s.reqs r).pc = .abandoned ↔ GivenUp r acts) ∧
    ((s.reqs r).pc = .unanswered → sends r acts = 3) ∧ ((s.reqs r).pc = .sending → sends r acts < 3) ∧
    ((s.reqs r).pc = .leaving → (s.reqs r).event = true ∨ sends r acts = 3) := by
  have := (Life.reach h).old r hr
  unfold LifeOk at this
  generalize (s.reqs r).pc = pc at this ⊢
  cases pc <;> simp only at this <;> simp_all <;> omega

/-- C76: what the thread of a request does when its wait is over, with or without an answer, in every schedule: told to
stop it abandons the request; else, if there is an answer or this was the third attempt, it goes on to take the request
off the list; else it sends the request again. -/
theorem wait_over {k : Requests} {acts : List (Act α)} {s s' : Shared α} (h : (Shared.new k).run acts = some s)
    (r : Nat) (stop : Bool) (hs : s.step (.wakes r stop) = some s') :
    (s'.reqs r).pc = if stop = true then .abandoned
      else if (s.reqs r).event = true ∨ sends r acts = 3 then .leaving else .sending := by
  have L := Life.reach h
  unfold Shared.step at hs
  dsimp only at hs
  split at hs
  · rename_i hp
    have hj : r < s.count := Nat.lt_of_not_le fun hc => by
      have := (L.new r hc).1
      rw [hp] at this; cases this
    have := L.old r hj
    unfold LifeOk at this
    rw [hp] at this
    dsimp only at this
    cases hs
    rw [set_self]
    cases stop with
    | true => rfl
    | false =>
      simp only [Bool.false_eq_true, if_false]
      by_cases he : (s.reqs r).event = true
      · rw [if_pos he, if_pos (.inl he)]
      · rw [if_neg he]
        by_cases hl : (s.reqs r).left = 0
        · rw [if_pos hl, if_pos (.inr (by omega))]
        · rw [if_neg hl, if_neg]
          rintro (h | h)
          · exact he h
          · omega
  · cases hs

/-! ### The theorems are about something -/

def exSrv : IP := ⟨.v4, 0xC0000201, by decide⟩
def exN1 : Bytes := [1, 2, 3, 4, 5, 6, 7, 8]
def exN2 : Bytes := [8, 7, 6, 5, 4, 3, 2, 1]
def exMine : IP := ⟨.v4, 0xC6336401, by decide⟩

/-- where the threads of the first requests are, the list and the log, after a schedule -/
def outcome (k : Requests) (n : Nat) (acts : List (Act Nat)) :
    Option (List (Pc Nat) × List Nat × List (Handled Nat)) :=
  ((Shared.new k).run acts).map fun s => ((List.range n).map fun r => (s.reqs r).pc, s.list, s.log)

/-- a registration that is confirmed -/
def exConfirmed : List (Act Nat) :=
  [.start exSrv exN1, .sent 0 none, .receives ⟨exSrv, exN1, 7⟩, .proceeds, .proceeds, .proceeds,
    .wakes 0 false, .leaves 0, .judges 0, .compares 0]

-- it is answered, by what was received (`answer_genuine`)
example : outcome .notify 1 exConfirmed =
    some ([.answered ⟨exSrv, exN1, 7⟩ ⟨exSrv, exN1, 7⟩ none], [], [.taken ⟨exSrv, exN1, 7⟩ 0]) := by
  decide +kernel

-- `missed_only_if_left`: two registrations; while the Map-Notify for the second is handled, the first one
-- leaves the list, and the main thread skips the second: the Map-Notify is lost
example : outcome .notify 2
    [.start exSrv exN1, .start exSrv exN2, .sent 0 none, .sent 1 none,
      .receives ⟨exSrv, exN1, 7⟩, .proceeds, .proceeds, .proceeds, .wakes 0 false,
      .receives ⟨exSrv, exN2, 8⟩, .proceeds, .leaves 0, .proceeds, .proceeds] =
    some ([.judging, .waiting], [1], [.taken ⟨exSrv, exN1, 7⟩ 0, .unexpected ⟨exSrv, exN2, 8⟩]) := by
  decide +kernel

-- `answer_taken`: the same, but nobody leaves
example : outcome .notify 2
    [.start exSrv exN1, .start exSrv exN2, .sent 0 none, .sent 1 none,
      .receives ⟨exSrv, exN2, 8⟩, .proceeds, .proceeds, .proceeds, .proceeds, .proceeds] =
    some ([.waiting, .waiting], [0, 1], [.taken ⟨exSrv, exN2, 8⟩ 1]) := by
  decide +kernel

-- `taken_counts`: the Map-Notify comes after the third attempt timed out and the request is off the list,
-- but the main thread had it already
example : outcome .notify 1
    [.start exSrv exN1, .sent 0 none, .wakes 0 false, .sent 0 none, .wakes 0 false, .sent 0 none,
      .receives ⟨exSrv, exN1, 7⟩, .proceeds, .wakes 0 false, .leaves 0, .proceeds, .proceeds,
      .judges 0, .compares 0] =
    some ([.answered ⟨exSrv, exN1, 7⟩ ⟨exSrv, exN1, 7⟩ none], [], [.taken ⟨exSrv, exN1, 7⟩ 0]) := by
  decide +kernel

-- `compared_authenticated`: what its hypothesis rules out happens.  The first Map-Notify is authenticated,
-- then the main thread, which took the request out of the list before it left, stores another one
-- from the same address with the same nonce, and the contents of that one are compared
example : outcome .notify 1
    [.start exSrv exN1, .sent 0 none, .receives ⟨exSrv, exN1, 7⟩, .proceeds, .proceeds, .proceeds,
      .wakes 0 false, .receives ⟨exSrv, exN1, 8⟩, .proceeds, .leaves 0, .judges 0, .proceeds, .proceeds,
      .compares 0] =
    some ([.answered ⟨exSrv, exN1, 7⟩ ⟨exSrv, exN1, 8⟩ none], [],
      [.taken ⟨exSrv, exN1, 7⟩ 0, .taken ⟨exSrv, exN1, 8⟩ 0]) := by
  decide +kernel

-- `abandoned_stays`: the thread was told to stop; the request takes an answer nobody looks at
example : outcome .notify 1
    [.start exSrv exN1, .sent 0 none, .wakes 0 true, .receives ⟨exSrv, exN1, 7⟩, .proceeds, .proceeds,
      .proceeds] = some ([.abandoned], [0], [.taken ⟨exSrv, exN1, 7⟩ 0]) := by
  decide +kernel

-- `info_reply_raises_iff`: an Info-Reply that is faster than the assignment to `sent_from`
example : outcome .info 1
    [.start exSrv exN1, .receives ⟨exSrv, exN1, 7⟩, .proceeds, .proceeds, .proceeds,
      .sent 0 (some exMine)] = some ([.waiting], [0], [.raised ⟨exSrv, exN1, 7⟩ 0]) := by
  decide +kernel

-- one that is not
example : outcome .info 1
    [.start exSrv exN1, .sent 0 (some exMine), .receives ⟨exSrv, exN1, 7⟩, .proceeds, .proceeds, .proceeds,
      .proceeds, .wakes 0 false, .leaves 0, .judges 0] =
    some ([.answered ⟨exSrv, exN1, 7⟩ ⟨exSrv, exN1, 7⟩ (some exMine)], [],
      [.taken ⟨exSrv, exN1, 7⟩ 0]) := by
  decide +kernel

-- `info_reply_source`: the private address is the one of the last attempt
example : lastSource 0 ([.start exSrv exN1, .sent 0 (some exSrv), .wakes 0 false, .sent 0 (some exMine),
    .receives ⟨exSrv, exN1, 7⟩, .proceeds, .proceeds] : List (Act Nat)) = some exMine ∧
    ((Shared.new .info).run [.start exSrv exN1, .sent 0 (some exSrv), .wakes 0 false, .sent 0 (some exMine),
      .receives ⟨exSrv, exN1, 7⟩, .proceeds, .proceeds]).map (fun s : Shared Nat => s.handler) =
      some (.stored ⟨exSrv, exN1, 7⟩ 0) := by
  decide +kernel

-- `wait_over`, `request_life`: nobody answers
example : outcome .notify 1
    [.start exSrv exN1, .sent 0 none, .wakes 0 false, .sent 0 none, .wakes 0 false, .sent 0 none, .wakes 0 false] =
      some ([.leaving], [0], []) ∧
    sends 0 ([.start exSrv exN1, .sent 0 none, .wakes 0 false, .sent 0 none] : List (Act Nat)) = 2 := by
  decide +kernel

end PyLisp.Props
