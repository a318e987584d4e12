import Verif.SockRace
import Verif.Props.NetIO
/-
C90: sending while the address of a socket changes.
-/
namespace PyLisp.Props
open PyLisp

/-! ### Specification -/

/-- the address had the value `x` at some moment of the run -/
def Had (s : RaceSt) (l : List RaceEvent) (x : IP) : Prop := ∃ l1 l2, l = l1 ++ l2 ∧ (s.run l1).address = x

/-- the socket is closed, and reports the zero address; or it is open, bound to the current address, and reports this
one -/
def InOrder (s : RaceSt) : Prop :=
  (s.sock = none ∧ s.sockAddress = 0) ∨
    ∃ h, s.sock = some h ∧ s.socks h = ⟨false, .bound s.address⟩ ∧ s.sockAddress = s.address.val ∧ MayBind s.address

/-- the thread is in no call -/
def AtRest : SendPc → Prop
  | .idle => True
  | .done _ => True
  | _ => False

/-- a step of a thread that sends -/
def IsSend : RaceEvent → Prop
  | .send _ _ => True
  | _ => False

/-- the operating system refuses nothing -/
def Favourable : RaceEvent → Prop
  | .change _ => True
  | .main o => o = .bound
  | .send _ (.sent _) => True
  | .send _ (.refused _) => False

/-! ### The invariant -/

/-- open and bound to an earlier or the current address, or closed -/
def Holds (s : RaceSt) : Prop :=
  (s.sock = none ∧ s.sockAddress = 0) ∨
    ∃ h x, s.sock = some h ∧ s.socks h = ⟨false, .bound x⟩ ∧ s.sockAddress = x.val ∧ x.ver = s.address.ver ∧
      bindable x = true

def PcOk (s : RaceSt) : Prop :=
  match s.main with
  | .idle => (s.sock = none ∧ s.sockAddress = 0) ∨
    ∃ h, s.sock = some h ∧ s.socks h = ⟨false, .bound s.address⟩ ∧ s.sockAddress = s.address.val ∧
      bindable s.address = true
  | .check => Holds s
  | .close => Holds s
  | .clear => True
  | .zero => s.sock = none
  | .create => s.sock = none ∧ s.sockAddress = 0
  | .bind => s.sockAddress = 0 ∧ bindable s.address = true ∧ ∃ h, s.sock = some h ∧
    (s.socks h = ⟨false, .fresh⟩ ∨ s.socks h = ⟨false, .auto⟩)
  | .store => bindable s.address = true ∧ ∃ h, s.sock = some h ∧ s.socks h = ⟨false, .bound s.address⟩
  | .failClose => s.sockAddress = 0
  | .failClear => s.sockAddress = 0
  | .failZero => s.sock = none

structure RaceInv (H : IP → Prop) (s : RaceSt) : Prop where
  addr : H s.address
  socks : ∀ h x, (s.socks h).os = .bound x → H x ∧ bindable x = true
  sent : ∀ p ∈ s.sent, p.2 = .auto ∨ ∃ x, p.2 = .bound x ∧ H x ∧ bindable x = true
  pc : PcOk s

theorem used_bound {o : OsSock} {x : IP} (h : o.used = .bound x) : o = .bound x := by
  cases o <;> first | exact h | cases h

theorem used_cases (o : OsSock) : o.used = .auto ∨ ∃ x, o.used = .bound x := by
  cases o
  · exact .inl rfl
  · exact .inl rfl
  · exact .inr ⟨_, rfl⟩

/-- what a thread's step leaves alone -/
structure SendFrame (s s' : RaceSt) : Prop where
  address : s'.address = s.address
  sock : s'.sock = s.sock
  sockAddress : s'.sockAddress = s.sockAddress
  main : s'.main = s.main
  socks : ∀ h, s'.socks h = s.socks h ∨ s'.socks h = { s.socks h with os := (s.socks h).os.used }

theorem sendFrame_thread (s : RaceSt) (t : Nat) (p : SendPc) : SendFrame s (s.setThread t p) :=
  ⟨rfl, rfl, rfl, rfl, fun _ => .inl rfl⟩

theorem useSock_socks (s : RaceSt) (h i : Nat) :
    (s.useSock h).socks i = s.socks i ∨ (s.useSock h).socks i = { s.socks i with os := (s.socks i).os.used } := by
  show (if i = h then _ else _) = _ ∨ (if i = h then _ else _) = _
  by_cases hi : i = h
  · subst hi; rw [if_pos rfl]; exact .inr rfl
  · rw [if_neg hi]; exact .inl rfl

theorem sendStep_frame (s : RaceSt) (t : Nat) (o : SendOutcome) : SendFrame s (s.sendStep t o) := by
  unfold RaceSt.sendStep
  split
  · split <;> exact sendFrame_thread _ _ _
  · exact sendFrame_thread _ _ _
  · rename_i h _
    split
    · exact ⟨rfl, rfl, rfl, rfl, fun i => useSock_socks s h i⟩
    · exact ⟨rfl, rfl, rfl, rfl, fun i => useSock_socks s h i⟩
    · exact sendFrame_thread _ _ _
  · exact sendFrame_thread _ _ _

theorem frame_bound {s s' : RaceSt} (f : SendFrame s s') {h : Nat} {c : Bool} {x : IP}
    (hb : s.socks h = ⟨c, .bound x⟩) : s'.socks h = ⟨c, .bound x⟩ := by
  rcases f.socks h with e | e <;> rw [e, hb]
  rfl

theorem frame_holds {s s' : RaceSt} (f : SendFrame s s') (h : Holds s) : Holds s' := by
  unfold Holds
  rw [f.sock, f.sockAddress, f.address]
  rcases h with h | ⟨h, x, h1, h2, h3⟩
  · exact .inl h
  · exact .inr ⟨h, x, h1, frame_bound f h2, h3⟩

theorem frame_pc {s s' : RaceSt} (f : SendFrame s s') (h : PcOk s) : PcOk s' := by
  unfold PcOk at h ⊢
  rw [f.main]
  cases hm : s.main <;> rw [hm] at h <;> dsimp only at h ⊢ <;>
    first
    | (rw [f.sock, f.sockAddress, f.address]; rcases h with h | ⟨h, h1, h2, h3⟩
       · exact .inl h
       · exact .inr ⟨h, h1, frame_bound f h2, h3⟩)
    | exact frame_holds f h
    | (rw [f.sock, f.sockAddress]; exact h)
    | (rw [f.sock]; exact h)
    | (rw [f.sockAddress]; exact h)
    | (rw [f.sock, f.sockAddress, f.address]
       obtain ⟨h1, h2, h, h3, h4⟩ := h
       refine ⟨h1, h2, h, h3, ?_⟩
       rcases f.socks h with e | e <;> rw [e] <;> rcases h4 with h4 | h4 <;> rw [h4] <;>
         first | exact .inl rfl | exact .inr rfl)
    | (rw [f.sock, f.address]
       obtain ⟨h1, h, h2, h3⟩ := h
       exact ⟨h1, h, h2, frame_bound f h3⟩)

theorem send_sent (s : RaceSt) (t : Nat) (o : SendOutcome) :
    (s.sendStep t o).sent = s.sent ∨ ∃ h n, s.thread t = .called h ∧ o = .sent n ∧
      (s.sendStep t o).sent = (t, (s.socks h).os.used) :: s.sent := by
  unfold RaceSt.sendStep
  split
  · split <;> exact .inl rfl
  · exact .inl rfl
  · rename_i h hc
    split
    · exact .inr ⟨h, _, hc, rfl, rfl⟩
    · exact .inl rfl
    · exact .inl rfl
  · exact .inl rfl

theorem send_inv {H : IP → Prop} {s : RaceSt} (h : RaceInv H s) (t : Nat) (o : SendOutcome) :
    RaceInv H (s.sendStep t o) := by
  have f := sendStep_frame s t o
  refine ⟨by rw [f.address]; exact h.addr, ?_, ?_, frame_pc f h.pc⟩
  · intro i x hx
    rcases f.socks i with e | e <;> rw [e] at hx
    · exact h.socks i x hx
    · exact h.socks i x (used_bound hx)
  · rcases send_sent s t o with e | ⟨i, n, _, _, e⟩ <;> rw [e]
    · exact h.sent
    · intro p hp
      rcases List.mem_cons.mp hp with rfl | hp
      · rcases used_cases (s.socks i).os with hu | ⟨x, hu⟩
        · exact .inl hu
        · exact .inr ⟨x, hu, h.socks i x (used_bound hu)⟩
      · exact h.sent p hp

theorem closeSock_os (s : RaceSt) (h i : Nat) : ((s.closeSock h).socks i).os = (s.socks i).os := by
  show (if i = h then _ else _ : SockObj).os = _
  by_cases hi : i = h
  · subst hi; rw [if_pos rfl]
  · rw [if_neg hi]

theorem main_inv {H : IP → Prop} {s : RaceSt} (h : RaceInv H s) (o : BindOutcome) : RaceInv H (s.mainStep o) := by
  obtain ⟨ha, hs, ht, hp⟩ := h
  unfold PcOk at hp
  unfold RaceSt.mainStep
  cases hm : s.main <;> rw [hm] at hp <;> dsimp only at hp ⊢
  · exact ⟨ha, hs, ht, by unfold PcOk; rw [hm]; exact hp⟩
  · refine ⟨ha, hs, ht, ?_⟩
    unfold PcOk
    dsimp only
    by_cases he : s.address.val = s.sockAddress
    · rw [if_pos he]
      rcases hp with hp | ⟨h, x, h1, h2, h3, h4, h5⟩
      · exact .inl hp
      · have hx : x = s.address := by
          obtain ⟨v, n, hn⟩ := x
          cases hsa : s.address with
          | mk v' n' hn' =>
            rw [hsa] at h4 he
            dsimp only at h3 h4 he
            subst h4
            have : n = n' := by omega
            subst this
            rfl
        subst hx
        exact .inr ⟨h, h1, h2, he.symm, h5⟩
    · rw [if_neg he]; exact hp
  · split
    · rename_i hn
      exact ⟨ha, hs, ht, hn⟩
    · rename_i h hn
      exact ⟨ha, fun i x hx => hs i x (by rw [← closeSock_os s h i]; exact hx), ht, trivial⟩
  · exact ⟨ha, hs, ht, rfl⟩
  · exact ⟨ha, hs, ht, hp, rfl⟩
  · split
    · rename_i hb
      split
      · exact ⟨ha, hs, ht, hp.2⟩
      · refine ⟨ha, fun i x hx => ?_, ht, hp.2, hb, s.next, rfl, .inl (if_pos rfl)⟩
        have hx : (if i = s.next then ({} : SockObj) else s.socks i).os = .bound x := hx
        split at hx
        · cases hx
        · exact hs i x hx
    · exact ⟨ha, hs, ht, hp.2⟩
  · obtain ⟨h1, h2, h, h3, h4⟩ := hp
    rw [h3]
    dsimp only
    split
    · rename_i hf
      refine ⟨ha, fun i x hx => ?_, ht, h2, h, h3, ?_⟩
      · have hx : (if i = h then ({ s.socks h with os := .bound s.address } : SockObj) else s.socks i).os = .bound x := hx
        split at hx
        · cases hx; exact ⟨ha, h2⟩
        · exact hs i x hx
      · show (if h = h then ({ s.socks h with os := .bound s.address } : SockObj) else s.socks h) = _
        rw [if_pos rfl]
        rcases h4 with h4 | h4 <;> rw [h4] <;> rfl
    · exact ⟨ha, hs, ht, h1⟩
  · obtain ⟨h1, h, h2, h3⟩ := hp
    exact ⟨ha, hs, ht, .inr ⟨h, h2, h3, rfl, h1⟩⟩
  · split
    · rename_i hn
      exact ⟨ha, hs, ht, hn⟩
    · rename_i h hn
      exact ⟨ha, fun i x hx => hs i x (by rw [← closeSock_os s h i]; exact hx), ht, hp⟩
  · exact ⟨ha, hs, ht, rfl⟩
  · exact ⟨ha, hs, ht, .inl ⟨hp, rfl⟩⟩

theorem change_inv {H : IP → Prop} {s : RaceSt} (h : RaceInv H s) (v : IP) (hv : H (s.change v).address) :
    RaceInv H (s.change v) := by
  unfold RaceSt.change at hv ⊢
  split
  · rename_i hc
    rw [if_pos hc] at hv
    refine ⟨hv, h.socks, h.sent, ?_⟩
    have hp := h.pc
    unfold PcOk at hp ⊢
    rw [hc.1] at hp
    rcases hp with hp | ⟨i, h1, h2, h3, h4⟩
    · exact .inl hp
    · exact .inr ⟨i, s.address, h1, h2, h3, hc.2.1.symm, h4⟩
  · exact h

theorem step_inv {H : IP → Prop} {s : RaceSt} (h : RaceInv H s) (e : RaceEvent) (hv : H (s.step e).address) :
    RaceInv H (s.step e) := by
  cases e with
  | change v => exact change_inv h v hv
  | main o => exact main_inv h o
  | send t o => exact send_inv h t o

theorem RaceSt.run_append (s : RaceSt) (l r : List RaceEvent) : s.run (l ++ r) = (s.run l).run r :=
  List.foldl_append

theorem run_inv (a : IP) (l : List RaceEvent) : RaceInv (Had (.new a) l) ((RaceSt.new a).run l) := by
  suffices ∀ r l', l = l' ++ r → RaceInv (Had (.new a) l) ((RaceSt.new a).run l') →
      RaceInv (Had (.new a) l) ((RaceSt.new a).run (l' ++ r)) by
    refine this l [] rfl ⟨⟨[], l, rfl, rfl⟩, nofun, nofun, ?_⟩
    exact .inl ⟨rfl, rfl⟩
  intro r
  induction r with
  | nil => intro l' _ h; rw [List.append_nil]; exact h
  | cons e r ih =>
    intro l' hl h
    have := ih (l' ++ [e]) (by rw [hl, List.append_assoc]; rfl)
    rw [List.append_assoc] at this
    refine this ?_
    have hv : Had (.new a) l (((RaceSt.new a).run l').step e).address :=
      ⟨l' ++ [e], r, by rw [hl, List.append_assoc]; rfl, by rw [RaceSt.run_append]; rfl⟩
    rw [RaceSt.run_append]
    exact step_inv h e hv

/-! ### Theorems -/

/-- C90: whatever the threads did meanwhile, when rebinding is over the socket is closed, or open and bound to the
current address. -/
theorem race_in_order (a : IP) (l : List RaceEvent) (h : ((RaceSt.new a).run l).main = .idle) :
    InOrder ((RaceSt.new a).run l) := by
  have := (run_inv a l).pc
  unfold PcOk at this
  rw [h] at this
  rcases this with h | ⟨i, h1, h2, h3, h4⟩
  · exact .inl h
  · exact .inr ⟨i, h1, h2, h3, (bindable_iff _).mp h4⟩

/-- C90: every datagram sent by any thread, in every schedule, comes from an address that the automatic address had at
some moment, or from a port of the operating system's choice. -/
theorem race_sent_from (a : IP) (l : List RaceEvent) (t : Nat) (o : OsSock)
    (h : (t, o) ∈ ((RaceSt.new a).run l).sent) :
    o = .auto ∨ ∃ x, o = .bound x ∧ Had (.new a) l x ∧ MayBind x := by
  rcases (run_inv a l).sent _ h with h | ⟨x, h1, h2, h3⟩
  · exact .inl h
  · exact .inr ⟨x, h1, h2, (bindable_iff _).mp h3⟩

/-! A call that no rebinding interferes with -/

def QuietPc (t : Nat) (E : List RaceEvent) (sock : Option Nat) : SendPc → Prop
  | .idle => False
  | .checked => sock ≠ none
  | .loaded h => sock = some h
  | .called h => sock = some h
  | .done r => (sock = none ∧ r = .ret 0) ∨ (sock ≠ none ∧
    ((∃ n, r = .ret n ∧ .send t (.sent n) ∈ E) ∨ (r = .socketError ∧ ∃ u, .send t (.refused u) ∈ E)))

theorem setThread_self (s : RaceSt) (t : Nat) (p : SendPc) : (s.setThread t p).thread t = p := if_pos rfl

theorem sendStep_other (s : RaceSt) (t u : Nat) (o : SendOutcome) (h : t ≠ u) : (s.sendStep u o).thread t = s.thread t := by
  have hs : ∀ (s : RaceSt) p, (s.setThread u p).thread t = s.thread t := fun s p => if_neg h
  unfold RaceSt.sendStep
  split
  · split <;> exact hs _ _
  · exact hs _ _
  · split <;> exact hs _ _
  · exact hs _ _

theorem quiet_step {s : RaceSt} {t : Nat} {E : List RaceEvent} (h : PcOk s) (hm : s.main = .idle)
    (hq : QuietPc t E s.sock (s.thread t)) (u : Nat) (o : SendOutcome) (hE : .send u o ∈ E) :
    QuietPc t E s.sock ((s.sendStep u o).thread t) ∧
    ((s.sendStep u o).sent = s.sent ∨ ∃ p, (s.sendStep u o).sent = p :: s.sent ∧
      (p.1 = t → s.sock ≠ none ∧ p.2 = .bound s.address)) := by
  unfold PcOk at h
  rw [hm] at h
  dsimp only at h
  by_cases hu : t = u
  · subst hu
    unfold RaceSt.sendStep
    cases ht : s.thread t with
    | idle => rw [ht] at hq; exact hq.elim
    | checked =>
      rw [ht] at hq
      dsimp only
      split
      · rename_i hn; exact absurd hn hq
      · rename_i h' hn
        exact ⟨by rw [setThread_self]; exact hn, .inl rfl⟩
    | loaded i =>
      rw [ht] at hq
      dsimp only
      rw [setThread_self]
      have hq : s.sock = some i := hq
      rcases h with h | ⟨j, h1, h2, h3⟩
      · rw [hq] at h; cases h.1
      · rw [hq] at h1; cases h1
        rw [h2]
        exact ⟨hq, .inl rfl⟩
    | called i =>
      rw [ht] at hq
      dsimp only
      have hq : s.sock = some i := hq
      have hne : s.sock ≠ none := by rw [hq]; nofun
      rcases h with h | ⟨j, h1, h2, h3⟩
      · rw [hq] at h; cases h.1
      rw [hq] at h1; cases h1
      split
      · refine ⟨?_, .inr ⟨(t, (s.socks i).os.used), rfl, fun _ => ⟨hne, ?_⟩⟩⟩
        · show QuietPc t E s.sock (if t = t then _ else _)
          rw [if_pos rfl]
          exact .inr ⟨hne, .inl ⟨_, rfl, hE⟩⟩
        · rw [h2]; rfl
      · rw [setThread_self]
        exact ⟨.inr ⟨hne, .inr ⟨rfl, _, hE⟩⟩, .inl rfl⟩
      · rw [setThread_self]
        exact ⟨.inr ⟨hne, .inr ⟨rfl, _, hE⟩⟩, .inl rfl⟩
    | done r =>
      dsimp only
      rw [setThread_self]
      refine ⟨?_, .inl rfl⟩
      cases hs : s.sock with
      | none => exact .inl ⟨rfl, rfl⟩
      | some i => exact (by nofun : some i ≠ none)
  · rw [sendStep_other s t u o hu]
    refine ⟨hq, ?_⟩
    rcases send_sent s u o with e | ⟨i, n, _, _, e⟩
    · exact .inl e
    · exact .inr ⟨_, e, fun h => absurd h.symm hu⟩

theorem quiet_run {t : Nat} {E : List RaceEvent} : ∀ (l : List RaceEvent) (s : RaceSt), PcOk s → s.main = .idle →
    QuietPc t E s.sock (s.thread t) → (∀ e ∈ l, IsSend e) → (∀ e ∈ l, e ∈ E) →
    QuietPc t E s.sock ((s.run l).thread t) ∧
    ∃ new, (s.run l).sent = new ++ s.sent ∧ ∀ p ∈ new, p.1 = t → s.sock ≠ none ∧ p.2 = .bound s.address
  | [], s, _, _, hq, _, _ => ⟨hq, [], rfl, nofun⟩
  | e :: l, s, hp, hm, hq, hs, hE => by
    have he := hs e List.mem_cons_self
    cases e with
    | change v => exact he.elim
    | main o => exact he.elim
    | send u o =>
      have f := sendStep_frame s u o
      obtain ⟨h1, h2⟩ := quiet_step hp hm hq u o (hE _ List.mem_cons_self)
      have ih := quiet_run l (s.sendStep u o) (frame_pc f hp) (by rw [f.main]; exact hm) (by rw [f.sock]; exact h1)
        (fun e he => hs e (List.mem_cons_of_mem _ he)) (fun e he => hE e (List.mem_cons_of_mem _ he))
      rw [f.sock, f.address] at ih
      obtain ⟨g1, new, g2, g3⟩ := ih
      refine ⟨g1, ?_⟩
      show ∃ new, ((s.sendStep u o).run l).sent = _ ∧ _
      rcases h2 with h2 | ⟨p, h2, h3⟩
      · exact ⟨new, by rw [g2, h2], g3⟩
      · refine ⟨new ++ [p], by rw [g2, h2, List.append_assoc]; rfl, fun q hq => ?_⟩
        rcases List.mem_append.mp hq with hq | hq
        · exact g3 q hq
        · rw [List.mem_singleton.mp hq]; exact h3

/-- C90: while the socket is not being rebound, calls of `sendto` behave as if they were alone, whatever other threads
do: with no open socket they return 0 and send nothing, otherwise they return or raise what the operating system does,
and the datagrams come from the current address. -/
theorem race_quiet_send (a : IP) (l : List RaceEvent) (h : ((RaceSt.new a).run l).main = .idle)
    (t : Nat) (ht : AtRest (((RaceSt.new a).run l).thread t)) (o : SendOutcome) (l' : List RaceEvent)
    (hl : ∀ e ∈ l', IsSend e) :
    (∀ r, (((RaceSt.new a).run l).run (.send t o :: l')).thread t = .done r →
      (((RaceSt.new a).run l).sock = none ∧ r = .ret 0) ∨
      (((RaceSt.new a).run l).sock ≠ none ∧
        ((∃ n, r = .ret n ∧ .send t (.sent n) ∈ l') ∨ (r = .socketError ∧ ∃ u, .send t (.refused u) ∈ l')))) ∧
    (∃ new, (((RaceSt.new a).run l).run (.send t o :: l')).sent = new ++ ((RaceSt.new a).run l).sent ∧
      ∀ x, (t, x) ∈ new →
        ((RaceSt.new a).run l).sock ≠ none ∧ x = .bound ((RaceSt.new a).run l).address) := by
  have hp := (run_inv a l).pc
  generalize (RaceSt.new a).run l = s at h ht hp
  have f := sendStep_frame s t o
  have hst : (s.sendStep t o) = s.setThread t (if s.sock.isNone = true then .done (.ret 0) else .checked) := by
    unfold RaceSt.sendStep
    cases hh : s.thread t <;> rw [hh] at ht <;> first | rfl | exact ht.elim
  have hq : QuietPc t l' s.sock ((s.sendStep t o).thread t) := by
    rw [hst, setThread_self]
    cases hs : s.sock with
    | none => exact .inl ⟨rfl, rfl⟩
    | some i => exact (by nofun : some i ≠ none)
  have := quiet_run l' (s.sendStep t o) (frame_pc f hp) (by rw [f.main]; exact h) (by rw [f.sock]; exact hq) hl
    (fun _ h => h)
  rw [f.sock, f.address, show (s.sendStep t o).sent = s.sent by rw [hst]; rfl] at this
  obtain ⟨h1, new, h2, h3⟩ := this
  refine ⟨fun r hr => ?_, new, h2, fun x hx => h3 _ hx rfl⟩
  have hr : ((s.sendStep t o).run l').thread t = .done r := hr
  rw [hr] at h1
  exact h1

/-! Rebinding that no call interferes with -/

set_option linter.unusedSimpArgs false in
/-- C90: without interference, an address change does to the socket what C55 says. -/
theorem race_quiet_rebind (s : RaceSt) (h : s.main = .idle) (v : IP) (hv : v.ver = s.address.ver)
    (hne : v.val ≠ s.address.val) (o : BindOutcome) (hs : List Nat) :
    let s' := s.run (.change v :: List.replicate 9 (.main o))
    let q := ((AutoSock.mk s.address.ver s.address s.sock s.sockAddress hs s.next).step (.change v.val)).rebind o
    s'.main = .idle ∧ s'.address = q.1.address ∧ s'.sock = q.1.sock ∧ s'.sockAddress = q.1.sockAddress := by
  obtain ⟨address, sock, sockAddress, socks, next, main, thread, sent⟩ := s
  dsimp only at h hv hne ⊢
  subst h
  have hq : (AutoSock.mk address.ver address sock sockAddress hs next).step (.change v.val) =
      AutoSock.mk v.ver v sock sockAddress hs next := by
    obtain ⟨w, n, hn⟩ := v
    dsimp only at hv
    subst hv
    unfold AutoSock.step
    dsimp only
    rw [dif_pos hn]
  rw [hq]
  unfold AutoSock.rebind
  simp only [List.replicate, RaceSt.run, List.foldl, RaceSt.step, RaceSt.change, hv, hne, true_and, not_false_eq_true, ne_eq, and_self, if_true, reduceIte]
  by_cases he : v.val = sockAddress
  · simp [RaceSt.mainStep, he]
  · cases sock with
    | none =>
      by_cases hb : bindable v = true
      · cases o <;> simp [RaceSt.mainStep, he, hb, RaceSt.setSock, RaceSt.closeSock, AutoSock.reset, AutoSock.release,
          AutoSock.openNew]
      · simp [RaceSt.mainStep, he, hb, RaceSt.setSock, RaceSt.closeSock, AutoSock.reset, AutoSock.release,
          AutoSock.openNew]
    | some i =>
      by_cases hb : bindable v = true
      · cases o <;> simp [RaceSt.mainStep, he, hb, RaceSt.setSock, RaceSt.closeSock, AutoSock.reset, AutoSock.release,
          AutoSock.openNew]
      · simp [RaceSt.mainStep, he, hb, RaceSt.setSock, RaceSt.closeSock, AutoSock.reset, AutoSock.release,
          AutoSock.openNew]

/-! The schedules that lose the socket -/

theorem idle_step (s : RaceSt) (h : s.main = .idle) (e : RaceEvent) (he : ∀ v, e ≠ .change v) :
    (s.step e).main = .idle ∧ (s.step e).sock = s.sock ∧ (s.step e).sockAddress = s.sockAddress := by
  cases e with
  | change v => exact absurd rfl (he v)
  | main o =>
    have : s.mainStep o = s := by unfold RaceSt.mainStep; rw [h]
    show (s.mainStep o).main = _ ∧ (s.mainStep o).sock = _ ∧ (s.mainStep o).sockAddress = _
    rw [this]
    exact ⟨h, rfl, rfl⟩
  | send t o =>
    have f := sendStep_frame s t o
    exact ⟨by show (s.sendStep t o).main = _; rw [f.main]; exact h, f.sock, f.sockAddress⟩

/-- C90: once rebinding is over, the socket stays as it is, open or closed, until the address changes again. -/
theorem race_stays (s : RaceSt) (h : s.main = .idle) (l : List RaceEvent) (hl : ∀ e ∈ l, ∀ v, e ≠ .change v) :
    (s.run l).main = .idle ∧ (s.run l).sock = s.sock ∧ (s.run l).sockAddress = s.sockAddress := by
  induction l generalizing s with
  | nil => exact ⟨h, rfl, rfl⟩
  | cons e l ih =>
    obtain ⟨h1, h2, h3⟩ := idle_step s h e (hl e List.mem_cons_self)
    have := ih (s.step e) h1 (fun e he => hl e (List.mem_cons_of_mem _ he))
    rw [h2, h3] at this
    exact this

theorem mayBind_ne_zero {a : IP} (h : MayBind a) : a.val ≠ 0 := by
  unfold MayBind at h
  split at h
  · exact h.1
  · exact h.1

/-- the schedule: the thread sends through the new socket before it is bound -/
def loseSocket (v : IP) (t n : Nat) (wasOpen : Bool) : List RaceEvent :=
  .change v :: List.replicate (if wasOpen = true then 5 else 4) (.main .bound) ++
    List.replicate 4 (.send t (.sent n)) ++ List.replicate 4 (.main .bound)

set_option linter.unusedSimpArgs false in
/-- C90: whenever the address changes to one that a socket may be bound to, one datagram that a thread sends through the
new socket before it is bound leaves the AutoUDPSocket closed, although the operating system refuses nothing. -/
theorem race_can_lose (s : RaceSt) (h : s.main = .idle) (v : IP) (hv : v.ver = s.address.ver)
    (hne : v.val ≠ s.address.val) (hb : MayBind v) (hi : InOrder s) (t n : Nat) (ht : AtRest (s.thread t)) :
    ∃ l, (∀ e ∈ l, Favourable e) ∧ (s.run l).main = .idle ∧ (s.run l).address = v ∧ (s.run l).sock = none ∧
      (s.run l).thread t = .done (.ret n) ∧ (s.run l).sent = (t, .auto) :: s.sent := by
  refine ⟨loseSocket v t n s.sock.isSome, ?_, ?_⟩
  · intro e he
    unfold loseSocket at he
    simp only [List.mem_append, List.mem_cons, List.mem_replicate] at he
    rcases he with ((rfl | ⟨_, rfl⟩) | ⟨_, rfl⟩) | ⟨_, rfl⟩
    · trivial
    · rfl
    · trivial
    · rfl
  · have ho : v.val ≠ s.sockAddress := by
      rcases hi with ⟨_, h0⟩ | ⟨_, _, _, h0, _⟩
      · rw [h0]; exact mayBind_ne_zero hb
      · rw [h0]; exact hne
    have hb := (bindable_iff v).mpr hb
    obtain ⟨address, sock, sockAddress, socks, next, main, thread, sent⟩ := s
    dsimp only at h hv hne ho ht ⊢
    subst h
    unfold loseSocket
    cases sock <;> cases hh : thread t <;> rw [hh] at ht <;> first
      | exact ht.elim
      | simp [List.replicate, RaceSt.run, RaceSt.step, RaceSt.change, hv, hne, RaceSt.mainStep, ho, hb, RaceSt.setSock,
          RaceSt.closeSock, RaceSt.sendStep, hh, RaceSt.setThread, RaceSt.useSock, OsSock.used]

set_option linter.unusedSimpArgs false in
/-- C90: whenever the address of an open socket changes, a call of `sendto` can raise AttributeError, and another
socket.error, although the operating system refuses nothing; neither sends anything. -/
theorem race_can_raise (s : RaceSt) (h : s.main = .idle) (v : IP) (hv : v.ver = s.address.ver)
    (hne : v.val ≠ s.address.val) (hi : InOrder s) (ho : s.sock ≠ none) (t u : Nat) (htu : t ≠ u)
    (ht : AtRest (s.thread t)) (hu : AtRest (s.thread u)) :
    ∃ l, (∀ e ∈ l, Favourable e) ∧ (s.run l).thread t = .done .attributeError ∧
      (s.run l).thread u = .done .socketError ∧ (s.run l).sent = s.sent := by
  refine ⟨[.change v, .send t (.sent 0), .main .bound, .main .bound, .send u (.sent 0), .send u (.sent 0),
    .send u (.sent 0), .main .bound, .send t (.sent 0)], ?_, ?_⟩
  · intro e he
    simp only [List.mem_cons, List.not_mem_nil, or_false] at he
    rcases he with rfl | rfl | rfl | rfl | rfl | rfl | rfl | rfl | rfl <;> first | trivial | rfl
  · have ho' : v.val ≠ s.sockAddress := by
      rcases hi with ⟨h0, _⟩ | ⟨_, _, _, h0, _⟩
      · exact absurd h0 ho
      · rw [h0]; exact hne
    obtain ⟨address, sock, sockAddress, socks, next, main, thread, sent⟩ := s
    dsimp only at h hv hne ho ho' ht hu ⊢
    subst h
    have htu' := Ne.symm htu
    cases sock with
    | none => exact absurd rfl ho
    | some x =>
      cases hh : thread t <;> rw [hh] at ht <;> first
        | exact ht.elim
        | cases hk : thread u <;> rw [hk] at hu <;> first
          | exact hu.elim
          | simp [RaceSt.run, RaceSt.step, RaceSt.change, hv, hne, RaceSt.mainStep, ho', RaceSt.setSock,
              RaceSt.closeSock, RaceSt.sendStep, hh, hk, RaceSt.setThread, htu, htu']

/-- a datagram went out from a port of the operating system's choice -/
def Strayed (s : RaceSt) : Prop := ∃ t, (t, OsSock.auto) ∈ s.sent

/-- if nothing was refused and nothing strayed, a socket is lost only for an address it may not be bound to -/
structure KeepInv (s : RaceSt) : Prop where
  auto : ∀ h, (s.socks h).os = .auto → Strayed s
  pc : match s.main with
    | .idle => s.sock = none → Strayed s ∨ bindable s.address = false
    | .failClose => Strayed s ∨ bindable s.address = false
    | .failClear => Strayed s ∨ bindable s.address = false
    | .failZero => Strayed s ∨ bindable s.address = false
    | _ => True

theorem keep_main {s : RaceSt} (hp : PcOk s) (h : KeepInv s) : KeepInv (s.mainStep .bound) := by
  obtain ⟨ha, hk⟩ := h
  unfold PcOk at hp
  unfold RaceSt.mainStep
  cases hm : s.main <;> rw [hm] at hp hk <;> dsimp only at hp hk ⊢
  · exact ⟨ha, by rw [hm]; exact hk⟩
  · refine ⟨ha, ?_⟩
    by_cases he : s.address.val = s.sockAddress
    · dsimp only
      rw [if_pos he]
      intro hn
      rcases hp with hp | ⟨h, x, h1, _⟩
      · right
        have : s.address.val = 0 := by rw [he]; exact hp.2
        simp [bindable, IP.isUnspecified, this]
      · rw [h1] at hn; cases hn
    · dsimp only
      rw [if_neg he]
      trivial
  · split
    · exact ⟨ha, trivial⟩
    · rename_i h hn
      exact ⟨fun i hi => ha i (by rw [← closeSock_os s h i]; exact hi), trivial⟩
  · exact ⟨ha, trivial⟩
  · exact ⟨ha, trivial⟩
  · split
    · refine ⟨fun i hi => ?_, trivial⟩
      have hi : (if i = s.next then ({} : SockObj) else s.socks i).os = .auto := hi
      split at hi
      · cases hi
      · exact ha i hi
    · rename_i hb
      exact ⟨ha, .inr (by simpa using hb)⟩
  · obtain ⟨h1, h2, h, h3, h4⟩ := hp
    rw [h3]
    dsimp only
    split
    · refine ⟨fun i hi => ?_, trivial⟩
      have hi : (if i = h then ({ s.socks h with os := .bound s.address } : SockObj) else s.socks i).os = .auto := hi
      split at hi
      · cases hi
      · exact ha i hi
    · rename_i hf
      refine ⟨ha, .inl (ha h ?_)⟩
      rcases h4 with h4 | h4 <;> rw [h4]
      exact absurd (by rw [h4]) (fun hh => hf hh rfl)
  · obtain ⟨h1, h, h2, h3⟩ := hp
    exact ⟨ha, fun hn => by rw [h2] at hn; cases hn⟩
  · split
    · exact ⟨ha, hk⟩
    · rename_i h hn
      exact ⟨fun i hi => ha i (by rw [← closeSock_os s h i]; exact hi), hk⟩
  · exact ⟨ha, hk⟩
  · exact ⟨ha, fun _ => hk⟩

theorem keep_send {s : RaceSt} (h : KeepInv s) (t n : Nat) : KeepInv (s.sendStep t (.sent n)) := by
  obtain ⟨ha, hk⟩ := h
  have f := sendStep_frame s t (.sent n)
  have hs : Strayed s → Strayed (s.sendStep t (.sent n)) := by
    rintro ⟨u, hu⟩
    rcases send_sent s t (.sent n) with e | ⟨i, _, _, _, e⟩
    · exact ⟨u, by rw [e]; exact hu⟩
    · exact ⟨u, by rw [e]; exact List.mem_cons_of_mem _ hu⟩
  constructor
  · intro i hi
    by_cases h' : (s.socks i).os = .auto
    · exact hs (ha i h')
    · -- the socket was used just now
      unfold RaceSt.sendStep at hi ⊢
      split at hi
      · split at hi <;> exact absurd hi h'
      · exact absurd hi h'
      · rename_i h hc
        dsimp only at hi ⊢
        have hi : (if i = h then ({ s.socks h with os := (s.socks h).os.used } : SockObj) else s.socks i).os = .auto := hi
        split at hi
        · refine ⟨t, ?_⟩
          show (t, OsSock.auto) ∈ (t, (s.socks h).os.used) :: s.sent
          rw [show (s.socks h).os.used = .auto from hi]
          exact List.mem_cons_self
        · exact absurd hi h'
      · exact absurd hi h'
  · rw [f.main, f.sock, f.address]
    cases hm : s.main <;> rw [hm] at hk <;> dsimp only at hk ⊢
    · exact fun hn => (hk hn).imp hs id
    · exact hk.imp hs id
    · exact hk.imp hs id
    · exact hk.imp hs id

theorem keep_run : ∀ (l : List RaceEvent) (s : RaceSt), RaceInv (fun _ => True) s → KeepInv s →
    (∀ e ∈ l, Favourable e) → RaceInv (fun _ => True) (s.run l) ∧ KeepInv (s.run l)
  | [], s, hi, hk, _ => ⟨hi, hk⟩
  | e :: l, s, hi, hk, hf => by
    refine keep_run l (s.step e) (step_inv hi e trivial) ?_ (fun e he => hf e (List.mem_cons_of_mem _ he))
    have he := hf e List.mem_cons_self
    cases e with
    | change v =>
      show KeepInv (s.change v)
      unfold RaceSt.change
      split
      · exact ⟨hk.auto, trivial⟩
      · exact hk
    | main o =>
      have : o = .bound := he
      subst this
      exact keep_main hi.pc hk
    | send t o =>
      cases o with
      | refused u => exact he.elim
      | sent n => exact keep_send hk t n

/-- C90: that is the only way to lose it: as long as the operating system refuses nothing and no datagram has gone out
from a port of the operating system's choice, the socket is open after rebinding exactly if the address is one that it
may be bound to. -/
theorem race_only_loss (a : IP) (l : List RaceEvent) (hl : ∀ e ∈ l, Favourable e)
    (h : ((RaceSt.new a).run l).main = .idle) (hs : ∀ t, (t, .auto) ∉ ((RaceSt.new a).run l).sent) :
    ((RaceSt.new a).run l).sock ≠ none ↔ MayBind ((RaceSt.new a).run l).address := by
  constructor
  · intro hn
    rcases race_in_order a l h with h | ⟨_, _, _, _, h⟩
    · exact absurd h.1 hn
    · exact h
  · intro hb hn
    have hk := (keep_run l (.new a) ⟨trivial, nofun, nofun, .inl ⟨rfl, rfl⟩⟩ ⟨nofun, trivial⟩ hl).2.pc
    rw [h] at hk
    rcases hk hn with ⟨t, ht⟩ | hk
    · exact hs t ht
    · rw [(bindable_iff _).mpr hb] at hk; cases hk

/-! ### Examples -/

section Examples
def exOld : IP := ⟨.v4, 0xc0000201, by decide⟩
def exNew : IP := ⟨.v4, 0xc0000202, by decide⟩

-- start on 192.0.2.1, then the address changes to 192.0.2.2 while a thread sends: the socket is lost for good
example : let s := ((RaceSt.new exOld).run (List.replicate 6 (.main .bound) ++ loseSocket exNew 0 40 true))
    (s.main = .idle ∧ s.sock = none ∧ s.address = exNew ∧ s.thread 0 = .done (.ret 40)) := by
  refine ⟨?_, ?_, ?_, ?_⟩ <;> rfl

-- a call between `close` and `clear` gets a socket.error, and one that has looked before `clear` an AttributeError
example : ((RaceSt.new exOld).run (List.replicate 6 (.main .bound) ++ [.change exNew] ++ List.replicate 2 (.main .bound)
    ++ List.replicate 3 (.send 0 (.sent 40)))).thread 0 = .done .socketError := rfl
example : ((RaceSt.new exOld).run (List.replicate 6 (.main .bound) ++ [.change exNew, .send 0 (.sent 40)] ++
    List.replicate 3 (.main .bound) ++ [.send 0 (.sent 40)])).thread 0 = .done .attributeError := rfl
-- one that has got hold of the old socket still sends from the old address
example : ((RaceSt.new exOld).run (List.replicate 6 (.main .bound) ++ [.change exNew] ++
    List.replicate 3 (.send 0 (.sent 40)) ++ List.replicate 9 (.main .bound) ++ [.send 0 (.sent 40)])).sent =
    [(0, .bound exOld)] := rfl
end Examples

end PyLisp.Props
