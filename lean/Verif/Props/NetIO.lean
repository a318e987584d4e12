import Verif.NetIO
import Verif.Props.Unprintable
/-
C54–C56, C61: sending messages, automatic addresses and sockets.
-/
namespace PyLisp.Props
open PyLisp

/-! ### C54 -/

/-- the socket/destination pairs that may be tried, in order: for each destination the sockets of
its address family -/
def sendPairs (socks : List Sock) (dests : List IP) : List (Sock × IP) :=
  dests.flatMap fun d => (socks.filter fun s => s.family = d.ver).map fun s => (s, d)

/-- the n-th `sendto` call took fewer (or more) bytes than the message has -/
def Short (sendto : Nat → Except Err Nat) (len n : Nat) : Prop :=
  ∃ k, sendto n = .ok k ∧ k ≠ len

/-- the three ways in which trying a list of pairs can go; `n` calls were made before -/
inductive SendSpec (sendto : Nat → Except Err Nat) (len n : Nat) (pairs : List (Sock × IP)) :
    List (Sock × IP) × Except Err (Option (Sock × IP)) → Prop
  /-- a call takes the whole message: its pair is the answer, and nothing more is sent -/
  | sent (i : Nat) (p : Sock × IP) (hp : pairs[i]? = some p) (hs : sendto (n + i) = .ok len)
      (hb : ∀ j < i, Short sendto len (n + j)) :
      SendSpec sendto len n pairs (pairs.take (i + 1), .ok (some p))
  /-- all pairs were tried and none of them took the whole message -/
  | failed (hb : ∀ j < pairs.length, Short sendto len (n + j)) :
      SendSpec sendto len n pairs (pairs, .ok none)
  /-- a call raises an exception, which ends it all -/
  | raised (i : Nat) (e : Err) (hi : i < pairs.length) (hs : sendto (n + i) = .error e)
      (hb : ∀ j < i, Short sendto len (n + j)) :
      SendSpec sendto len n pairs (pairs.take (i + 1), .error e)

theorem trySockets_spec (b : Bytes) (sendto : Nat → Except Err Nat) (d : IP) (ss : List Sock) :
    ∀ n, SendSpec sendto b.length n (ss.map fun s => (s, d)) (trySockets (.ok b) sendto d n ss) := by
  induction ss with
  | nil => intro n; exact .failed (by simp)
  | cons s ss ih =>
    intro n
    rw [trySockets]
    match hs : sendto n with
    | .error e =>
      exact .raised 0 e (by simp) hs (by simp)
    | .ok k =>
      by_cases hk : k = b.length
      · simp only [if_pos hk]
        subst hk
        exact .sent 0 (s, d) (by simp) hs (by simp)
      · simp only [if_neg hk]
        have hsh : Short sendto b.length n := ⟨k, hs, hk⟩
        have hcons : ∀ i, (∀ j < i, Short sendto b.length (n + 1 + j)) →
            ∀ j < i + 1, Short sendto b.length (n + j) := by
          intro i h j hj
          cases j with
          | zero => exact hsh
          | succ j => have := h j (by omega); rwa [show n + 1 + j = n + (j + 1) by omega] at this
        have ih := ih (n + 1)
        generalize trySockets (.ok b) sendto d (n + 1) ss = r at ih
        cases ih with
        | sent i p hp hs hb =>
          refine .sent (i + 1) p (by simpa using hp) ?_ (hcons i hb)
          rwa [show n + 1 + i = n + (i + 1) by omega] at hs
        | failed hb => exact .failed (by simpa using hcons _ hb)
        | raised i e hi hs hb =>
          refine .raised (i + 1) e (by simpa using hi) ?_ (hcons i hb)
          rwa [show n + 1 + i = n + (i + 1) by omega] at hs

theorem sendMessage_spec (b : Bytes) (socks : List Sock) (sendto : Nat → Except Err Nat)
    (dests : List IP) : ∀ n, SendSpec sendto b.length n (sendPairs socks dests)
      (sendMessage (.ok b) socks sendto n (dests.map Addr.ip)) := by
  induction dests with
  | nil => intro n; exact .failed (by simp [sendPairs])
  | cons d ds ih =>
    intro n
    have hp : sendPairs socks (d :: ds) =
        (matchingSockets d socks).map (fun s => (s, d)) ++ sendPairs socks ds := by
      simp [sendPairs, matchingSockets]
    rw [List.map_cons, sendMessage, hp]
    simp only [Addr.asIP]
    have h1 := trySockets_spec b sendto d (matchingSockets d socks) n
    generalize hr : trySockets (.ok b) sendto d n (matchingSockets d socks) = r at h1
    generalize hP : (matchingSockets d socks).map (fun s => (s, d)) = P at h1
    generalize sendPairs socks ds = Q at ih
    cases h1 with
    | sent i p hp hs hb =>
      have hi : i < P.length := (List.getElem?_eq_some_iff.mp hp).1
      have : P.take (i + 1) = (P ++ Q).take (i + 1) := by
        rw [List.take_append_of_le_length (by omega)]
      simp only [this]
      exact .sent i p (by rw [List.getElem?_append_left hi]; exact hp) hs hb
    | raised i e hi hs hb =>
      have : P.take (i + 1) = (P ++ Q).take (i + 1) := by
        rw [List.take_append_of_le_length (by omega)]
      simp only [this]
      exact .raised i e (by simp; omega) hs hb
    | failed hb =>
      simp only []
      have ih := ih (n + P.length)
      have hcomb : ∀ i, (∀ j < i, Short sendto b.length (n + P.length + j)) →
          ∀ j < P.length + i, Short sendto b.length (n + j) := by
        intro i h j hj
        by_cases hjp : j < P.length
        · exact hb j hjp
        · have := h (j - P.length) (by omega)
          rwa [show n + P.length + (j - P.length) = n + j by omega] at this
      generalize sendMessage (.ok b) socks sendto (n + P.length) (ds.map Addr.ip) = r2 at ih
      cases ih with
      | sent i p hp hs hb2 =>
        have : P ++ Q.take (i + 1) = (P ++ Q).take (P.length + i + 1) := by
          rw [Nat.add_assoc, List.take_length_add_append]
        simp only [this]
        refine .sent (P.length + i) p ?_ ?_ (hcomb i hb2)
        · rw [List.getElem?_append_right (by omega)]; simpa using hp
        · rwa [show n + P.length + i = n + (P.length + i) by omega] at hs
      | failed hb2 => exact .failed (by simpa using hcomb _ hb2)
      | raised i e hi hs hb2 =>
        have : P ++ Q.take (i + 1) = (P ++ Q).take (P.length + i + 1) := by
          rw [Nat.add_assoc, List.take_length_add_append]
        simp only [this]
        refine .raised (P.length + i) e (by simp; omega) ?_ (hcomb i hb2)
        rwa [show n + P.length + i = n + (P.length + i) by omega] at hs

/-- C54: sending a serialisable message to IP addresses: exactly one of three things happens, as
`SendSpec` says, and the `sendto` calls made are exactly those of the pairs up to that point. -/
theorem send_message_spec (b : Bytes) (socks : List Sock) (sendto : Nat → Except Err Nat)
    (dests : List IP) :
    SendSpec sendto b.length 0 (sendPairs socks dests)
      (sendMessage (.ok b) socks sendto 0 (dests.map Addr.ip)) :=
  sendMessage_spec b socks sendto dests 0

/-- C54: success is reported for a pair exactly when it is the first one whose `sendto` took the
whole message, all earlier ones having taken fewer bytes. -/
theorem send_success_iff (b : Bytes) (socks : List Sock) (sendto : Nat → Except Err Nat)
    (dests : List IP) (p : Sock × IP) :
    (sendMessage (.ok b) socks sendto 0 (dests.map Addr.ip)).2 = .ok (some p) ↔
      ∃ i, (sendPairs socks dests)[i]? = some p ∧ sendto i = .ok b.length ∧
        ∀ j < i, Short sendto b.length j := by
  have h := send_message_spec b socks sendto dests
  generalize sendMessage (.ok b) socks sendto 0 (dests.map Addr.ip) = r at h
  have hne : ∀ i, Short sendto b.length i → sendto i ≠ .ok b.length := by
    rintro i ⟨k, hk, hn⟩ he; rw [hk] at he; cases he; exact hn rfl
  constructor
  · intro hr
    cases h with
    | sent i q hq hs hb =>
      cases hr
      exact ⟨i, hq, by simpa using hs, fun j hj => by simpa using hb j hj⟩
    | failed => cases hr
    | raised => cases hr
  · rintro ⟨i, hq, hs, hb⟩
    have hi := (List.getElem?_eq_some_iff.mp hq).1
    cases h with
    | sent i' q' hq' hs' hb' =>
      have : i = i' := by
        rcases Nat.lt_trichotomy i i' with h | h | h
        · have := hb' i h; rw [Nat.zero_add] at this; exact absurd hs (hne i this)
        · exact h
        · rw [Nat.zero_add] at hs'; exact absurd hs' (hne i' (hb i' h))
      subst this; rw [hq] at hq'; cases hq'; rfl
    | failed hb' => have := hb' i hi; rw [Nat.zero_add] at this; exact absurd hs (hne i this)
    | raised i' e hi' hs' hb' =>
      exfalso
      rcases Nat.lt_trichotomy i i' with h | h | h
      · have := hb' i h; rw [Nat.zero_add] at this; exact hne i this hs
      · subst h; rw [Nat.zero_add, hs] at hs'; cases hs'
      · obtain ⟨k, hk, _⟩ := hb i' h; rw [Nat.zero_add, hk] at hs'; cases hs'

/-- C54: failure is reported exactly when every pair was tried and none took the whole message. -/
theorem send_failure_iff (b : Bytes) (socks : List Sock) (sendto : Nat → Except Err Nat)
    (dests : List IP) :
    (sendMessage (.ok b) socks sendto 0 (dests.map Addr.ip)).2 = .ok none ↔
      ∀ j < (sendPairs socks dests).length, Short sendto b.length j := by
  have h := send_message_spec b socks sendto dests
  generalize sendMessage (.ok b) socks sendto 0 (dests.map Addr.ip) = r at h
  constructor
  · intro hr
    cases h with
    | sent => cases hr
    | failed hb => exact fun j hj => by simpa using hb j hj
    | raised => cases hr
  · intro hb
    cases h with
    | sent i q hq hs _ =>
      obtain ⟨k, hk, hn⟩ := hb i (List.getElem?_eq_some_iff.mp hq).1
      rw [Nat.zero_add, hk] at hs; cases hs; exact absurd rfl hn
    | failed => rfl
    | raised i e hi hs _ =>
      obtain ⟨k, hk, _⟩ := hb i hi
      rw [Nat.zero_add, hk] at hs; cases hs

/-- C54: at most one call takes the whole message, and it is the last one made. -/
theorem send_at_most_once (b : Bytes) (socks : List Sock) (sendto : Nat → Except Err Nat)
    (dests : List IP) (j : Nat)
    (hj : j + 1 < (sendMessage (.ok b) socks sendto 0 (dests.map Addr.ip)).1.length) :
    Short sendto b.length j := by
  have h := send_message_spec b socks sendto dests
  generalize sendMessage (.ok b) socks sendto 0 (dests.map Addr.ip) = r at h hj
  cases h with
  | sent i p hp hs hb =>
    simp only [List.length_take] at hj
    simpa using hb j (by omega)
  | failed hb => simp only [] at hj; simpa using hb j (by omega)
  | raised i e hi hs hb =>
    simp only [List.length_take] at hj
    simpa using hb j (by omega)

/-- C54: a message that cannot be serialised is never sent: the exception escapes as soon as a socket
matches, and without a matching socket failure is reported. -/
theorem send_unserialisable (e : Err) (socks : List Sock) (sendto : Nat → Except Err Nat)
    (dests : List IP) (n : Nat) :
    sendMessage (.error e) socks sendto n (dests.map Addr.ip) =
      if sendPairs socks dests = [] then ([], .ok none) else ([], .error e) := by
  induction dests generalizing n with
  | nil => rfl
  | cons d ds ih =>
    rw [List.map_cons, sendMessage]
    simp only [Addr.asIP]
    have hp : sendPairs socks (d :: ds) =
        (matchingSockets d socks).map (fun s => (s, d)) ++ sendPairs socks ds := by
      simp [sendPairs, matchingSockets]
    rw [hp]
    cases matchingSockets d socks with
    | nil =>
      simp only [trySockets, List.nil_append, List.map_nil, List.length_nil, Nat.add_zero]
      rw [ih]
    | cons s ss => simp [trySockets]

/-- the address whose text (what `unicode` gives) is that of an IP address: a plain one, or one in LCAF instance
addresses with instance id 0 -/
inductive AddrText : Addr → IP → Prop
  | plain (x : IP) : AddrText (.ip x) x
  | inst (a : Addr) (m : Int) (x : IP) : AddrText a x → AddrText (.inst 0 a m) x

/-- C54: which destinations are addresses at all -/
theorem destination_text (a : Addr) (x : IP) : a.asIP = .ok x ↔ AddrText a x := by
  constructor
  · intro h
    induction a using Addr.asIP.induct with
    | case1 y => cases h; exact .plain _
    | case2 a m ih =>
      rw [Addr.asIP, if_pos rfl] at h
      exact .inst a m x (ih h)
    | case3 iid a m h0 => rw [Addr.asIP, if_neg h0] at h; cases h
    | case4 a h1 h2 => rw [Addr.asIP] at h <;> first | cases h | assumption
  · intro h
    induction h with
    | plain x => rfl
    | inst a m x _ ih => rw [Addr.asIP, if_pos rfl]; exact ih

theorem asIP_raises (a : Addr) : (∃ x, a.asIP = .ok x ∧ a.textRaises = false) ∨ a.asIP = .error a.noNetwork := by
  induction a using Addr.asIP.induct with
  | case1 y => exact .inl ⟨y, rfl, rfl⟩
  | case2 a m ih =>
    rw [Addr.asIP, if_pos rfl]
    exact ih
  | case3 iid a m h0 => rw [Addr.asIP, if_neg h0]; exact .inr rfl
  | case4 a h1 h2 => exact .inr (by rw [Addr.asIP] <;> assumption)

/-- C54: what the others raise: TypeError when there is no text at all, and else ValueError -/
theorem destination_raises (a : Addr) (e : Err) :
    a.asIP = .error e ↔ (e = .type ∧ Unprintable a) ∨ (e = .value ∧ ¬ Unprintable a ∧ ¬ ∃ x, AddrText a x) := by
  rw [unprintable_iff]
  have ht : (∃ x, AddrText a x) ↔ ∃ x, a.asIP = .ok x := by simp only [destination_text]
  rw [ht]
  rcases asIP_raises a with ⟨x, hx, hr⟩ | h
  · rw [hx, hr]; simp
  · rw [h, Addr.noNetwork]
    cases a.textRaises <;> simp <;> exact eq_comm

theorem trySockets_calls (data : Except Err Bytes) (sendto : Nat → Except Err Nat) (d : IP) (ss : List Sock) :
    ∀ n, ∀ p ∈ (trySockets data sendto d n ss).1, p.1 ∈ ss ∧ p.2 = d := by
  induction ss with
  | nil => intro n p hp; cases hp
  | cons s ss ih =>
    intro n p hp
    cases data with
    | error e => cases hp
    | ok b =>
      rw [trySockets] at hp
      cases hs : sendto n with
      | error e =>
        rw [hs] at hp
        rcases List.mem_singleton.mp hp with rfl; exact ⟨by simp, rfl⟩
      | ok k =>
        rw [hs] at hp
        dsimp only at hp
        split at hp
        · rcases List.mem_singleton.mp hp with rfl; exact ⟨by simp, rfl⟩
        · rcases List.mem_cons.mp hp with rfl | hp
          · exact ⟨by simp, rfl⟩
          · have := ih _ p hp
            exact ⟨List.mem_cons_of_mem _ this.1, this.2⟩

/-- C54: every `sendto` call, for destinations of any kind and also when the sending fails or raises, goes over one of
the given sockets, of the address family of the destination, to one of the given destinations -/
theorem send_calls (data : Except Err Bytes) (socks : List Sock) (sendto : Nat → Except Err Nat) (dests : List Addr) :
    ∀ n, ∀ p ∈ (sendMessage data socks sendto n dests).1,
      p.1 ∈ socks ∧ p.1.family = p.2.ver ∧ ∃ a ∈ dests, AddrText a p.2 := by
  induction dests with
  | nil => intro n p hp; cases hp
  | cons a as ih =>
    intro n p hp
    rw [sendMessage] at hp
    split at hp
    · cases hp
    · rename_i d hd
      have key : ∀ p ∈ (trySockets data sendto d n (matchingSockets d socks)).1,
          p.1 ∈ socks ∧ p.1.family = p.2.ver ∧ ∃ a' ∈ a :: as, AddrText a' p.2 := by
        intro p hp
        obtain ⟨h1, h2⟩ := trySockets_calls data sendto d _ n p hp
        have h3 := List.mem_filter.mp h1
        refine ⟨h3.1, by rw [h2]; simpa using h3.2, a, by simp, ?_⟩
        rw [h2]; exact (destination_text a d).mp hd
      split at hp
      · rename_i log hl
        rcases List.mem_append.mp hp with hp | hp
        · exact key p (by rw [hl]; exact hp)
        · obtain ⟨h1, h2, b, hb, h3⟩ := ih _ p hp
          exact ⟨h1, h2, b, List.mem_cons_of_mem _ hb, h3⟩
      · rename_i log r hr hl
        exact key p (by rw [hl]; exact hp)

/-- C54: a destination that is not an address ends the sending when it is reached: with an exception
if all earlier pairs failed. -/
theorem send_bad_destination (b : Bytes) (socks : List Sock) (sendto : Nat → Except Err Nat)
    (dests : List IP) (a : Addr) (e : Err) (ha : a.asIP = .error e) (rest : List Addr)
    (hb : ∀ j < (sendPairs socks dests).length, Short sendto b.length j) :
    sendMessage (.ok b) socks sendto 0 (dests.map Addr.ip ++ a :: rest) =
      (sendPairs socks dests, .error e) := by
  suffices h : ∀ n, (∀ j < (sendPairs socks dests).length, Short sendto b.length (n + j)) →
      sendMessage (.ok b) socks sendto n (dests.map Addr.ip ++ a :: rest) =
        (sendPairs socks dests, .error e) from h 0 (by simpa using hb)
  clear hb
  induction dests with
  | nil =>
    intro n _
    rw [List.map_nil, List.nil_append, sendMessage, ha]
    rfl
  | cons d ds ih =>
    intro n hb
    have hp : sendPairs socks (d :: ds) =
        (matchingSockets d socks).map (fun s => (s, d)) ++ sendPairs socks ds := by
      simp [sendPairs, matchingSockets]
    rw [List.map_cons, List.cons_append, sendMessage]
    simp only [Addr.asIP]
    rw [hp] at hb ⊢
    have h1 := trySockets_spec b sendto d (matchingSockets d socks) n
    generalize trySockets (.ok b) sendto d n (matchingSockets d socks) = r at h1
    generalize (matchingSockets d socks).map (fun s => (s, d)) = P at h1 hb ⊢
    cases h1 with
    | sent i p hq hs _ =>
      have hi := (List.getElem?_eq_some_iff.mp hq).1
      obtain ⟨k, hk, hn⟩ := hb i (by simp; omega)
      rw [hk] at hs; cases hs; exact absurd rfl hn
    | raised i e hi hs _ =>
      obtain ⟨k, hk, hn⟩ := hb i (by simp; omega)
      rw [hk] at hs; cases hs
    | failed =>
      simp only []
      rw [ih (n + P.length) (fun j hj => by
        have := hb (P.length + j) (by simp; omega)
        rwa [show n + (P.length + j) = n + P.length + j by omega] at this)]

/-- beside `destination_raises`: an instance address around an AFI list has no text, one around an
address has, and it is not that of an address unless the instance id is 0 -/
example : (Addr.inst 7 (.afiList [.null]) 0).asIP = .error .type ∧
    (Addr.inst 7 (.ip ⟨.v4, 5, by decide⟩) 0).asIP = .error .value ∧
    (Addr.inst 0 (.ip ⟨.v4, 5, by decide⟩) 0).asIP = .ok ⟨.v4, 5, by decide⟩ :=
  ⟨(destination_raises _ _).mpr (.inl ⟨rfl, .inst (.list (by simp))⟩),
    (destination_raises _ _).mpr (.inr ⟨rfl, (fun h => by cases h with | inst h => cases h),
      (fun ⟨_, h⟩ => by cases h)⟩),
    (destination_text _ _).mpr (.inst _ _ _ (.plain _))⟩

/-! ### C55 -/

/-- the socket is open, on a non-zero address and with one operating system socket, or it is closed,
with the zero address and no operating system socket -/
def SockOk (s : AutoSock) : Prop :=
  (s.sock = none ∧ s.sockAddress = 0 ∧ s.handles = []) ∨
  ∃ h, s.sock = some h ∧ s.sockAddress ≠ 0 ∧ s.handles = [h]

theorem release_ok {s : AutoSock} (h : SockOk s) :
    s.release = { s with sock := none, handles := [] } := by
  obtain ⟨f, ad, so, sa, ha, nx⟩ := s
  rcases h with ⟨h1, h2, h3⟩ | ⟨x, h1, h2, h3⟩ <;> (simp only at h1 h2 h3; subst h1; subst h3) <;>
    simp [AutoSock.release]

theorem rebind_ok {s : AutoSock} (h : SockOk s) (o : BindOutcome) : SockOk (s.rebind o).1 := by
  have hr := release_ok h
  unfold AutoSock.rebind
  rw [hr]
  split
  · exact h
  · split
    · rename_i hb
      cases o with
      | noSocket =>
        left
        simp [AutoSock.reset, AutoSock.release]
      | noBind =>
        left
        simp [AutoSock.reset, AutoSock.openNew, AutoSock.release]
      | bound =>
        right
        refine ⟨_, rfl, ?_, ?_⟩
        · show s.address.val ≠ 0
          intro h0
          simp [bindable, IP.isUnspecified, h0] at hb
        · simp [AutoSock.openNew]
    · left
      simp [AutoSock.reset, AutoSock.release]

/-- C55: whatever happened to its address and whatever the operating system did, an AutoUDPSocket is
open exactly when its bound address is non-zero, and it then has exactly one operating system socket
open; when it is closed it has none. -/
theorem auto_socket_invariant (address : IP) (o : BindOutcome) (evs : List SockEvent) :
    SockOk (evs.foldl AutoSock.step (AutoSock.new address o)) := by
  suffices h : ∀ s, SockOk s → SockOk (evs.foldl AutoSock.step s) by
    exact h _ (rebind_ok (.inl ⟨rfl, rfl, rfl⟩) o)
  induction evs with
  | nil => exact fun s h => h
  | cons e evs ih =>
    intro s h
    refine ih _ ?_
    cases e with
    | change v =>
      show SockOk (if h : v < 2 ^ s.family.width then { s with address := ⟨s.family, v, h⟩ } else s)
      split
      · exact h
      · exact h
    | rebind o => exact rebind_ok h o

theorem mkNet4_contains (base plen h1 h2 h3) (a : IP) :
    (mkNet4 base plen h1 h2 h3).containsIP a = true ↔
      a.ver = .v4 ∧ base ≤ a.val ∧ a.val < base + 2 ^ (32 - plen) := by
  unfold Net.containsIP
  rw [Bool.and_eq_true, Bool.and_eq_true, decide_eq_true_iff, decide_eq_true_iff, decide_eq_true_iff,
    and_assoc]
  exact and_congr eq_comm Iff.rfl

theorem mkNet6_contains (base plen h1 h2 h3) (a : IP) :
    (mkNet6 base plen h1 h2 h3).containsIP a = true ↔
      a.ver = .v6 ∧ base ≤ a.val ∧ a.val < base + 2 ^ (128 - plen) := by
  unfold Net.containsIP
  rw [Bool.and_eq_true, Bool.and_eq_true, decide_eq_true_iff, decide_eq_true_iff, decide_eq_true_iff,
    and_assoc]
  exact and_congr eq_comm Iff.rfl

/-- the addresses a socket may be bound to: not 0.0.0.0, 127.0.0.0/8, 169.254.0.0/16 or 224.0.0.0/4, and not ::, ::1,
fe80::/10 or ff00::/8 -/
def MayBind (a : IP) : Prop :=
  match a.ver with
  | .v4 => a.val ≠ 0 ∧ a.val / 2 ^ 24 ≠ 127 ∧ a.val / 2 ^ 16 ≠ 0xa9fe ∧ a.val / 2 ^ 28 ≠ 14
  | .v6 => a.val ≠ 0 ∧ a.val ≠ 1 ∧ a.val / 2 ^ 118 ≠ 0x3fa ∧ a.val / 2 ^ 120 ≠ 0xff

theorem bindable_iff (a : IP) : bindable a = true ↔ MayBind a := by
  obtain ⟨v, n, hn⟩ := a
  have : bindable ⟨v, n, hn⟩ = true ↔
      ¬ ((⟨v, n, hn⟩ : IP).isLoopback = true ∨ (⟨v, n, hn⟩ : IP).isLinkLocal = true ∨
        (⟨v, n, hn⟩ : IP).isMulticast = true ∨ (⟨v, n, hn⟩ : IP).isUnspecified = true) := by
    simp [bindable, and_assoc]
  rw [this]
  simp only [IP.isLinkLocal, IP.isLoopback, IP.isMulticast, IP.isUnspecified, Bool.or_eq_true, mkNet4_contains,
    mkNet6_contains, decide_eq_true_eq, MayBind]
  cases v with
  | v4 =>
    simp only [Ver.width] at hn
    simp only [reduceCtorEq, true_and, false_and, false_or, or_false]
    omega
  | v6 =>
    simp only [Ver.width] at hn
    simp only [reduceCtorEq, true_and, false_and, false_or, or_false]
    omega

/-- C55: a rebind says whether the socket is open afterwards; if it is, it is bound to the current
address (and was bound to it already, or this address may be bound to and the operating system did
so); if the address may be bound to and the operating system does so, the socket is open. -/
theorem auto_socket_rebind (s : AutoSock) (h : SockOk s) (o : BindOutcome) :
    ((s.rebind o).2 = true ↔ (s.rebind o).1.sock ≠ none) ∧
    ((s.rebind o).1.sock ≠ none → (s.rebind o).1.sockAddress = s.address.val) ∧
    ((s.rebind o).1.sock ≠ none ↔
      s.address.val ≠ 0 ∧ (s.address.val = s.sockAddress ∨ MayBind s.address ∧ o = .bound)) ∧
    (s.rebind o).1.address = s.address := by
  rw [← bindable_iff]
  have hr := release_ok h
  have hsz : s.sock ≠ none ↔ s.sockAddress ≠ 0 := by
    rcases h with ⟨h1, h2, _⟩ | ⟨x, h1, h2, _⟩ <;> simp [h1, h2]
  unfold AutoSock.rebind
  rw [hr]
  split
  · rename_i he
    refine ⟨?_, fun _ => he.symm, ?_, rfl⟩
    · cases s.sock <;> simp
    · show s.sock ≠ none ↔ _
      rw [hsz, ← he]; simp
  · rename_i he
    split
    · rename_i hb
      have h0 : s.address.val ≠ 0 := by
        intro h0; simp [bindable, IP.isUnspecified, h0] at hb
      cases o with
      | noSocket => simp [AutoSock.reset, AutoSock.release, he]
      | noBind => simp [AutoSock.reset, AutoSock.openNew, AutoSock.release, he]
      | bound => simp [AutoSock.openNew, hb, h0]
    · rename_i hb
      simp [AutoSock.reset, AutoSock.release, he, hb]

/-- C55: a new AutoUDPSocket is open exactly if its address may be bound to and the operating system does so, and is
bound to that address then. -/
theorem auto_socket_new (a : IP) (o : BindOutcome) :
    ((AutoSock.new a o).sock ≠ none ↔ MayBind a ∧ o = .bound) ∧
    ((AutoSock.new a o).sock ≠ none → (AutoSock.new a o).sockAddress = a.val) ∧
    (AutoSock.new a o).address = a ∧ (AutoSock.new a o).family = a.ver := by
  obtain ⟨-, h2, h3, h4⟩ := auto_socket_rebind ⟨a.ver, a, none, 0, [], 0⟩ (Or.inl ⟨rfl, rfl, rfl⟩) o
  refine ⟨Iff.trans h3 ⟨?_, fun h => ⟨?_, Or.inr h⟩⟩, h2, h4, ?_⟩
  · rintro ⟨hz, hz' | h⟩
    · exact absurd hz' hz
    · exact h
  · obtain ⟨v, n, hn⟩ := a
    cases v
    · exact h.1.1
    · exact h.1.1
  · unfold AutoSock.new AutoSock.rebind
    split
    · rfl
    · split
      · cases o <;> rfl
      · rfl

/-- what holds of an AutoUDPSocket at all times: its address has its family, and if it is open it is bound to an address
of its family that may be bound to -/
def BoundWell (s : AutoSock) : Prop :=
  s.address.ver = s.family ∧ (s.sock ≠ none → ∃ a : IP, a.ver = s.family ∧ a.val = s.sockAddress ∧ MayBind a)

theorem rebind_bound {s : AutoSock} (hb : BoundWell s) (o : BindOutcome) :
    BoundWell (s.rebind o).1 := by
  have hf : (s.rebind o).1.family = s.family ∧ (s.rebind o).1.address = s.address := by
    obtain ⟨f, ad, so, sa, ha, nx⟩ := s
    unfold AutoSock.rebind
    split
    · exact ⟨rfl, rfl⟩
    · split
      · cases o <;> cases so <;> exact ⟨rfl, rfl⟩
      · cases so <;> exact ⟨rfl, rfl⟩
  refine ⟨by rw [hf.1, hf.2]; exact hb.1, fun hs => ?_⟩
  rw [hf.1]
  by_cases he : s.address.val = s.sockAddress
  · have : s.rebind o = (s, s.sock.isSome) := by unfold AutoSock.rebind; exact if_pos he
    rw [this] at hs ⊢
    exact hb.2 hs
  · by_cases hm : bindable s.address = true
    · cases o with
      | noSocket =>
        refine absurd ?_ hs
        unfold AutoSock.rebind
        rw [if_neg he, if_pos hm]
        cases hso : s.sock <;> simp [AutoSock.reset, AutoSock.release, hso]
      | noBind =>
        refine absurd ?_ hs
        unfold AutoSock.rebind
        rw [if_neg he, if_pos hm]
        simp [AutoSock.reset, AutoSock.release, AutoSock.openNew]
      | bound =>
        refine ⟨s.address, hb.1, ?_, (bindable_iff _).mp hm⟩
        unfold AutoSock.rebind
        rw [if_neg he, if_pos hm]
    · refine absurd ?_ hs
      unfold AutoSock.rebind
      rw [if_neg he, if_neg hm]
      cases hso : s.sock <;> simp [AutoSock.reset, AutoSock.release, hso]

/-- C55: whatever happened, an open AutoUDPSocket is bound to an address of its own family that is no loopback,
link-local, multicast or wild-card address. -/
theorem auto_socket_bound (address : IP) (o : BindOutcome) (evs : List SockEvent) :
    BoundWell (evs.foldl AutoSock.step (AutoSock.new address o)) := by
  suffices h : ∀ s, BoundWell s → BoundWell (evs.foldl AutoSock.step s) by
    exact h _ (rebind_bound ⟨rfl, fun h => absurd rfl h⟩ o)
  induction evs with
  | nil => exact fun s h => h
  | cons e evs ih =>
    intro s h
    refine ih _ ?_
    cases e with
    | change v =>
      show BoundWell (if h : v < 2 ^ s.family.width then { s with address := ⟨s.family, v, h⟩ } else s)
      split
      · exact ⟨rfl, h.2⟩
      · exact h
    | rebind o => exact rebind_bound h o

/-- C55: without an open socket nothing is sent (0 bytes), nothing is received and there is no file
number; with one, the operating system's answer is passed on, except that a datagram of an IPv6 link-local sender
(its address comes with a zone) cannot be received: ValueError. -/
theorem auto_socket_io (s : AutoSock) (h : SockOk s) :
    (s.sockAddress = 0 → (∀ os, s.sendto os = .ok 0) ∧ (∀ os, s.recvfrom os = .ok none) ∧
      s.fileno = none) ∧
    (s.sockAddress ≠ 0 → ∃ hd, s.handles = [hd] ∧ (∀ os, s.sendto os = os hd) ∧
      (∀ os, os hd = none → s.recvfrom os = .ok none) ∧
      (∀ os d a port, os hd = some (d, ⟨a, false⟩, port) → s.recvfrom os = .ok (some (d, a, port))) ∧
      (∀ os d a port, os hd = some (d, ⟨a, true⟩, port) → s.recvfrom os = .error .value) ∧
      s.fileno = some hd) := by
  rcases h with ⟨h1, h2, h3⟩ | ⟨x, h1, h2, h3⟩
  · exact ⟨fun _ => by simp [AutoSock.sendto, AutoSock.recvfrom, AutoSock.fileno, h1],
      fun h => absurd h2 h⟩
  · exact ⟨fun h => absurd h h2,
      fun _ => ⟨x, h3, by simp [AutoSock.sendto, h1],
        fun os he => by simp [AutoSock.recvfrom, h1, he], fun os d a port he => by simp [AutoSock.recvfrom, h1, he],
        fun os d a port he => by simp [AutoSock.recvfrom, h1, he], by simp [AutoSock.fileno, h1]⟩⟩

/-! ### C56 -/

/-- the addresses an automatic address may take: IPv4 unicast addresses that are not 0.0.0.0,
127.0.0.0/8 or 169.254.0.0/16, and the IPv6 addresses in 2000::/3, fc00::/7 and fec0::/10 -/
def Suitable (a : IP) : Prop :=
  match a.ver with
  | .v4 => a.val ≠ 0 ∧ a.val < 0xe0000000 ∧ ¬ (0x7f000000 ≤ a.val ∧ a.val < 0x80000000) ∧
      ¬ (0xa9fe0000 ≤ a.val ∧ a.val < 0xa9ff0000)
  | .v6 => a.val / 2 ^ 125 = 1 ∨ a.val / 2 ^ 121 = 0x7e ∨ a.val / 2 ^ 118 = 0x3fb

theorem autoSuitable_iff (a : IP) : autoSuitable a = true ↔ Suitable a := by
  obtain ⟨v, n, hn⟩ := a
  have : autoSuitable ⟨v, n, hn⟩ = true ↔
      ¬ ((⟨v, n, hn⟩ : IP).isLinkLocal = true ∨ (⟨v, n, hn⟩ : IP).isLoopback = true ∨
        (⟨v, n, hn⟩ : IP).isMulticast = true ∨ (⟨v, n, hn⟩ : IP).isReserved = true ∨
        (⟨v, n, hn⟩ : IP).isUnspecified = true) := by
    simp [autoSuitable, and_assoc]
  rw [this]
  simp only [IP.isLinkLocal, IP.isLoopback, IP.isMulticast, IP.isReserved, IP.isUnspecified,
    reservedNets, List.any_cons, List.any_nil, Bool.or_eq_true, mkNet4_contains, mkNet6_contains,
    decide_eq_true_eq, Suitable]
  cases v with
  | v4 =>
    simp only [Ver.width] at hn
    simp only [reduceCtorEq, true_and, false_and, false_or, or_false]
    omega
  | v6 =>
    simp only [Ver.width] at hn
    simp only [reduceCtorEq, true_and, false_and, false_or, or_false]
    omega

/-- C56: the value picked from what the interface has: the first suitable address, provided that
every entry up to it is an address; otherwise 0. -/
theorem chosen_address (l : List (Option IP)) :
    (∃ (before : List IP) (a : IP) (after : List (Option IP)),
        l = before.map some ++ some a :: after ∧ (∀ b ∈ before, ¬ Suitable b) ∧ Suitable a ∧
        chooseAddress (some l) = a.val) ∨
    ((¬ ∃ (before : List IP) (a : IP) (after : List (Option IP)),
        l = before.map some ++ some a :: after ∧ Suitable a) ∧ chooseAddress (some l) = 0) := by
  show (∃ before a after, _ ∧ _ ∧ _ ∧ pickAddress l = _) ∨ (_ ∧ pickAddress l = 0)
  induction l with
  | nil => right; refine ⟨?_, rfl⟩; rintro ⟨b, a, t, h, _⟩; simp at h
  | cons x l ih =>
    cases x with
    | none =>
      right
      refine ⟨?_, rfl⟩
      rintro ⟨b, a, t, h, _⟩
      cases b <;> simp at h
    | some a =>
      by_cases ha : Suitable a
      · left
        exact ⟨[], a, l, rfl, by simp, ha, by simp [pickAddress, (autoSuitable_iff a).mpr ha]⟩
      · have hp : pickAddress (some a :: l) = pickAddress l := by
          have : autoSuitable a ≠ true := fun h => ha ((autoSuitable_iff a).mp h)
          simp [pickAddress, this]
        rw [hp]
        rcases ih with ⟨b, c, t, h1, h2, h3, h4⟩ | ⟨h1, h2⟩
        · left
          refine ⟨a :: b, c, t, by rw [h1]; rfl, ?_, h3, h4⟩
          intro y hy
          rcases List.mem_cons.mp hy with rfl | hy
          · exact ha
          · exact h2 y hy
        · right
          refine ⟨?_, h2⟩
          rintro ⟨b, c, t, h, hc⟩
          cases b with
          | nil => simp at h; exact ha (h.1 ▸ hc)
          | cons y b => simp at h; exact h1 ⟨b, c, t, h.2, hc⟩

/-- C56: an update takes the value picked (0 when the interface has no addresses of the family), and
calls every observer exactly when the value changed. -/
theorem update_notifies (a : AutoAddr ω) (i : Option (List (Option IP))) :
    (a.update i).1.ip = chooseAddress i ∧ (a.update i).1.targets = a.targets ∧
    ((a.update i).1.ip = a.ip → (a.update i).2 = []) ∧
    ((a.update i).1.ip ≠ a.ip → (a.update i).2 = a.targets) := by
  unfold AutoAddr.update
  split
  · rename_i h; exact ⟨h, rfl, fun _ => rfl, fun h => absurd rfl h⟩
  · rename_i h; exact ⟨rfl, rfl, fun h' => absurd h'.symm h, fun _ => rfl⟩

/-- C56: without addresses the value is 0. -/
theorem no_interface : chooseAddress none = 0 := rfl

/-- the positions at which a sequence of values changes, starting from `v` -/
def changeCount (v : Nat) : List Nat → Nat
  | [] => 0
  | w :: ws => (if w = v then 0 else 1) + changeCount w ws

/-- a sequence of updates: the final state and all observer calls in order -/
def runUpdates (a : AutoAddr ω) : List (Option (List (Option IP))) → AutoAddr ω × List ω
  | [] => (a, [])
  | i :: is => ((runUpdates (a.update i).1 is).1, (a.update i).2 ++ (runUpdates (a.update i).1 is).2)

/-- C56: over every history of updates each observer is called once for every change of the picked
value, and the final value is the last one picked. -/
theorem updates_notify [DecidableEq ω] (a : AutoAddr ω) (hd : a.targets.Nodup)
    (is : List (Option (List (Option IP)))) (t : ω) (ht : t ∈ a.targets) :
    (runUpdates a is).2.count t = changeCount a.ip (is.map chooseAddress) ∧
    (runUpdates a is).1.ip = ((is.map chooseAddress).getLast?).getD a.ip := by
  induction is generalizing a with
  | nil => exact ⟨rfl, rfl⟩
  | cons i is ih =>
    obtain ⟨u1, u2, u3, u4⟩ := update_notifies a i
    obtain ⟨ih1, ih2⟩ := ih (a.update i).1 (by rw [u2]; exact hd) (by rw [u2]; exact ht)
    constructor
    · simp only [runUpdates, List.count_append, List.map_cons, changeCount]
      rw [ih1, u1]
      congr 1
      by_cases h : chooseAddress i = a.ip
      · rw [if_pos h, u3 (by rw [u1]; exact h)]; rfl
      · rw [if_neg h, u4 (by rw [u1]; exact h)]
        rw [List.Nodup.count hd, if_pos ht]
    · simp only [runUpdates, List.map_cons]
      rw [ih2, u1, List.getLast?_cons]
      simp

/-- C56: asking for notifications twice does not make two notifications. -/
theorem targets_nodup [DecidableEq ω] (i : Option (List (Option IP))) (ts : List ω) :
    (ts.foldl AutoAddr.addTarget (AutoAddr.new i)).targets.Nodup ∧
    ∀ t, t ∈ (ts.foldl AutoAddr.addTarget (AutoAddr.new i)).targets ↔ t ∈ ts := by
  suffices h : ∀ a : AutoAddr ω, a.targets.Nodup → (ts.foldl AutoAddr.addTarget a).targets.Nodup ∧
      ∀ t, t ∈ (ts.foldl AutoAddr.addTarget a).targets ↔ t ∈ a.targets ∨ t ∈ ts by
    have hnew : (AutoAddr.new i : AutoAddr ω).targets = [] := (update_notifies _ i).2.1
    obtain ⟨h1, h2⟩ := h (AutoAddr.new i) (by rw [hnew]; exact List.nodup_nil)
    refine ⟨h1, fun t => ?_⟩
    rw [h2, hnew]; simp
  induction ts with
  | nil => intro a ha; exact ⟨ha, fun t => by simp⟩
  | cons t ts ih =>
    intro a ha
    have h1 : (a.addTarget t).targets.Nodup ∧ ∀ x, x ∈ (a.addTarget t).targets ↔ x ∈ a.targets ∨ x = t := by
      unfold AutoAddr.addTarget
      split
      · rename_i hm
        refine ⟨ha, fun x => ⟨.inl, ?_⟩⟩
        rintro (h | rfl)
        · exact h
        · exact hm
      · rename_i hm
        refine ⟨List.nodup_cons.mpr ⟨hm, ha⟩, fun x => ?_⟩
        simp [or_comm]
    obtain ⟨i1, i2⟩ := ih (a.addTarget t) h1.1
    refine ⟨i1, fun x => ?_⟩
    rw [List.foldl_cons, i2, h1.2]
    simp [or_assoc]

/-! ### C61 -/

/-- C61: in every history, `update_addresses` gives every registered automatic address the value
picked from its own interface and family, and leaves the others as they are; it neither makes nor
loses objects. -/
theorem update_addresses_spec (objs : List AutoObj) (env : Interfaces) (i : Nat) :
    (autoStep objs (.updateAll env))[i]? = (objs[i]?).map fun o =>
      if o.registered = true then { o with ip := chooseAddress (env o.ifName o.ver) } else o := by
  simp [autoStep, AutoObj.refresh]

/-- C61: a new automatic address has the value picked from its interface at once, and is registered
for updates exactly when no registered automatic address of the same interface and family is without
an address at that moment; the others are unaffected. -/
theorem create_spec (objs : List AutoObj) (id : Nat) (name : String) (ver : Ver) (env : Interfaces) :
    ∃ o, autoStep objs (.create id name ver env) = objs ++ [o] ∧ o.id = id ∧ o.ifName = name ∧
      o.ver = ver ∧ o.ip = chooseAddress (env name ver) ∧
      (o.registered = true ↔
        ¬ ∃ p ∈ objs, p.registered = true ∧ p.ifName = name ∧ p.ver = ver ∧ p.ip = 0) := by
  refine ⟨_, rfl, rfl, rfl, rfl, rfl, ?_⟩
  simp [AutoObj.refresh, AutoObj.admitted, and_assoc]

/-- C61: whatever happens afterwards, an object that is still there keeps its interface, its family
and its registration, and when it is not registered its value never changes again. -/
theorem unregistered_stale (objs : List AutoObj) (evs : List AutoEvent) (o : AutoObj)
    (h : o ∈ evs.foldl autoStep objs)
    (hfresh : ∀ id name ver env, .create id name ver env ∈ evs → id ≠ o.id) :
    ∃ p ∈ objs, p.id = o.id ∧ p.ifName = o.ifName ∧ p.ver = o.ver ∧
      p.registered = o.registered ∧ (p.registered = false → p.ip = o.ip) := by
  induction evs generalizing objs with
  | nil => exact ⟨o, h, rfl, rfl, rfl, rfl, fun _ => rfl⟩
  | cons e evs ih =>
    obtain ⟨p, hp, h1, h2, h3, h4, h5⟩ := ih (autoStep objs e) h
      fun i n v e hm => hfresh i n v e (List.mem_cons_of_mem _ hm)
    cases e with
    | create id name ver env =>
      rcases List.mem_append.mp hp with hp | hp
      · exact ⟨p, hp, h1, h2, h3, h4, h5⟩
      · have : p.id = id := by rw [List.mem_singleton.mp hp]; rfl
        exact absurd (this.symm.trans h1) (hfresh id name ver env (by simp))
    | drop id => exact ⟨p, (List.mem_filter.mp hp).1, h1, h2, h3, h4, h5⟩
    | updateAll env =>
      obtain ⟨q, hq, rfl⟩ := List.mem_map.mp hp
      refine ⟨q, hq, ?_⟩
      by_cases hr : q.registered = true
      · rw [if_pos hr] at h1 h2 h3 h4
        exact ⟨h1, h2, h3, h4, fun hf => by rw [hr] at hf; cases hf⟩
      · rw [if_neg hr] at h1 h2 h3 h4 h5
        exact ⟨h1, h2, h3, h4, h5⟩

/-- C61: an automatic address is there as long as something refers to it and no longer: whatever happens, it stays until
it is dropped, and once dropped it does not come back. -/
theorem object_lifetime (objs : List AutoObj) (evs : List AutoEvent) (id : Nat) :
    ((∃ p ∈ objs, p.id = id) → .drop id ∉ evs → ∃ o ∈ evs.foldl autoStep objs, o.id = id) ∧
    ((∀ name ver env, .create id name ver env ∉ evs) →
      ¬ ∃ o ∈ evs.foldl autoStep (autoStep objs (.drop id)), o.id = id) := by
  constructor
  · induction evs generalizing objs with
    | nil => exact fun h _ => h
    | cons e evs ih =>
      rintro ⟨p, hp, hid⟩ hd
      refine ih _ ?_ (fun h => hd (List.mem_cons_of_mem _ h))
      cases e with
      | create id' name ver env => exact ⟨p, List.mem_append_left _ hp, hid⟩
      | drop id' =>
        refine ⟨p, List.mem_filter.mpr ⟨hp, ?_⟩, hid⟩
        have : p.id ≠ id' := fun h => hd (by rw [← hid, h]; exact List.mem_cons_self)
        simpa using this
      | updateAll env =>
        refine ⟨_, List.mem_map.mpr ⟨p, hp, rfl⟩, ?_⟩
        split
        · exact hid
        · exact hid
  · have hstart : ¬ ∃ o ∈ autoStep objs (.drop id), o.id = id := by
      rintro ⟨o, ho, hid⟩
      have := (List.mem_filter.mp ho).2
      simp [hid] at this
    revert hstart
    generalize autoStep objs (.drop id) = s
    induction evs generalizing s with
    | nil => exact fun h _ => h
    | cons e evs ih =>
      intro hs hc
      refine ih _ ?_ (fun n v e' h => hc n v e' (List.mem_cons_of_mem _ h))
      rintro ⟨o, ho, hid⟩
      cases e with
      | create id' name ver env =>
        rcases List.mem_append.mp ho with ho | ho
        · exact hs ⟨o, ho, hid⟩
        · have : o.id = id' := by rw [List.mem_singleton.mp ho]; rfl
          exact hc name ver env (by rw [← hid, this]; exact List.mem_cons_self)
      | drop id' => exact hs ⟨o, (List.mem_filter.mp ho).1, hid⟩
      | updateAll env =>
        obtain ⟨q, hq, rfl⟩ := List.mem_map.mp ho
        refine hs ⟨q, hq, ?_⟩
        rw [← hid]
        split <;> rfl

/-- C61: so every automatic address follows its interface provided that it was made while no
registered automatic address of its interface and family was without an address. -/
theorem registered_follows (objs : List AutoObj) (id : Nat) (name : String) (ver : Ver)
    (env env' : Interfaces) (evs : List AutoEvent)
    (hadm : ¬ ∃ p ∈ objs, p.registered = true ∧ p.ifName = name ∧ p.ver = ver ∧ p.ip = 0)
    (hnew : ∀ p ∈ objs, p.id ≠ id)
    (hfresh : ∀ id' name ver env, .create id' name ver env ∈ evs → id' ≠ id)
    (o : AutoObj) (ho : o.id = id)
    (h : o ∈ autoStep (evs.foldl autoStep (autoStep objs (.create id name ver env))) (.updateAll env')) :
    o.ip = chooseAddress (env' name ver) := by
  obtain ⟨n, hn, n1, n2, n3, n4, n5⟩ := create_spec objs id name ver env
  rw [hn] at h
  obtain ⟨q, hq, rfl⟩ := List.mem_map.mp h
  have hqi : (if q.registered = true then q.refresh env' else q).id = q.id := by split <;> rfl
  rw [hqi] at ho
  obtain ⟨p, hp, p1, p2, p3, p4, _⟩ := unregistered_stale (objs ++ [n]) evs q hq
    (fun i nm v e hm => by rw [ho]; exact hfresh i nm v e hm)
  rcases List.mem_append.mp hp with hp | hp
  · exact absurd (p1.trans ho) (hnew p hp)
  · rw [List.mem_singleton.mp hp] at p2 p3 p4
    rw [if_pos (p4 ▸ n5.mpr hadm)]
    show chooseAddress (env' q.ifName q.ver) = _
    rw [← p2, ← p3, n2, n3]

/-! ### The hypotheses are met -/

/-- eth0 has no address; two automatic addresses are made for it; then it gets 192.0.2.1 and
`update_addresses` is called: only the first one follows -/
example : let up : Interfaces := fun _ v => if v = .v4 then some [some (.v4 0xc0000201)] else none
    ([AutoEvent.create 1 "eth0" .v4 (fun _ _ => none), .create 2 "eth0" .v4 (fun _ _ => none),
      .updateAll up].foldl autoStep []).map (·.ip) = [0xc0000201, 0] := by decide +kernel

/-- 192.0.2.1 on socket 1, 2001:db8::1 on socket 2 -/
def exSock4 : Sock := ⟨1, .v4, .v4 0xc0000201⟩
def exSock6 : Sock := ⟨2, .v6, .v6 0x20010db8000000000000000000000001⟩

example : sendPairs [exSock4, exSock6] [.v6 5, .v4 6, .v4 7] =
    [(exSock6, .v6 5), (exSock4, .v4 6), (exSock4, .v4 7)] := by decide
/-- the first call takes nothing, the second takes all three bytes: the third pair is not tried -/
example : sendMessage (.ok [1, 2, 3]) [exSock4, exSock6]
    (fun n => if n = 0 then .ok 0 else .ok 3) 0 [.ip (.v6 5), .ip (.v4 6), .ip (.v4 7)] =
    ([(exSock6, .v6 5), (exSock4, .v4 6)], .ok (some (exSock4, .v4 6))) := by decide +kernel
example : Short (fun n => if n = 0 then .ok 0 else .ok 3) 3 0 := ⟨0, rfl, by decide⟩
/-- bind, lose the address, get another one that cannot be bound, then one that can -/
example : let s := [SockEvent.change 0, .rebind .bound, .change 0xc0000202, .rebind .noBind,
      .change 0xc0000203, .rebind .bound].foldl AutoSock.step (AutoSock.new (.v4 0xc0000201) .bound)
    s.sockAddress = 0xc0000203 ∧ s.handles = [2] ∧ s.sock = some 2 := by decide +kernel
example : MayBind (.v4 0xc0000201) ∧ ¬ MayBind (.v4 0x7f000001) ∧ MayBind (.v6 2) ∧ ¬ MayBind (.v6 1) := by
  simp [MayBind, IP.v4, IP.v6]
example : Suitable (.v4 0xc0000201) ∧ Suitable (.v6 0x20010db8000000000000000000000001) ∧
    ¬ Suitable (.v6 0xfe800000000000000000000000000001) := by
  simp [Suitable, IP.v4, IP.v6]
example : chooseAddress (some [some (.v4 0x7f000001), some (.v4 0xc0000201), none]) = 0xc0000201 := by
  decide +kernel

end PyLisp.Props
