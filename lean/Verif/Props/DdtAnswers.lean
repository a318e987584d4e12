import Verif.DdtAnswers
import Verif.Props.Ddt
/-
C96: what the functions that send one kind of Map-Referral each transmit.
-/
namespace PyLisp.Props
open PyLisp

/-- the record the receiver of an answer reads, for the answers that can be sent at all: for the function
called and the EID of the request -/
inductive AnswerTells : DdtHelper → Addr → RefRecord → Prop
  | delegationHole (e) : AnswerTells .delegationHole e
      { ttl := 15, action := 4, authoritative := true, incomplete := false, locators := [],
        eid := referralEidSeen e }
  | notAuthoritative (e) : AnswerTells .notAuthoritative e
      { ttl := 0, action := 5, authoritative := false, incomplete := true, locators := [],
        eid := referralEidSeen e }
  | msNotRegistered (e pfx) : AnswerTells (.msNotRegistered pfx []) e
      { ttl := 1, action := 3, authoritative := false, incomplete := true, locators := [],
        eid := .inst 0 (.net pfx) 32 }

/-- the calls that cannot send anything: referrals, acknowledgements, and any answer that names other
nodes -/
inductive Silent : DdtHelper → Prop
  | referral (ns) : Silent (.referral ns)
  | msAck (pfx ns) : Silent (.msAck pfx ns)
  | msNotRegistered (pfx n ns) : Silent (.msNotRegistered pfx (n :: ns))

/-- a record without locators that passes the checks can be transmitted and is read back as checked -/
theorem bare_referral_received (nonce : Bytes) (r : RefRecord) (hn : nonce.length = 8) (he : SendableEid r.eid)
    (ht : 0 ≤ r.ttl ∧ r.ttl < 2 ^ 32) (ha : 0 ≤ r.action ∧ r.action < 8) (hv : r.mapVersion = 0)
    (hg : r.sigs = 0) (hl : r.locators = [])
    (hsan : r.sanitize = .ok { r with eid := referralEidSeen r.eid }) :
    ∃ d, MapReferral.toBytes { nonce := nonce, records := [r] } = .ok d ∧
      MapReferral.fromBytes d = .ok { nonce := nonce, records := [{ r with eid := referralEidSeen r.eid }] } := by
  have hre : ReferralEid r.eid := by cases h : r.eid <;> rw [h] at he <;> cases he <;> constructor
  have henc : ∃ b, encRefRecord r = .ok b := by
    have hw : ∃ i n k, referralEidSeen r.eid = .inst i (.net n) k ∧ (0 ≤ i ∧ i < 2 ^ 32) ∧ (0 ≤ k ∧ k < 256) := by
      cases h : r.eid <;> rw [h] at he <;> cases he
      · exact ⟨0, _, 32, rfl, by omega, by omega⟩
      · exact ⟨_, _, _, rfl, by assumption, by assumption⟩
    obtain ⟨i, n, k, hw, hi, hk⟩ := hw
    obtain ⟨b, hb⟩ := encAddr_inst_net i n k hi hk
    simp only [encRefRecord, hsan, exBind_okl, encRefRecordRaw, hw, hb, Addr.prefixlen, encAll, hl, hv, hg]
    rw [encUint_eq_ok (by omega) (by omega), encUint_eq_ok (by simp) (by simp),
      encUint_eq_ok (by omega) (by have := n.plen_lt_256; omega), encUint_eq_ok (by omega) (by omega),
      encUint_eq_ok (by omega) (by omega), encUint_eq_ok (by omega) (by omega)]
    exact ⟨_, rfl⟩
  obtain ⟨d, hd⟩ := (map_referral_writable_iff { nonce := nonce, records := [r] }).mpr
    ⟨hn, by simp, by simpa using henc⟩
  refine ⟨d, hd, ?_⟩
  obtain ⟨rs, h1, h2⟩ := map_referral_round_trip _ d hd (by simpa using hre)
  simp only [sanitizeAll, hsan, exBind_okl, exPure, Except.ok.injEq] at h1
  subst h1
  exact h2

/-- one destination, one socket -/
theorem sendMessage_one (d : Bytes) (s : Sock) (sendto : Nat → Except Err Nat) (a : IP) (hf : s.family = a.ver) :
    (sendMessage (.ok d) [s] sendto 0 [.ip a]).1 = [(s, a)] ∧
      errOf (sendMessage (.ok d) [s] sendto 0 [.ip a]).2 = errOf (sendto 0) := by
  have hm : matchingSockets a [s] = [s] := by simp [matchingSockets, hf]
  rw [sendMessage]
  simp only [Addr.asIP, hm, trySockets]
  match h : sendto 0 with
  | .error e => exact ⟨rfl, rfl⟩
  | .ok k =>
    simp only
    by_cases hk : k = d.length
    · rw [if_pos hk]; exact ⟨rfl, rfl⟩
    · rw [if_neg hk]; exact ⟨rfl, rfl⟩

theorem sendMessage_one_bad (e : Err) (s : Sock) (sendto : Nat → Except Err Nat) (a : IP) (hf : s.family = a.ver) :
    errOf (sendMessage (.error e) [s] sendto 0 [.ip a]).2 = some e := by
  have hm : matchingSockets a [s] = [s] := by simp [matchingSockets, hf]
  rw [sendMessage]
  simp only [Addr.asIP, hm, trySockets]
  rfl

/-- what is made of a record that can be sent -/
theorem tells_record (h : DdtHelper) (m : MapRequest) (e : Addr) (es : List Addr) (he : m.eidPrefixes = e :: es)
    (hse : SendableEid e) (hn : m.nonce.length = 8) (r : RefRecord) (ht : AnswerTells h e r) :
    ∃ r0 d, h.record m = .ok r0 ∧ MapReferral.toBytes { nonce := m.nonce, records := [r0] } = .ok d ∧
      MapReferral.fromBytes d = .ok { nonce := m.nonce, records := [r] } := by
  cases ht with
  | delegationHole =>
    obtain ⟨d, h1, h2⟩ := bare_referral_received m.nonce { ttl := 15, action := 4, authoritative := true, eid := e } hn
      hse ⟨by simp, by simp⟩ ⟨by simp, by simp⟩ rfl rfl rfl (by cases hse <;> rfl)
    exact ⟨_, d, by simp [DdtHelper.record, delegationHoleRecord, firstEid, he], h1, h2⟩
  | notAuthoritative =>
    obtain ⟨d, h1, h2⟩ := bare_referral_received m.nonce { ttl := 0, action := 5, incomplete := true, eid := e } hn
      hse ⟨by simp, by simp⟩ ⟨by simp, by simp⟩ rfl rfl rfl (by cases hse <;> rfl)
    exact ⟨_, d, by simp [DdtHelper.record, notAuthoritativeRecord, firstEid, he, notAuthoritative], h1, h2⟩
  | msNotRegistered e pfx =>
    obtain ⟨d, h1, h2⟩ := bare_referral_received m.nonce
      { ttl := 1, action := 3, incomplete := true, eid := .net pfx } hn
      (.net pfx) ⟨by simp, by simp⟩ ⟨by simp, by simp⟩ rfl rfl rfl rfl
    exact ⟨_, d, rfl, h1, h2⟩

/-- C96: `send_delegation_hole`, `send_not_authoritative` and `send_ms_not_registered` (without other
Map-Servers) make exactly one `sendto` call, over the socket the request came in on, to the address and
port it came from; its receiver parses the nonce of the request and one record, with the action the name
of the function says, its TTL, its incomplete bit and no locators, for the EID of the request or the
prefix of the Map-Server.  An exception is raised only when `sendto` raises. -/
theorem ddt_helper_answers (h : DdtHelper) (m : MapRequest) (source : IP) (port : Int) (socket : Sock)
    (sendto : Nat → Except Err Nat) (e : Addr) (es : List Addr) (he : m.eidPrefixes = e :: es)
    (hse : SendableEid e) (hn : m.nonce.length = 8) (hf : socket.family = source.ver) (r : RefRecord)
    (ht : AnswerTells h e r) :
    ∃ d, (h.send m source port socket sendto).1 = [⟨socket, source, port, d⟩] ∧
      MapReferral.fromBytes d = .ok { nonce := m.nonce, records := [r] } ∧
      (h.send m source port socket sendto).2 = errOf (sendto 0) := by
  obtain ⟨r0, d, h1, h2, h3⟩ := tells_record h m e es he hse hn r ht
  obtain ⟨g1, g2⟩ := sendMessage_one d socket sendto source hf
  refine ⟨d, ?_, h3, ?_⟩
  · simp only [DdtHelper.send, h1, sendAnswer]
    rw [h2]
    simp only [g1]
    rfl
  · simp only [DdtHelper.send, h1, sendAnswer]
    rw [h2]
    simp only [g2]

/-- a record that breaks the rules of its action fails with ValueError -/
theorem bad_row_value (nonce : Bytes) (r : RefRecord) (hs : r.sanitize = .error .value) :
    MapReferral.toBytes { nonce := nonce, records := [r] } = .error .value := by
  unfold MapReferral.toBytes
  simp only [encMapReferral, MapReferral.sanitize, sanitizeAll, hs]
  by_cases hn : nonce.length = 8
  · rw [if_neg (by simp [hn])]; rfl
  · rw [if_pos hn]; rfl

/-- C96: `send_referral` and `send_ms_ack` never transmit anything, nor does `send_ms_not_registered`
when it is given other Map-Servers, whatever the request, the nodes, the socket and the outcome of
`sendto`. -/
theorem ddt_helper_silent (h : DdtHelper) (m : MapRequest) (source : IP) (port : Int) (socket : Sock)
    (sendto : Nat → Except Err Nat) (hs : Silent h) : (h.send m source port socket sendto).1 = [] := by
  have key : ∀ r : RefRecord, r.sanitize = .error .value → (sendAnswer m source port socket sendto r).1 = [] := by
    intro r hr
    simp only [sendAnswer]
    rw [bad_row_value m.nonce r hr]
  cases hs with
  | referral ns =>
    cases ns with
    | cons n ns => rfl
    | nil =>
      cases hm : m.eidPrefixes with
      | nil => simp [DdtHelper.send, DdtHelper.record, referralRecord, ddtLocators, firstEid, hm]
      | cons e es =>
        simp only [DdtHelper.send, DdtHelper.record, referralRecord, ddtLocators, firstEid, hm]
        exact key _ rfl
  | msAck pfx ns =>
    cases ns with
    | cons n ns => rfl
    | nil => exact key _ rfl
  | msNotRegistered pfx n ns => rfl

/-- C96: and they say so: with nodes to name, TypeError is raised; `send_ms_ack` without raises
ValueError, and so does `send_referral` for a request with an EID. -/
theorem ddt_helper_raises (m : MapRequest) (source : IP) (port : Int) (socket : Sock)
    (sendto : Nat → Except Err Nat) (pfx : Net) (ns : List IP) (hf : socket.family = source.ver) :
    (ns ≠ [] →
      ((DdtHelper.referral ns).send m source port socket sendto).2 = some .type ∧
      ((DdtHelper.msAck pfx ns).send m source port socket sendto).2 = some .type ∧
      ((DdtHelper.msNotRegistered pfx ns).send m source port socket sendto).2 = some .type) ∧
    ((DdtHelper.msAck pfx []).send m source port socket sendto).2 = some .value ∧
    ((DdtHelper.referral []).send m source port socket sendto).2 =
      some (if m.eidPrefixes = [] then .index else .value) := by
  have key : ∀ r : RefRecord, r.sanitize = .error .value →
      (sendAnswer m source port socket sendto r).2 = some .value := by
    intro r hr
    simp only [sendAnswer]
    rw [bad_row_value m.nonce r hr]
    exact sendMessage_one_bad _ _ _ _ hf
  refine ⟨?_, key _ rfl, ?_⟩
  · intro h
    cases ns with
    | nil => exact absurd rfl h
    | cons n ns => exact ⟨rfl, rfl, rfl⟩
  · cases hm : m.eidPrefixes with
    | nil => simp [DdtHelper.send, DdtHelper.record, referralRecord, ddtLocators, firstEid, hm]
    | cons e es =>
      simp only [DdtHelper.send, DdtHelper.record, referralRecord, ddtLocators, firstEid, hm]
      exact key _ rfl

/-- C96: whatever any of the functions transmits, is such an answer: one datagram back to where the
request came from, with a record of `AnswerTells`. -/
theorem ddt_helper_datagram (h : DdtHelper) (m : MapRequest) (source : IP) (port : Int) (socket : Sock)
    (sendto : Nat → Except Err Nat) (e : Addr) (es : List Addr) (he : m.eidPrefixes = e :: es)
    (hse : SendableEid e) (x : Datagram) (hx : x ∈ (h.send m source port socket sendto).1) :
    x.socket = socket ∧ x.to = source ∧ x.port = port ∧ ∃ r, AnswerTells h e r ∧
      MapReferral.fromBytes x.data = .ok { nonce := m.nonce, records := [r] } := by
  by_cases hs : Silent h
  · rw [ddt_helper_silent h m source port socket sendto hs] at hx
    cases hx
  · obtain ⟨r, ht⟩ : ∃ r, AnswerTells h e r := by
      match h, hs with
      | .referral ns, hs => exact absurd (.referral ns) hs
      | .msAck pfx ns, hs => exact absurd (.msAck pfx ns) hs
      | .msNotRegistered pfx (n :: ns), hs => exact absurd (.msNotRegistered pfx n ns) hs
      | .msNotRegistered pfx [], _ => exact ⟨_, .msNotRegistered e pfx⟩
      | .delegationHole, _ => exact ⟨_, .delegationHole e⟩
      | .notAuthoritative, _ => exact ⟨_, .notAuthoritative e⟩
    have hf : socket.family = source.ver := by
      apply Classical.byContradiction
      intro hne
      have hm : matchingSockets source [socket] = [] := by simp [matchingSockets, hne]
      have hz : ∀ data, (sendMessage data [socket] sendto 0 [.ip source]).1 = [] := by
        intro data
        rw [sendMessage]
        simp only [Addr.asIP, hm, trySockets]
        rfl
      unfold DdtHelper.send at hx
      split at hx
      · cases hx
      · unfold sendAnswer at hx
        split at hx
        · cases hx
        · rw [hz] at hx; cases hx
    have hn : m.nonce.length = 8 := by
      unfold DdtHelper.send at hx
      split at hx
      · cases hx
      · unfold sendAnswer at hx
        split at hx
        · cases hx
        · rename_i d hd
          exact ((map_referral_writable_iff _).mp ⟨d, hd⟩).1
    obtain ⟨d, h1, h2, _⟩ := ddt_helper_answers h m source port socket sendto e es he hse hn hf r ht
    rw [h1] at hx
    cases List.mem_singleton.mp hx
    exact ⟨rfl, rfl, rfl, r, ht, h2⟩

/-- C96: without an EID in the request, `send_delegation_hole` and `send_not_authoritative` raise
IndexError and send nothing. -/
theorem ddt_helper_no_eid (m : MapRequest) (source : IP) (port : Int) (socket : Sock)
    (sendto : Nat → Except Err Nat) (he : m.eidPrefixes = []) :
    DdtHelper.delegationHole.send m source port socket sendto = ([], some .index) ∧
    DdtHelper.notAuthoritative.send m source port socket sendto = ([], some .index) := by
  constructor
  · simp [DdtHelper.send, DdtHelper.record, delegationHoleRecord, firstEid, he]
  · simp [DdtHelper.send, DdtHelper.record, notAuthoritativeRecord, firstEid, he]

/-! ### The hypotheses are met -/

/-- a request for 10.0.0.0/8 and a socket it came in on -/
def exAnswerRequest : MapRequest := { nonce := exNonce, eidPrefixes := [.net exTen] }
def exDdtSock : Sock := ⟨1, .v4, exHost⟩

example : ∃ d, (DdtHelper.delegationHole.send exAnswerRequest exHost 5555 exDdtSock (fun _ => .ok 0)).1 =
      [⟨exDdtSock, exHost, 5555, d⟩] ∧
    MapReferral.fromBytes d = .ok ⟨exNonce, [{
      ttl := 15, action := 4, authoritative := true, eid := .inst 0 (.net exTen) 32 }], 0⟩ := by
  obtain ⟨d, h1, h2, _⟩ := ddt_helper_answers .delegationHole exAnswerRequest exHost 5555
    exDdtSock (fun _ => .ok 0) (.net exTen) [] rfl (.net _) rfl rfl _ (.delegationHole _)
  exact ⟨d, h1, h2⟩

-- the exact datagrams
example : ((DdtHelper.delegationHole.send exAnswerRequest exHost 5555 exDdtSock (fun _ => .ok 0)).1.map (·.data)) =
    [[0x60, 0, 0, 1, 1, 2, 3, 4, 5, 6, 7, 8,
      0, 0, 0, 15, 0, 8, 0x90, 0, 0, 0, 0x40, 3, 0, 0, 2, 32, 0, 10, 0, 0, 0, 0, 0, 1, 10, 0, 0, 0]] := by
  decide +kernel

example : ((DdtHelper.msAck exTen []).send exAnswerRequest exHost 5555 exDdtSock (fun _ => .ok 0)).2 = some .value :=
  (ddt_helper_raises exAnswerRequest exHost 5555 exDdtSock (fun _ => .ok 0) exTen [] rfl).2.1

end PyLisp.Props
