import Verif.Lispd
import Verif.Props.Ddt
import Verif.Props.Reserialise
import Verif.Props.MapServer
/-
C58: the message handler and the main loop.  C64–C66: the data plane.
-/
namespace PyLisp.Props
open PyLisp

/-! ### C58: answers -/

/-- what kind of answer goes with a message, and where it is sent: a Map-Reply to the ITR addresses of a
Map-Request; a Map-Notify to the sender of a Map-Register, port 4342; a Map-Referral to the sender of an
encapsulated Map-Request from a DDT client.  The nonce is always that of what is answered. -/
inductive AnswerTo (o : Origin) (r : Received) : Outgoing → Prop
  | reply (m : MapRequest) (a : MapReply) (hm : r.message = .ctrl (.request m)) (hn : a.nonce = m.nonce) :
      AnswerTo o r ⟨true, ⟨.reply a, m.itrRlocs, o.port⟩⟩
  | notify (m : MapRegister) (a : MapNotify) (hm : r.message = .ctrl (.register m)) (hn : a.nonce = m.nonce)
      (hw : m.wantMapNotify = true) : AnswerTo o r ⟨false, ⟨.notify a, [.ip o.source], 4342⟩⟩
  | referral (h : EcmHdr) (p : Pkt) (m : MapRequest) (a : MapReferral) (hm : r.message = .ecm h p)
      (hd : h.ddtOriginated = true) (hi : r.innerMessage = some (.ctrl (.request m))) (hn : a.nonce = m.nonce) :
      AnswerTo o r ⟨false, ⟨.referral a, [.ip o.source], o.port⟩⟩

theorem insert_nonce {H : Mac} {n n' : MapNotify} {key : Bytes} (h : n.insert H key = .ok n') :
    n'.nonce = n.nonce := by
  simp only [MapNotify.insert, MapNotify.touched, exBind_ok, exPure, Except.ok.injEq] at h
  obtain ⟨a, ha, m2, hm, rfl⟩ := h
  split at hm
  · cases hm; rfl
  · obtain ⟨_, _, _, _, _, _, rfl⟩ := MapNotify.sanitize_ok.mp hm
    rfl

theorem outgoing_ok {α : Type} {v : Bool} {f : α → Ctrl} {x : Except Err (Option (SendCall α))} {g : Outgoing}
    (h : outgoing v f x = .ok (some g)) : ∃ c, x = .ok (some c) ∧ g = ⟨v, c.map f⟩ := by
  match x, h with
  | .ok (some c), h => cases h; exact ⟨c, rfl, rfl⟩

theorem register_call {H : Mac} {cfg : Config} {conf : Nat → MsConf} {st : Nat → Store} {m : MapRegister}
    {source : IP} {now : Int} {c : SendCall MapNotify}
    (h : (handleMapRegister H cfg conf st m source now).2 = .ok (some c)) :
    c.message.nonce = m.nonce ∧ c.destinations = [.ip source] ∧ c.port = 4342 ∧ m.wantMapNotify = true := by
  unfold handleMapRegister at h
  split at h
  · cases h
  · split at h
    · rename_i hw
      split at h
      · cases h
      · rename_i n hn
        cases h
        exact ⟨insert_nonce hn, rfl, rfl, hw.1⟩
    · cases h

theorem ddt_call {cfg : Config} {h : EcmHdr} {m : MapRequest} {source : IP} {port : Int} {c : SendCall MapReferral}
    (hc : handleDdtMapRequest cfg h m source port = .ok (some c)) :
    c.message.nonce = m.nonce ∧ c.destinations = [.ip source] ∧ c.port = port := by
  unfold handleDdtMapRequest at hc
  split at hc
  · cases hc
  · split at hc
    · cases hc
    · split at hc
      · cases hc
      · cases hc
      · split at hc
        · cases hc
        · cases hc; exact ⟨rfl, rfl, rfl⟩

theorem dispatch_answer {s : Setup} {w w' : World} {o : Origin} {r : Received} {g : Outgoing}
    (h : dispatch s w o r = (w', .ok (some g))) : AnswerTo o r g := by
  unfold dispatch at h
  split at h
  · rename_i m hm
    obtain ⟨c, hc, rfl⟩ := outgoing_ok (congrArg Prod.snd h)
    obtain ⟨_, _, _, _, _, _, _, _, h1, h2, h3, _⟩ := map_request_answer _ _ _ _ _ _ _ hc
    obtain ⟨a, d, p⟩ := c
    simp only at h1 h2 h3
    subst h1 h2
    exact .reply m a hm h3
  · cases h
  · split at h <;> cases h
  · rename_i m hm
    obtain ⟨c, hc, rfl⟩ := outgoing_ok (congrArg Prod.snd h)
    obtain ⟨h3, h1, h2, h4⟩ := register_call hc
    obtain ⟨a, d, p⟩ := c
    simp only at h1 h2 h3
    subst h1 h2
    exact .notify m a hm h3 h4
  · cases h
  · rename_i e p hm
    split at h
    · rename_i m hi
      split at h
      · rename_i hd
        obtain ⟨c, hc, rfl⟩ := outgoing_ok (congrArg Prod.snd h)
        obtain ⟨h3, h1, h2⟩ := ddt_call hc
        obtain ⟨a, d, q⟩ := c
        simp only at h1 h2 h3
        subst h1 h2
        exact .referral e p m a hm hd hi h3
      · cases h
    · cases h
  · split at h <;> cases h
  · cases h

/-- C58: handling a message sends at most one message, and only as an answer: `AnswerTo` says to what
kinds of messages, of which kind, to where and with which nonce.  Without an answer nothing is given to
any socket. -/
theorem handled_answer (s : Setup) (w : World) (o : Origin) (r : Received) (sendto : Nat → Except Err Nat) :
    (∀ g, (handleMessage s w o r sendto).sent = some g → AnswerTo o r g) ∧
    ((handleMessage s w o r sendto).sent = none → (handleMessage s w o r sendto).calls = []) := by
  unfold handleMessage
  split
  · exact ⟨(fun g h => by cases h), fun _ => rfl⟩
  · exact ⟨(fun g h => by cases h), fun _ => rfl⟩
  · rename_i w' g' hd
    exact ⟨(fun g h => by cases h; exact dispatch_answer hd), (fun h => by cases h)⟩

/-- C58: over which sockets and to which addresses an answer goes: a Map-Reply over the control plane sockets to ITR
RLOCs of the Map-Request, everything else over the socket the message came in on, to where it came from; always over
a socket of the address family of the destination -/
theorem answer_calls (s : Setup) (w : World) (o : Origin) (r : Received) (sendto : Nat → Except Err Nat)
    (p : Sock × IP) (hp : p ∈ (handleMessage s w o r sendto).calls) :
    p.1.family = p.2.ver ∧
    ((∃ m, r.message = .ctrl (.request m) ∧ p.1 ∈ s.sockets ∧ ∃ a ∈ m.itrRlocs, AddrText a p.2) ∨
      (∀ m, r.message ≠ .ctrl (.request m)) ∧ p = (o.socket, o.source)) := by
  unfold handleMessage at hp
  split at hp
  · cases hp
  · cases hp
  · rename_i w' g hd
    have ha := dispatch_answer hd
    obtain ⟨h1, h2, a, h3, h4⟩ := send_calls _ _ _ _ _ p hp
    refine ⟨h2, ?_⟩
    have other : g.viaAll = false → g.call.destinations = [.ip o.source] → p = (o.socket, o.source) := by
      intro hv hde
      unfold Outgoing.sockets at h1
      rw [hv] at h1
      have h1 : p.1 = o.socket := List.mem_singleton.mp h1
      rw [hde] at h3
      rw [List.mem_singleton.mp h3] at h4
      have h4 : p.2 = o.source := by
        have := (destination_text _ _).mpr h4
        exact (Except.ok.inj this).symm
      exact Prod.ext h1 h4
    cases ha with
    | reply m b hm hn => exact .inl ⟨m, hm, h1, a, h3, h4⟩
    | notify m b hm hn hw => exact .inr ⟨(fun m' h => by rw [hm] at h; cases h), other rfl rfl⟩
    | referral h q m b hm hd hi hn => exact .inr ⟨(fun m' h => by rw [hm] at h; cases h), other rfl rfl⟩

theorem sendMessage_short (b : Bytes) (socks : List Sock) (sendto : Nat → Except Err Nat) (dests : List Addr) :
    ∀ n j, j + 1 < (sendMessage (.ok b) socks sendto n dests).1.length → Short sendto b.length (n + j) := by
  induction dests with
  | nil => intro n j hj; simp [sendMessage] at hj
  | cons a as ih =>
    intro n j hj
    rw [sendMessage] at hj
    split at hj
    · simp at hj
    · rename_i d hd
      have h1 := trySockets_spec b sendto d (matchingSockets d socks) n
      split at hj
      · rename_i log hlog
        rw [hlog] at h1
        cases h1 with
        | failed hb =>
          generalize hP : (matchingSockets d socks).map (fun s => (s, d)) = P at *
          by_cases hjp : j < P.length
          · exact hb j hjp
          · simp only [List.length_append] at hj
            have := ih (n + P.length) (j - P.length) (by omega)
            rwa [show n + P.length + (j - P.length) = n + j by omega] at this
      · rename_i log r hr hlog
        rw [hlog] at h1
        generalize (matchingSockets d socks).map (fun s => (s, d)) = P at h1
        cases h1 with
        | sent i p hp hs hb => simp only [List.length_take] at hj; exact hb j (by omega)
        | failed hb => exact absurd rfl (hr)
        | raised i e hi hs hb => simp only [List.length_take] at hj; exact hb j (by omega)

theorem sendMessage_unserialisable_calls (e : Err) (socks : List Sock) (sendto : Nat → Except Err Nat)
    (dests : List Addr) : ∀ n, (sendMessage (.error e) socks sendto n dests).1 = [] := by
  induction dests with
  | nil => intro n; rfl
  | cons a as ih =>
    intro n
    rw [sendMessage]
    split
    · rfl
    · rename_i d _
      cases hm : matchingSockets d socks with
      | nil => simp [trySockets, ih]
      | cons x xs => simp [trySockets]

/-- C58: at most one complete copy of the answer leaves: all `sendto` calls but the last one took fewer
bytes than the message has.  An answer that cannot be serialised is not given to any socket. -/
theorem answered_once (s : Setup) (w : World) (o : Origin) (r : Received) (sendto : Nat → Except Err Nat)
    (g : Outgoing) (hg : (handleMessage s w o r sendto).sent = some g) :
    (∀ b, g.call.message.toBytes = .ok b → ∀ j, j + 1 < (handleMessage s w o r sendto).calls.length →
      Short sendto b.length j) ∧
    (∀ e, g.call.message.toBytes = .error e → (handleMessage s w o r sendto).calls = []) := by
  unfold handleMessage at hg ⊢
  split at hg
  · cases hg
  · cases hg
  · rename_i w' g' hd
    cases hg
    simp only [hd]
    constructor
    · intro b hb j hj
      rw [hb] at hj
      simpa using sendMessage_short b _ sendto _ 0 j hj
    · intro e he
      rw [he]
      exact sendMessage_unserialisable_calls e _ sendto _ 0

/-! ### C58: what changes -/

/-- C58: what handling a message may change: a Map-Register only registrations, a Map-Notify and an Info
message only the state of ETRs, any other message nothing. -/
theorem handled_changes (s : Setup) (w : World) (o : Origin) (r : Received) (sendto : Nat → Except Err Nat) :
    ((∀ m, r.message ≠ .ctrl (.register m)) → (handleMessage s w o r sendto).world.stores = w.stores) ∧
    ((∀ m, r.message ≠ .ctrl (.notify m)) → (∀ m, r.message ≠ .ctrl (.info m)) →
      (handleMessage s w o r sendto).world.etrs = w.etrs) := by
  have hw : (handleMessage s w o r sendto).world = (dispatch s w o r).1 := by
    unfold handleMessage
    split <;> simp_all
  rw [hw]
  unfold dispatch
  constructor
  · intro hr
    split
    · rfl
    · rfl
    · split <;> rfl
    · rename_i m hm; exact absurd hm (hr m)
    · rfl
    · split
      · split <;> rfl
      · rfl
    · split <;> rfl
    · rfl
  · intro hn hi
    split
    · rfl
    · rfl
    · rename_i m hm; exact absurd hm (hn m)
    · rfl
    · rfl
    · split
      · split <;> rfl
      · rfl
    · rename_i m hm; exact absurd hm (hi m)
    · rfl

/-- C58: a datagram that is not a control message, or an encapsulated one without a control message to
port 4342 in an unfragmented packet, changes nothing and is not answered. -/
theorem rejected_changes_nothing (s : Setup) (w : World) (o : Origin) (maxint counter : Nat) (d : Bytes)
    (sendto : Nat → Except Err Nat)
    (h : ∀ p, Pkt.fromBytes .control d = .ok p → ∀ r, (receive maxint counter none p).2 ≠ .ok r) :
    (controlDatagram s w o maxint counter d sendto).2.world = w ∧
    (controlDatagram s w o maxint counter d sendto).2.sent = none ∧
    (controlDatagram s w o maxint counter d sendto).2.calls = [] := by
  unfold controlDatagram
  split
  · exact ⟨rfl, rfl, rfl⟩
  · rename_i m hm
    unfold controlMessage
    split
    · exact ⟨rfl, rfl, rfl⟩
    · rename_i c r hr
      exact absurd (congrArg Prod.snd hr) (h m hm r)

/-! ### C58: answers are not answered -/

theorem firstNibble_of_bits {d : Bytes} {t : Nat} {rest : Bits} (ht : t < 16)
    (h : bytesToBits d = natToBits 4 t ++ rest) : firstNibble d = some t := by
  rw [← firstNibble_read, h]
  exact runOn_iff.mpr ⟨_, readUint_app ht _⟩

/-- the type number a control message is written with -/
theorem written_type {m : Ctrl} {d : Bytes} (h : m.toBytes = .ok d) : firstNibble d = some (ctrlTypeNr m) := by
  cases m with
  | request m =>
    obtain ⟨m', _, h⟩ := encMapRequest_ok (toBytes_ok.mp h)
    obtain ⟨_, _, _, _, _, _, _, _, _, _, h⟩ := encMapRequestRaw_ok h
    exact firstNibble_of_bits (show _ < 16 by simp [ctrlTypeNr]) (by rw [h]; simp only [List.append_assoc]; rfl)
  | reply m =>
    obtain ⟨m', _, h⟩ := encMapReply_ok (toBytes_ok.mp h)
    obtain ⟨_, _, _, _, h⟩ := encMapReplyRaw_ok h
    exact firstNibble_of_bits (show _ < 16 by simp [ctrlTypeNr]) (by rw [h]; simp only [List.append_assoc]; rfl)
  | register m =>
    obtain ⟨m', _, h⟩ := encMapRegister_ok (toBytes_ok.mp h)
    obtain ⟨_, _, _, _, _, _, _, h⟩ := encMapRegisterRaw_ok h
    exact firstNibble_of_bits (show _ < 16 by simp [ctrlTypeNr]) (by rw [h]; simp only [List.append_assoc]; rfl)
  | notify m =>
    obtain ⟨m', _, h⟩ := encMapNotify_ok (toBytes_ok.mp h)
    obtain ⟨_, _, _, _, _, _, _, h⟩ := encMapNotifyRaw_ok h
    exact firstNibble_of_bits (show _ < 16 by simp [ctrlTypeNr]) (by rw [h]; simp only [List.append_assoc]; rfl)
  | referral m =>
    have h := toBytes_ok.mp h
    simp only [encMapReferral, encMapReferralRaw, exBind_ok, exPure, Except.ok.injEq] at h
    obtain ⟨_, _, _, _, _, _, h⟩ := h
    exact firstNibble_of_bits (show _ < 16 by simp [ctrlTypeNr]) (by rw [← h]; simp only [List.append_assoc]; rfl)
  | info m =>
    have h := toBytes_ok.mp h
    simp only [encInfo, encInfoRaw, exBind_ok, exPure, Except.ok.injEq] at h
    obtain ⟨_, _, _, _, _, _, _, _, _, _, _, _, _, _, _, _, _, _, h⟩ := h
    exact firstNibble_of_bits (show _ < 16 by simp [ctrlTypeNr]) (by rw [← h]; simp only [List.append_assoc]; rfl)

open Classical in
/-- C57/C58: every readable message takes one number, whether it can be used or not; unreadable datagrams
take none. -/
theorem datagram_numbers (s : Setup) (w : World) (o : Origin) (maxint counter : Nat) (d : Bytes)
    (sendto : Nat → Except Err Nat) (hm : 0 < maxint) (hc : counter ≤ maxint) :
    (controlDatagram s w o maxint counter d sendto).1 =
      if ∃ p, Pkt.fromBytes .control d = .ok p then counter % maxint + 1 else counter := by
  unfold controlDatagram
  match hp : Pkt.fromBytes .control d with
  | .error e => simp
  | .ok p =>
    rw [if_pos ⟨p, rfl⟩, ← nextNr_mod maxint counter hm hc]
    have : (receive maxint counter none p).1 = nextNr maxint counter := rfl
    simp only [controlMessage]
    split
    · rename_i h; rw [h] at this; exact this
    · rename_i h; rw [h] at this; exact this

/-- C58: answers are not answered.  Whatever is sent in handling a message, a receiver of it (in any
state, configured in any way) sends nothing in turn, so no exchange of messages goes on for ever. -/
theorem answers_not_answered (s : Setup) (w : World) (o : Origin) (r : Received) (sendto : Nat → Except Err Nat)
    (g : Outgoing) (hg : (handleMessage s w o r sendto).sent = some g) (d : Bytes)
    (hd : g.call.message.toBytes = .ok d) (s' : Setup) (w' : World) (o' : Origin) (maxint counter : Nat)
    (sendto' : Nat → Except Err Nat) :
    (controlDatagram s' w' o' maxint counter d sendto').2.sent = none ∧
    (controlDatagram s' w' o' maxint counter d sendto').2.calls = [] := by
  have hsent : (controlDatagram s' w' o' maxint counter d sendto').2.sent = none := by
    have hty := written_type hd
    have ha := (handled_answer s w o r sendto).1 g hg
    have hne : ctrlTypeNr g.call.message ≠ 1 ∧ ctrlTypeNr g.call.message ≠ 3 ∧
        ctrlTypeNr g.call.message ≠ 8 := by
      cases ha <;> simp [ctrlTypeNr]
    unfold controlDatagram
    split
    · rfl
    · rename_i m hm
      unfold controlMessage
      split
      · rfl
      · rename_i c r' hr
        obtain ⟨_, hmsg, _⟩ := (receive_iff maxint counter none m r').mp (by rw [hr])
        have ha' := (handled_answer s' w' o' r' sendto').1
        cases hs : (handleMessage s' w' o' r' sendto').sent with
        | none => rfl
        | some g' =>
          exfalso
          rcases control_result hm with ⟨k, rfl⟩ | ⟨_, h8⟩
          · obtain ⟨hk, _⟩ := control_dispatch_iff.mp hm
            rw [hty] at hk
            cases ha' g' hs with
            | reply q a hq =>
              rw [hmsg] at hq; cases hq
              exact hne.1 (Option.some.inj hk)
            | notify q a hq =>
              rw [hmsg] at hq; cases hq
              exact hne.2.1 (Option.some.inj hk)
            | referral _ _ _ _ hq => rw [hmsg] at hq; cases hq
          · rw [hty] at h8
            exact hne.2.2 (Option.some.inj h8)
  refine ⟨hsent, ?_⟩
  unfold controlDatagram at hsent ⊢
  split
  · rfl
  · rename_i m hm
    unfold controlMessage
    split
    · rfl
    · rename_i c r' hr
      rw [hm] at hsent
      simp only [controlMessage, hr] at hsent
      exact (handled_answer s' w' o' r' sendto').2 hsent

/-! ### C58: the main loop -/

/-- a signal to stop -/
def IsStop : LispdEvent → Prop
  | .stop => True
  | _ => False

/-- SIGHUP whose handling raises -/
def FailedHup : LispdEvent → Prop
  | .hup false => True
  | _ => False

theorem batch_running (s : Setup) (petr : Option IP) (maxint : Nat) (es : List LispdEvent) :
    ∀ st, (∀ e ∈ es, ¬ IsStop e) → (lispdBatch s petr maxint st es).1.running = st.running := by
  induction es with
  | nil => intro st _; rfl
  | cons e es ih =>
    intro st h
    have he : (lispdEvent s petr maxint st e).1.running = st.running := by
      have := h e (by simp)
      cases e <;> first | rfl | exact absurd trivial this
    have := ih (lispdEvent s petr maxint st e).1 (fun x hx => h x (by simp [hx]))
    rw [he] at this
    cases e with
    | hup ok => cases ok <;> first | rfl | exact this
    | _ => exact this

/-- C58: whatever is received, the program goes on: after any sequence of batches of events without SIGINT
or SIGTERM it is still running, and it has handled every batch. -/
theorem never_stops (s : Setup) (petr : Option IP) (maxint : Nat) (bs : List (List LispdEvent)) :
    ∀ st, st.running = true → (∀ b ∈ bs, ∀ e ∈ b, ¬ IsStop e) →
      (lispdLoop s petr maxint st bs).1.running = true ∧
      (lispdLoop s petr maxint st bs).2.length = bs.length := by
  induction bs with
  | nil => intro st h _; exact ⟨h, rfl⟩
  | cons b bs ih =>
    intro st hr h
    have h1 := batch_running s petr maxint b st (h b (by simp))
    have h2 := ih (lispdBatch s petr maxint st b).1 (h1.trans hr) (fun x hx => h x (by simp [hx]))
    rw [lispdLoop, if_pos hr]
    exact ⟨h2.1, by simp [h2.2]⟩

/-- C58: a signal to stop ends the program after the batch it comes with. -/
theorem stop_stops (s : Setup) (petr : Option IP) (maxint : Nat) (b : List LispdEvent)
    (hb : ∀ e ∈ b, ¬ FailedHup e) (hs : ∃ e ∈ b, IsStop e) (bs : List (List LispdEvent)) (st : LispdState)
    (hr : st.running = true) :
    (lispdLoop s petr maxint st (b :: bs)).1.running = false ∧
    (lispdLoop s petr maxint st (b :: bs)).2 = [(lispdBatch s petr maxint st b).2] := by
  have key : ∀ (es : List LispdEvent) (st : LispdState), (∀ e ∈ es, ¬ FailedHup e) →
      (st.running = false ∨ ∃ e ∈ es, IsStop e) → (lispdBatch s petr maxint st es).1.running = false := by
    intro es
    induction es with
    | nil => rintro st _ (h | ⟨e, h, _⟩); exact h; cases h
    | cons e es ih =>
      intro st hf h
      have hf' : ∀ x ∈ es, ¬ FailedHup x := fun x hx => hf x (by simp [hx])
      have hne := hf e (by simp)
      have step : (lispdEvent s petr maxint st e).1.running = false ∨ ∃ x ∈ es, IsStop x := by
        rcases h with h | ⟨x, hx, hstop⟩
        · left
          cases e <;> first | rfl | exact h
        · rcases List.mem_cons.mp hx with rfl | hx
          · left
            cases x <;> first | rfl | exact absurd hstop (by simp [IsStop])
          · exact .inr ⟨x, hx, hstop⟩
      have := ih _ hf' step
      cases e with
      | hup ok => cases ok <;> first | exact this | exact absurd trivial hne
      | _ => exact this
  have hk := key b st hb (.inr hs)
  rw [lispdLoop, if_pos hr]
  cases bs with
  | nil => exact ⟨hk, rfl⟩
  | cons c cs =>
    rw [lispdLoop, if_neg (by rw [hk]; simp)]
    exact ⟨hk, rfl⟩

/-- C58: every event of a batch is handled, in order, whatever the others contain (unless SIGHUP handling
raises; then those behind it are not read yet). -/
theorem batch_complete (s : Setup) (petr : Option IP) (maxint : Nat) (es : List LispdEvent) :
    ∀ st, (∀ e ∈ es, ¬ FailedHup e) →
      (lispdBatch s petr maxint st es).2.length = es.length ∧
      ∀ i e, es[i]? = some e → (lispdBatch s petr maxint st es).2[i]? =
        some (lispdEvent s petr maxint (lispdBatch s petr maxint st (es.take i)).1 e).2 := by
  induction es with
  | nil => intro st _; exact ⟨rfl, fun i e h => by simp at h⟩
  | cons x es ih =>
    intro st hf
    have hne := hf x (by simp)
    have hx : ∀ l, lispdBatch s petr maxint st (x :: l) =
        ((lispdBatch s petr maxint (lispdEvent s petr maxint st x).1 l).1,
          (lispdEvent s petr maxint st x).2 :: (lispdBatch s petr maxint (lispdEvent s petr maxint st x).1 l).2) := by
      intro l
      cases x with
      | hup ok => cases ok <;> first | rfl | exact absurd trivial hne
      | _ => rfl
    obtain ⟨h1, h2⟩ := ih (lispdEvent s petr maxint st x).1 (fun y hy => hf y (by simp [hy]))
    rw [hx]
    refine ⟨by simp [h1], ?_⟩
    intro i e he
    cases i with
    | zero => simp at he; subst he; rfl
    | succ i =>
      simp only [List.getElem?_cons_succ, List.take_succ_cons] at he ⊢
      rw [h2 i e he, hx]

/-! ### C64: packets from the data plane -/

/-- the IP packet `f.data` is the packet `payload` parsed and written again -/
inductive Forwards (payload : Bytes) (f : RawSend) : Prop
  | v4 (h : V4Hdr) (q : Pkt) (hp : Pkt.fromBytes (.ipv4 true) payload = .ok (.ipv4 h q))
      (hw : (Pkt.ipv4 h q).toBytes = .ok f.data) (hv : f.ver = .v4) (hd : f.dest = h.dst)
  | v6 (h : V6Hdr) (q : Pkt) (hp : Pkt.fromBytes (.ipv6 true) payload = .ok (.ipv6 h q))
      (hw : (Pkt.ipv6 h q).toBytes = .ok f.data) (hv : f.ver = .v6) (hd : f.dest = h.dst)

theorem nibble_of_ipv4 {dd : Bool} {d : Bytes} {p : Pkt} (h : Pkt.fromBytes (.ipv4 dd) d = .ok p) :
    firstNibble d = some 4 := by
  obtain ⟨h, pl, q, hw, _, _⟩ := (ipv4_accepted_iff dd d p).mp h
  rw [hw.layout]
  have : ∃ b t, rfc791 h pl.length (onesComplement (rfc791 h pl.length 0)) = b :: t ∧ b.toNat / 16 = 4 := by
    have h1 := hw.options
    refine ⟨byteOf (0x40 + (5 + h.options.length / 4)), _, rfl, ?_⟩
    simp only [byteOf, BitVec.toNat_ofNat]
    omega
  obtain ⟨b, t, he, hb⟩ := this
  rw [he]
  simp [firstNibble, hb]

theorem nibble_of_ipv6 {dd : Bool} {d : Bytes} {p : Pkt} (h : Pkt.fromBytes (.ipv6 dd) d = .ok p) :
    firstNibble d = some 6 := by
  obtain ⟨h, pl, q, hw, _, _⟩ := (ipv6_accepted_iff dd d p).mp h
  obtain ⟨_, _, hb⟩ := isIPv6_iff.mp hw
  unfold v6Bits at hb
  simp only [List.append_assoc] at hb
  exact firstNibble_of_bits (by decide) hb

/-- C64: which packets of the data plane are forwarded: exactly those with an 8-byte LISP header, an
instance id other than 0xffffff (or none), and an IPv4 or IPv6 packet (by its version nibble) that is
accepted with everything in it and can be written again.  What is forwarded is the packet written again,
to its own destination. -/
theorem data_forwarded_iff (s : Setup) (w : World) (o : Origin) (maxint counter : Nat) (d : Bytes)
    (sendto : Nat → Except Err Nat) (f : RawSend) :
    (dataDatagram s w o maxint counter d sendto).2.2 = some f ↔
      ∃ x n1 n2 n3 w4 w5 w6 w7 payload, d = [x, n1, n2, n3, w4, w5, w6, w7] ++ payload ∧
        (lispHeader x n1 n2 n3 w4 w5 w6 w7).iid ≠ some 0xffffff ∧ Forwards payload f := by
  have hfwd : ∀ {p : Pkt}, forwardPayload p = .ok f ↔
      (∃ h q, p = .ipv4 h q ∧ (Pkt.ipv4 h q).toBytes = .ok f.data ∧ f.ver = .v4 ∧ f.dest = h.dst) ∨
      (∃ h q, p = .ipv6 h q ∧ (Pkt.ipv6 h q).toBytes = .ok f.data ∧ f.ver = .v6 ∧ f.dest = h.dst) := by
    intro p
    obtain ⟨fv, fd, ft⟩ := f
    cases p with
    | ipv4 h q =>
      simp only [forwardPayload]
      cases hb : (Pkt.ipv4 h q).toBytes with
      | error e =>
        refine ⟨(fun h => by cases h), ?_⟩
        rintro (⟨_, _, h1, h2, _⟩ | ⟨_, _, h1, _⟩)
        · cases h1; rw [hb] at h2; cases h2
        · cases h1
      | ok b =>
        constructor
        · intro h1; cases h1; exact .inl ⟨h, q, rfl, hb, rfl, rfl⟩
        · rintro (⟨_, _, h1, h2, h3, h4⟩ | ⟨_, _, h1, _⟩)
          · cases h1; rw [hb] at h2; cases h2; cases h3; cases h4; rfl
          · cases h1
    | ipv6 h q =>
      simp only [forwardPayload]
      cases hb : (Pkt.ipv6 h q).toBytes with
      | error e =>
        refine ⟨(fun h => by cases h), ?_⟩
        rintro (⟨_, _, h1, _⟩ | ⟨_, _, h1, h2, _⟩)
        · cases h1
        · cases h1; rw [hb] at h2; cases h2
      | ok b =>
        constructor
        · intro h1; cases h1; exact .inr ⟨h, q, rfl, hb, rfl, rfl⟩
        · rintro (⟨_, _, h1, _⟩ | ⟨_, _, h1, h2, h3, h4⟩)
          · cases h1
          · cases h1; rw [hb] at h2; cases h2; cases h3; cases h4; rfl
    | _ =>
      refine ⟨(fun h => by cases h), ?_⟩
      rintro (⟨_, _, h1, _⟩ | ⟨_, _, h1, _⟩) <;> cases h1
  constructor
  · intro hf
    unfold dataDatagram at hf
    split at hf
    · rename_i h p hd
      obtain ⟨x, n1, n2, n3, w4, w5, w6, w7, payload, q, he, hq, hp⟩ := (data_accepted_iff true d _).mp hd
      cases hp
      refine ⟨x, n1, n2, n3, w4, w5, w6, w7, payload, he, ?_⟩
      unfold dataMessage at hf
      split at hf
      · split at hf <;> cases hf
      · rename_i hi
        refine ⟨hi, ?_⟩
        split at hf
        · cases hf
        · rename_i f' hf'
          cases hf
          unfold versionPayloadParsed at hq
          rcases hfwd.mp hf' with ⟨h, q', rfl, h1, h2, h3⟩ | ⟨h, q', rfl, h1, h2, h3⟩
          · split at hq
            · exact .v4 h q' hq h1 h2 h3
            · have := parsed_class hq; cases this
            · cases hq
          · split at hq
            · have := parsed_class hq; cases this
            · exact .v6 h q' hq h1 h2 h3
            · cases hq
    · cases hf
    · cases hf
  · rintro ⟨x, n1, n2, n3, w4, w5, w6, w7, payload, rfl, hi, hf⟩
    have : ∃ q, versionPayloadParsed true payload q ∧ forwardPayload q = .ok f := by
      cases hf with
      | v4 h q hp hw hv hd =>
        refine ⟨.ipv4 h q, ?_, hfwd.mpr (.inl ⟨h, q, rfl, hw, hv, hd⟩)⟩
        rw [versionPayloadParsed, nibble_of_ipv4 hp]
        exact hp
      | v6 h q hp hw hv hd =>
        refine ⟨.ipv6 h q, ?_, hfwd.mpr (.inr ⟨h, q, rfl, hw, hv, hd⟩)⟩
        rw [versionPayloadParsed, nibble_of_ipv6 hp]
        exact hp
    obtain ⟨q, hq, hfq⟩ := this
    have hd := (data_accepted_iff true _ _).mpr ⟨x, n1, n2, n3, w4, w5, w6, w7, payload, q, rfl, hq, rfl⟩
    simp only [dataDatagram, hd, dataMessage, if_neg hi, hfq]

/-- C64: a packet of IPv4 (without options), IPv6, extension headers, UDP and other protocols is forwarded
as the same packet, with the same length; without fragment headers every byte is the same (also the TTL,
which is not decremented). -/
theorem data_forwarded_unchanged (s : Setup) (w : World) (o : Origin) (maxint counter : Nat) (d payload : Bytes)
    (sendto : Nat → Except Err Nat) (x n1 n2 n3 w4 w5 w6 w7 : Byte)
    (hd : d = [x, n1, n2, n3, w4, w5, w6, w7] ++ payload)
    (hi : (lispHeader x n1 n2 n3 w4 w5 w6 w7).iid ≠ some 0xffffff) (v : Ver) (p : Pkt)
    (hp : Pkt.fromBytes (match v with | .v4 => .ipv4 true | .v6 => .ipv6 true) payload = .ok p) (hpl : PlainIP p) :
    ∃ f, (dataDatagram s w o maxint counter d sendto).2.2 = some f ∧ f.ver = v ∧
      f.data.length = payload.length ∧
      Pkt.fromBytes (match v with | .v4 => .ipv4 true | .v6 => .ipv6 true) f.data = .ok p ∧
      (NoFragment p → f.data = payload) := by
  cases v with
  | v4 =>
    simp only at hp ⊢
    obtain ⟨d', h1, h2, h3, h4⟩ := plain_rewritten p hpl _ _ hp
    obtain ⟨h, _, q, _, _, rfl⟩ := (ipv4_accepted_iff true payload p).mp hp
    exact ⟨⟨.v4, d', h.dst⟩, (data_forwarded_iff ..).mpr ⟨x, n1, n2, n3, w4, w5, w6, w7, payload, hd, hi,
      .v4 h q hp h1 rfl rfl⟩, rfl, h2, h3, h4⟩
  | v6 =>
    simp only at hp ⊢
    obtain ⟨d', h1, h2, h3, h4⟩ := plain_rewritten p hpl _ _ hp
    obtain ⟨h, _, q, _, _, rfl⟩ := (ipv6_accepted_iff true payload p).mp hp
    exact ⟨⟨.v6, d', h.dst⟩, (data_forwarded_iff ..).mpr ⟨x, n1, n2, n3, w4, w5, w6, w7, payload, hd, hi,
      .v6 h q hp h1 rfl rfl⟩, rfl, h2, h3, h4⟩

/-- the destination address in an IP packet: bytes 16 to 19 of IPv4, bytes 24 to 39 of IPv6 -/
def DestinationOf (v : Ver) (d : Bytes) (a : IP) : Prop :=
  a.ver = v ∧ match v with
    | .v4 => (d.drop 16).take 4 = be32 a.val
    | .v6 => (d.drop 24).take 16 = be128 a.val

/-- C64: what is forwarded goes to the destination address in it. -/
theorem data_forwarded_destination (payload : Bytes) (f : RawSend) (h : Forwards payload f) :
    ∃ a, f.dest = some a ∧ DestinationOf f.ver payload a := by
  cases h with
  | v4 h q hp hw hv hd =>
    obtain ⟨_, _, _, hw', _, he⟩ := (ipv4_accepted_iff true payload _).mp hp
    cases he
    obtain ⟨a, ha, h4⟩ := hw'.dst
    refine ⟨a, by rw [hd, ha], by rw [h4, hv], ?_⟩
    rw [hv]
    show (payload.drop 16).take 4 = be32 a.val
    rw [hw'.layout, rfc791, ha]
    rfl
  | v6 h q hp hw hv hd =>
    obtain ⟨_, _, _, hw', _, he⟩ := (ipv6_accepted_iff true payload _).mp hp
    cases he
    obtain ⟨a, ha, h6⟩ := hw'.dst
    refine ⟨a, by rw [hd, ha], by rw [h6, hv], ?_⟩
    rw [hv]
    show (payload.drop 24).take 16 = be128 a.val
    rw [hw'.layout, rfc8200, ha]
    rfl

/-- C64: a payload that is not an IP packet, or one that is not accepted, is not forwarded. -/
theorem data_not_forwarded (s : Setup) (w : World) (o : Origin) (maxint counter : Nat) (payload : Bytes)
    (sendto : Nat → Except Err Nat) (x n1 n2 n3 w4 w5 w6 w7 : Byte)
    (h4 : ∀ p, Pkt.fromBytes (.ipv4 true) payload ≠ .ok p) (h6 : ∀ p, Pkt.fromBytes (.ipv6 true) payload ≠ .ok p) :
    (dataDatagram s w o maxint counter ([x, n1, n2, n3, w4, w5, w6, w7] ++ payload) sendto).2.2 = none := by
  cases hf : (dataDatagram s w o maxint counter ([x, n1, n2, n3, w4, w5, w6, w7] ++ payload) sendto).2.2 with
  | none => rfl
  | some f =>
    obtain ⟨_, _, _, _, _, _, _, _, pl, he, _, hw⟩ := (data_forwarded_iff ..).mp hf
    simp only [List.cons_append, List.nil_append, List.cons.injEq] at he
    obtain ⟨_, _, _, _, _, _, _, _, rfl⟩ := he
    cases hw with
    | v4 h q hp => exact absurd hp (h4 _)
    | v6 h q hp => exact absurd hp (h6 _)

/-- C64: in particular fragments of UDP over IPv4 are dropped unless they happen to be complete UDP
messages: the payload of an IPv4 packet is parsed as UDP although it is only a part. -/
theorem udp_fragment_dropped (s : Setup) (w : World) (o : Origin) (maxint counter : Nat) (payload pl : Bytes)
    (h : V4Hdr) (sendto : Nat → Except Err Nat) (x n1 n2 n3 w4 w5 w6 w7 : Byte) (hw : IsIPv4 payload h pl)
    (hn : h.nextHeader = 17) (hu : ∀ u y, ¬ IsUDP pl u y) :
    (dataDatagram s w o maxint counter ([x, n1, n2, n3, w4, w5, w6, w7] ++ payload) sendto).2.2 = none := by
  have hu' : ∀ q, Pkt.fromBytes .udp pl ≠ .ok q := by
    intro q hq
    obtain ⟨u, y, _, hy, _⟩ := (udp_accepted_iff pl q).mp hq
    exact hu u y hy
  have hdec : ∀ q, ¬ payloadParsed true 17 pl q := by
    intro q hq
    exact hu' q hq
  have hex : Pkt.fromBytes (.ipv4 false) payload = .ok (.ipv4 h (.raw pl)) := by
    refine (ipv4_accepted_iff false payload _).mpr ⟨h, pl, .raw pl, hw, ?_, rfl⟩
    unfold payloadParsed
    split <;> simp
  apply data_not_forwarded
  · intro p hp
    obtain ⟨h', pl', q, hw', hq, rfl⟩ := (ipv4_accepted_iff true payload p).mp hp
    have hex' : Pkt.fromBytes (.ipv4 false) payload = .ok (.ipv4 h' (.raw pl')) := by
      refine (ipv4_accepted_iff false payload _).mpr ⟨h', pl', .raw pl', hw', ?_, rfl⟩
      unfold payloadParsed
      split <;> simp
    rw [hex] at hex'
    cases hex'
    rw [hn] at hq
    exact hdec q hq
  · intro p hp
    have h1 := nibble_of_ipv4 hex
    rw [nibble_of_ipv6 hp] at h1
    cases h1

/-- C64: with another instance id than 0xffffff a data packet never changes the state of the nodes, is
never answered, and is not counted as a message. -/
theorem data_is_not_control (s : Setup) (w : World) (o : Origin) (maxint counter : Nat) (d : Bytes)
    (sendto : Nat → Except Err Nat)
    (h : ∀ g p, Pkt.fromBytes (.data true) d = .ok (.data g p) → g.iid ≠ some 0xffffff) :
    (dataDatagram s w o maxint counter d sendto).1 = counter ∧
    (dataDatagram s w o maxint counter d sendto).2.1.world = w ∧
    (dataDatagram s w o maxint counter d sendto).2.1.sent = none ∧
    (dataDatagram s w o maxint counter d sendto).2.1.calls = [] := by
  unfold dataDatagram
  split
  · rename_i g p hd
    simp only [dataMessage, if_neg (h g p hd)]
    split <;> exact ⟨rfl, rfl, rfl, rfl⟩
  · exact ⟨rfl, rfl, rfl, rfl⟩
  · exact ⟨rfl, rfl, rfl, rfl⟩

/-! ### C65: control messages over the data plane -/

/-- an IP packet that has the UDP message behind its header (and extension headers) -/
inductive LeadsToUdp : Pkt → UdpHdr → Pkt → Prop
  | v4 (h : V4Hdr) (u : UdpHdr) (q : Pkt) : LeadsToUdp (.ipv4 h (.udp u q)) u q
  | v6 (h : V6Hdr) (es : List (Ext × Int)) (u : UdpHdr) (q : Pkt) :
      LeadsToUdp (.ipv6 h (stack es (.udp u q))) u q

theorem controlInData_iff {p q : Pkt} :
    controlInData p = .ok (some q) ↔ ∃ u, LeadsToUdp p u q ∧ u.dport = 4342 := by
  cases p with
  | ipv4 h r =>
    constructor
    · intro hc
      cases r with
      | udp u q' =>
        simp only [controlInData, Pkt.getFinalPayload] at hc
        split at hc
        · cases hc
        · rename_i hd
          cases hc
          exact ⟨u, .v4 h u q, by simpa using hd⟩
      | _ => cases hc
    · rintro ⟨u, hc, hd⟩
      cases hc
      simp [controlInData, Pkt.getFinalPayload, hd]
  | ipv6 h r =>
    obtain ⟨es, r', hr, rfl⟩ := every_payload_is_a_stack r
    have hfin := final_payload_of_chain h es r' hr
    simp only [controlInData, hfin]
    constructor
    · intro hc
      cases r' with
      | udp u q' =>
        simp only at hc
        split at hc
        · cases hc
        · rename_i hd
          cases hc
          exact ⟨u, .v6 h es u q, by simpa using hd⟩
      | _ => cases hc
    · rintro ⟨u, hc, hd⟩
      generalize hP : stack es r' = P at hc hfin
      cases hc with
      | v6 _ es' _ _ =>
        rw [final_payload_of_chain h es' (.udp u q) rfl, Option.some.injEq, Prod.mk.injEq] at hfin
        rw [← hfin.2]
        simp [hd]
  | _ =>
    constructor
    · intro hc; cases hc
    · rintro ⟨_, hc, _⟩; cases hc

theorem leadsToUdp_parsed {u : UdpHdr} {q : Pkt} : ∀ (es : List (Ext × Int)) (k : Kind) (d : Bytes),
    Pkt.fromBytes k d = .ok (stack es (.udp u q)) → ∃ x, Pkt.fromBytes .udp x = .ok (.udp u q) := by
  intro es
  induction es with
  | nil =>
    intro k d h
    have hc := parsed_class h
    cases k <;> first | (cases hc; done) | exact ⟨d, h⟩
  | cons e es ih =>
    intro k d h
    have step : ∀ nh pl, payloadParsed true nh pl (stack es (.udp u q)) →
        ∃ x, Pkt.fromBytes .udp x = .ok (.udp u q) := by
      intro nh pl hp
      have hne : ∀ b, stack es (.udp u q) ≠ .raw b := by
        intro b hb
        cases es with
        | nil => cases hb
        | cons e' es' => obtain ⟨e1, e2⟩ := e'; cases e1 <;> cases hb
      unfold payloadParsed at hp
      split at hp
      · exact ih _ _ hp
      · exact absurd hp (hne _)
    obtain ⟨e1, nh⟩ := e
    have hc := parsed_class h
    have hk := fromBytes_kind h
    cases e1 with
    | hbh o =>
      cases k <;> first
        | (cases hc; done)
        | (obtain ⟨_, _, _, _, _, _, _, _, _, hp, he⟩ := readOpts_parsed hk
           cases he; exact step _ _ hp)
    | dest o =>
      cases k <;> first
        | (cases hc; done)
        | (obtain ⟨_, _, _, _, _, _, _, _, _, hp, he⟩ := readOpts_parsed hk
           cases he; exact step _ _ hp)
    | routing rt sl o =>
      cases k <;> first
        | (cases hc; done)
        | (simp only [decRouting] at hk
           obtain ⟨⟨⟨n, _, _, _, pl⟩, _⟩, _, hk⟩ := exBind_ok.mp hk
           obtain ⟨q', hq', hk⟩ := exBind_ok.mp hk
           cases hk
           exact step (n : Int) pl (payloadParsed_iff.mpr (by rw [Int.toNat_natCast]; exact hq')))
    | fragment off mf i =>
      cases k <;> first
        | (cases hc; done)
        | (obtain ⟨_, _, _, _, pl, _, _, _, _, _, _, _, he, _⟩ := readFragment_inv hk
           change Pkt.fragment _ _ _ _ (stack es (.udp u q)) = _ at he
           have hne : stack es (.udp u q) ≠ .raw pl := by
             intro hb
             cases es with
             | nil => cases hb
             | cons e' es' => obtain ⟨e1, e2⟩ := e'; cases e1 <;> cases hb
           rw [Pkt.fragment.injEq] at he
           exact absurd he.2.2.2.2 hne)

/-- the UDP message in a data packet was parsed from bytes -/
theorem udp_in_data {d : Bytes} {g : DataHdr} {p : Pkt} (hd : Pkt.fromBytes (.data true) d = .ok (.data g p))
    {u : UdpHdr} {q : Pkt} (hu : LeadsToUdp p u q) : ∃ y x, IsUDP y u x ∧ udpPayloadParsed u x q := by
  obtain ⟨_, _, _, _, _, _, _, _, pl, q0, _, hv, he⟩ := (data_accepted_iff true d _).mp hd
  cases he
  have hudp : ∃ y, Pkt.fromBytes .udp y = .ok (.udp u q) := by
    unfold versionPayloadParsed at hv
    cases hu with
    | v4 h _ _ =>
      split at hv
      · obtain ⟨_, pl', q', _, hq, he⟩ := (ipv4_accepted_iff true _ _).mp hv
        cases he
        unfold payloadParsed at hq
        split at hq
        · exact leadsToUdp_parsed [] _ _ hq
        · cases hq
      · have := parsed_class hv; cases this
      · cases hv
    | v6 h es _ _ =>
      split at hv
      · have := parsed_class hv; cases this
      · obtain ⟨_, pl', q', _, hq, he⟩ := (ipv6_accepted_iff true _ _).mp hv
        cases he
        unfold payloadParsed at hq
        split at hq
        · exact leadsToUdp_parsed es _ _ hq
        · exfalso
          cases es with
          | nil => cases hq
          | cons e' es' => obtain ⟨e1, e2⟩ := e'; cases e1 <;> cases hq
      · cases hv
  obtain ⟨y, hy⟩ := hudp
  obtain ⟨_, x, _, hx, hq, he⟩ := (udp_accepted_iff y _).mp hy
  cases he
  exact ⟨y, x, hx, hq⟩

/-- C65: with instance id 0xffffff nothing is forwarded. -/
theorem control_over_data_not_forwarded (s : Setup) (w : World) (o : Origin) (maxint counter : Nat) (d : Bytes)
    (sendto : Nat → Except Err Nat) (g : DataHdr) (p : Pkt) (hd : Pkt.fromBytes (.data true) d = .ok (.data g p))
    (hg : g.iid = some 0xffffff) : (dataDatagram s w o maxint counter d sendto).2.2 = none := by
  simp only [dataDatagram, hd, dataMessage, hg, if_true]
  split <;> rfl

/-- C65: with instance id 0xffffff and a packet that carries UDP to port 4342 (not from port 4341) the
payload of that UDP message is treated exactly like a datagram on the control plane, from the source and on
the socket of the data packet. -/
theorem control_over_data (s : Setup) (w : World) (o : Origin) (maxint counter : Nat) (d : Bytes)
    (sendto : Nat → Except Err Nat) (g : DataHdr) (p : Pkt) (hd : Pkt.fromBytes (.data true) d = .ok (.data g p))
    (hg : g.iid = some 0xffffff) (u : UdpHdr) (q : Pkt) (hu : LeadsToUdp p u q) (hp : u.dport = 4342)
    (hs : u.sport ≠ 4341) :
    ∃ y x, IsUDP y u x ∧ (dataDatagram s w o maxint counter d sendto).1 =
        (controlDatagram s w o maxint counter x sendto).1 ∧
      (dataDatagram s w o maxint counter d sendto).2.1 = (controlDatagram s w o maxint counter x sendto).2 := by
  obtain ⟨y, x, hx, hq⟩ := udp_in_data hd hu
  have hq' : Pkt.fromBytes .control x = .ok q := by
    simpa [udpPayloadParsed, hs, hp] using hq
  have hc := controlInData_iff.mpr ⟨u, hu, hp⟩
  refine ⟨y, x, hx, ?_⟩
  simp only [dataDatagram, hd, dataMessage, hg, if_true, hc, controlDatagram, hq', and_self]

/-- C65: any other packet with instance id 0xffffff changes nothing and is not answered: those that carry
no UDP, and UDP from port 4341 or to other ports than 4342. -/
theorem control_over_data_ignored (s : Setup) (w : World) (o : Origin) (maxint counter : Nat) (d : Bytes)
    (sendto : Nat → Except Err Nat) (g : DataHdr) (p : Pkt) (hd : Pkt.fromBytes (.data true) d = .ok (.data g p))
    (hg : g.iid = some 0xffffff)
    (hn : ∀ u q, LeadsToUdp p u q → u.dport = 4342 → u.sport = 4341) :
    (dataDatagram s w o maxint counter d sendto).2.1.world = w ∧
    (dataDatagram s w o maxint counter d sendto).2.1.sent = none ∧
    (dataDatagram s w o maxint counter d sendto).2.1.calls = [] ∧
    (dataDatagram s w o maxint counter d sendto).2.2 = none := by
  simp only [dataDatagram, hd, dataMessage, hg, if_true]
  split
  · exact ⟨rfl, rfl, rfl, rfl⟩
  · exact ⟨rfl, rfl, rfl, rfl⟩
  · rename_i m hm
    obtain ⟨u, hu, hp⟩ := controlInData_iff.mp hm
    obtain ⟨_, x, _, hq⟩ := udp_in_data hd hu
    rw [udpPayloadParsed, if_pos (.inl (hn u m hu hp))] at hq
    have hc := parsed_class hq
    cases m <;> first | (cases hc; done) | skip
    exact ⟨rfl, rfl, rfl, rfl⟩

/-! ### C66: the tunnel to the proxy ETR -/

theorem encap_bytes (d : Bytes) : (Pkt.data {} (.raw d)).toBytes = .ok ([0, 0, 0, 0, 0, 0, 0, 0] ++ d) := by
  have h0 : ∃ b, (DataHdr.sanitize {} >>= encDataRaw) = .ok b ∧ bitsToBytes b = .ok [0, 0, 0, 0, 0, 0, 0, 0] := by
    exact ⟨zeros 64, by decide +kernel, by decide +kernel⟩
  obtain ⟨b, hb, hx⟩ := h0
  obtain ⟨h', h1, h2⟩ := exBind_ok.mp hb
  unfold Pkt.toBytes
  rw [h1, exBind_okl, h2, exBind_okl, Pkt.toBytes, exBind_okl, withPayload, hx]
  rfl

/-- C66: a packet from the kernel is sent on exactly when a proxy ETR is configured and the packet is a
well-formed IPv4 or IPv6 packet (whatever its payload): to port 4341 of the proxy ETR, behind a LISP header
of 8 zero bytes, unchanged. -/
theorem encapsulated_iff (petr : Option IP) (d : Bytes) (c : SendCall Pkt) :
    nfqueueCallback petr d = .ok (some c) ↔
      ∃ a, petr = some a ∧ ((∃ h pl, IsIPv4 d h pl) ∨ (∃ h pl, IsIPv6 d h pl)) ∧
        c = ⟨.data {} (.raw d), [.ip a], 4341⟩ := by
  have e4 : ∀ p, Pkt.fromBytes (.ipv4 false) d = .ok p → ∃ h pl, IsIPv4 d h pl := by
    intro p h
    obtain ⟨h, pl, _, hw, _⟩ := (ipv4_accepted_iff false d p).mp h
    exact ⟨h, pl, hw⟩
  have e6 : ∀ p, Pkt.fromBytes (.ipv6 false) d = .ok p → ∃ h pl, IsIPv6 d h pl := by
    intro p h
    obtain ⟨h, pl, _, hw, _⟩ := (ipv6_accepted_iff false d p).mp h
    exact ⟨h, pl, hw⟩
  have f4 : ∀ h pl, IsIPv4 d h pl → Pkt.fromBytes (.ipv4 false) d = .ok (.ipv4 h (.raw pl)) := by
    intro h pl hw
    refine (ipv4_accepted_iff false d _).mpr ⟨h, pl, .raw pl, hw, ?_, rfl⟩
    unfold payloadParsed; split <;> simp
  have f6 : ∀ h pl, IsIPv6 d h pl → Pkt.fromBytes (.ipv6 false) d = .ok (.ipv6 h (.raw pl)) := by
    intro h pl hw
    refine (ipv6_accepted_iff false d _).mpr ⟨h, pl, .raw pl, hw, ?_, rfl⟩
    unfold payloadParsed; split <;> simp
  cases petr with
  | none =>
    refine ⟨(fun h => by cases h), ?_⟩
    rintro ⟨a, h, _⟩
    cases h
  | some a =>
    cases d with
    | nil =>
      refine ⟨(fun h => by cases h), ?_⟩
      rintro ⟨a', _, ⟨h, pl, hw⟩ | ⟨h, pl, hw⟩, _⟩
      · have := nibble_of_ipv4 (f4 h pl hw); cases this
      · have := nibble_of_ipv6 (f6 h pl hw); cases this
    | cons b t =>
      unfold nfqueueCallback
      simp only
      constructor
      · intro hc
        split at hc
        · split at hc
          · cases hc
          · rename_i p hp
            cases hc
            exact ⟨a, rfl, .inl (e4 p hp), rfl⟩
        · split at hc
          · split at hc
            · cases hc
            · rename_i p hp
              cases hc
              exact ⟨a, rfl, .inr (e6 p hp), rfl⟩
          · cases hc
      · rintro ⟨a', ha, hw | hw, rfl⟩
        · cases ha
          obtain ⟨h, pl, hw⟩ := hw
          have hp := f4 h pl hw
          have hn := nibble_of_ipv4 hp
          simp only [firstNibble, Option.some.injEq] at hn
          rw [if_pos hn, hp]
        · cases ha
          obtain ⟨h, pl, hw⟩ := hw
          have hp := f6 h pl hw
          have hn := nibble_of_ipv6 hp
          simp only [firstNibble, Option.some.injEq] at hn
          rw [if_neg (by omega), if_pos hn, hp]

/-- C66: the tunnel.  What a sender encapsulates for a packet of IPv4 (without options), IPv6, extension
headers but no fragment header, UDP (not LISP) and other protocols is forwarded by a receiver (a proxy ETR
running this program) as exactly the same bytes to the packet's destination. -/
theorem tunnel (a : IP) (d : Bytes) (v : Ver) (p : Pkt)
    (hp : Pkt.fromBytes (match v with | .v4 => .ipv4 true | .v6 => .ipv6 true) d = .ok p) (hpl : PlainIP p)
    (hnf : NoFragment p) :
    ∃ c b, nfqueueCallback (some a) d = .ok (some c) ∧ c.destinations = [.ip a] ∧ c.port = 4341 ∧
      c.message.toBytes = .ok b ∧
      ∀ (s : Setup) (w : World) (o : Origin) (maxint counter : Nat) (sendto : Nat → Except Err Nat),
        ∃ dest, (dataDatagram s w o maxint counter b sendto).2.2 = some ⟨v, d, some dest⟩ ∧
          DestinationOf v d dest := by
  have hw : (∃ h pl, IsIPv4 d h pl) ∨ (∃ h pl, IsIPv6 d h pl) := by
    cases v with
    | v4 => obtain ⟨h, pl, _, hw, _⟩ := (ipv4_accepted_iff true d p).mp hp; exact .inl ⟨h, pl, hw⟩
    | v6 => obtain ⟨h, pl, _, hw, _⟩ := (ipv6_accepted_iff true d p).mp hp; exact .inr ⟨h, pl, hw⟩
  refine ⟨_, _, (encapsulated_iff _ _ _).mpr ⟨a, rfl, hw, rfl⟩, rfl, rfl, encap_bytes d, ?_⟩
  intro s w o maxint counter sendto
  have hi : (lispHeader 0 0 0 0 0 0 0 0).iid ≠ some 0xffffff := by decide
  obtain ⟨f, h1, h2, _, _, h5⟩ := data_forwarded_unchanged s w o maxint counter _ d sendto 0 0 0 0 0 0 0 0 rfl hi
    v p hp hpl
  have hd := h5 hnf
  obtain ⟨_, _, _, _, _, _, _, _, pl, he, _, hf⟩ := (data_forwarded_iff ..).mp h1
  simp only [List.cons_append, List.nil_append, List.cons.injEq] at he
  obtain ⟨_, _, _, _, _, _, _, _, rfl⟩ := he
  obtain ⟨dest, h6, h7⟩ := data_forwarded_destination d f hf
  obtain ⟨fv, fd, ft⟩ := f
  simp only at h2 hd h6 h7
  subst h2 hd h6
  exact ⟨dest, h1, h7⟩

/-! ### The hypotheses are met -/

def exOrigin : Origin := ⟨exHost, 5555, ⟨0, .v4, exHost⟩, exHost, 0⟩

/-- a message that is answered: a DDT Map-Request for something outside of all delegations -/
def exSetup : Setup := ⟨toyMac, exDdtCfg, fun _ => ⟨[], false⟩, [⟨0, .v4, exHost⟩]⟩
def exWorld : World := ⟨fun _ => [], fun _ => exEtr⟩
def exDdtRequest : MapRequest :=
  { nonce := exNonce, itrRlocs := [.ip exHost], eidPrefixes := [.ip ⟨.v4, 12 * 2 ^ 24, by decide⟩] }
def exDdtMessage : Received :=
  ⟨1, .ecm { ddtOriginated := true } (.ipv4 exHdr4 (.udp { sport := 4342, dport := 4342 } (.ctrl (.request exDdtRequest)))),
    some { sport := 4342, dport := 4342 }, some (.ctrl (.request exDdtRequest))⟩

example : (handleMessage exSetup exWorld exOrigin exDdtMessage (fun _ => .ok 0)).sent =
    some ⟨false, (notAuthAnswer exNonce (.ip ⟨.v4, 12 * 2 ^ 24, by decide⟩) exHost 5555).map .referral⟩ := by
  have h : handleDdtMapRequest exDdtCfg { ddtOriginated := true } exDdtRequest exHost 5555 =
      .ok (some (notAuthAnswer exNonce (.ip ⟨.v4, 12 * 2 ^ 24, by decide⟩) exHost 5555)) := by
    refine ddt_not_delegated _ _ _ _ _ rfl _ [] rfl exDdtTree
      ⟨IP.toNet ⟨.v4, 12 * 2 ^ 24, by decide⟩, exDdtTree, [], ⟨0, .inr ⟨rfl, fun _ _ _ h => by cases h⟩,
        .inr ⟨_, .ip _, rfl, rfl, rfl⟩, rfl⟩, ?_⟩ (by intro h; cases h)
    unfold exDdtTree
    rw [resolvePath_cont]
    rfl
  have hd : dispatch exSetup exWorld exOrigin exDdtMessage = (exWorld, .ok (some ⟨false,
      (notAuthAnswer exNonce (.ip ⟨.v4, 12 * 2 ^ 24, by decide⟩) exHost 5555).map .referral⟩)) := by
    unfold dispatch exDdtMessage
    simp only [if_true]
    have h' : handleDdtMapRequest exSetup.cfg { ddtOriginated := true } exDdtRequest exOrigin.source exOrigin.port =
      .ok (some (notAuthAnswer exNonce (.ip ⟨.v4, 12 * 2 ^ 24, by decide⟩) exHost 5555)) := h
    rw [h']
    rfl
  simp only [handleMessage, hd]

/-- a batch of events with a broken datagram and a data packet -/
example (st : LispdState) (h : st.running = true) (f : Nat → Except Err Nat) :
    (lispdLoop exSetup none 9 st [[.control exOrigin [0xff] f, .data exOrigin [] f], [.hup false, .packet [1]]]).1.running
      = true :=
  (never_stops exSetup none 9 _ st h (by simp [IsStop])).1

/-- an IPv6 packet with UDP through the tunnel -/
def exInner : Pkt := .ipv6 exHdr6 (.hbh 17 [1, 2, 3, 0, 0, 0] exUdpPkt)
example : ∃ d, Pkt.fromBytes (.ipv6 true) d = .ok exInner ∧ PlainIP exInner ∧ NoFragment exInner := by
  obtain ⟨d, hd⟩ := isOk_iff.mp (show isOk exInner.toBytes = true by decide +kernel)
  refine ⟨d, ?_, .ipv6 _ _ (.hbh _ _ _ (.udp _ _ (.raw _))), .ipv6 _ _ (.hbh _ _ _ (.udp _ _ (.raw _)))⟩
  have := show (exInner.toBytes >>= fun d => Pkt.fromBytes (.ipv6 true) d) = .ok exInner by decide +kernel
  rw [hd] at this
  exact this

/-- a Map-Notify over the data plane -/
def exOverData : Pkt := .data { iid := some 0xffffff }
  (.ipv4 { exHdr4 with nextHeader := 17 } (.udp { sport := 4342, dport := 4342 } (.ctrl (.notify exNotify))))
example : ∃ d p u q, exOverData.toBytes = .ok d ∧ Pkt.fromBytes (.data true) d = .ok (.data { iid := some 0xffffff } p) ∧
    LeadsToUdp p u q ∧ u.dport = 4342 ∧ u.sport ≠ 4341 ∧ (∃ n, q = .ctrl (.notify n)) := by
  obtain ⟨d, hd⟩ := isOk_iff.mp (show isOk exOverData.toBytes = true by decide +kernel)
  obtain ⟨p, hp⟩ := isOk_iff.mp (show isOk (exOverData.toBytes >>= fun d => Pkt.fromBytes (.data true) d) = true by
    decide +kernel)
  have hshape : (match (exOverData.toBytes >>= fun d => Pkt.fromBytes (.data true) d) with
    | .ok (.data g (.ipv4 _ (.udp u (.ctrl (.notify _))))) =>
        decide (g = { iid := some 0xffffff }) && decide (u.dport = 4342) && decide (u.sport = 4342)
    | _ => false) = true := by decide +kernel
  rw [hd] at hp hshape
  change Pkt.fromBytes (.data true) d = _ at hp
  change (match Pkt.fromBytes (.data true) d with
    | .ok (.data g (.ipv4 _ (.udp u (.ctrl (.notify _))))) =>
        decide (g = { iid := some 0xffffff }) && decide (u.dport = 4342) && decide (u.sport = 4342)
    | _ => false) = true at hshape
  rw [hp] at hshape
  split at hshape
  · rename_i g h u n he
    cases he
    simp only [Bool.and_eq_true, decide_eq_true_eq] at hshape
    obtain ⟨⟨rfl, h1⟩, h2⟩ := hshape
    exact ⟨d, _, u, _, hd, hp, .v4 h u _, h1, by omega, n, rfl⟩
  · cases hshape

end PyLisp.Props
