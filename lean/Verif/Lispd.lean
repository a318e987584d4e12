import Verif.Etr
import Verif.Received
/-
Model of
  pylisp/application/lispd/address_tree/ddt_referral_node.py
  pylisp/application/lispd/message_handler.py
  scripts/lispd (the handling of one datagram)
Logging is not modelled.  What the sockets do is input, as in NetIO.lean.
-/
namespace PyLisp

/-! ### ddt_referral_node.py -/

/-- ddt_referral_node.py:202-227: the loop over the path (root first) with the variables `auth_node`
and `handling_node`; the first DDTReferralNode or MapServerNode ends it -/
def ddtScan : Option Node → List Node → Option Node × Option Node
  | auth, [] => (auth, none)
  | auth, n :: ns =>
    match n with
    | .leaf (.ddtReferral _) _ _ => (auth, some n)
    | .leaf .mapServer _ _ => (some n, some n)
    | .cont (some _) _ _ _ => ddtScan (some n) ns
    | _ => ddtScan auth ns

/-- `LocatorRecord(…, locator=ddt_node)` for every node (ddt_referral_node.py:65-70, 149-154,
171-176): there is no such parameter (locator_record.py:26-28), so this raises TypeError -/
def ddtLocators : List IP → Except Err (List Locator)
  | [] => .ok []
  | _ :: _ => .error .type

/-- ddt_referral_node.py:64-78 `get_referral` -/
def getReferral (pfx : Net) (nodes : List IP) : Except Err RefRecord :=
  match ddtLocators nodes with
  | .error e => .error e
  | .ok ls => .ok { ttl := 1440, action := 0, authoritative := true, eid := .net pfx, locators := ls }

/-- ddt_referral_node.py:136-139: the record of `send_not_authoritative` -/
def notAuthoritative (eid : Addr) : RefRecord := { ttl := 0, action := 5, incomplete := true, eid := eid }

/-- `auth_node and auth_node.ddt_nodes or []` (ddt_referral_node.py:252, 256): a MapServerNode has no such
attribute -/
def otherMapServers : Option Node → Except Err (List IP)
  | none => .ok []
  | some (.cont nodes _ _ _) => .ok (nodes.getD [])
  | some (.leaf ..) => .error .attr

/-- ddt_referral_node.py:169-183: the record of `send_ms_not_registered` -/
def msNotRegistered (pfx : Net) (others : List IP) : Except Err RefRecord :=
  match ddtLocators others with
  | .error e => .error e
  | .ok ls => .ok { ttl := 1, action := 3, incomplete := ls.isEmpty, eid := .net pfx, locators := ls }

/-- ddt_referral_node.py:229-264: the record for the answer, given the outcome of the loop.
`MapServerNode.handle_map_request` does nothing and returns None (map_server_node.py:178-179), so the
Map-Request counts as not handled.  The last two branches (DELEGATION-HOLE, NOT-AUTHORITATIVE) are for
handling nodes of other kinds, which do not exist.  A node counts as true in `if not handling_node` even when
it is an empty container (base.py:35-36). -/
def ddtRecord (eid : Addr) : Option Node × Option Node → Except Err RefRecord
  | (_, none) => .ok (notAuthoritative eid)
  | (_, some (.leaf (.ddtReferral nodes) _ pfx)) => getReferral pfx nodes
  | (auth, some n) =>
    match otherMapServers auth with
    | .error e => .error e
    | .ok others => msNotRegistered n.pfx others

/-- ddt_referral_node.py:188-264 `handle_ddt_map_request`, with `send_answer` (81-92): the message sent
over the socket the request came in on, if any, or the exception raised.  A path of None (unknown
instance) cannot be sliced (205): TypeError. -/
def handleDdtMapRequest (cfg : Config) (h : EcmHdr) (m : MapRequest) (source : IP) (port : Int) :
    Except Err (Option (SendCall MapReferral)) :=
  if h.security = true then .ok none
  else
    match m.eidPrefixes with
    | [] => .error .index
    | e :: _ =>
      match resolvePathIn cfg (determine e) with
      | .error x => .error x
      | .ok none => .error .type
      | .ok (some nodes) =>
        match ddtRecord e (ddtScan none nodes.reverse) with
        | .error x => .error x
        | .ok r => .ok (some ⟨{ nonce := m.nonce, records := [r] }, [.ip source], port⟩)

/-! ### message_handler.py -/

/-- the state of the nodes of all trees, by node: the registrations of the Map-Servers and the state of
the ETRs -/
structure World where
  stores : Nat → Store
  etrs : Nat → EtrState

/-- the fixed configuration: the MAC function, the trees, the settings of the Map-Servers, and the
addresses of the control plane sockets -/
structure Setup where
  mac : Mac
  cfg : Config
  conf : Nat → MsConf
  sockets : List Sock

/-- where a message came from and came in: source address and port, the socket and the address it is
bound to, and the time -/
structure Origin where
  source : IP
  port : Int
  socket : Sock
  dest : IP
  now : Int

/-- a call of `send_message`: over all control plane sockets, or only over the one the message came in
on -/
structure Outgoing where
  viaAll : Bool
  call : SendCall Ctrl

/-- apply a constructor to the message of a call -/
def SendCall.map (f : α → β) (c : SendCall α) : SendCall β := ⟨f c.message, c.destinations, c.port⟩

/-- the call a handler ends with (if it does not raise) -/
def outgoing (viaAll : Bool) (f : α → Ctrl) : Except Err (Option (SendCall α)) → Except Err (Option Outgoing)
  | .error e => .error e
  | .ok none => .ok none
  | .ok (some c) => .ok (some ⟨viaAll, c.map f⟩)

/-- message_handler.py:36-71: the body of the `try` statement up to the final `send_message` (which is
the last thing every handler does).  Map-Replies, Map-Referrals, encapsulated Map-Requests not from DDT
and encapsulated messages of other kinds are ignored (76-77, 123-124, 192-193, 66-67). -/
def dispatch (s : Setup) (w : World) (o : Origin) (r : Received) : World × Except Err (Option Outgoing) :=
  match r.message with
  | .ctrl (.request m) =>
    (w, outgoing true .reply
      (handleMapRequest s.cfg w.etrs (s.sockets.map (·.name)) m o.dest o.port))
  | .ctrl (.reply _) => (w, .ok none)
  | .ctrl (.notify m) =>
    match handleMapNotify s.cfg o.source m w.etrs m.records with
    | (etrs, .error e) => ({ w with etrs := etrs }, .error e)
    | (etrs, .ok ()) => ({ w with etrs := etrs }, .ok none)
  | .ctrl (.register m) =>
    match handleMapRegister s.mac s.cfg s.conf w.stores m o.source o.now with
    | (stores, c) => ({ w with stores := stores }, outgoing false .notify c)
  | .ctrl (.referral _) => (w, .ok none)
  | .ecm h _ =>
    match r.innerMessage with
    | some (.ctrl (.request m)) =>
      if h.ddtOriginated = true then
        (w, outgoing false .referral (handleDdtMapRequest s.cfg h m o.source o.port))
      else (w, .ok none)
    | _ => (w, .ok none)
  | .ctrl (.info m) =>
    match handleInfo s.cfg w.etrs o.source m with
    | (etrs, .error e) => ({ w with etrs := etrs }, .error e)
    | (etrs, .ok ()) => ({ w with etrs := etrs }, .ok none)
  | _ => (w, .ok none)

/-- what handling a message comes to: the new state, the message `send_message` was called with (if it
was), the `sendto` calls made for it, and whether an exception was swallowed -/
structure Handled where
  world : World
  sent : Option Outgoing := none
  calls : List (Sock × IP) := []
  swallowed : Option Err := none

/-- the sockets a call goes over -/
def Outgoing.sockets (g : Outgoing) (s : Setup) (o : Origin) : List Sock :=
  if g.viaAll = true then s.sockets else [o.socket]

/-- the exception of a result, if any -/
def errOf : Except Err α → Option Err
  | .error e => some e
  | .ok _ => none

/-- message_handler.py:27-73 `handle_message`; `sendto` as in `sendMessage` -/
def handleMessage (s : Setup) (w : World) (o : Origin) (r : Received) (sendto : Nat → Except Err Nat) :
    Handled :=
  match dispatch s w o r with
  | (w', .error e) => { world := w', swallowed := some e }
  | (w', .ok none) => { world := w' }
  | (w', .ok (some g)) =>
    { world := w', sent := some g,
      calls := (sendMessage g.call.message.toBytes (g.sockets s o) sendto 0 g.call.destinations).1,
      swallowed := errOf (sendMessage g.call.message.toBytes (g.sockets s o) sendto 0 g.call.destinations).2 }

/-! ### scripts/lispd -/

/-- scripts/lispd:118-124 `handle_control_message`: the counter of messages and what the handling
comes to; an exception of `ReceivedMessage` is swallowed by the main loop (297-298 and 306-307) -/
def controlMessage (s : Setup) (w : World) (o : Origin) (maxint counter : Nat) (m : Pkt)
    (sendto : Nat → Except Err Nat) : Nat × Handled :=
  match receive maxint counter none m with
  | (c, .error e) => (c, { world := w, swallowed := some e })
  | (c, .ok r) => (c, handleMessage s w o r sendto)

/-- scripts/lispd:292-298: a datagram on a control plane socket -/
def controlDatagram (s : Setup) (w : World) (o : Origin) (maxint counter : Nat) (d : Bytes)
    (sendto : Nat → Except Err Nat) : Nat × Handled :=
  match Pkt.fromBytes .control d with
  | .error e => (counter, { world := w, swallowed := some e })
  | .ok m => controlMessage s w o maxint counter m sendto

/-- a packet handed to the raw socket of its address family -/
structure RawSend where
  ver : Ver
  data : Bytes
  dest : Option IP
  deriving DecidableEq

/-- scripts/lispd:144-158: the payload is serialised again and given to a raw socket.  A payload that
is not an IP packet is a string, without `to_bytes`.  (That the raw socket may not be created, or not
take the packet, is only logged, here or at 307.) -/
def forwardPayload (p : Pkt) : Except Err RawSend :=
  match p with
  | .ipv4 h q =>
    match (Pkt.ipv4 h q).toBytes with
    | .error e => .error e
    | .ok d => .ok ⟨.v4, d, h.dst⟩
  | .ipv6 h q =>
    match (Pkt.ipv6 h q).toBytes with
    | .error e => .error e
    | .ok d => .ok ⟨.v6, d, h.dst⟩
  | _ => .error .attr

/-- scripts/lispd:130-137: the control message in a data packet with instance id 0xffffff: `ok none`
for "invalid LISP control packet" -/
def controlInData (p : Pkt) : Except Err (Option Pkt) :=
  match p.getFinalPayload with
  | none => .error .attr
  | some (_, .udp u q) => if u.dport ≠ 4342 then .ok none else .ok (some q)
  | some _ => .ok none

/-- scripts/lispd:127-162 `handle_data_message`: the counter, what the handling of a control message
comes to, and the packet forwarded -/
def dataMessage (s : Setup) (w : World) (o : Origin) (maxint counter : Nat) (h : DataHdr) (p : Pkt)
    (sendto : Nat → Except Err Nat) : Nat × Handled × Option RawSend :=
  if h.iid = some 0xffffff then
    match controlInData p with
    | .error e => (counter, { world := w, swallowed := some e }, none)
    | .ok none => (counter, { world := w }, none)
    | .ok (some m) =>
      ((controlMessage s w o maxint counter m sendto).1,
        (controlMessage s w o maxint counter m sendto).2, none)
  else
    match forwardPayload p with
    | .error e => (counter, { world := w, swallowed := some e }, none)
    | .ok f => (counter, { world := w }, some f)

/-- scripts/lispd:301-307: a datagram on a data plane socket -/
def dataDatagram (s : Setup) (w : World) (o : Origin) (maxint counter : Nat) (d : Bytes)
    (sendto : Nat → Except Err Nat) : Nat × Handled × Option RawSend :=
  match Pkt.fromBytes (.data true) d with
  | .ok (.data h p) => dataMessage s w o maxint counter h p sendto
  | .ok _ => (counter, { world := w }, none)   -- `DataPacket.from_bytes` returns data packets only
  | .error e => (counter, { world := w, swallowed := some e }, none)

/-- scripts/lispd:87-115 `nfqueue_callback`: a packet of the kernel to be sent to the proxy ETR
(`petr`, None if it is not configured): the call of `send_message`, over the data plane sockets -/
def nfqueueCallback (petr : Option IP) (d : Bytes) : Except Err (Option (SendCall Pkt)) :=
  match petr with
  | none => .ok none
  | some a =>
    match d with
    | [] => .error .index
    | b :: _ =>
      if b.toNat / 16 = 4 then
        match Pkt.fromBytes (.ipv4 false) d with
        | .error e => .error e
        | .ok _ => .ok (some ⟨.data {} (.raw d), [.ip a], 4341⟩)
      else if b.toNat / 16 = 6 then
        match Pkt.fromBytes (.ipv6 false) d with
        | .error e => .error e
        | .ok _ => .ok (some ⟨.data {} (.raw d), [.ip a], 4341⟩)
      else .ok none

/-- what `select` reports for one socket (scripts/lispd:290-327).  `other` stands for what other threads
do to the state in between. -/
inductive LispdEvent
  | control (o : Origin) (d : Bytes) (sendto : Nat → Except Err Nat)
  | data (o : Origin) (d : Bytes) (sendto : Nat → Except Err Nat)
  /-- a datagram whose sender's address cannot be read (NetIO.lean, `AutoSock.recvfrom`) -/
  | unreadable
  | packet (d : Bytes)
  /-- SIGINT or SIGTERM -/
  | stop
  /-- SIGHUP (the effect on the addresses is in NetIO.lean); `ok` is false if that raises -/
  | hup (ok : Bool)
  | other (w : World)

/-- what the program did for an event -/
inductive LispdEffect
  | handled (h : Handled) (forwarded : Option RawSend)
  | encapsulated (r : Except Err (Option (SendCall Pkt)))
  | nothing

/-- the state of the main loop -/
structure LispdState where
  world : World
  counter : Nat
  running : Bool := true

/-- scripts/lispd:291-326: one ready socket -/
def lispdEvent (s : Setup) (petr : Option IP) (maxint : Nat) (st : LispdState) :
    LispdEvent → LispdState × LispdEffect
  | .control o d sendto =>
    match controlDatagram s st.world o maxint st.counter d sendto with
    | (c, h) => ({ st with world := h.world, counter := c }, .handled h none)
  | .data o d sendto =>
    match dataDatagram s st.world o maxint st.counter d sendto with
    | (c, h, f) => ({ st with world := h.world, counter := c }, .handled h f)
  | .unreadable => (st, .nothing)
  | .packet d => (st, .encapsulated (nfqueueCallback petr d))
  | .stop => ({ st with running := false }, .nothing)
  | .hup _ => (st, .nothing)
  | .other w => ({ st with world := w }, .nothing)

/-- scripts/lispd:290-326: all sockets that are ready; an exception of the SIGHUP handling leaves the
loop (it is caught at 328-329), so the sockets after it are not looked at now (nothing has been read from
them, so `select` reports them again) -/
def lispdBatch (s : Setup) (petr : Option IP) (maxint : Nat) (st : LispdState) :
    List LispdEvent → LispdState × List LispdEffect
  | [] => (st, [])
  | .hup false :: _ => (st, [.nothing])
  | e :: es =>
    ((lispdBatch s petr maxint (lispdEvent s petr maxint st e).1 es).1,
      (lispdEvent s petr maxint st e).2 :: (lispdBatch s petr maxint (lispdEvent s petr maxint st e).1 es).2)

/-- scripts/lispd:274-329: the main loop, for the given results of `select` (the empty list for a
timeout or an error) -/
def lispdLoop (s : Setup) (petr : Option IP) (maxint : Nat) (st : LispdState) :
    List (List LispdEvent) → LispdState × List (List LispdEffect)
  | [] => (st, [])
  | b :: bs =>
    if st.running = true then
      ((lispdLoop s petr maxint (lispdBatch s petr maxint st b).1 bs).1,
        (lispdBatch s petr maxint st b).2 :: (lispdLoop s petr maxint (lispdBatch s petr maxint st b).1 bs).2)
    else (st, [])

end PyLisp
