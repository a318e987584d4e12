import Verif.MapServer
import Verif.NetIO
import Verif.Pkt
/-
Model of
  pylisp/application/lispd/address_tree/etr_node.py
  pylisp/application/lispd/etr_registration.py
Sets are lists without duplicates (the list is the iteration order, which Python does not define).
Sockets are represented by the address they have.  Logging is not modelled, except where building a
log message raises an exception.  Times are in microseconds.
-/
namespace PyLisp

/-! ### The objects -/

/-- etr_registration.py:15-28.  A key id without a key is only warned about (27-28).  Registration objects are compared by
identity: `id`. -/
structure EtrReg where
  id : Nat
  mapServer : IP
  keyId : Int := 0
  key : Option Bytes := none
  proxyMapReply : Bool := false
  useRtr : Option Bool := none

/-- what `get_nat_info` returns (etr_node.py:350-354): the reply address of an Info-Reply, with
`private_etr_rloc` as set at etr_node.py:90 -/
structure NatInfo where
  etrPort : Int
  globalEtr : Addr
  privateEtr : IP
  rtrs : List Addr
  deriving DecidableEq

/-- etr_node.py:52-92 `InfoRequest`: `nonce` is that of the request; `reply` what is in
`info_reply.reply`, `replied` whether the event is set -/
structure InfoReq where
  mapServer : IP
  nonce : Bytes
  sentFrom : Option IP := none
  reply : Option NatInfo := none
  replied : Bool := false
  deriving DecidableEq

/-- etr_node.py:95-132 `MapRegister`: `nonce` is that of the Map-Register; the event is set exactly
when there is a notify (188-189) -/
structure OutReg where
  mapServer : IP
  nonce : Bytes
  notify : Option MapNotify := none
  deriving DecidableEq

/-- etr_node.py:466-485: the state of an ETRNode.  `threads`: the `need_new_registration` flags of the
threads by registration; `rtrs`: the RTR sets by registration -/
structure EtrState where
  locators : List Locator := []
  threads : List (Nat × Bool) := []
  rtrs : List (Nat × List Addr) := []
  infoReqs : List InfoReq := []
  outRegs : List OutReg := []

/-! ### Locators -/

/-- `set.add` -/
def addNew [DecidableEq α] (l : List α) (x : α) : List α := if x ∈ l then l else l ++ [x]

/-- etr_node.py:557-559: one RTR set -/
def addRtrs : List IP → List Addr → Except Err (List IP)
  | acc, [] => .ok acc
  | acc, r :: rs =>
    match r.asIP with
    | .error e => .error e
    | .ok a => addRtrs (addNew acc a) rs

/-- etr_node.py:556: all RTR sets -/
def addAllRtrs : List IP → List (Nat × List Addr) → Except Err (List IP)
  | acc, [] => .ok acc
  | acc, (_, rs) :: l =>
    match addRtrs acc rs with
    | .error e => .error e
    | .ok acc' => addAllRtrs acc' l

/-- etr_node.py:554-561 `get_rtrs` -/
def getRtrs (s : EtrState) : Except Err (List IP) := addAllRtrs [] s.rtrs

/-- etr_node.py:586-592 and 596-602 -/
def copyLocator (l : Locator) (isLocal : Bool) (a : Addr) : Locator :=
  { priority := l.priority, weight := l.weight, mPriority := l.mPriority, mWeight := l.mWeight,
    isLocal := isLocal, reachable := true, address := a }

/-- etr_node.py:576-580: the numbers are compared -/
def isLocalAddr (sockets : List IP) (a : IP) : Bool := sockets.any fun s => s.val = a.val

/-- etr_node.py:570-602: the loop over the locators, with the flag `rtrs_already_included` and the
set built so far.  `int()` (572) of something that is not an address raises TypeError. -/
def locatorLoop (sockets : List IP) (rtrs : List Addr) :
    List Locator → Bool → List Locator → Except Err (List Locator)
  | [], _, acc => .ok acc
  | l :: ls, included, acc =>
    match l.address with
    | .ip a =>
      if a.val = 0 then locatorLoop sockets rtrs ls included acc
      else if isLocalAddr sockets a = true ∧ rtrs ≠ [] then
        locatorLoop sockets rtrs ls true
          (if included = true then acc
           else rtrs.foldl (fun acc r => addNew acc (copyLocator l false r)) acc)
      else locatorLoop sockets rtrs ls included
        (addNew acc (copyLocator l (isLocalAddr sockets a) (.ip a)))
    | _ => .error .type

/-- etr_node.py:563-604 `get_etr_locators`.  (Two LCAF addresses with the same content count as one
set element; such an RTR makes serialising the record fail in any case.) -/
def getEtrLocators (s : EtrState) (sockets : List IP) (tentative : List Addr) :
    Except Err (List Locator) :=
  match getRtrs s with
  | .error e => .error e
  | .ok rs => locatorLoop sockets (tentative.foldl addNew (rs.map .ip)) s.locators false []

/-- etr_node.py:500-510 `add_locator` -/
def EtrState.addLocator (s : EtrState) (l : Locator) : EtrState := { s with locators := addNew s.locators l }

/-- etr_node.py:512-514 `remove_locator` -/
def EtrState.removeLocator (s : EtrState) (l : Locator) : EtrState :=
  { s with locators := s.locators.filter (· ≠ l) }

/-! ### Answering Map-Requests -/

/-- etr_node.py:626-644: the record, for the locators `get_etr_locators` returned -/
def replyRecord (pfx : Net) (ls : List Locator) (probe : Bool) (dest : IP) : Record :=
  if ls ≠ [] then
    { ttl := 1440, authoritative := true, eid := .net pfx,
      locators := ls.map fun l =>
        { l with reachable := true, probed := probe && decide (l.address = .ip dest) } }
  else { ttl := 1440, action := 1, authoritative := true, eid := .net pfx }

/-- etr_node.py:618-657 `handle_map_request`; `dest` is the address the request came in on, `port` the
port it came from -/
def etrMapRequest (s : EtrState) (pfx : Net) (sockets : List IP) (m : MapRequest) (dest : IP)
    (port : Int) : Except Err (SendCall MapReply) :=
  match getEtrLocators s sockets [] with
  | .error e => .error e
  | .ok ls =>
    .ok ⟨{ probe := m.probe, nonce := m.nonce, records := [replyRecord pfx ls m.probe dest] },
      m.itrRlocs, port⟩

/-- message_handler.py:167-189 `handle_map_request` -/
def handleMapRequest (cfg : Config) (etr : Nat → EtrState) (sockets : List IP) (m : MapRequest)
    (dest : IP) (port : Int) : Except Err (Option (SendCall MapReply)) :=
  match m.eidPrefixes with
  | [e] =>
    match resolvePathIn cfg (determine e) with
    | .error x => .error x
    | .ok (some (.leaf .etr i pfx :: _)) =>
      match etrMapRequest (etr i) pfx sockets m dest port with
      | .error x => .error x
      | .ok c => .ok (some c)
    | .ok _ => .ok none
  | _ => .ok none

/-! ### Map-Notifies -/

/-- etr_node.py:179-190 `set_notify_if_matches`: `none` is False -/
def OutReg.setNotify (r : OutReg) (source : IP) (n : MapNotify) : Option OutReg :=
  if source ≠ r.mapServer ∨ n.nonce ≠ r.nonce then none else some { r with notify := some n }

/-- etr_node.py:610-613: the first one that matches takes it -/
def setFirstNotify (source : IP) (n : MapNotify) : List OutReg → List OutReg
  | [] => []
  | r :: rs =>
    match r.setNotify source n with
    | some r' => r' :: rs
    | none => r :: setFirstNotify source n rs

/-- etr_node.py:606-616 `handle_map_notify_record`; the text of the EID (615) is defined in received messages
(`Props.notify_texts_defined`) -/
def EtrState.mapNotify (s : EtrState) (source : IP) (n : MapNotify) : EtrState :=
  { s with outRegs := setFirstNotify source n s.outRegs }

/-- message_handler.py:127-142 `handle_map_notify`: the loop over the records; an exception of the
lookup ends it -/
def handleMapNotify (cfg : Config) (source : IP) (n : MapNotify) :
    (Nat → EtrState) → List Record → (Nat → EtrState) × Except Err Unit
  | st, [] => (st, .ok ())
  | st, r :: rs =>
    match resolveIn cfg (determine r.eid) with
    | .error e => (st, .error e)
    | .ok (some (.leaf .etr i _)) =>
      handleMapNotify cfg source n (fun j => if j = i then (st i).mapNotify source n else st j) rs
    | .ok _ => handleMapNotify cfg source n st rs

/-- etr_node.py:234-238, negated: the record is the one that was registered.  Its locators are
compared too (242-259), but a difference is only logged. -/
def recordMatches (reg r : Record) : Bool :=
  r.eid = reg.eid && r.ttl = reg.ttl && r.action = reg.action && r.mapVersion = reg.mapVersion &&
    r.locators.length = reg.locators.length

/-- etr_node.py:192-270 `notify_content_ok` once the notify is there.  The format strings at 202, 212
and 217 raise KeyError. -/
def notifyContentOk (H : Mac) (key : Option Bytes) (reg : MapRegister) (n : MapNotify) : Except Err Bool :=
  match n.verifyWith H key with
  | .error e => .error e
  | .ok false => .ok false
  | .ok true =>
    if n.nonce ≠ reg.nonce then .error .key
    else if n.keyId ≠ reg.keyId then .ok false
    else if n.xtrId ≠ 0 ∧ n.xtrId ≠ reg.xtrId then .error .key
    else if n.siteId ≠ 0 ∧ n.siteId ≠ reg.siteId then .error .key
    else if n.records.length ≠ reg.records.length then .ok false
    else .ok (reg.records.all fun rr => n.records.any fun r => recordMatches rr r)

/-! ### Info messages -/

/-- etr_node.py:82-92 `set_reply_if_matches`; `ok none` is False.  Without `sent_from` line 90 raises
TypeError (`info_reply` is set by then, but the event is not). -/
def InfoReq.setReply (q : InfoReq) (source : IP) (nonce : Bytes) (etrPort : Int) (globalEtr : Addr)
    (rtrs : List Addr) : Except Err (Option InfoReq) :=
  if source ≠ q.mapServer ∨ nonce ≠ q.nonce then .ok none
  else
    match q.sentFrom with
    | none => .error .type
    | some a => .ok (some { q with reply := some ⟨etrPort, globalEtr, a, rtrs⟩, replied := true })

/-- etr_node.py:664-667 -/
def setFirstReply (source : IP) (nonce : Bytes) (etrPort : Int) (globalEtr : Addr)
    (rtrs : List Addr) : List InfoReq → List InfoReq × Except Err Unit
  | [] => ([], .ok ())
  | q :: qs =>
    match q.setReply source nonce etrPort globalEtr rtrs with
    | .error e => (q :: qs, .error e)
    | .ok (some q') => (q' :: qs, .ok ())
    | .ok none =>
      (q :: (setFirstReply source nonce etrPort globalEtr rtrs qs).1,
        (setFirstReply source nonce etrPort globalEtr rtrs qs).2)

/-- etr_node.py:659-670 `handle_info_message_reply`; the text of the EID (669) is defined in received messages
(`Props.info_text_defined`) -/
def EtrState.infoReply (s : EtrState) (source : IP) (m : Info) : EtrState × Except Err Unit :=
  match m.reply with
  | .natT _ etrPort globalEtr _ _ rtrs =>
    ({ s with infoReqs := (setFirstReply source m.nonce etrPort globalEtr rtrs s.infoReqs).1 },
      (setFirstReply source m.nonce etrPort globalEtr rtrs s.infoReqs).2)
  | _ => (s, .error .assertion)

/-- message_handler.py:145-164 `handle_info_message` -/
def handleInfo (cfg : Config) (st : Nat → EtrState) (source : IP) (m : Info) :
    (Nat → EtrState) × Except Err Unit :=
  if m.isReply = false then (st, .ok ())
  else
    match resolveIn cfg (determine m.eidPrefix) with
    | .error e => (st, .error e)
    | .ok (some (.leaf .etr i _)) =>
      (fun j => if j = i then ((st i).infoReply source m).1 else st j, ((st i).infoReply source m).2)
    | .ok _ => (st, .ok ())

/-- what the thread sees while it waits for an answer (etr_node.py:306-320, 379-393): per attempt
whether sending raised, whether it was told to stop, whether the answer is there -/
structure Attempt where
  sendError : Option Err := none
  stopped : Bool := false
  answered : Bool := false

/-- how the three attempts end -/
inductive Attempts
  /-- an exception of `send` -/
  | raised (e : Err)
  /-- told to stop -/
  | stopped
  /-- answered, or out of attempts -/
  | over

/-- etr_node.py:306-320 and 379-393: the number of messages sent (or tried), and how it ended -/
def tryAttempts : List Attempt → Nat × Attempts
  | [] => (0, .over)
  | a :: as =>
    match a.sendError with
    | some e => (1, .raised e)
    | none =>
      if a.stopped = true then (1, .stopped)
      else if a.answered = true then (1, .over)
      else ((tryAttempts as).1 + 1, (tryAttempts as).2)

/-- etr_node.py:330-354: what is concluded from the reply (if any) -/
def concludeNat (useRtr : Option Bool) (sent : Bool) (reply : Option NatInfo) :
    Except Err (Option NatInfo) :=
  match reply with
  | none => if sent = true then .ok none else .error .type   -- `sent_from[0]` at 336
  | some n =>
    if n.globalEtr ≠ .ip n.privateEtr ∨ n.etrPort ≠ 4342 then .ok (some n)
    else if sent = false then .error .type
    else if useRtr = some true then .ok (some n)
    else .ok none

/-- etr_node.py:296-354 `get_nat_info`: Info-Requests sent, and the result.  `reply` is the reply
stored when the attempts are over, `sent` whether the last `send` succeeded (`sent_from` is not
None). -/
def getNatInfo (r : EtrReg) (a0 a1 a2 : Attempt) (sent : Bool) (reply : Option NatInfo) :
    Nat × Except Err (Option NatInfo) :=
  if r.useRtr = some false then (0, .ok none)
  else
    match tryAttempts [a0, a1, a2] with
    | (k, .raised e) => (k, .error e)
    | (k, .stopped) => (k, .ok none)
    | (k, .over) => (k, concludeNat r.useRtr sent reply)

/-- etr_node.py:60-63: the Info-Request, before `insert_authentication_data` -/
def mkInfo (r : EtrReg) (pfx : Net) (nonce : Bytes) : Info :=
  { nonce := nonce, keyId := r.keyId, ttl := 1440, eidPrefix := .net pfx }

/-! ### Registering -/

/-- `nat_info and nat_info.rtr_rlocs or []` (etr_node.py:100, 358) -/
def natRtrs : Option NatInfo → List Addr
  | none => []
  | some n => n.rtrs

/-- etr_node.py:99-121: the Map-Register, before `insert_authentication_data` -/
def mkRegister (r : EtrReg) (pfx : Net) (ls : List Locator) (nat : Option NatInfo) (want : Bool)
    (nonce : Bytes) (xtrId siteId : Int) : MapRegister :=
  { proxyMapReply := r.proxyMapReply, forRtr := decide (natRtrs nat ≠ []),
    wantMapNotify := want || decide (natRtrs nat ≠ []), nonce := nonce, keyId := r.keyId,
    records := [{ ttl := 1440, authoritative := true, eid := .net pfx, locators := ls }],
    xtrId := xtrId, siteId := siteId }

/-- etr_node.py:145-172: the Map-Register in UDP in IP in an ECM.  For IPv6 line 156 sets an attribute
that is not used: the hop limit stays 0. -/
def natEcm (mapServer privateEtr : IP) (m : MapRegister) : Except Err Pkt :=
  match udpChecksum { sport := 4342, dport := 4342 } (.ctrl (.register m)) (some privateEtr)
      (some mapServer) with
  | .error e => .error e
  | .ok c =>
    .ok (.ecm {} (match mapServer.ver with
      | .v4 => .ipv4 { ttl := 63, src := some privateEtr, dst := some mapServer, nextHeader := 17 }
          (.udp { sport := 4342, dport := 4342, cksum := c } (.ctrl (.register m)))
      | .v6 => .ipv6 { src := some privateEtr, dst := some mapServer, nextHeader := 17 }
          (.udp { sport := 4342, dport := 4342, cksum := c } (.ctrl (.register m)))))

/-- what `MapRegister.send` does: a message over the control or the data plane sockets, or nothing -/
inductive RegSend
  | plain (c : SendCall MapRegister)
  | encapsulated (c : SendCall Pkt)
  | nothing

/-- etr_node.py:134-177 `send` -/
def registerSend (r : EtrReg) (nat : Option NatInfo) (m : MapRegister) : Except Err RegSend :=
  match nat with
  | none => .ok (.plain ⟨m, [.ip r.mapServer], 4342⟩)
  | some n =>
    if r.mapServer.ver ≠ n.privateEtr.ver then .ok .nothing
    else
      match natEcm r.mapServer n.privateEtr m with
      | .error e => .error e
      | .ok p => .ok (.encapsulated ⟨p, n.rtrs, 4342⟩)

/-- etr_node.py:371-410, the rest of `register` once the Map-Register is made: messages sent (or
tried), and the result (`ok none` is None).  `notify` is the notify stored when the attempts are
over. -/
def registerRun (H : Mac) (key : Option Bytes) (want : Bool) (reg : MapRegister) (a0 a1 a2 : Attempt)
    (notify : Option MapNotify) : Nat × Except Err (Option Bool) :=
  if want = false then
    match a0.sendError with
    | some e => (1, .error e)
    | none => (1, .ok (some true))
  else
    match tryAttempts [a0, a1, a2] with
    | (k, .raised e) => (k, .error e)
    | (k, .stopped) => (k, .ok none)
    | (k, .over) =>
      match notify with
      | none => (k, .ok (some false))
      | some n =>
        match notifyContentOk H key reg n with
        | .error e => (k, .error e)
        | .ok b => (k, .ok (some b))

/-! ### RTRs and the need for a new registration -/

/-- two sets are equal -/
def sameSet (a b : List Addr) : Bool := a.all (· ∈ b) && b.all (· ∈ a)

/-- etr_node.py:519-523 `_locators_have_changed` -/
def EtrState.signal (s : EtrState) : EtrState := { s with threads := s.threads.map fun t => (t.1, true) }

/-- etr_node.py:546-552 `set_rtrs`.  For a registration without an entry the old value is the list
`[]`, which differs from every set. -/
def rtrsChanged (old : Option (List Addr)) (new : List Addr) : Bool :=
  match old with
  | none => true
  | some o => !sameSet o new

/-- etr_node.py:546-552 `set_rtrs`; the control thread is signalled when the set has changed -/
def EtrState.setRtrs (s : EtrState) (id : Nat) (rtrs : List Addr) : EtrState :=
  if rtrsChanged (dictGet s.rtrs id) rtrs = true then
    EtrState.signal { s with rtrs := dictSet s.rtrs id (rtrs.foldl addNew []) }
  else { s with rtrs := dictSet s.rtrs id (rtrs.foldl addNew []) }

/-- etr_node.py:525-534 `add_etr_registration` (a new thread: 291) -/
def EtrState.addRegistration (s : EtrState) (id : Nat) : EtrState :=
  if (dictGet s.threads id).isSome = true then s else { s with threads := dictSet s.threads id false }

/-- etr_node.py:536-544 `remove_etr_registration` -/
def EtrState.removeRegistration (s : EtrState) (id : Nat) : EtrState :=
  { s with threads := dictDel s.threads id }

/-- etr_node.py:516-517 `on_locator_change(self, locator)`, called with a number of arguments:
`_signal_locator_change` does not exist -/
def EtrState.onLocatorChange (s : EtrState) (args : Nat) : EtrState × Except Err Unit :=
  if args = 1 then (s, .error .attr) else (s, .error .type)

/-- locator_record.py:77-86: the address of a locator has changed: every node that has the locator is
called, without arguments, and exceptions are swallowed -/
def locatorNotify (nodes : List Nat) (st : Nat → EtrState) : Nat → EtrState :=
  nodes.foldl (fun st i j => if j = i then ((st i).onLocatorChange 0).1 else st j) st

/-! ### The registration thread -/

/-- the variables of `MSRThread.run` (etr_node.py:413-415), the flag (291) and the RTR set of its
registration in the node -/
structure RunState where
  lastNat : Int := 0
  lastReg : Int := 0
  ok : Bool := false
  needNew : Bool := false
  nat : Option NatInfo := none
  rtrs : Option (List Addr) := none

/-- what one pass of the loop meets: whether it was told to stop, whether somebody else set the flag
since the last pass, the time, what `get_nat_info` and `register` (with `force_map_notify`) come to,
and whether somebody else set the flag after it was reset in this pass -/
structure Pass where
  stop : Bool := false
  signalled : Bool := false
  now : Int
  natResult : Except Err (Option NatInfo)
  regResult : Bool → Except Err (Option Bool)
  signalledLater : Bool := false

/-- what one pass did: whether `get_nat_info` was called, and `register` with which
`force_map_notify` -/
structure PassOut where
  natAsked : Bool
  registered : Option Bool
  deriving DecidableEq

/-- 15 * 60 seconds (etr_node.py:427), 60 seconds (437) -/
def natInterval : Int := 900000000
/-- 60 seconds (etr_node.py:437) -/
def regInterval : Int := 60000000

/-- etr_node.py:426-433 -/
def natDue (s : RunState) (now : Int) : Bool := !s.ok || decide (s.lastNat + natInterval < now)

/-- etr_node.py:435-437 -/
def regDue (s : RunState) (now : Int) : Bool :=
  !s.ok || s.needNew || decide (s.lastReg + regInterval < now)

/-- etr_node.py:435-451 -/
def passRegister (s : RunState) (i : Pass) : RunState × Option Bool :=
  if regDue s i.now = true then
    match i.regResult (!s.ok) with
    | .error _ => ({ s with needNew := i.signalledLater }, some (!s.ok))
    | .ok r =>
      ({ s with
          needNew := i.signalledLater || rtrsChanged s.rtrs (natRtrs s.nat)
          ok := r == some true
          lastReg := i.now
          rtrs := some ((natRtrs s.nat).foldl addNew []) }, some (!s.ok))
  else ({ s with needNew := s.needNew || i.signalledLater }, none)

/-- the flag as the pass finds it -/
def passBegin (s : RunState) (i : Pass) : RunState := { s with needNew := s.needNew || i.signalled }

/-- etr_node.py:429-433 -/
def passAsked (s : RunState) (now : Int) (n : Option NatInfo) : RunState :=
  { s with nat := n, lastNat := now, ok := false }

/-- etr_node.py:418-453: one pass of the loop; `none`: the thread ends (420-421) -/
def runPass (s : RunState) (i : Pass) : Option (RunState × PassOut) :=
  if i.stop = true then none
  else if natDue s i.now = true then
    match i.natResult with
    | .error _ =>
      some ({ s with needNew := s.needNew || i.signalled || i.signalledLater }, ⟨true, none⟩)
    | .ok n =>
      some ((passRegister (passAsked (passBegin s i) i.now n) i).1,
        ⟨true, (passRegister (passAsked (passBegin s i) i.now n) i).2⟩)
  else some ((passRegister (passBegin s i) i).1, ⟨false, (passRegister (passBegin s i) i).2⟩)

/-- the passes of a thread, until it ends: the state and what each pass did -/
def runPasses : RunState → List Pass → RunState × List PassOut
  | s, [] => (s, [])
  | s, i :: is =>
    match runPass s i with
    | none => (s, [])
    | some (s', o) => ((runPasses s' is).1, o :: (runPasses s' is).2)

end PyLisp
