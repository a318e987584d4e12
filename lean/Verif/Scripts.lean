import Verif.Lispd
/-
Model of the command line tools
  scripts/map_resolve, scripts/ddt_query, scripts/map_register
What the resolver (`getaddrinfo`), the random generator and the sockets do is input.  What is printed
is represented by the message printed.
-/
namespace PyLisp

/-! ### The messages -/

/-- map_resolve:18-21, ddt_query:17-22: the unspecified address of the family of the query -/
def querySource (q : IP) : IP :=
  match q.ver with
  | .v4 => ⟨.v4, 0, by decide⟩
  | .v6 => ⟨.v6, 0, by decide⟩

/-- map_resolve:39-42, ddt_query:37-40 -/
def queryRequest (q rloc : IP) (nonce : Bytes) : MapRequest :=
  { nonce := nonce, sourceEid := .ip (querySource q), itrRlocs := [.ip rloc], eidPrefixes := [.ip q] }

/-- map_resolve:43-62 (`ddt` = false), ddt_query:41-62 (`ddt` = true): the Map-Request in UDP in IP in an
ECM -/
def queryEcm (ddt : Bool) (q rloc : IP) (sport : Int) (nonce : Bytes) : Except Err Pkt :=
  match udpChecksum { sport := sport, dport := 4342 } (.ctrl (.request (queryRequest q rloc nonce)))
      (some (querySource q)) (some q) with
  | .error e => .error e
  | .ok c =>
    .ok (.ecm { ddtOriginated := ddt } (match q.ver with
      | .v4 => .ipv4 { ttl := 64, src := some (querySource q), dst := some q, nextHeader := 17 }
          (.udp { sport := sport, dport := 4342, cksum := c } (.ctrl (.request (queryRequest q rloc nonce))))
      | .v6 => .ipv6 { hopLimit := 64, src := some (querySource q), dst := some q, nextHeader := 17 }
          (.udp { sport := sport, dport := 4342, cksum := c } (.ctrl (.request (queryRequest q rloc nonce))))))

/-- map_resolve:68, ddt_query:69: what is sent -/
def queryDatagram (ddt : Bool) (q rloc : IP) (sport : Int) (nonce : Bytes) : Except Err Bytes :=
  match queryEcm ddt q rloc sport nonce with
  | .error e => .error e
  | .ok p => p.toBytes

/-- map_register:36-43: the record that is registered -/
def toolRecord : Record :=
  { ttl := 1440, authoritative := true, eid := .net ⟨.v4, 0x254d3e00, 24, by decide, by decide, by decide⟩,
    locators := [{ priority := 1, weight := 100, isLocal := true, reachable := true,
                   address := .ip ⟨.v4, 0x7f000001, by decide⟩ }] }

/-- map_register:44-48: the message before `insert_authentication_data` -/
def toolRegister (nonce : Bytes) : MapRegister :=
  { proxyMapReply := true, wantMapNotify := false, nonce := nonce, keyId := 1, records := [toolRecord] }

/-- map_register:49: the bytes of the key 'testje' -/
def toolKey : Bytes := [0x74, 0x65, 0x73, 0x74, 0x6a, 0x65]

/-- map_register:44-54: what is sent -/
def registerDatagram (H : Mac) (nonce : Bytes) : Except Err Bytes :=
  match (toolRegister nonce).insert H toolKey with
  | .error e => .error e
  | .ok m => m.toBytes

/-! ### The loops -/

/-- what the sockets do in one try: an error before anything is sent, an error after that (such as a
timeout), or an answer -/
inductive TryOutcome
  | unsent
  | noAnswer
  | answer (d : Bytes)

/-- what a run of a tool comes to: the datagrams sent (with destination and source), the answers shown, and the
exception it ends with, if any -/
structure ToolRun where
  sent : List (Bytes × IP × IP) := []
  shown : List Pkt := []
  ended : Option Err := none

/-- map_resolve:26-32, ddt_query:28-34, map_register:23-31: the pairs of addresses that are tried -/
def tries (dests : List IP) (sources : IP → List IP) : List (IP × IP) :=
  dests.flatMap fun d => (sources d).map fun s => (d, s)

/-- map_resolve:29-75, ddt_query:31-74, map_register:28-62: the loop.  `build` makes the datagram for a
source address; `after` is what is done with an answer after it is printed. -/
def toolLoop (build : IP → Except Err Bytes) (after : Pkt → Except Err Unit)
    (outcome : IP × IP → TryOutcome) : List (IP × IP) → ToolRun
  | [] => {}
  | t :: ts =>
    match build t.2 with
    | .error e => { ended := some e }
    | .ok b =>
      match outcome t with
      | .unsent => toolLoop build after outcome ts
      | .noAnswer =>
        { toolLoop build after outcome ts with
          sent := (b, t) :: (toolLoop build after outcome ts).sent }
      | .answer d =>
        match Pkt.fromBytes .control d with
        | .error e => { sent := [(b, t)], ended := some e }
        | .ok p =>
          match after p with
          | .error e => { sent := [(b, t)], shown := [p], ended := some e }
          | .ok () =>
            { sent := (b, t) :: (toolLoop build after outcome ts).sent,
              shown := p :: (toolLoop build after outcome ts).shown,
              ended := (toolLoop build after outcome ts).ended }

/-- map_resolve:72, map_register:59 `response.nonce`: an encapsulated message has no nonce -/
def nonceOf : Pkt → Except Err Unit
  | .ecm _ _ => .error .attr
  | _ => .ok ()

/-- scripts/map_resolve -/
def mapResolve (q : IP) (sport : Int) (nonce : Bytes) (dests : List IP) (sources : IP → List IP)
    (outcome : IP × IP → TryOutcome) : ToolRun :=
  toolLoop (fun s => queryDatagram false q s sport nonce) nonceOf outcome (tries dests sources)

/-- scripts/ddt_query -/
def ddtQuery (q : IP) (nonce : Bytes) (dests : List IP) (sources : IP → List IP)
    (outcome : IP × IP → TryOutcome) : ToolRun :=
  toolLoop (fun s => queryDatagram true q s 4342 nonce) (fun _ => .ok ()) outcome (tries dests sources)

/-- scripts/map_register -/
def mapRegisterTool (H : Mac) (nonce : Bytes) (dests : List IP) (sources : IP → List IP)
    (outcome : IP × IP → TryOutcome) : ToolRun :=
  toolLoop (fun _ => registerDatagram H nonce) nonceOf outcome (tries dests sources)

end PyLisp
