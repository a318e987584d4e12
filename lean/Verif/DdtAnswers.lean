import Verif.Lispd
/-
The functions of address_tree/ddt_referral_node.py that send one kind of Map-Referral each
(ddt_referral_node.py:81-185).  Of these the daemon itself only reaches `send_not_authoritative` (C49);
the others can be called by any program.
-/
namespace PyLisp

/-- a call of one of the functions, with its arguments other than the received message: `send_referral`
(ddt_referral_node.py:95; the addresses of the tree node), `send_delegation_hole` (116),
`send_not_authoritative` (130), `send_ms_ack` (144) and `send_ms_not_registered` (166).  An argument
`other_map_servers` of None is the empty list (147, 169). -/
inductive DdtHelper
  | referral (nodes : List IP)
  | delegationHole
  | notAuthoritative
  | msAck (pfx : Net) (others : List IP)
  | msNotRegistered (pfx : Net) (others : List IP)

/-- `map_request.eid_prefixes[0]` (ddt_referral_node.py:110, 125, 139) -/
def firstEid (m : MapRequest) : Except Err Addr :=
  match m.eidPrefixes with
  | [] => .error .index
  | e :: _ => .ok e

/-- ddt_referral_node.py:100-111 (`send_referral`): the locators are made before the EID is looked at -/
def referralRecord (nodes : List IP) (m : MapRequest) : Except Err RefRecord :=
  match ddtLocators nodes with
  | .error e => .error e
  | .ok ls =>
    match firstEid m with
    | .error e => .error e
    | .ok e => .ok { ttl := 1440, action := 0, authoritative := true, eid := e, locators := ls }

/-- ddt_referral_node.py:122-125 (`send_delegation_hole`) -/
def delegationHoleRecord (m : MapRequest) : Except Err RefRecord :=
  match firstEid m with
  | .error e => .error e
  | .ok e => .ok { ttl := 15, action := 4, authoritative := true, eid := e }

/-- ddt_referral_node.py:136-139 (`send_not_authoritative`) -/
def notAuthoritativeRecord (m : MapRequest) : Except Err RefRecord :=
  match firstEid m with
  | .error e => .error e
  | .ok e => .ok (notAuthoritative e)

/-- ddt_referral_node.py:147-161 (`send_ms_ack`): the action is that of MS-NOT-REGISTERED (158) -/
def msAckRecord (pfx : Net) (others : List IP) : Except Err RefRecord :=
  match ddtLocators others with
  | .error e => .error e
  | .ok ls => .ok { ttl := 1440, action := 3, incomplete := ls.isEmpty, eid := .net pfx, locators := ls }

/-- the record each function makes (ddt_referral_node.py:95-185) -/
def DdtHelper.record (m : MapRequest) : DdtHelper → Except Err RefRecord
  | .referral nodes => referralRecord nodes m
  | .delegationHole => delegationHoleRecord m
  | .notAuthoritative => notAuthoritativeRecord m
  | .msAck pfx others => msAckRecord pfx others
  | .msNotRegistered pfx others => PyLisp.msNotRegistered pfx others

/-- a `sendto` call: the socket, the address and port, and the data -/
structure Datagram where
  socket : Sock
  to : IP
  port : Int
  data : Bytes

/-- ddt_referral_node.py:81-92 `send_answer`, called by each function: the `sendto` calls made and the
exception raised, if any; `sendto` as in `sendMessage` -/
def sendAnswer (m : MapRequest) (source : IP) (port : Int) (socket : Sock) (sendto : Nat → Except Err Nat)
    (r : RefRecord) : List Datagram × Option Err :=
  match MapReferral.toBytes { nonce := m.nonce, records := [r] } with
  | .error e => ([], errOf (sendMessage (.error e) [socket] sendto 0 [.ip source]).2)
  | .ok d =>
    ((sendMessage (.ok d) [socket] sendto 0 [.ip source]).1.map fun c => ⟨c.1, c.2, port, d⟩,
      errOf (sendMessage (.ok d) [socket] sendto 0 [.ip source]).2)

/-- a call of one of the functions (ddt_referral_node.py:95-185), for a Map-Request `m` received over
`socket` from `source` and `port` -/
def DdtHelper.send (h : DdtHelper) (m : MapRequest) (source : IP) (port : Int) (socket : Sock)
    (sendto : Nat → Except Err Nat) : List Datagram × Option Err :=
  match h.record m with
  | .error e => ([], some e)
  | .ok r => sendAnswer m source port socket sendto r

end PyLisp
