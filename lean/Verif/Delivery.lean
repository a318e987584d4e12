import Verif.AutoCache
/-
AutoUDPSockets on automatic addresses over time (utils/auto_socket.py:26-35 with utils/auto_addresses.py:60-114), the
socket left over from loading lispd (application/lispd/address_tree/map_server_node.py:182), and which socket gets a
datagram.
-/
namespace PyLisp

/-- auto_addresses.py:67-114 `update_address` for the address of a socket, and through `_send_notifications` (60-65)
auto_socket.py:33-35 `on_address_change`: when the address has not changed nothing is done; otherwise the socket is
told to rebind, with the outcome `o` -/
def AutoSock.update (s : AutoSock) (interface : Option (List (Option IP))) (o : BindOutcome) : AutoSock :=
  if s.address.val = chooseAddress interface then s
  else ((s.step (.change (chooseAddress interface))).rebind o).1

/-- auto_addresses.py:124-126, 136-138, 36-48: the value of a new automatic address (0 where netifaces gives numbers
that are too big for the family, which it does not) -/
def autoValue (ver : Ver) (interface : Option (List (Option IP))) : IP :=
  if h : chooseAddress interface < 2 ^ ver.width then ⟨ver, chooseAddress interface, h⟩
  else ⟨ver, 0, Nat.two_pow_pos _⟩

/-- auto_socket.py:11-28 with an automatic address -/
def AutoSock.newOn (ver : Ver) (interface : Option (List (Option IP))) (o : BindOutcome) : AutoSock :=
  AutoSock.new (autoValue ver interface) o

/-- lispd's automatic addresses and the socket of the sample message `x` (map_server_node.py:182) -/
structure Loaded where
  auto : AutoCache
  left : AutoSock

/-- map_server_node.py:182-183: the first automatic address and its socket (port 4342), then the second address -/
def Loaded.new (e1 e2 : Interfaces) (o : BindOutcome) : Loaded :=
  ⟨loaded e1 e2, AutoSock.newOn .v4 (e1 "vlan2" .v4) o⟩

/-- an event of the automatic addresses, with what comes of binding the left-over socket.  Its address is in
`_all_auto_addresses` (auto_addresses.py:45: it was the first), so `update_addresses` (24-30) updates it. -/
def Loaded.step (st : Loaded) (ev : CacheEvent × BindOutcome) : Loaded :=
  match ev.1 with
  | .get name ver env => { st with auto := cacheStep st.auto (.get name ver env) }
  | .updateAll env =>
    { auto := cacheStep st.auto (.updateAll env), left := st.left.update (env "vlan2" .v4) ev.2 }

/-- an open UDP socket of the process: whether lispd reads it (scripts/lispd:278-280: the sockets made by
`create_sockets`, 68-79), and what it is bound to (auto_socket.py:66-72) -/
structure Bound where
  read : Bool
  ver : Ver
  num : Nat
  port : Nat
  deriving DecidableEq

/-- the socket of an AutoUDPSocket with the given port, if it is open -/
def boundTo (read : Bool) (s : AutoSock) (port : Nat) : List Bound :=
  match s.sock with
  | none => []
  | some _ => [⟨read, s.family, s.sockAddress, port⟩]

/-- the open sockets of lispd: those of `create_sockets` (scripts/lispd:68-79), given with their ports, and the
left-over one (map_server_node.py:182, port 4342) -/
def openSockets (own : List (AutoSock × Nat)) (left : AutoSock) : List Bound :=
  (own.flatMap fun p => boundTo true p.1 p.2) ++ boundTo false left 4342

end PyLisp
