import Verif.Addr
/-
Model of
  pylisp/application/lispd/send_message.py
  pylisp/utils/auto_addresses.py
  pylisp/utils/auto_socket.py
The operating system is an oracle: what `sendto`, `bind` and `netifaces` do is input.
-/
namespace PyLisp

/-! ### send_message.py -/

/-- a socket as `send_message` sees it: `id` is its identity, `name` what `getsockname()[0]` gives -/
structure Sock where
  id : Nat
  family : Ver
  name : IP
  deriving DecidableEq

/-- `ip_address(unicode(x))` for an address object.  Only plain addresses, and addresses in an
LCAF instance address with instance id 0 (whose text is that of the address,
instance_address.py:23-27), have the text of an IP address; any other text is a ValueError, and making
the text of something with a nonempty AFI list in it raises TypeError (afi_list_address.py:21-22). -/
def Addr.asIP : Addr → Except Err IP
  | .ip a => .ok a
  | .inst iid a _ => if iid = 0 then a.asIP else .error a.noNetwork
  | a => .error a.noNetwork

/-- send_message.py:15-25 `find_matching_sockets` -/
def matchingSockets (d : IP) (socks : List Sock) : List Sock := socks.filter fun s => s.family = d.ver

/-- send_message.py:38-48: the inner loop, for one destination.  `data` is `bytes(message)` (which
may raise), `sendto n` what the n-th call of `sendto` returns or raises; the result is the list of
`sendto` calls made and what the loop returns (`none`: it falls through) or raises. -/
def trySockets (data : Except Err Bytes) (sendto : Nat → Except Err Nat) (d : IP) :
    Nat → List Sock → List (Sock × IP) × Except Err (Option (Sock × IP))
  | _, [] => ([], .ok none)
  | n, s :: ss =>
    match data with
    | .error e => ([], .error e)
    | .ok b =>
      match sendto n with
      | .error e => ([(s, d)], .error e)
      | .ok k =>
        if k = b.length then ([(s, d)], .ok (some (s, d)))
        else ((s, d) :: (trySockets data sendto d (n + 1) ss).1, (trySockets data sendto d (n + 1) ss).2)

/-- send_message.py:34-50 `send_message`: the `sendto` calls made, and the socket and destination
returned, `none` for `(None, None)`, or the exception raised.  (The port is the same for all calls.) -/
def sendMessage (data : Except Err Bytes) (socks : List Sock) (sendto : Nat → Except Err Nat) :
    Nat → List Addr → List (Sock × IP) × Except Err (Option (Sock × IP))
  | _, [] => ([], .ok none)
  | n, a :: as =>
    match a.asIP with
    | .error e => ([], .error e)
    | .ok d =>
      match trySockets data sendto d n (matchingSockets d socks) with
      | (log, .ok none) =>
        (log ++ (sendMessage data socks sendto (n + log.length) as).1,
          (sendMessage data socks sendto (n + log.length) as).2)
      | (log, r) => (log, r)

/-! ### Address classes of the ipaddress library -/

/-- `IPv4Network`, for literals -/
def mkNet4 (base plen : Nat) (h1 : plen ≤ 32 := by decide) (h2 : base < 2 ^ 32 := by decide)
    (h3 : base % 2 ^ (32 - plen) = 0 := by decide) : Net := ⟨.v4, base, plen, h1, h2, h3⟩
/-- `IPv6Network`, for literals -/
def mkNet6 (base plen : Nat) (h1 : plen ≤ 128 := by decide) (h2 : base < 2 ^ 128 := by decide)
    (h3 : base % 2 ^ (128 - plen) = 0 := by decide) : Net := ⟨.v6, base, plen, h1, h2, h3⟩

/-- library: `is_link_local`: 169.254.0.0/16, fe80::/10 -/
def IP.isLinkLocal (a : IP) : Bool :=
  (mkNet4 0xa9fe0000 16).containsIP a || (mkNet6 0xfe800000000000000000000000000000 10).containsIP a

/-- library: `is_loopback`: 127.0.0.0/8, ::1 -/
def IP.isLoopback (a : IP) : Bool :=
  (mkNet4 0x7f000000 8).containsIP a || (mkNet6 1 128).containsIP a

/-- library: `is_multicast`: 224.0.0.0/4, ff00::/8 -/
def IP.isMulticast (a : IP) : Bool :=
  (mkNet4 0xe0000000 4).containsIP a || (mkNet6 0xff000000000000000000000000000000 8).containsIP a

/-- library: the reserved networks: 240.0.0.0/4; ::/8, 100::/8, 200::/7, 400::/6, 800::/5, 1000::/4,
4000::/3, 6000::/3, 8000::/3, a000::/3, c000::/3, e000::/4, f000::/5, f800::/6, fe00::/9 -/
def reservedNets : List Net :=
  [mkNet4 0xf0000000 4, mkNet6 0 8, mkNet6 0x01000000000000000000000000000000 8,
   mkNet6 0x02000000000000000000000000000000 7, mkNet6 0x04000000000000000000000000000000 6,
   mkNet6 0x08000000000000000000000000000000 5, mkNet6 0x10000000000000000000000000000000 4,
   mkNet6 0x40000000000000000000000000000000 3, mkNet6 0x60000000000000000000000000000000 3,
   mkNet6 0x80000000000000000000000000000000 3, mkNet6 0xa0000000000000000000000000000000 3,
   mkNet6 0xc0000000000000000000000000000000 3, mkNet6 0xe0000000000000000000000000000000 4,
   mkNet6 0xf0000000000000000000000000000000 5, mkNet6 0xf8000000000000000000000000000000 6,
   mkNet6 0xfe000000000000000000000000000000 9]

/-- library: `is_reserved` -/
def IP.isReserved (a : IP) : Bool := reservedNets.any fun n => n.containsIP a

/-- library: `is_unspecified` -/
def IP.isUnspecified (a : IP) : Bool := a.val = 0

/-! ### auto_addresses.py -/

/-- auto_addresses.py:86-90 -/
def autoSuitable (a : IP) : Bool :=
  !(a.isLinkLocal || a.isLoopback || a.isMulticast || a.isReserved || a.isUnspecified)

/-- auto_addresses.py:76-93: the loop over the addresses of the interface; `none` is an entry whose
text is not an address (ValueError) or that has no address at all (KeyError) -/
def pickAddress : List (Option IP) → Nat
  | [] => 0
  | none :: _ => 0
  | some a :: l => if autoSuitable a = true then a.val else pickAddress l

/-- auto_addresses.py:70-98; `none` is a ValueError or KeyError of netifaces (no such interface, or
no addresses of the family) -/
def chooseAddress (interface : Option (List (Option IP))) : Nat :=
  match interface with
  | none => 0
  | some l => pickAddress l

/-- auto_addresses.py:33-48: the mutable part of an AutoAddress: its current number, and its
observers in the order in which the WeakSet lists them -/
structure AutoAddr (ω : Type) where
  ip : Nat
  targets : List ω

/-- auto_addresses.py:67-114 `update_address` and 60-65 `_send_notifications`: the new state and the
observers called, in order (an exception of one is swallowed and the next is called) -/
def AutoAddr.update (a : AutoAddr ω) (interface : Option (List (Option IP))) :
    AutoAddr ω × List ω :=
  if a.ip = chooseAddress interface then (a, [])
  else ({ a with ip := chooseAddress interface }, a.targets)

/-- auto_addresses.py:124-126, 136-138, 36-48: a new automatic address: it starts as 0 and updates
itself at once (there are no observers yet) -/
def AutoAddr.new (interface : Option (List (Option IP))) : AutoAddr ω :=
  ((⟨0, []⟩ : AutoAddr ω).update interface).1

/-- auto_addresses.py:57-58 `add_notify_target` (a set) -/
def AutoAddr.addTarget [DecidableEq ω] (a : AutoAddr ω) (t : ω) : AutoAddr ω :=
  if t ∈ a.targets then a else { a with targets := t :: a.targets }

/-- an automatic address object: its interface, its family, its current number, and whether it is in
`_all_auto_addresses` (auto_addresses.py:21) -/
structure AutoObj where
  id : Nat
  ifName : String
  ver : Ver
  ip : Nat
  registered : Bool
  deriving DecidableEq

/-- what netifaces finds on the interfaces, per name and family -/
abbrev Interfaces := String → Ver → Option (List (Option IP))

/-- what can happen to the automatic addresses of the process -/
inductive AutoEvent
  /-- auto_addresses.py:36-48, 124-126, 136-138: a new object is made -/
  | create (id : Nat) (ifName : String) (ver : Ver) (env : Interfaces)
  /-- the last reference to an object is dropped -/
  | drop (id : Nat)
  /-- auto_addresses.py:24-30 `update_addresses` -/
  | updateAll (env : Interfaces)

/-- auto_addresses.py:67-114 on an object -/
def AutoObj.refresh (env : Interfaces) (o : AutoObj) : AutoObj :=
  { o with ip := chooseAddress (env o.ifName o.ver) }

/-- auto_addresses.py:43-45: `_all_auto_addresses.add(self)` does nothing when the set has an equal
element: the hash is that of the interface name (53-55), equality that of the ipaddress library:
same version and same number; the number of the new object is 0 at this point (124-126).  (Two
interface names with the same hash are not considered.) -/
def AutoObj.admitted (objs : List AutoObj) (ifName : String) (ver : Ver) : Bool :=
  !objs.any fun o => o.registered && o.ifName = ifName && o.ver = ver && o.ip = 0

/-- one event -/
def autoStep (objs : List AutoObj) : AutoEvent → List AutoObj
  | .create id ifName ver env =>
    objs ++ [AutoObj.refresh env ⟨id, ifName, ver, 0, AutoObj.admitted objs ifName ver⟩]
  | .drop id => objs.filter fun o => o.id ≠ id
  | .updateAll env => objs.map fun o => if o.registered = true then o.refresh env else o

/-! ### auto_socket.py -/

/-- auto_socket.py:10-28: `address` is the current value of the (possibly automatic) address, `sock`
the handle in `_sock`, `sockAddress` the number in `_sock_address`; `handles` are the operating
system sockets this object has opened and not closed, `next` the number of the next one -/
structure AutoSock where
  family : Ver
  address : IP
  sock : Option Nat
  sockAddress : Nat
  handles : List Nat
  next : Nat

/-- auto_socket.py:59-63 -/
def bindable (a : IP) : Bool := !(a.isLoopback || a.isLinkLocal || a.isMulticast || a.isUnspecified)

/-- what happens at auto_socket.py:66-69 -/
inductive BindOutcome
  /-- `socket.socket` raises socket.error -/
  | noSocket
  /-- one of the calls on the new socket raises socket.error -/
  | noBind
  | bound

/-- `if self._sock is not None: self._sock.close(); self._sock = None` (auto_socket.py:51-54 and
81-84) -/
def AutoSock.release (s : AutoSock) : AutoSock :=
  match s.sock with
  | none => s
  | some h => { s with sock := none, handles := s.handles.filter (· ≠ h) }

/-- auto_socket.py:65-77: a new socket, if the operating system gives one -/
def AutoSock.openNew (s : AutoSock) : AutoSock :=
  { s with sock := some s.next, handles := s.next :: s.handles, next := s.next + 1 }

/-- auto_socket.py:81-89: back to no socket and the zero address; False -/
def AutoSock.reset (s : AutoSock) : AutoSock × Bool := ({ s.release with sockAddress := 0 }, false)

/-- auto_socket.py:37-89 `rebind`: the new state and the result -/
def AutoSock.rebind (s : AutoSock) (o : BindOutcome) : AutoSock × Bool :=
  if s.address.val = s.sockAddress then (s, s.sock.isSome)
  else if bindable s.address = true then
    match o with
    | .noSocket => AutoSock.reset { s.release with sockAddress := 0 }
    | .noBind => AutoSock.reset ({ s.release with sockAddress := 0 }).openNew
    | .bound => ({ ({ s.release with sockAddress := 0 }).openNew with sockAddress := s.address.val }, true)
  else AutoSock.reset { s.release with sockAddress := 0 }

/-- auto_socket.py:11-24: a new AutoUDPSocket -/
def AutoSock.new (address : IP) (o : BindOutcome) : AutoSock :=
  (AutoSock.rebind ⟨address.ver, address, none, 0, [], 0⟩ o).1

/-- auto_socket.py:112-124 `sendto`: `os` is what the operating system's `sendto` on a handle
returns or raises -/
def AutoSock.sendto (s : AutoSock) (os : Nat → Except Err Nat) : Except Err Nat :=
  match s.sock with
  | none => .ok 0
  | some h => os h

/-- the address of a sender as Python 2's sockets report it: text, with `%` and the name of the interface appended for
an IPv6 link-local sender -/
structure Peer where
  addr : IP
  zone : Bool := false

/-- auto_socket.py:97-110 `recvfrom`: `ok none` stands for the empty response; `os` is what the operating system's
`recvfrom` returns, `none` for socket.error.  `ip_address` (104) does not accept a text with `%`: ValueError, which is
not a socket.error. -/
def AutoSock.recvfrom (s : AutoSock) (os : Nat → Option (Bytes × Peer × Nat)) :
    Except Err (Option (Bytes × IP × Nat)) :=
  match s.sock with
  | none => .ok none
  | some h =>
    match os h with
    | none => .ok none
    | some (d, p, port) => if p.zone = true then .error .value else .ok (some (d, p.addr, port))

/-- auto_socket.py:91-95 `fileno` -/
def AutoSock.fileno (s : AutoSock) : Option Nat := s.sock

/-- what can happen to an AutoUDPSocket: its automatic address changes (the family does not), or it
is told to rebind -/
inductive SockEvent
  | change (v : Nat)
  | rebind (o : BindOutcome)

/-- auto_socket.py:33-89 as the reaction to one event -/
def AutoSock.step (s : AutoSock) : SockEvent → AutoSock
  | .change v => if h : v < 2 ^ s.family.width then { s with address := ⟨s.family, v, h⟩ } else s
  | .rebind o => (s.rebind o).1

end PyLisp
