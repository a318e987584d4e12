import Verif.NetIO
/-
AutoUDPSockets (utils/auto_socket.py) under concurrency.  The address of a socket changes, and the socket is rebound,
in the main thread (scripts/lispd:324-326, auto_addresses.py:60-65); the registration threads of the ETRs send through
the same socket (etr_node.py:77, 138, 174) without any lock.  Each step below is one access to shared state.
-/
namespace PyLisp

/-- what the operating system has bound a UDP socket to: nothing yet, a free port of its own choice (when a datagram is
sent through a socket that is not bound), or an address and the port of the AutoUDPSocket -/
inductive OsSock
  | fresh
  | auto
  | bound (a : IP)

/-- library: sending a datagram binds an unbound socket to a free port -/
def OsSock.used : OsSock → OsSock
  | .fresh => .auto
  | o => o

/-- a Python socket object.  After `close`, its `sendto` is a function that raises socket.error; a thread that has got
hold of `sendto` before goes on with the operating system's socket, which lives until then. -/
structure SockObj where
  closed : Bool := false
  os : OsSock := .fresh

/-- where the main thread is in auto_socket.py:37-89 `rebind`; the last three are lines 81-87 -/
inductive MainPc
  | idle | check | close | clear | zero | create | bind | store | failClose | failClear | failZero
  deriving DecidableEq

/-- what a call of `sendto` comes to -/
inductive SendResult
  | ret (n : Nat)
  | socketError
  | attributeError
  deriving DecidableEq

/-- where a thread is in auto_socket.py:112-124 `sendto` -/
inductive SendPc
  | idle
  /-- past `if self._sock is None` (119) -/
  | checked
  /-- has read `self._sock` in line 124 -/
  | loaded (h : Nat)
  /-- has read its `sendto` -/
  | called (h : Nat)
  | done (r : SendResult)

/-- what the operating system makes of a `sendto`: sent, or an error, which may come after an unbound socket has been
bound -/
inductive SendOutcome
  | sent (n : Nat)
  | refused (used : Bool)

/-- an AutoUDPSocket with its address, all socket objects it has made, the threads that use it, and the datagrams sent
through it so far (newest first) with what their socket was bound to -/
structure RaceSt where
  address : IP
  sock : Option Nat
  sockAddress : Nat
  socks : Nat → SockObj
  next : Nat
  main : MainPc
  thread : Nat → SendPc
  sent : List (Nat × OsSock)

/-- auto_socket.py:11-24: about to bind for the first time -/
def RaceSt.new (a : IP) : RaceSt := ⟨a, none, 0, fun _ => {}, 0, .check, fun _ => .idle, []⟩

/-- the state of an operating system socket changes (auto_socket.py:37-89) -/
def RaceSt.setSock (s : RaceSt) (h : Nat) (o : SockObj) : RaceSt :=
  { s with socks := fun i => if i = h then o else s.socks i }

/-- a sending thread moves on (auto_socket.py:112-124) -/
def RaceSt.setThread (s : RaceSt) (t : Nat) (p : SendPc) : RaceSt :=
  { s with thread := fun i => if i = t then p else s.thread i }

/-- `self._sock.close()` (auto_socket.py:53, 83) -/
def RaceSt.closeSock (s : RaceSt) (h : Nat) : RaceSt := s.setSock h { s.socks h with closed := true }

/-- a datagram of thread `t` through socket `h` -/
def RaceSt.useSock (s : RaceSt) (h : Nat) : RaceSt := s.setSock h { s.socks h with os := (s.socks h).os.used }

/-- auto_addresses.py:111-114: the address (of the same family) gets a new value, then `on_address_change` calls
`rebind` (auto_socket.py:33-35) -/
def RaceSt.change (s : RaceSt) (v : IP) : RaceSt :=
  if s.main = .idle ∧ v.ver = s.address.ver ∧ v.val ≠ s.address.val then { s with address := v, main := .check } else s

/-- the next step of `rebind` in the main thread (auto_socket.py:37-89); `o` is what the operating system makes of it,
if it is asked.  The two `setsockopt` (67-68) are taken together with `bind` (69).  Binding a socket that is bound
already fails. -/
def RaceSt.mainStep (s : RaceSt) (o : BindOutcome) : RaceSt :=
  match s.main with
  | .idle => s
  | .check => { s with main := if s.address.val = s.sockAddress then .idle else .close }
  | .close =>
    match s.sock with
    | none => { s with main := .zero }
    | some h => { s.closeSock h with main := .clear }
  | .clear => { s with sock := none, main := .zero }
  | .zero => { s with sockAddress := 0, main := .create }
  | .create =>
    if bindable s.address = true then
      match o with
      | .noSocket => { s with main := .failClose }
      | _ => { s.setSock s.next {} with sock := some s.next, next := s.next + 1, main := .bind }
    else { s with main := .failClose }
  | .bind =>
    match s.sock with
    | none => { s with main := .failClose }
    | some h =>
      match (s.socks h).os, o with
      | .fresh, .bound => { s.setSock h { s.socks h with os := .bound s.address } with main := .store }
      | _, _ => { s with main := .failClose }
  | .store => { s with sockAddress := s.address.val, main := .idle }
  | .failClose =>
    match s.sock with
    | none => { s with main := .failZero }
    | some h => { s.closeSock h with main := .failClear }
  | .failClear => { s with sock := none, main := .failZero }
  | .failZero => { s with sockAddress := 0, main := .idle }

/-- the next step of `sendto` (auto_socket.py:112-124) in thread `t`, which starts a new call if it is not in one -/
def RaceSt.sendStep (s : RaceSt) (t : Nat) (o : SendOutcome) : RaceSt :=
  match s.thread t with
  | .checked =>
    match s.sock with
    | none => s.setThread t (.done .attributeError)
    | some h => s.setThread t (.loaded h)
  | .loaded h => s.setThread t (if (s.socks h).closed = true then .done .socketError else .called h)
  | .called h =>
    match o with
    | .sent n => { (s.useSock h).setThread t (.done (.ret n)) with sent := (t, (s.socks h).os.used) :: s.sent }
    | .refused true => (s.useSock h).setThread t (.done .socketError)
    | .refused false => s.setThread t (.done .socketError)
  | _ => s.setThread t (if s.sock.isNone = true then .done (.ret 0) else .checked)

/-- what can happen -/
inductive RaceEvent
  | change (v : IP)
  | main (o : BindOutcome)
  | send (t : Nat) (o : SendOutcome)

/-- one step of the main thread (auto_socket.py:33-89), of a sending thread (112-124), or a change of the address -/
def RaceSt.step (s : RaceSt) : RaceEvent → RaceSt
  | .change v => s.change v
  | .main o => s.mainStep o
  | .send t o => s.sendStep t o

/-- the steps of all threads (auto_socket.py:33-89, 112-124) in the order of a schedule -/
def RaceSt.run (s : RaceSt) (l : List RaceEvent) : RaceSt := l.foldl RaceSt.step s

end PyLisp
