import Verif.Tree
/-
Copies of tree nodes, and the set of addresses of a DDT referral node.
-/
namespace PyLisp

/-- container_node.py:16-21, 145-146 and authoritative_container_node.py:20-31: `copy` makes a new node of
the same class from the prefix and the children, added one after the other in the order in which the set
gives them (`order`).  The DDT nodes of an authoritative container are not passed on.  `newId` is the
identity of the new object.  The exception is the one the constructor raises, if any. -/
def copyContainer (auth : Option (List IP)) (newId : Nat) (pfx : Net) (order : List Node) :
    Except Err Node :=
  match newChildren pfx order with
  | (cs, none) => .ok (.cont (auth.map fun _ => []) newId pfx cs)
  | (_, some e) => .error e

/-- container_node.py:36-37 `__len__` -/
def containerLen (cs : List Node) : Nat := cs.length

/-- what is passed for an address: an address object, or something else (text, say), of which
`ip_address` makes the address given, or raises ValueError -/
inductive AddrArg
  | addr (a : IP)
  | other (parsed : Option IP)

/-- the calls on a DDT referral node -/
inductive RefOp
  | add (a : AddrArg)
  | discard (a : AddrArg)
  | remove (a : AddrArg)
  | update (l : List AddrArg)
  | clear

/-- `set.add` -/
def ipSetAdd (s : List IP) (a : IP) : List IP := if a ∈ s then s else a :: s

/-- `ip_address(x)` -/
def AddrArg.ipAddress : AddrArg → Except Err IP
  | .addr a => .ok a
  | .other (some a) => .ok a
  | .other none => .error .value

/-- ddt_referral_node.py:39-43 `add` -/
def refAdd (s : List IP) (a : AddrArg) : Except Err (List IP) := do
  let a ← a.ipAddress
  pure (ipSetAdd s a)

/-- ddt_referral_node.py:60-62 `update`: one after the other, up to the first exception -/
def refUpdate : List IP → List AddrArg → List IP × Option Err
  | s, [] => (s, none)
  | s, a :: l =>
    match refAdd s a with
    | .ok s' => refUpdate s' l
    | .error e => (s, some e)

/-- ddt_referral_node.py:48-49 `x in node`: only an address object equals an address of the set -/
def refContains (s : List IP) : AddrArg → Bool
  | .addr a => decide (a ∈ s)
  | .other _ => false

/-- ddt_referral_node.py:54-55 `discard` -/
def refDiscard (s : List IP) : AddrArg → List IP
  | .addr a => s.filter (· ≠ a)
  | .other _ => s

/-- one call (ddt_referral_node.py:39-62): the addresses afterwards, and the exception raised.  `remove` is
that of Python's sets: KeyError when the element is not there. -/
def RefOp.run (s : List IP) : RefOp → List IP × Option Err
  | .add a =>
    match refAdd s a with
    | .ok s' => (s', none)
    | .error e => (s, some e)
  | .discard a => (refDiscard s a, none)
  | .remove a => if refContains s a = true then (refDiscard s a, none) else (s, some .key)
  | .update l => refUpdate s l
  | .clear => ([], none)

/-- ddt_referral_node.py:23-28: a new node -/
def newReferral (l : List AddrArg) : List IP × Option Err := refUpdate [] l

/-- any sequence of calls -/
def runRefOps : List IP → List RefOp → List IP
  | s, [] => s
  | s, op :: ops => runRefOps (op.run s).1 ops

/-- ddt_referral_node.py:51-52 `copy`: made from the addresses in the order in which the set gives them -/
def copyReferral (order : List IP) : List IP × Option Err := newReferral (order.map .addr)

end PyLisp
