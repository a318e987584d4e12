import Verif.Etr
/-
The locators of an ETR as objects in a Python set (etr_node.py:466-516, locator_record.py:26-80):
membership goes by the hash an element had when it was put in, and then by identity or equality at
the time of the question.
-/
namespace PyLisp

/-- what the attribute `address` of a locator refers to.  `auto`: an automatic address, the number is
its identity (auto_addresses.py:33-55).  `other`: an LCAF address or None, which have no `__eq__` and
no `__hash__` of their own; the number is the identity -/
inductive AddrRef
  | plain (a : IP)
  | auto (id : Nat) (ifName : String)
  | other (id : Nat) (a : Addr)
  deriving DecidableEq

/-- locator_record.py:26-50: a locator object.  `attrs`: the attributes other than the address (its
own field `address` plays no role) -/
structure LocObj where
  attrs : Locator
  ref : AddrRef

/-- the hash functions of ipaddress, of str and of object; nothing is assumed about them -/
structure Hashes where
  ofIP : IP → Int
  ofName : String → Int
  ofId : Nat → Int

/-- the locator objects, the values that the automatic addresses have at the moment, and the set
`_locators` (etr_node.py:470) as the hashes and the objects in it, in the order in which Python goes
through it -/
structure LocWorld where
  obj : Nat → LocObj
  auto : Nat → IP
  entries : List (Int × Nat) := []

/-- `hash(address)`: auto_addresses.py:53-55 for an automatic address, else that of the class -/
def AddrRef.hash (H : Hashes) : AddrRef → Int
  | .plain a => H.ofIP a
  | .auto _ name => H.ofName name
  | .other id _ => H.ofId id

/-- the address at the moment -/
def LocWorld.addrOf (w : LocWorld) : AddrRef → Addr
  | .plain a => .ip a
  | .auto id _ => .ip (w.auto id)
  | .other _ a => a

/-- `address == address`: for ipaddress objects (automatic ones included) the values are compared, for
other objects the identities -/
def LocWorld.addrEq (w : LocWorld) : AddrRef → AddrRef → Bool
  | .other id _, .other id' _ => decide (id = id')
  | .other _ _, _ => false
  | _, .other _ _ => false
  | r, r' => decide (w.addrOf r = w.addrOf r')

/-- locator_record.py:52-62 `LocatorRecord.__eq__` -/
def LocWorld.locEq (w : LocWorld) (i j : Nat) : Bool :=
  let a := (w.obj i).attrs
  let b := (w.obj j).attrs
  decide (a.priority = b.priority) && decide (a.weight = b.weight) &&
  decide (a.mPriority = b.mPriority) && decide (a.mWeight = b.mWeight) &&
  decide (a.isLocal = b.isLocal) && decide (a.probed = b.probed) &&
  decide (a.reachable = b.reachable) && w.addrEq (w.obj i).ref (w.obj j).ref &&
  decide (a.reserved1 = b.reserved1)

/-- locator_record.py:67-69 `LocatorRecord.__hash__` -/
def LocWorld.hashOf (H : Hashes) (w : LocWorld) (i : Nat) : Int := (w.obj i).ref.hash H

/-- the comparison that a Python set makes between an entry and the object asked for -/
def LocWorld.hit (H : Hashes) (w : LocWorld) (i : Nat) (e : Int × Nat) : Bool :=
  decide (e.1 = w.hashOf H i) && (decide (e.2 = i) || w.locEq e.2 i)

/-- etr_node.py:500-510 `add_locator` -/
def LocWorld.add (H : Hashes) (w : LocWorld) (i : Nat) : LocWorld :=
  if w.entries.any (w.hit H i) then w
  else { w with entries := w.entries ++ [(w.hashOf H i, i)] }

/-- etr_node.py:512-514 `remove_locator`: `set.discard` takes out the first entry that compares as
equal, if there is one -/
def LocWorld.remove (H : Hashes) (w : LocWorld) (i : Nat) : LocWorld :=
  { w with entries := w.entries.eraseP (w.hit H i) }

/-- what can happen to the locators of an ETR.  `interface`: an automatic address takes another value;
`edit`: attributes other than the address are assigned to; `readdress`: the address attribute is;
`rehash`: Python orders the set anew -/
inductive LocEvent
  | add (i : Nat)
  | remove (i : Nat)
  | interface (id : Nat) (a : IP)
  | edit (i : Nat) (attrs : Locator)
  | readdress (i : Nat) (r : AddrRef)
  | rehash (es : List (Int × Nat))

/-- (a `rehash` that is not a reordering of the entries does not exist and changes nothing here) -/
def LocWorld.step (H : Hashes) (w : LocWorld) : LocEvent → LocWorld
  | .add i => w.add H i
  | .remove i => w.remove H i
  | .interface id a => { w with auto := fun k => if k = id then a else w.auto k }
  | .edit i attrs => { w with obj := fun k => if k = i then { w.obj i with attrs := attrs } else w.obj k }
  | .readdress i r => { w with obj := fun k => if k = i then { w.obj i with ref := r } else w.obj k }
  | .rehash es => if es.isPerm w.entries then { w with entries := es } else w

/-- what `get_etr_locators` (etr_node.py:563-604) goes through: the locators with the addresses they
have at the moment -/
def LocWorld.locators (w : LocWorld) : List Locator :=
  w.entries.map fun e => { (w.obj e.2).attrs with address := w.addrOf (w.obj e.2).ref }

end PyLisp
