import Verif.Etr
/-
`ETRNode.get_etr_locators` (etr_node.py:563-604) in a registration thread, while the main thread changes automatic
addresses (auto_addresses.py:111-113, after SIGHUP).  The thread reads the addresses of the locators and of the sockets
one by one, without a lock.  All the main thread does meanwhile is to store new numbers in the addresses, so a schedule
is described by what the automatic addresses are at each of the reads: `mem k i` is the value of the automatic address
`i` at the `k`-th read; any number of changes may happen between two reads.
-/
namespace PyLisp

/-- an address: a fixed one, or an AutoAddress object (auto_addresses.py:32-48) -/
inductive IpRef
  | fixed (a : IP)
  | auto (i : Nat)

/-- what it is at the moment -/
def IpRef.at (m : Nat → IP) : IpRef → IP
  | .fixed a => a
  | .auto i => m i

/-- a configured locator: its address is the one in `base`, or an automatic one -/
structure EtrLocator where
  base : Locator
  cell : Option Nat := none

/-- what it is at the moment -/
def EtrLocator.now (l : EtrLocator) (m : Nat → IP) : Locator :=
  match l.cell with
  | none => l.base
  | some i => { l.base with address := .ip (m i) }

/-- `int(locator.address)` for an IP address -/
def EtrLocator.val (l : EtrLocator) (m : Nat → IP) : Nat :=
  match (l.now m).address with
  | .ip a => a.val
  | _ => 0

/-- etr_node.py:576-580: for each socket its address is read, then that of the locator; also the number of the next
read -/
def localAt (mem : Nat → Nat → IP) (l : EtrLocator) : Nat → List IpRef → Bool × Nat
  | k, [] => (false, k)
  | k, s :: ss => if (s.at (mem k)).val = l.val (mem (k + 1)) then (true, k + 2) else localAt mem l (k + 2) ss

/-- etr_node.py:570-602: the loop over the locators, as `locatorLoop`; the address of a locator is read at 572, again
for each socket, and again at 602 -/
def locatorLoopAt (mem : Nat → Nat → IP) (sockets : List IpRef) (rtrs : List Addr) :
    List EtrLocator → Bool → List Locator → Nat → Except Err (List Locator)
  | [], _, acc, _ => .ok acc
  | l :: ls, included, acc, k =>
    match (l.now (mem k)).address with
    | .ip a =>
      if a.val = 0 then locatorLoopAt mem sockets rtrs ls included acc (k + 1)
      else if (localAt mem l (k + 1) sockets).1 = true ∧ rtrs ≠ [] then
        locatorLoopAt mem sockets rtrs ls true
          (if included = true then acc
           else rtrs.foldl (fun acc r => addNew acc (copyLocator l.base false r)) acc)
          (localAt mem l (k + 1) sockets).2
      else locatorLoopAt mem sockets rtrs ls included
        (addNew acc (copyLocator l.base (localAt mem l (k + 1) sockets).1
          (l.now (mem (localAt mem l (k + 1) sockets).2)).address)) ((localAt mem l (k + 1) sockets).2 + 1)
    | _ => .error .type

/-- etr_node.py:563-604 `get_etr_locators`; the RTRs are read at once (`dict.values()`, 556), and the sets of RTRs are
never changed, only replaced (548) -/
def getEtrLocatorsAt (mem : Nat → Nat → IP) (s : EtrState) (locators : List EtrLocator) (sockets : List IpRef)
    (tentative : List Addr) : Except Err (List Locator) :=
  match getRtrs s with
  | .error e => .error e
  | .ok rs => locatorLoopAt mem sockets (tentative.foldl addNew (rs.map .ip)) locators false [] 0

end PyLisp
