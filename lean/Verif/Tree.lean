import Verif.IPAddr
/-
Model of pylisp/application/lispd/address_tree/{base,container_node,authoritative_container_node}.py
and of pylisp/application/lispd/utils/prefix.py.

`ContainerNode.children` is a Python set of objects compared by identity; it is a list of nodes here
(the list is the iteration order, which Python does not define: see `Reorder`), and `id` is the
object identity.  Objects are immutable trees: one node object used as a child of two containers is
not modelled.  Lookup arguments are networks: `ip_network(x)` of an address is its host network
(`IP.toNet`); what changes for other arguments is at `LookupArg`.
-/
namespace PyLisp

/-- `net[-1]` -/
def Net.last (n : Net) : IP where
  ver := n.ver
  val := n.base + (n.size - 1)
  lt := by
    have h1 := n.aligned
    have h2 := n.base_lt
    have h3 := n.size_pos
    have h4 : n.ver.width = (n.ver.width - n.plen) + n.plen := by have := n.plen_le; omega
    have h5 : 2 ^ n.ver.width = n.size * 2 ^ n.plen := by
      rw [Net.size, ← Nat.pow_add, ← h4]
    have h6 : n.base = n.size * (n.base / n.size) := by
      have := Nat.div_add_mod n.base n.size
      rw [show n.base % n.size = 0 from h1] at this; omega
    have h7 : n.base / n.size < 2 ^ n.plen := by
      rw [Nat.div_lt_iff_lt_mul h3, Nat.mul_comm, ← h5]; exact h2
    have h8 : n.size * (n.base / n.size + 1) ≤ n.size * 2 ^ n.plen := Nat.mul_le_mul_left _ h7
    rw [h5]
    rw [Nat.mul_add, Nat.mul_one, ← h6] at h8
    omega

/-- `a.overlaps(b)` of the ipaddress library: one of the four end points lies in the other network -/
def Net.overlaps (a b : Net) : Bool :=
  b.containsIP a.first || b.containsIP a.last || a.containsIP b.first || a.containsIP b.last

/-- `not a.overlaps(b) or a[0] > b[0] or a[-1] < b[-1]` is the test "`b` is not inside `a`" of
container_node.py:99-101 and 117-119; this is its negation.  (Only compared when the networks
overlap, so they are of the same version.) -/
def Net.covers (a b : Net) : Bool :=
  a.overlaps b && a.first.val ≤ b.first.val && b.last.val ≤ a.last.val

/-- the classes of leaf nodes (natively_forward_node.py, drop_node.py, ddt_referral_node.py:22-28,
map_server_node.py:110, etr_node.py); the DDT addresses are the state of a `DDTReferralNode` -/
inductive LeafKind
  | ddtReferral (nodes : List IP)
  | mapServer
  | etr
  | drop
  | nativelyForward
  deriving DecidableEq

/-- a node of the address tree.  `cont none` is a `ContainerNode` (container_node.py:15-21),
`cont (some ddt_nodes)` an `AuthContainerNode` (authoritative_container_node.py:15-30) -/
inductive Node
  | leaf (kind : LeafKind) (id : Nat) (pfx : Net)
  | cont (auth : Option (List IP)) (id : Nat) (pfx : Net) (children : List Node)

/-- `node.prefix` (address_tree/base.py:21) -/
def Node.pfx : Node → Net
  | .leaf _ _ p => p
  | .cont _ _ p _ => p

/-- `id(node)`: which object it is -/
def Node.id : Node → Nat
  | .leaf _ i _ => i
  | .cont _ i _ _ => i

/-- container_node.py:92-111 `find_all` -/
def findAll (pfx : Net) (children : List Node) (p : Net) : Except Err (List Node) :=
  if pfx.covers p = true then .ok (children.filter fun c => p.overlaps c.pfx)
  else .error .notMine

/-- container_node.py:57-78 `find_one` -/
def findOne (pfx : Net) (children : List Node) (p : Net) : Except Err (Option Node) :=
  match findAll pfx children p with
  | .error e => .error e
  | .ok [] => .ok none
  | .ok [m] =>
    if m.pfx.first.val ≤ p.first.val ∧ m.pfx.last.val ≥ p.last.val then .ok (some m) else .ok none
  | .ok (_ :: _ :: _) => .error .moreSpecifics

/-- container_node.py:80-90 `find_exact` -/
def findExact (pfx : Net) (children : List Node) (p : Net) : Except Err (Option Node) :=
  match findAll pfx children p with
  | .error e => .error e
  | .ok [m] => if m.pfx = p then .ok (some m) else .ok none
  | .ok _ => .ok none

theorem findOne_mem {pfx : Net} {cs : List Node} {p : Net} {m : Node}
    (h : findOne pfx cs p = .ok (some m)) : m ∈ cs := by
  unfold findOne at h
  split at h
  · cases h
  · cases h
  · rename_i m' hm
    split at h
    · cases h
      unfold findAll at hm
      split at hm
      · have hm := Except.ok.inj hm
        have : m ∈ cs.filter fun c => p.overlaps c.pfx := by rw [hm]; simp
        exact (List.mem_filter.mp this).1
      · cases hm
    · cases h
  · cases h

/-- container_node.py:39-52 `resolve_path` (leaf nodes have no such method; the case is never
reached from a container) -/
def Node.resolvePath (n : Node) (p : Net) : Except Err (List Node) :=
  match n with
  | .leaf k i q => .ok [.leaf k i q]
  | .cont a i pfx cs =>
    match h : findOne pfx cs p with
    | .error e => .error e
    | .ok none => .ok [.cont a i pfx cs]
    | .ok (some (.leaf k j q)) => .ok [.leaf k j q, .cont a i pfx cs]
    | .ok (some (.cont b j q ds)) =>
      match (Node.cont b j q ds).resolvePath p with
      | .error e => .error e
      | .ok l => .ok (l ++ [.cont a i pfx cs])
termination_by sizeOf n
decreasing_by
  have := List.sizeOf_lt_of_mem (findOne_mem h)
  simp_wf; simp at this; omega

/-- container_node.py:54-55 `resolve`: the first element of the path (never empty) -/
def Node.resolve (n : Node) (p : Net) : Except Err Node :=
  match n.resolvePath p with
  | .error e => .error e
  | .ok [] => .error .index
  | .ok (m :: _) => .ok m

/-- `set.add` for objects compared by identity -/
def setAdd (cs : List Node) (c : Node) : List Node := if c.id ∈ cs.map Node.id then cs else c :: cs

/-- container_node.py:113-131 `add`: the new children -/
def addChild (pfx : Net) (cs : List Node) (c : Node) : Except Err (List Node) :=
  if pfx.covers c.pfx = true then
    match findExact pfx cs c.pfx with
    | .error e => .error e
    | .ok (some _) => .ok (setAdd cs c)
    | .ok none =>
      match findAll pfx cs c.pfx with
      | .error e => .error e
      | .ok [] => .ok (setAdd cs c)
      | .ok (_ :: _) => .error .value
  else .error .notMine

/-- container_node.py:149-152 `discard(node)` -/
def discardNode (cs : List Node) (i : Nat) : List Node := cs.filter fun c => c.id ≠ i

/-- container_node.py:148-157 `discard(prefix)` -/
def discardPrefix (pfx : Net) (cs : List Node) (p : Net) : Except Err (List Node) :=
  match findExact pfx cs p with
  | .error e => .error e
  | .ok (some m) => .ok (discardNode cs m.id)
  | .ok none => .ok cs

/-- container_node.py:136-143 `prefix in container` -/
def containsPrefix (pfx : Net) (cs : List Node) (p : Net) : Except Err Bool :=
  match findExact pfx cs p with
  | .error e => .error e
  | .ok m => .ok m.isSome

/-- what the methods that look for a prefix can be given: a network object, an address object, or a text (`text r`:
`ip_network` of it gives `r`) -/
inductive LookupArg
  | net (n : Net)
  | ip (a : IP)
  | text (r : Except Err Net)

/-- container_node.py:62, 96: `ip_network(x)` -/
def LookupArg.toNet : LookupArg → Except Err Net
  | .net n => .ok n
  | .ip a => .ok a.toNet
  | .text r => r

/-- `match.prefix == x` (container_node.py:87): a network is equal to no address and no text -/
def LookupArg.equals (x : LookupArg) (n : Net) : Bool :=
  match x with
  | .net m => n = m
  | .ip _ => false
  | .text _ => false

/-- container_node.py:57-78 `find_one(x)` -/
def findOneArg (pfx : Net) (children : List Node) (x : LookupArg) : Except Err (Option Node) :=
  match x.toNet with
  | .error e => .error e
  | .ok p => findOne pfx children p

/-- container_node.py:80-90 `find_exact(x)` -/
def findExactArg (pfx : Net) (children : List Node) (x : LookupArg) : Except Err (Option Node) :=
  match x.toNet with
  | .error e => .error e
  | .ok p =>
    match findAll pfx children p with
    | .error e => .error e
    | .ok [m] => if x.equals m.pfx = true then .ok (some m) else .ok none
    | .ok _ => .ok none

/-- container_node.py:136-143 `x in container` -/
def containsArg (pfx : Net) (cs : List Node) (x : LookupArg) : Except Err Bool :=
  match findExactArg pfx cs x with
  | .error e => .error e
  | .ok m => .ok m.isSome

/-- container_node.py:148-157 `discard(x)` -/
def discardArg (pfx : Net) (cs : List Node) (x : LookupArg) : List Node × Option Err :=
  match findExactArg pfx cs x with
  | .error e => (cs, some e)
  | .ok (some m) => (discardNode cs m.id, none)
  | .ok none => (cs, none)

/-- container_node.py:159-163 `remove(x)` -/
def removeArg (pfx : Net) (cs : List Node) (x : LookupArg) : List Node × Option Err :=
  match discardArg pfx cs x with
  | (cs', some e) => (cs', some e)
  | (cs', none) => if cs'.length ≠ cs.length then (cs', some .key) else (cs', none)

/-- the mutating methods of a container -/
inductive TreeOp
  | add (c : Node)
  | discardNode (c : Node)
  | discardPrefix (p : Net)
  | removeNode (c : Node)
  | removePrefix (p : Net)
  | update (l : List Node)
  | clear

/-- container_node.py:165-167 `update`: adds one after the other and stops at the first exception;
the earlier ones stay added -/
def updateChildren (pfx : Net) : List Node → List Node → List Node × Option Err
  | cs, [] => (cs, none)
  | cs, c :: l =>
    match addChild pfx cs c with
    | .ok cs' => updateChildren pfx cs' l
    | .error e => (cs, some e)

/-- container_node.py:159-163 `remove`: KeyError when the number of children *changed* -/
def removed (cs cs' : List Node) : List Node × Option Err :=
  if cs'.length ≠ cs.length then (cs', some .key) else (cs', none)

/-- one call of a mutating method: the children afterwards and the exception raised, if any -/
def TreeOp.run (pfx : Net) (cs : List Node) : TreeOp → List Node × Option Err
  | .add c =>
    match addChild pfx cs c with
    | .ok cs' => (cs', none)
    | .error e => (cs, some e)
  | .discardNode c => (PyLisp.discardNode cs c.id, none)
  | .discardPrefix p =>
    match PyLisp.discardPrefix pfx cs p with
    | .ok cs' => (cs', none)
    | .error e => (cs, some e)
  | .removeNode c => removed cs (PyLisp.discardNode cs c.id)
  | .removePrefix p =>
    match PyLisp.discardPrefix pfx cs p with
    | .ok cs' => removed cs cs'
    | .error e => (cs, some e)
  | .update l => updateChildren pfx cs l
  | .clear => ([], none)

/-- a sequence of calls on a container, whatever they raise -/
def runOps (pfx : Net) : List Node → List TreeOp → List Node
  | cs, [] => cs
  | cs, op :: ops => runOps pfx (op.run pfx cs).1 ops

/-- container_node.py:16-21: `ContainerNode(prefix, children)` -/
def newChildren (pfx : Net) (l : List Node) : List Node × Option Err := updateChildren pfx [] l

end PyLisp
