import Verif.Tree
/-
Model of pylisp/application/lispd/utils/ddt_root_loader.py.  The text side (lines,
comments, the regular expression) is in DdtText.lean; here a line is
given by its parsed fields, `none` standing for text that `ip_address`/`ip_network` refuses.  The
`instances` dict is local to `load_ddt_root`, so what an exception leaves in it is not observable and
not kept.  All containers in it are `AuthContainerNode` roots whose children are `DDTReferralNode`s.
-/
namespace PyLisp

/-- the parsed fields of one line of the file, ddt_root_loader.py:14-17 and 68-71 -/
structure DdtLine where
  inst : Nat
  afi : Nat
  pfx : Option Net
  addr : Option IP

/-- `IPv4Network(u'0.0.0.0/0')`, `AuthContainerNode(u'0.0.0.0/0')` -/
def anyV4 : Net := ⟨.v4, 0, 0, by decide, by decide, by decide⟩
/-- `IPv6Network(u'::/0')`, `AuthContainerNode(u'::/0')` -/
def anyV6 : Net := ⟨.v6, 0, 0, by decide, by decide, by decide⟩

/-- the prefix of the root for an AFI, ddt_root_loader.py:25-31 -/
def rootNet (afi : Nat) : Option Net :=
  if afi = 1 then some anyV4 else if afi = 2 then some anyV6 else none

/-- `instances[instance_id][afi]`: the children of the root container, if there is one -/
abbrev Instances := Nat × Nat → Option (List Node)

/-- the root node with the given children; its identity is 0 -/
def rootNode (r : Net) (cs : List Node) : Node := .cont (some []) 0 r cs

/-- `DDTReferralNode.add`, ddt_referral_node.py:39-43: a set of addresses -/
def addAddr (l : List IP) (x : IP) : List IP := if x ∈ l then l else l ++ [x]

/-- `best_match.add(address)` for the referral with identity `i` -/
def addToReferral (cs : List Node) (i : Nat) (x : IP) : List Node :=
  cs.map fun c => match c with
    | .leaf (.ddtReferral l) j q => if j = i then .leaf (.ddtReferral (addAddr l x)) j q else c
    | c => c

/-- ddt_root_loader.py:33-52: the children of the root afterwards.  A container found as the best
match is always the root (there are no others). -/
def addToRoot (r : Net) (cs : List Node) (p : Net) (x : IP) : Except Err (List Node) :=
  match (rootNode r cs).resolve p with
  | .error e => .error e
  | .ok (.leaf (.ddtReferral _) i q) =>
    if q = p then .ok (addToReferral cs i x) else .error .value
  | .ok (.leaf _ _ _) => .error .value
  | .ok (.cont _ _ _ _) => addChild r cs (.leaf (.ddtReferral [x]) (cs.length + 1) p)

/-- ddt_root_loader.py:20-52 `add_delegation` -/
def addDelegation (st : Instances) (inst afi : Nat) (p : Net) (x : IP) : Except Err Instances :=
  match rootNet afi with
  | none => .error .value
  | some r =>
    match addToRoot r ((st (inst, afi)).getD []) p x with
    | .error e => .error e
    | .ok cs => .ok fun k => if k = (inst, afi) then some cs else st k

/-- one line: ddt_root_loader.py:71-82 -/
def loadLine (st : Instances) (l : DdtLine) : Except Err Instances :=
  match l.addr with
  | none => .error .value
  | some x =>
    if l.afi = 0 then
      match addDelegation st l.inst 1 anyV4 x with
      | .error e => .error e
      | .ok st => addDelegation st l.inst 2 anyV6 x
    else
      match l.pfx with
      | none => .error .value
      | some p => addDelegation st l.inst l.afi p x

/-- ddt_root_loader.py:55-84 `load_ddt_root` -/
def loadLines : Instances → List DdtLine → Except Err Instances
  | st, [] => .ok st
  | st, l :: ls =>
    match loadLine st l with
    | .error e => .error e
    | .ok st => loadLines st ls

/-- ddt_root_loader.py:55-84 `load_ddt_root`, starting with nothing known -/
def loadDdtRoot (ls : List DdtLine) : Except Err Instances := loadLines (fun _ => none) ls

end PyLisp
