import Verif.Lispd
import Verif.Settings
/-
Model of the start of lispd and of the life of its threads:
  scripts/lispd (create_sockets, main up to the main loop, the exit status)
  pylisp/application/lispd/address_tree/base.py, container_node.py, etr_node.py (set_sockets)
  pylisp/application/lispd/address_tree/etr_node.py (registrations and their threads)
Logging and the printing of the configuration are not modelled.
-/
namespace PyLisp

/-! ### Sockets and threads of a node -/

/-- `AutoUDPSocket(address, port)`; what becomes of it is in NetIO.lean -/
structure Udp where
  addr : IP
  port : Nat
  deriving DecidableEq

/-- an MSRThread object: how often it was started, whether it was asked to stop
(etr_node.py:461-463), and whether it has ended -/
structure Thread where
  starts : Nat := 0
  stopped : Bool := false
  over : Bool := false
  deriving DecidableEq

/-- `Thread.is_alive` of the Python library -/
def Thread.alive (t : Thread) : Bool := decide (0 < t.starts) && !t.over

/-- `Thread.start` of the Python library: a thread can be started only once (RuntimeError, here
`assertion`).  That the system may refuse to create a thread is not modelled. -/
def Thread.start (t : Thread) : Except Err Thread :=
  if 0 < t.starts then .error .assertion else .ok { t with starts := t.starts + 1 }

/-- the sockets of a node (base.py:19-23) and, for an ETR node, its threads by registration
(etr_node.py:473); `former` are the threads of registrations that were removed -/
structure NodeRun where
  control : List Udp := []
  data : List Udp := []
  threads : List (Nat × Thread) := []
  former : List Thread := []

/-- etr_node.py:496-498: start what is not alive -/
def startThreads : List (Nat × Thread) → Except Err (List (Nat × Thread))
  | [] => .ok []
  | (r, t) :: l =>
    if t.alive = true then
      match startThreads l with
      | .error e => .error e
      | .ok l' => .ok ((r, t) :: l')
    else
      match t.start with
      | .error e => .error e
      | .ok t' =>
        match startThreads l with
        | .error e => .error e
        | .ok l' => .ok ((r, t') :: l')

/-- etr_node.py:491-498 `ETRNode.set_sockets`; the other leaves have `AbstractNode.set_sockets`
(base.py:25-27), which is the same without threads -/
def NodeRun.setSockets (n : NodeRun) (c d : List Udp) : Except Err NodeRun :=
  if c = [] then .ok { n with control := c, data := d }
  else
    match startThreads n.threads with
    | .error e => .error e
    | .ok ts => .ok { n with control := c, data := d, threads := ts }

/-- etr_node.py:525-534 `add_etr_registration` -/
def NodeRun.add (n : NodeRun) (r : Nat) : Except Err NodeRun :=
  if (dictGet n.threads r).isSome = true then .ok n
  else if n.control = [] then .ok { n with threads := dictSet n.threads r {} }
  else
    match Thread.start {} with
    | .error e => .error e
    | .ok t => .ok { n with threads := dictSet n.threads r t }

/-- etr_node.py:536-544 `remove_etr_registration` -/
def NodeRun.remove (n : NodeRun) (r : Nat) : NodeRun :=
  match dictGet n.threads r with
  | none => n
  | some t => { n with threads := dictDel n.threads r, former := n.former ++ [{ t with stopped := true }] }

/-- what happens to an ETR node.  `ended` is the end of threads: `who i` says that the `i`-th former thread
has ended; a thread ends only when it was asked to stop (etr_node.py:420-421; see `thread_ends`), and all
former ones were. -/
inductive NodeEvent
  | sockets (c d : List Udp)
  | add (r : Nat)
  | remove (r : Nat)
  | ended (who : Nat → Bool)

/-- the `i`-th thread is over if `who i` -/
def endThreads (who : Nat → Bool) : List Thread → List Thread
  | [] => []
  | t :: l => { t with over := t.over || (decide (0 < t.starts) && who 0) } :: endThreads (fun i => who (i + 1)) l

/-- one event -/
def NodeRun.step (n : NodeRun) : NodeEvent → Except Err NodeRun
  | .sockets c d => n.setSockets c d
  | .add r => n.add r
  | .remove r => .ok (n.remove r)
  | .ended who => .ok { n with former := endThreads who n.former }

/-- a history -/
def NodeRun.run (n : NodeRun) : List NodeEvent → Except Err NodeRun
  | [] => .ok n
  | e :: es =>
    match n.step e with
    | .error x => .error x
    | .ok n' => n'.run es

/-- etr_node.py:467-485: a new ETR node with these registrations -/
def newEtr (regs : List Nat) : Except Err NodeRun := NodeRun.run {} (regs.map .add)

/-- etr_node.py:487-489 `__del__`: all threads are asked to stop -/
def NodeRun.delete (n : NodeRun) : NodeRun :=
  { n with threads := n.threads.map fun t => (t.1, { t.2 with stopped := true }) }

/-! ### Trees -/

/-- the nodes, by identity -/
abbrev Nodes := Nat → NodeRun

/-- the state of one node object changes (etr_node.py:472-489) -/
def Nodes.set (ns : Nodes) (i : Nat) (n : NodeRun) : Nodes := fun j => if j = i then n else ns j

mutual
/-- `set_sockets` of a node: container_node.py:23-27 (the container itself, then its children) and
`NodeRun.setSockets` -/
def setSockets (c d : List Udp) : Node → Nodes → Except Err Nodes
  | .leaf _ i _, ns =>
    match (ns i).setSockets c d with
    | .error e => .error e
    | .ok n => .ok (ns.set i n)
  | .cont _ i _ cs, ns => setSocketsAll c d cs (ns.set i { ns i with control := c, data := d })
/-- container_node.py:26-27 -/
def setSocketsAll (c d : List Udp) : List Node → Nodes → Except Err Nodes
  | [], ns => .ok ns
  | x :: xs, ns =>
    match setSockets c d x ns with
    | .error e => .error e
    | .ok ns' => setSocketsAll c d xs ns'
end

/-- what an address family of an instance leads to: a node, or some other object -/
inductive TreeObj
  | node (t : Node)
  | other

/-- how settings.py sees it (lispd/settings.py:137-144) -/
def TreeObj.val : TreeObj → TreeVal
  | .node (.cont _ _ p _) => .container p
  | _ => .other

/-- INSTANCES: the trees by instance id and address family -/
abbrev InstTrees := List (Int × List (Int × TreeObj))

/-- how settings.py sees INSTANCES -/
def InstTrees.val (l : InstTrees) : List (InstKey × InstVal) :=
  l.map fun x => (.int x.1, .dict (x.2.map fun y => (y.1, y.2.val)))

/-- scripts/lispd:263-265: the trees of one instance; other objects have no `set_sockets` -/
def socketsToTrees (c d : List Udp) : List (Int × TreeObj) → Nodes → Except Err Nodes
  | [], ns => .ok ns
  | (_, .other) :: _, _ => .error .attr
  | (_, .node t) :: l, ns =>
    match setSockets c d t ns with
    | .error e => .error e
    | .ok ns' => socketsToTrees c d l ns'

/-- scripts/lispd:261-265 -/
def socketsToInstances (c d : List Udp) : InstTrees → Nodes → Except Err Nodes
  | [], ns => .ok ns
  | (_, ts) :: l, ns =>
    match socketsToTrees c d ts ns with
    | .error e => .error e
    | .ok ns' => socketsToInstances c d l ns'

/-! ### scripts/lispd -/

/-- the truth value of a setting (of the objects that are not modelled, true) -/
def PyVal.truth : PyVal → Bool
  | .none => false
  | .bool b => b
  | .int i => decide (i ≠ 0)
  | .addr _ => true
  | .listen l => !l.isEmpty
  | .instances d => !d.isEmpty
  | .other _ => true

/-- scripts/lispd:71-77: the loop over LISTEN_ON, with the two lists so far.  After lispd/settings.py:119-120
all items are addresses. -/
def socketLoop (processData : Bool) : List ListenItem → List Udp × List Udp → List Udp × List Udp
  | [], acc => acc
  | .addr a :: l, (c, d) =>
    socketLoop processData l (c ++ [⟨a, 4342⟩], if processData = true then d ++ [⟨a, 4341⟩] else d)
  | .text _ :: l, acc => socketLoop processData l acc

/-- scripts/lispd:68-79 `create_sockets` -/
def createSockets (s : Settings) : List Udp × List Udp :=
  match s "LISTEN_ON" with
  | .listen l => socketLoop (s "PROCESS_DATA").truth l ([], [])
  | _ => ([], [])

/-- what lispd finds in the system: the option `--show-config`, the nfqueue module, whether a queue can be
opened, and the objects in INSTANCES -/
structure Env where
  showConfig : Bool := false
  nfqueueModule : Bool := true
  openQueue : Ver → Bool := fun _ => true
  instances : InstTrees

/-- scripts/lispd:236-254: the queues opened; an exception if that fails -/
def openQueues (env : Env) (q4 q6 : PyVal) : Except Err (List (PyVal × Ver)) :=
  if q4 ≠ .none ∧ env.openQueue .v4 = false then .error .value
  else if q6 ≠ .none ∧ env.openQueue .v6 = false then .error .value
  else .ok ((if q4 ≠ .none then [(q4, .v4)] else []) ++ (if q6 ≠ .none then [(q6, .v6)] else []))

/-- scripts/lispd:221-254: the queues; an exit status if the program ends here -/
def setupQueues (env : Env) (s : Settings) : Except Nat (List (PyVal × Ver)) :=
  if (s "PROCESS_DATA").truth = true then
    if (s "PETR").truth = true ∧ (s "NFQUEUE_IPV4" = .none ∨ s "NFQUEUE_IPV6" = .none) then .error 2
    else if s "NFQUEUE_IPV4" ≠ .none ∨ s "NFQUEUE_IPV6" ≠ .none then
      if env.nfqueueModule = true then
        match openQueues env (s "NFQUEUE_IPV4") (s "NFQUEUE_IPV6") with
        | .error _ => .error 2        -- 340-342
        | .ok qs => .ok qs
      else .error 2
    else .ok []
  else .ok []

/-- what lispd has when it enters the main loop -/
structure Started where
  control : List Udp
  data : List Udp
  queues : List (PyVal × Ver)
  nodes : Nodes

/-- scripts/lispd:207-265: the start of lispd with these defaults and configuration files, and these nodes
(made by the configuration files); an exit status if the main loop is not reached -/
def startup (defaults : Settings) (files : List ConfigFile) (env : Env) (ns : Nodes) : Except Nat Started :=
  match loadSettings defaults files with
  | none => .error 1                   -- 334-336
  | some s =>
    if env.showConfig = true then .error 2
    else
      match setupQueues env s with
      | .error n => .error n
      | .ok qs =>
        if (createSockets s).1 = [] then .error 2
        else
          match socketsToInstances (createSockets s).1 (createSockets s).2 env.instances ns with
          | .error _ => .error 2       -- 340-342
          | .ok ns' => .ok ⟨(createSockets s).1, (createSockets s).2, qs, ns'⟩

/-- scripts/lispd:165-342 `main`: the exit status, for the given results of `select`; `none` while the
program is running -/
def lispdMain (defaults : Settings) (files : List ConfigFile) (env : Env) (ns : Nodes) (s : Setup)
    (petr : Option IP) (maxint : Nat) (st : LispdState) (bs : List (List LispdEvent)) : Option Nat :=
  match startup defaults files env ns with
  | .error n => some n
  | .ok _ => if (lispdLoop s petr maxint { st with running := true } bs).1.running = true then none else some 0

end PyLisp
