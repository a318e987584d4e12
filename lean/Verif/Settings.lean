import Verif.IPAddr
import Verif.Dict
/-
Model of pylisp/application/lispd/settings.py: apply_config_files and fix_config
-/
namespace PyLisp

/-- an element of the LISTEN_ON list: an address object, or something whose text is (or is not) an
address -/
inductive ListenItem
  | addr (a : IP)
  | text (parsed : Option IP)
  deriving DecidableEq

/-- what the configuration puts under an AFI: a ContainerNode with its prefix, or something else -/
inductive TreeVal
  | container (pfx : Net)
  | other
  deriving DecidableEq

/-- a key of INSTANCES: an `int`, or something else -/
inductive InstKey
  | int (i : Int)
  | other (n : Nat)
  deriving DecidableEq

/-- what the configuration puts under an instance id: a dict (whose keys are taken to be integers),
or something that does not support `in` and assignment of items -/
inductive InstVal
  | dict (d : List (Int × TreeVal))
  | other
  deriving DecidableEq

/-- the values of settings, as far as fix_config distinguishes them; `other` is neither iterable nor
of any of the types it looks for -/
inductive PyVal
  | none
  | bool (b : Bool)
  | int (i : Int)
  | addr (a : IP)
  | listen (l : List ListenItem)
  | instances (d : List (InstKey × InstVal))
  | other (n : Nat)
  deriving DecidableEq

/-- the attributes of the Settings object -/
abbrev Settings := String → PyVal

/-- `0.0.0.0/0` and `::/0` -/
def rootNet4 : Net := ⟨.v4, 0, 0, by decide, by decide, by decide⟩
/-- `::/0` -/
def rootNet6 : Net := ⟨.v6, 0, 0, by decide, by decide, by decide⟩

/-- application/lispd/settings.py:119-120 -/
def fixListen : List ListenItem → Option (List ListenItem)
  | [] => some []
  | .addr a :: l => (fixListen l).map (.addr a :: ·)
  | .text none :: _ => none
  | .text (some a) :: l => (fixListen l).map (.addr a :: ·)

/-- application/lispd/settings.py:137-138 and 142-143 (a missing key raises KeyError, caught at 146) -/
def rootOk (v : Option TreeVal) (root : Net) : Bool :=
  match v with
  | some (.container p) => p = root
  | _ => false

/-- application/lispd/settings.py:129-145 for one instance; both default trees are stored under key 4 (131, 135) -/
def fixInstance (d : List (Int × TreeVal)) : Option (List (Int × TreeVal)) :=
  let d1 := if (dictGet d 1).isNone = true then dictSet d 4 (.container rootNet4) else d
  let d2 := if (dictGet d1 2).isNone = true then dictSet d1 4 (.container rootNet6) else d1
  if rootOk (dictGet d2 1) rootNet4 = true ∧ rootOk (dictGet d2 2) rootNet6 = true then some d2 else none

/-- application/lispd/settings.py:125-147 -/
def fixInstances : List (InstKey × InstVal) → Option (List (InstKey × InstVal))
  | [] => some []
  | (.int i, .dict d) :: l =>
    match fixInstance d with
    | none => none
    | some d' => (fixInstances l).map ((.int i, .dict d') :: ·)
  | _ :: _ => none

/-- application/lispd/settings.py:149-159: the types of PETR, NATT, NFQUEUE_IPV4, NFQUEUE_IPV6 (a bool is an int) -/
def typesOk (s : Settings) : Bool :=
  (match s "PETR" with | .addr _ | .none => true | _ => false) &&
  (match s "NATT" with | .bool _ => true | _ => false) &&
  (match s "NFQUEUE_IPV4" with | .int _ | .bool _ | .none => true | _ => false) &&
  (match s "NFQUEUE_IPV6" with | .int _ | .bool _ | .none => true | _ => false)

/-- `setattr` -/
def Settings.set (s : Settings) (n : String) (v : PyVal) : Settings := fun m => if m = n then v else s m

/-- application/lispd/settings.py:117-159 `fix_config`; `none` is ConfigurationError -/
def fixConfig (s : Settings) : Option Settings :=
  match s "LISTEN_ON" with
  | .listen l =>
    match fixListen l with
    | none => none
    | some l' =>
      match s "INSTANCES" with
      | .instances d =>
        match fixInstances d with
        | none => none
        | some d' =>
          if typesOk s = true then some ((s.set "LISTEN_ON" (.listen l')).set "INSTANCES" (.instances d'))
          else none
      | _ => none
  | _ => none

/-- what loading a configuration file (application/lispd/settings.py:95) comes to: an IOError (no such file), another
exception (108-112), or a module with attributes -/
inductive ConfigFile
  | ioError
  | broken
  | module (attrs : String → Option PyVal)

/-- application/lispd/settings.py:98-102 -/
def applyModule (s : Settings) (attrs : String → Option PyVal) : Settings :=
  fun n => if n = n.toUpper then (attrs n).getD (s n) else s n

/-- application/lispd/settings.py:92-112 -/
def applyFiles : Settings → List ConfigFile → Option Settings
  | s, [] => some s
  | s, .ioError :: fs => applyFiles s fs
  | _, .broken :: _ => none
  | s, .module attrs :: fs => applyFiles (applyModule s attrs) fs

/-- application/lispd/settings.py:89-115 `apply_config_files` -/
def loadSettings (defaults : Settings) (fs : List ConfigFile) : Option Settings :=
  match applyFiles defaults fs with
  | none => none
  | some s => fixConfig s

end PyLisp
