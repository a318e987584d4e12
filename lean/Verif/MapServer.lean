import Verif.Tree
import Verif.Auth
/-
Model of
  pylisp/application/lispd/utils/prefix.py
  pylisp/application/lispd/address_tree/map_server_node.py
  pylisp/application/lispd/message_handler.py: handle_map_register
Times are integers in microseconds (`time.time()` is a float number of seconds).  Logging is not
modelled.
-/
namespace PyLisp

/-! ### utils/prefix.py -/

/-- an address or network object, as `determine_instance_id_and_afi` returns it -/
inductive Target
  | ip (a : IP)
  | net (n : Net)
  deriving DecidableEq

/-- `ip_network(x)` -/
def Target.toNet : Target → Net
  | .ip a => a.toNet
  | .net n => n

/-- `isinstance(prefix, (IPv4Address, IPv4Network))` or the IPv6 pair (prefix.py:31-38) -/
def Target.ver : Target → Ver
  | .ip a => a.ver
  | .net n => n.ver

/-- the AFI number of a version, prefix.py:31-38 -/
def Ver.afi : Ver → Nat
  | .v4 => 1
  | .v6 => 2

/-- prefix.py:15-41 `determine_instance_id_and_afi`; `none` is `(None, None, None)` -/
def determine (a : Addr) : Option (Int × Nat × Target) :=
  let iid : Int := match a with
    | .inst iid _ _ => iid
    | _ => 0
  match a.getAddresses with
  | [.ip x] => some (iid, x.ver.afi, .ip x)
  | [.net n] => some (iid, n.ver.afi, .net n)
  | _ => none

/-- `settings.config.INSTANCES`: instance id and AFI to root node -/
abbrev Config := Int → Nat → Option Node

/-- prefix.py:44-51 `resolve_path`; `ok none` is `None`: unknown instance or AFI.  (For the
`(None, None, None)` of `determine` the instance `None` is unknown.) -/
def resolvePathIn (cfg : Config) (k : Option (Int × Nat × Target)) : Except Err (Option (List Node)) :=
  match k with
  | none => .ok none
  | some (iid, afi, t) =>
    match cfg iid afi with
    | none => .ok none
    | some root =>
      match root.resolvePath t.toNet with
      | .error e => .error e
      | .ok l => .ok (some l)

/-- prefix.py:54-58 `resolve` -/
def resolveIn (cfg : Config) (k : Option (Int × Nat × Target)) : Except Err (Option Node) :=
  match resolvePathIn cfg k with
  | .error e => .error e
  | .ok none => .ok none
  | .ok (some l) => .ok l.head?

/-! ### map_server_node.py -/

/-- map_server_node.py:154-159: the key of a registration in the inner dict.  The text
`'{site_id:x}-{xtr_id:x}'` is represented by the two numbers (it determines them); it never equals
an address. -/
inductive Source
  | xtr (siteId xtrId : Int)
  | addr (a : IP)
  deriving DecidableEq

/-- map_server_node.py:37-43 -/
structure Registration where
  record : Record
  proxy : Bool
  deadline : Int
  deriving DecidableEq

/-- map_server_node.py:38: `timeout=180` seconds -/
def msTimeout : Int := 180000000

/-- map_server_node.py:39-43: created at time `now` -/
def newRegistration (now : Int) (record : Record) (proxy : Bool) : Registration :=
  ⟨record, proxy, now + msTimeout⟩

/-- `MapServerNode.registrations` (map_server_node.py:117): a dict of dicts -/
abbrev Store := List (Net × List (Source × Registration))

/-- `d[k] = v` for a dict -/
def dictSet [DecidableEq κ] (d : List (κ × υ)) (k : κ) (v : υ) : List (κ × υ) :=
  match d with
  | [] => [(k, v)]
  | (k', v') :: d => if k' = k then (k, v) :: d else (k', v') :: dictSet d k v

/-- `d.get(k)` -/
def dictGet [DecidableEq κ] (d : List (κ × υ)) (k : κ) : Option υ :=
  match d with
  | [] => none
  | (k', v') :: d => if k' = k then some v' else dictGet d k

/-- map_server_node.py:161-176, done while holding the lock -/
def Store.put (s : Store) (p : Net) (src : Source) (r : Registration) : Store :=
  dictSet s p (dictSet ((dictGet s p).getD []) src r)

/-- `registrations[prefix][source]` -/
def Store.get (s : Store) (p : Net) (src : Source) : Option Registration :=
  match dictGet s p with
  | none => none
  | some m => dictGet m src

/-- map_server_node.py:111-114: the configuration of a Map-Server node -/
structure MsConf where
  key : Bytes
  allowMoreSpecifics : Bool

/-- map_server_node.py:154-159 -/
def canonicalSource (m : MapRegister) (source : IP) : Source :=
  if m.xtrId ≠ 0 then .xtr m.siteId m.xtrId else .addr source

/-- map_server_node.py:129-176 `handle_map_register_record` of the node with prefix `pfx`.  `None` and
addresses have no `overlaps`/`prefixlen` (AttributeError).  The texts of addresses (139, 167), which could raise
TypeError for AFI lists, are left out: in received messages they are defined (`Props.register_texts_defined`). -/
def handleRegisterRecord (H : Mac) (conf : MsConf) (pfx : Net) (s : Store) (m : MapRegister)
    (source : IP) (now : Int) (record : Record) : Except Err Store :=
  match m.verify H conf.key with
  | .error e => .error e
  | .ok false => .error .msAuth
  | .ok true =>
    match determine record.eid with
    | some (_, _, .net p) =>
      if p.overlaps pfx = false ∨ p.plen < pfx.plen then .error .msScope
      else if p.plen > pfx.plen ∧ conf.allowMoreSpecifics = false then .error .msScope
      else .ok (s.put p (canonicalSource m source) (newRegistration now record m.proxyMapReply))
    | _ => .error .attr

/-! ### The store under concurrency

`handle_map_register_record` runs in the thread that handles messages, `MSCleanupThread.run` in a
thread of its own; both touch `registrations` only while holding `registrations_lock`.  The steps
below are the individual operations on the shared dict, interleaved in any order.  -/

/-- `del d[k]` for a key that is present -/
def dictDel [DecidableEq κ] (d : List (κ × υ)) (k : κ) : List (κ × υ) := d.filter fun e => e.1 ≠ k

/-- `d.keys()`, a new list in Python 2 -/
def dictKeys (d : List (κ × υ)) : List κ := d.map Prod.fst

/-- where the message handler is in map_server_node.py:161-176 -/
inductive RegPc
  | idle
  /-- lock taken, before line 163 -/
  | locked (p : Net) (src : Source) (record : Record) (proxy : Bool)
  /-- before line 175 -/
  | ensured (p : Net) (src : Source) (record : Record) (proxy : Bool)
  /-- about to release the lock -/
  | stored

/-- where the cleanup thread is in map_server_node.py:69-100 -/
inductive CleanPc
  | idle
  /-- line 77 done, lock not yet taken -/
  | read (now : Int)
  /-- at the head of the loop of line 83, with the prefixes still to visit -/
  | outer (now : Int) (todo : List Net)
  /-- at the head of the loop of line 85 for one prefix, with the sources still to visit -/
  | inner (now : Int) (p : Net) (sources : List Source) (todo : List Net)

/-- who holds `registrations_lock` -/
inductive LockOwner
  | nobody
  | handler
  | cleaner
  deriving DecidableEq

/-- one Map-Server node with the two threads working on it; `clock` is what `time.time()` returns -/
structure MsState where
  clock : Int
  store : Store
  owner : LockOwner
  reg : RegPc
  clean : CleanPc

/-- map_server_node.py:110-123: a new node -/
def MsState.init (clock : Int) : MsState := ⟨clock, [], .nobody, .idle, .idle⟩

/-- what a step does that is worth recording: a registration is written, or a cleanup pass that read
the clock as `now` starts working on the store -/
inductive MsEvent
  | register (p : Net) (src : Source) (r : Registration)
  | pass (now : Int)

/-- the atomic steps.  A KeyError in the cleanup thread leaves the `with` block, is swallowed
(map_server_node.py:96-97) and the pass is over. -/
inductive MsStep : MsState → Option MsEvent → MsState → Prop
  /-- the clock changes (time passes, or somebody sets it) -/
  | tick (s : MsState) (t : Int) : MsStep s none { s with clock := t }
  /-- map_server_node.py:162 -/
  | regLock (s : MsState) (p : Net) (src : Source) (record : Record) (proxy : Bool)
      (h : s.owner = .nobody) (hr : s.reg = .idle) :
      MsStep s none { s with owner := .handler, reg := .locked p src record proxy }
  /-- map_server_node.py:163-164 -/
  | regEnsure (s : MsState) (p : Net) (src : Source) (record : Record) (proxy : Bool)
      (hr : s.reg = .locked p src record proxy) :
      MsStep s none { s with
        store := if (dictGet s.store p).isNone = true then dictSet s.store p [] else s.store
        reg := .ensured p src record proxy }
  /-- map_server_node.py:175-176 -/
  | regStore (s : MsState) (p : Net) (src : Source) (record : Record) (proxy : Bool)
      (m : List (Source × Registration))
      (hr : s.reg = .ensured p src record proxy) (hm : dictGet s.store p = some m) :
      MsStep s (some (.register p src (newRegistration s.clock record proxy))) { s with
        store := dictSet s.store p (dictSet m src (newRegistration s.clock record proxy))
        reg := .stored }
  /-- the end of the `with` block -/
  | regUnlock (s : MsState) (hr : s.reg = .stored) :
      MsStep s none { s with owner := .nobody, reg := .idle }
  /-- map_server_node.py:77 -/
  | cleanRead (s : MsState) (hc : s.clean = .idle) : MsStep s none { s with clean := .read s.clock }
  /-- map_server_node.py:81-82 -/
  | cleanLock (s : MsState) (now : Int) (h : s.owner = .nobody) (hc : s.clean = .read now) :
      MsStep s (some (.pass now)) { s with
        owner := .cleaner, clean := .outer now (dictKeys s.store) }
  /-- map_server_node.py:83-84 -/
  | cleanPrefix (s : MsState) (now : Int) (p : Net) (todo : List Net)
      (m : List (Source × Registration))
      (hc : s.clean = .outer now (p :: todo)) (hm : dictGet s.store p = some m) :
      MsStep s none { s with clean := .inner now p (dictKeys m) todo }
  /-- map_server_node.py:85-90 -/
  | cleanSource (s : MsState) (now : Int) (p : Net) (src : Source) (sources : List Source)
      (todo : List Net) (m : List (Source × Registration)) (r : Registration)
      (hc : s.clean = .inner now p (src :: sources) todo) (hm : dictGet s.store p = some m)
      (hr : dictGet m src = some r) :
      MsStep s none { s with
        store := if now > r.deadline then dictSet s.store p (dictDel m src) else s.store
        clean := .inner now p sources todo }
  /-- map_server_node.py:92-94 -/
  | cleanEmpty (s : MsState) (now : Int) (p : Net) (todo : List Net)
      (m : List (Source × Registration))
      (hc : s.clean = .inner now p [] todo) (hm : dictGet s.store p = some m) :
      MsStep s none { s with
        store := if m.length = 0 then dictDel s.store p else s.store
        clean := .outer now todo }
  /-- the end of the `with` block, and map_server_node.py:100 -/
  | cleanUnlock (s : MsState) (now : Int) (hc : s.clean = .outer now []) :
      MsStep s none { s with owner := .nobody, clean := .idle }
  /-- KeyError at line 84 -/
  | cleanNoPrefix (s : MsState) (now : Int) (p : Net) (todo : List Net)
      (hc : s.clean = .outer now (p :: todo)) (hm : dictGet s.store p = none) :
      MsStep s none { s with owner := .nobody, clean := .idle }
  /-- KeyError at line 87 -/
  | cleanNoSource (s : MsState) (now : Int) (p : Net) (src : Source) (sources : List Source)
      (todo : List Net) (hc : s.clean = .inner now p (src :: sources) todo)
      (hm : s.store.get p src = none) :
      MsStep s none { s with owner := .nobody, clean := .idle }
  /-- KeyError at line 93 -/
  | cleanNoEntry (s : MsState) (now : Int) (p : Net) (todo : List Net)
      (hc : s.clean = .inner now p [] todo) (hm : dictGet s.store p = none) :
      MsStep s none { s with owner := .nobody, clean := .idle }

/-- an execution and its events, in order -/
inductive MsRun : MsState → List MsEvent → MsState → Prop
  | nil (s : MsState) : MsRun s [] s
  | snoc {s s' s'' : MsState} {evs : List MsEvent} {e : Option MsEvent} (h : MsRun s evs s')
      (hs : MsStep s' e s'') : MsRun s (evs ++ e.toList) s''

/-! ### message_handler.py: handle_map_register -/

/-- the loop of message_handler.py:84-104: processed records and saved key, or the exception that
ended it; the stores in either case -/
def registerLoop (H : Mac) (cfg : Config) (conf : Nat → MsConf) (m : MapRegister) (source : IP)
    (now : Int) : (Nat → Store) → List Record → Bytes → List Record →
      (Nat → Store) × Except Err (List Record × Bytes)
  | st, done, key, [] => (st, .ok (done, key))
  | st, done, key, r :: rs =>
    match resolveIn cfg (determine r.eid) with
    | .error e => (st, .error e)
    | .ok (some (.leaf .mapServer i pfx)) =>
      match handleRegisterRecord H (conf i) pfx (st i) m source now r with
      | .ok s => registerLoop H cfg conf m source now (fun j => if j = i then s else st j)
          (done ++ [r]) (conf i).key rs
      | .error .msAuth => registerLoop H cfg conf m source now st done key rs
      | .error .msScope => registerLoop H cfg conf m source now st done key rs
      | .error e => (st, .error e)
    | .ok _ => registerLoop H cfg conf m source now st done key rs

/-- a call of `send_message(message, my_sockets, destinations, port)` -/
structure SendCall (α : Type) where
  message : α
  destinations : List Addr
  port : Int
  deriving DecidableEq

/-- message_handler.py:109-113: the Map-Notify, before `insert_authentication_data` -/
def notifyFor (m : MapRegister) (done : List Record) : MapNotify :=
  { nonce := m.nonce, keyId := m.keyId, records := done, xtrId := m.xtrId, siteId := m.siteId }

/-- message_handler.py:80-120 `handle_map_register`: the stores afterwards, and the message sent (if
any) or the exception raised.  The socket used is the one the message came in on. -/
def handleMapRegister (H : Mac) (cfg : Config) (conf : Nat → MsConf) (st : Nat → Store)
    (m : MapRegister) (source : IP) (now : Int) :
    (Nat → Store) × Except Err (Option (SendCall MapNotify)) :=
  match registerLoop H cfg conf m source now st [] [] m.records with
  | (st', .error e) => (st', .error e)
  | (st', .ok (done, key)) =>
    if m.wantMapNotify = true ∧ done ≠ [] then
      match (notifyFor m done).insert H key with
      | .error e => (st', .error e)
      | .ok n => (st', .ok (some ⟨n, [.ip source], 4342⟩))
    else (st', .ok none)

end PyLisp
