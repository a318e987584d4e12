import Verif.Auth
import Verif.Pkt
/-
Control messages as objects: records, lists of locators and locators are objects of their own that several
messages can share, and `sanitize`, `to_bytes`, `verify_authentication_data` and
`insert_authentication_data` change them in place, also when they end in an exception.

A heap maps references to objects.  Assignments to attributes by other code are not part of this model.
-/
namespace PyLisp

/-- map_reply_record.py:40-54: a Map-Reply or Map-Register record; `locs` refers to the list object
`locator_records` -/
structure RecObj where
  ttl : Int := 0
  action : Int := 0
  authoritative : Bool := false
  mapVersion : Int := 0
  eid : Addr := .none
  locs : Nat := 0
  reserved1 : BitVec 16 := 0
  deriving DecidableEq

/-- map_referral_record.py:62-79 -/
structure RefObj where
  ttl : Int := 0
  action : Int := 0
  authoritative : Bool := false
  incomplete : Bool := false
  mapVersion : Int := 0
  eid : Addr := .none
  locs : Nat := 0
  sigs : Nat := 0
  reserved1 : BitVec 11 := 0
  deriving DecidableEq

/-- a control message object: its own fields, and references to its records (the `records` and `mapReply` fields
of the first component are not used).  map_request.py:23-45, map_reply.py:18-33, map_register.py:26-47,
map_notify.py:22-38, map_referral.py:18-29, info_message.py:27-45 -/
inductive MsgObj
  | request (m : MapRequest) (r : Option Nat)
  | reply (m : MapReply) (rs : List Nat)
  | register (m : MapRegister) (rs : List Nat)
  | notify (m : MapNotify) (rs : List Nat)
  | referral (m : MapReferral) (rs : List Nat)
  | info (m : Info)

/-- all objects: locators, lists of locators, records, Map-Referral records, messages -/
structure Heap where
  loc : Nat → Locator
  lst : Nat → List Nat
  recs : Nat → RecObj
  refs : Nat → RefObj
  msg : Nat → MsgObj

namespace Heap

/-- assignment to one object of a kind -/
def put {α : Type} (f : Nat → α) (i : Nat) (a : α) : Nat → α := fun j => if j = i then a else f j

/-- the contents of a list of locators -/
def list (h : Heap) (l : Nat) : List Locator := (h.lst l).map h.loc

/-- what a record object contains -/
def record (h : Heap) (i : Nat) : Record :=
  { ttl := (h.recs i).ttl, action := (h.recs i).action, authoritative := (h.recs i).authoritative,
    mapVersion := (h.recs i).mapVersion, eid := (h.recs i).eid, locators := h.list (h.recs i).locs,
    reserved1 := (h.recs i).reserved1 }

/-- what a Map-Referral record object contains -/
def refRecord (h : Heap) (i : Nat) : RefRecord :=
  { ttl := (h.refs i).ttl, action := (h.refs i).action, authoritative := (h.refs i).authoritative,
    incomplete := (h.refs i).incomplete, mapVersion := (h.refs i).mapVersion, eid := (h.refs i).eid,
    locators := h.list (h.refs i).locs, sigs := (h.refs i).sigs, reserved1 := (h.refs i).reserved1 }

/-- what a message object contains -/
def value (h : Heap) : MsgObj → Ctrl
  | .request m r => .request { m with mapReply := r.map h.record }
  | .reply m rs => .reply { m with records := rs.map h.record }
  | .register m rs => .register { m with records := rs.map h.record }
  | .notify m rs => .notify { m with records := rs.map h.record }
  | .referral m rs => .referral { m with records := rs.map h.refRecord }
  | .info m => .info m

/-- map_reply_record.py:139, map_referral_record.py:273 `self.locator_records.sort(key=LocatorRecord.sort_key)`:
sorts the list object in place; if a key raises the list is left as it was (library) -/
def sortList (h : Heap) (l : Nat) : Heap × Except Err Unit :=
  match checkKeys (h.list l) with
  | .error e => (h, .error e)
  | .ok _ => ({ h with lst := put h.lst l (sortBy (fun j => (h.loc j).key) (h.lst l)) }, .ok ())

/-- map_reply_record.py:92-93 `if self.locator_records: self.action = self.ACT_NO_ACTION` -/
def clearAction (h : Heap) (i : Nat) : Heap :=
  if h.lst (h.recs i).locs ≠ [] then { h with recs := put h.recs i { h.recs i with action := 0 } } else h

/-- map_reply_record.py:95-139: the rest of `sanitize` -/
def checkRec (h : Heap) (i : Nat) : Heap × Except Err Unit :=
  if ¬ ((h.recs i).action = 0 ∨ (h.recs i).action = 1 ∨ (h.recs i).action = 2 ∨ (h.recs i).action = 3) then
    (h, .error .value)
  else if (h.recs i).mapVersion < 0 ∨ (h.recs i).mapVersion ≥ 2 ^ 12 then (h, .error .value)
  else
    match (h.recs i).eid with
    | .net _ =>
      match sanitizeLocators (h.list (h.recs i).locs) with
      | .error e => (h, .error e)
      | .ok _ => h.sortList (h.recs i).locs
    | _ => (h, .error .value)

/-- map_reply_record.py:59-139 `sanitize` -/
def sanitizeRec (h : Heap) (i : Nat) : Heap × Except Err Unit :=
  if (h.recs i).ttl < 0 ∨ (h.recs i).ttl > 0xffffffff then (h, .error .value)
  else (h.clearAction i).checkRec i

/-- map_referral_record.py:258-273: the locators of a Map-Referral record -/
def checkRef (h : Heap) (i : Nat) : Heap × Except Err Unit :=
  match sanitizeRefLocators (h.list (h.refs i).locs) with
  | .error e => (h, .error e)
  | .ok _ => h.sortList (h.refs i).locs

/-- map_referral_record.py:84-278 `sanitize` -/
def sanitizeRef (h : Heap) (i : Nat) : Heap × Except Err Unit :=
  if (h.refs i).ttl < 0 ∨ (h.refs i).ttl > 0xffffffff then (h, .error .value)
  else if ¬ ((h.refs i).action = 0 ∨ (h.refs i).action = 1 ∨ (h.refs i).action = 2 ∨ (h.refs i).action = 3 ∨
      (h.refs i).action = 4 ∨ (h.refs i).action = 5) then (h, .error .value)
  else
    match refTable (h.refs i).action (h.refs i).incomplete (h.list (h.refs i).locs) (h.refs i).ttl with
    | .error e => (h, .error e)
    | .ok _ =>
      if (h.refs i).mapVersion < 0 ∨ (h.refs i).mapVersion ≥ 2 ^ 12 then (h, .error .value)
      else
        match wrapEid (h.refs i).eid with
        | .error e => (h, .error e)
        | .ok e => ({ h with refs := put h.refs i { h.refs i with eid := e } } : Heap).checkRef i

/-- `for record in self.records: record.sanitize()`: stops at the first exception
(map_reply.py:79-83, map_register.py:153-157, map_notify.py:91-95, map_referral.py:57-61) -/
def each (f : Heap → Nat → Heap × Except Err Unit) : Heap → List Nat → Heap × Except Err Unit
  | h, [] => (h, .ok ())
  | h, i :: is =>
    match f h i with
    | (h1, .error e) => (h1, .error e)
    | (h1, .ok _) => each f h1 is

/-- a check that changes nothing, then something that may -/
def after {α : Type} (h : Heap) (x : Except Err α) (k : Heap × Except Err Unit) : Heap × Except Err Unit :=
  match x with
  | .error e => (h, .error e)
  | .ok _ => k

/-- `sanitize` of the six message classes: first the message's own fields (what `sanitize` says of the message
without records), then its records one by one.  map_request.py:47-180, map_reply.py:35-83, map_register.py:49-157,
map_notify.py:40-95, map_referral.py:31-61, info_message.py:47-110 -/
def sanitizeMsg (h : Heap) : MsgObj → Heap × Except Err Unit
  | .request m r => h.after ({ m with mapReply := none } : MapRequest).sanitize (h.each sanitizeRec r.toList)
  | .reply m rs => h.after ({ m with records := [] } : MapReply).sanitize (h.each sanitizeRec rs)
  | .register m rs => h.after ({ m with records := [] } : MapRegister).sanitize (h.each sanitizeRec rs)
  | .notify m rs => h.after ({ m with records := [] } : MapNotify).sanitize (h.each sanitizeRec rs)
  | .referral m rs => h.after ({ m with records := [] } : MapReferral).sanitize (h.each sanitizeRef rs)
  | .info m => h.after m.sanitize (h, .ok ())

end Heap

/-- the writes of `to_bytes` of the six message classes, after `sanitize`.  map_request.py:294-340,
map_reply.py:144-176, map_register.py:282-322, map_notify.py:210-240, map_referral.py:111-126, info_message.py:226-259.
(The `to_bitstream` methods of the records call `sanitize` once more; `Props.sanitize_again` shows that this
changes nothing.) -/
def Ctrl.write : Ctrl → Except Err Bytes
  | .request m => PyLisp.toBytes (encMapRequestRaw m)
  | .reply m => PyLisp.toBytes (encMapReplyRaw m)
  | .register m => PyLisp.toBytes (encMapRegisterRaw m)
  | .notify m => PyLisp.toBytes (encMapNotifyRaw m)
  | .referral m => PyLisp.toBytes (encMapReferralRaw m)
  | .info m => PyLisp.toBytes (encInfoRaw m)

/-- the attribute `key_id`; Map-Requests, Map-Replies and Map-Referrals have neither it nor authentication data -/
def MsgObj.keyId : MsgObj → Option Int
  | .register m _ => some m.keyId
  | .notify m _ => some m.keyId
  | .info m => some m.keyId
  | _ => none

/-- the attribute `authentication_data` -/
def MsgObj.auth : MsgObj → Bytes
  | .register m _ => m.authData
  | .notify m _ => m.authData
  | .info m => m.authData
  | _ => []

/-- `self.authentication_data = a` -/
def MsgObj.setAuth (a : Bytes) : MsgObj → MsgObj
  | .register m rs => .register { m with authData := a } rs
  | .notify m rs => .notify { m with authData := a } rs
  | .info m => .info { m with authData := a }
  | o => o

namespace Heap

/-- `to_bytes`: map_request.py:278-340, map_reply.py:136-176, map_register.py:274-322, map_notify.py:202-240,
map_referral.py:103-126, info_message.py:219-259 -/
def toBytes (h : Heap) (i : Nat) : Heap × Except Err Bytes :=
  match h.sanitizeMsg (h.msg i) with
  | (h1, .error e) => (h1, .error e)
  | (h1, .ok _) => (h1, (h1.value (h1.msg i)).write)

/-- `self.authentication_data = a` -/
def setAuth (h : Heap) (i : Nat) (a : Bytes) : Heap := { h with msg := put h.msg i ((h.msg i).setAuth a) }

/-- map_register.py:178-191 (the same in map_notify.py:116-129 and info_message.py:131-144): the zeros are put in
place, the message is serialised, the old data are put back - unless `to_bytes` raises, then the zeros stay -/
def digest (h : Heap) (i n : Nat) (mac : Bytes → Bytes) : Heap × Except Err Bytes :=
  match (h.setAuth i (List.replicate n 0)).toBytes i with
  | (h1, .error e) => (h1, .error e)
  | (h1, .ok msg) => (h1.setAuth i (h.msg i).auth, .ok (mac msg))

/-- map_register.py:159-191, map_notify.py:97-129, info_message.py:112-144 `calculate_authentication_data` -/
def calculate (H : Mac) (h : Heap) (i : Nat) (key : Bytes) : Heap × Except Err Bytes :=
  match (h.msg i).keyId with
  | none => (h, .error .attr)
  | some k =>
    if k = 0 then (h, .ok [])
    else if k = 1 then h.digest i 20 (H.sha1 key)
    else if k = 2 then h.digest i 32 (H.sha256 key)
    else (h, .error .value)

/-- map_register.py:193-199, map_notify.py:131-137, info_message.py:146-152 -/
def verify (H : Mac) (h : Heap) (i : Nat) (key : Bytes) : Heap × Except Err Bool :=
  match h.calculate H i key with
  | (h1, .error e) => (h1, .error e)
  | (h1, .ok a) => (h1, .ok ((h1.msg i).auth == a))

/-- map_register.py:201-207, map_notify.py:139-145, info_message.py:154-160 -/
def insert (H : Mac) (h : Heap) (i : Nat) (key : Bytes) : Heap × Except Err Unit :=
  match h.calculate H i key with
  | (h1, .error e) => (h1, .error e)
  | (h1, .ok a) => (h1.setAuth i a, .ok ())

end Heap

/-- the methods a user can call on a message -/
inductive Call
  | sanitize (i : Nat)
  | toBytes (i : Nat)
  | verify (i : Nat) (key : Bytes)
  | insert (i : Nat) (key : Bytes)

/-- what a method returns -/
inductive Returned
  | nothing
  | bytes (b : Bytes)
  | bool (b : Bool)
  deriving DecidableEq

namespace Heap

/-- one call (the dispatch of Python; no code of its own in /repo) -/
def call (H : Mac) (h : Heap) : Call → Heap × Except Err Returned
  | .sanitize i => ((h.sanitizeMsg (h.msg i)).1, (h.sanitizeMsg (h.msg i)).2.map fun _ => .nothing)
  | .toBytes i => ((h.toBytes i).1, (h.toBytes i).2.map .bytes)
  | .verify i key => ((h.verify H i key).1, (h.verify H i key).2.map .bool)
  | .insert i key => ((h.insert H i key).1, (h.insert H i key).2.map fun _ => .nothing)

/-- a sequence of calls; exceptions are caught by the caller, who goes on -/
def calls (H : Mac) : Heap → List Call → Heap × List (Except Err Returned)
  | h, [] => (h, [])
  | h, c :: cs => (((h.call H c).1.calls H cs).1, (h.call H c).2 :: ((h.call H c).1.calls H cs).2)

end Heap
end PyLisp
