import Verif.Pkt
/-
The message classes with attributes of arbitrary Python values: what `sanitize` and `to_bytes` do when attributes do not
have the documented types.  The other modules type attributes (`Bool`, `Int`, `Bytes`, `Addr`); this module models the
`isinstance` checks of pylisp/packet/lisp/control/*.py, lisp/data.py and ip/*.py, in their order.

The containers (`records`, `locator_records`, `itr_rlocs`, `eid_prefixes`) are lists, whose elements are arbitrary.
-/
namespace PyLisp

/-- A Python value as far as `sanitize` and `to_bytes` can tell values apart.  `int` is an int or a long; `float` has the
whole number that it equals (none for nan and the infinities), `frac` is a float between whole numbers, with what `int`
makes of it; `text` is a unicode string, with its bytes if it is all ASCII; `addr` is
None (`Addr.none`), an IPv4/IPv6 address or network or an LCAF address; `seq` is a tuple (`true`) or a list; `other` is
an object of a class without special methods. -/
inductive PyObj
  | bool (b : Bool)
  | int (i : Int)
  | float (v : Option Int)
  | frac (t : Int)
  | bytes (b : Bytes)
  | text (b : Option Bytes)
  | addr (a : Addr)
  | seq (tuple : Bool) (l : List PyObj)
  | other

/-- `1 if b else 0` -/
def boolInt (b : Bool) : Int := if b then 1 else 0

/-- the value of a `numbers.Integral` (bool is a subclass of int) -/
def PyObj.integral : PyObj → Option Int
  | .bool b => some (boolInt b)
  | .int i => some i
  | _ => none

/-- the whole number that a value equals (`==`) -/
def PyObj.number : PyObj → Option Int
  | .bool b => some (boolInt b)
  | .int i => some i
  | .float v => v
  | _ => none

/-- `isinstance(x, bool)` -/
def PyObj.isBool : PyObj → Bool
  | .bool _ => true
  | _ => false

/-- `isinstance(x, bytes)` -/
def PyObj.isBytes : PyObj → Bool
  | .bytes _ => true
  | _ => false

/-- `isinstance(x, numbers.Integral) and lo <= x <= hi` -/
def PyObj.intIn (lo hi : Int) (o : PyObj) : Bool :=
  match o.integral with
  | some i => decide (lo ≤ i ∧ i ≤ hi)
  | none => false

/-- `x == i` for a whole number -/
def PyObj.eqs (o : PyObj) (i : Int) : Bool := o.number == some i

/-- truth of a value -/
def PyObj.truth : PyObj → Bool
  | .bool b => b
  | .int i => i != 0
  | .float v => v != some 0
  | .frac _ => true
  | .bytes b => !b.isEmpty
  | .text b => b != some []
  | .addr .none => false
  | .addr _ => true
  | .seq _ l => !l.isEmpty
  | .other => true

/-- `'%d' % x` for values that have passed `sanitize` (all of them are whole numbers; for other values see DynRaw.lean) -/
def PyObj.fmt (o : PyObj) : Except Err Int :=
  match o.number with
  | some i => .ok i
  | none => .error .type

/-- `'%r' % x` in an error message: a tuple is taken as the list of arguments -/
def PyObj.reprErr : PyObj → Err
  | .seq true l => if l.length = 1 then .value else .type
  | _ => .value

/-- what the interpreter and bitstring make of values that are no byte strings: `str x` is `bytes(x)`, `raw x` the
content of `BitArray(bytes=x)` -/
structure Py where
  str : PyObj → Except Err Bytes
  raw : PyObj → Except Err Bytes
  str_bytes : ∀ b, str (.bytes b) = .ok b
  raw_bytes : ∀ b, raw (.bytes b) = .ok b

/-- an element of a list attribute: an object of the class looked for, or anything else -/
inductive Item (α : Type)
  | obj (a : α)
  | alien (o : PyObj)

/-- the token `uint:n=%d` (e.g. map_reply_record.py:204) -/
def encUintD (n : Nat) (o : PyObj) : Except Err Bits := do
  let i ← o.fmt
  encUint n i

/-- the token `bool=%d` (e.g. map_reply_record.py:216); anything but 0 and 1 is a CreationError (a ValueError) -/
def encBoolD (o : PyObj) : Except Err Bits := do
  let i ← o.fmt
  if i = 0 then .ok [false] else if i = 1 then .ok [true] else .error .value

/-- `get_bitstream_for_afi_address(x)` (utils/afi.py) -/
def encAddrD : PyObj → Except Err Bits
  | .addr a => encAddr a
  | _ => .error .value

/-- `x.prefixlen` -/
def prefixlenD : PyObj → Except Err Nat
  | .addr a => a.prefixlen
  | _ => .error .attr

/-- the list element's own `to_bitstream` -/
def encItem (e : α → Except Err Bits) : Item α → Except Err Bits
  | .obj a => e a
  | .alien _ => .error .attr

/-! ### Locator records -/

/-- locator_record.py:25-44 -/
structure DLocator where
  priority : PyObj := .int 255
  weight : PyObj := .int 0
  mPriority : PyObj := .int 255
  mWeight : PyObj := .int 0
  isLocal : PyObj := .bool false
  probed : PyObj := .bool false
  reachable : PyObj := .bool false
  address : PyObj := .addr .none
  reserved1 : BitVec 13 := 0

/-- locator_record.py:186-210 -/
def checkLocatorAddressD : PyObj → Except Err Unit
  | .addr a => checkLocatorAddress a
  | _ => .error .value

/-- locator_record.py:97-210 `sanitize` -/
def DLocator.sanitize (l : DLocator) : Except Err Unit :=
  if l.priority.intIn 0 255 = false then .error .value
  else if l.weight.intIn 0 255 = false then .error .value
  else if l.mPriority.intIn 0 255 = false then .error .value
  else if l.mWeight.intIn 0 255 = false then .error .value
  else if l.isLocal.isBool = false then .error .value
  else if l.probed.isBool = false then .error .value
  else if l.reachable.isBool = false then .error .value
  else checkLocatorAddressD l.address

/-- locator_record.py:252-278 `to_bitstream` -/
def DLocator.enc (l : DLocator) : Except Err Bits := do
  let _ ← l.sanitize
  let b1 ← encUintD 8 l.priority
  let b2 ← encUintD 8 l.weight
  let b3 ← encUintD 8 l.mPriority
  let b4 ← encUintD 8 l.mWeight
  let f1 ← encBoolD l.isLocal
  let f2 ← encBoolD l.probed
  let f3 ← encBoolD l.reachable
  let a ← encAddrD l.address
  pure (b1 ++ b2 ++ b3 ++ b4 ++ natToBits 13 l.reserved1.toNat ++ f1 ++ f2 ++ f3 ++ a)

/-- locator_record.py:88-92 `sort_key` -/
def sortKeyD : Item DLocator → Except Err Nat
  | .obj l =>
    match l.address with
    | .addr (.ip a) => .ok a.val
    | _ => .error .type
  | .alien _ => .error .attr

/-- the sort key of a locator whose key is defined -/
def keyD : Item DLocator → Nat
  | .obj l =>
    match l.address with
    | .addr (.ip a) => a.val
    | _ => 0
  | .alien _ => 0

/-- evaluation of the sort key for every element (raises if one raises) -/
def checkKeysD : List (Item DLocator) → Except Err Unit
  | [] => .ok ()
  | l :: ls => do
    let _ ← sortKeyD l
    checkKeysD ls

/-- `self.locator_records.sort(key=LocatorRecord.sort_key)` (map_reply_record.py:139) -/
def sortLocatorsD (ls : List (Item DLocator)) : Except Err (List (Item DLocator)) := do
  let _ ← checkKeysD ls
  pure (sortBy keyD ls)

/-- map_reply_record.py:128-132 -/
def sanitizeLocatorsD : List (Item DLocator) → Except Err Unit
  | [] => .ok ()
  | .alien _ :: _ => .error .value
  | .obj l :: ls => do
    let _ ← l.sanitize
    sanitizeLocatorsD ls

/-! ### Records -/

/-- map_reply_record.py:40-54; `register` tells whether the object is a MapRegisterRecord (a subclass of
MapReplyRecord, map_register_record.py:12-13) -/
structure DRecord where
  register : Bool := false
  ttl : PyObj := .int 0
  action : PyObj := .int 0
  authoritative : PyObj := .bool false
  mapVersion : PyObj := .int 0
  eid : PyObj := .addr .none
  locators : List (Item DLocator) := []
  reserved1 : BitVec 16 := 0

/-- `isinstance(x, (IPv4Network, IPv6Network))` -/
def PyObj.isNet : PyObj → Bool
  | .addr a => a.isNet
  | _ => false

/-- map_reply_record.py:92-93: a record with locators has no action -/
def DRecord.fixed (r : DRecord) : PyObj := if r.locators.isEmpty then r.action else .int 0

/-- map_reply_record.py:59-139 `sanitize` -/
def DRecord.sanitize (r : DRecord) : Except Err DRecord :=
  if r.ttl.intIn 0 0xffffffff = false then .error .value
  else if (r.fixed.eqs 0 || r.fixed.eqs 1 || r.fixed.eqs 2 || r.fixed.eqs 3) = false then .error .value
  else if r.authoritative.isBool = false then .error .value
  else if r.mapVersion.intIn 0 (2 ^ 12 - 1) = false then .error .value
  else if r.eid.isNet = false then .error .value
  else do
    let _ ← sanitizeLocatorsD r.locators
    let ls ← sortLocatorsD r.locators
    pure { r with action := r.fixed, locators := ls }

/-- map_reply_record.py:203-231: the writes of `to_bitstream` -/
def DRecord.encRaw (r : DRecord) : Except Err Bits := do
  let b1 ← encUintD 32 r.ttl
  let b2 ← encUint 8 r.locators.length
  let plen ← prefixlenD r.eid
  let b3 ← encUint 8 plen
  let b4 ← encUintD 3 r.action
  let f ← encBoolD r.authoritative
  let b5 ← encUintD 12 r.mapVersion
  let e ← encAddrD r.eid
  let ls ← encAll (encItem DLocator.enc) r.locators
  pure (b1 ++ b2 ++ b3 ++ b4 ++ f ++ natToBits 16 r.reserved1.toNat ++ b5 ++ e ++ ls)

/-- map_reply_record.py:196-231 `to_bitstream` -/
def DRecord.enc (r : DRecord) : Except Err Bits := do
  let r ← r.sanitize
  r.encRaw

/-- map_referral_record.py:62-79; `signatures` is represented by its length -/
structure DRefRecord where
  ttl : PyObj := .int 0
  action : PyObj := .int 0
  authoritative : PyObj := .bool false
  incomplete : PyObj := .bool false
  mapVersion : PyObj := .int 0
  eid : PyObj := .addr .none
  locators : List (Item DLocator) := []
  sigs : Nat := 0
  reserved1 : BitVec 11 := 0

/-- map_referral_record.py:179-230 -/
def refTableD (action incomplete : PyObj) (locators : List (Item DLocator)) (ttl : PyObj) : Except Err Unit :=
  if action.eqs 0 || action.eqs 1 then
    if incomplete.truth then .error .value
    else if locators.isEmpty then .error .value
    else if ttl.eqs 1440 = false then .error .value
    else .ok ()
  else if action.eqs 2 then
    if ttl.eqs 1440 = false then .error .value else .ok ()
  else if action.eqs 3 then
    if ttl.eqs 1 = false then .error .value else .ok ()
  else if action.eqs 4 then
    if incomplete.truth then .error .value
    else if !locators.isEmpty then .error .value
    else if ttl.eqs 15 = false then .error .value
    else .ok ()
  else if action.eqs 5 then
    if !incomplete.truth then .error .value
    else if !locators.isEmpty then .error .value
    else if ttl.eqs 0 = false then .error .value
    else .ok ()
  else .ok ()

/-- map_referral_record.py:249-257 -/
def wrapEidD : PyObj → Except Err PyObj
  | .addr a => do
    let e ← wrapEid a
    pure (.addr e)
  | _ => .error .value

/-- map_referral_record.py:261-266 -/
def sanitizeRefLocatorsD : List (Item DLocator) → Except Err Unit
  | [] => .ok ()
  | .alien _ :: _ => .error .value
  | .obj l :: ls =>
    if l.probed.truth then .error .value
    else do
      let _ ← l.sanitize
      sanitizeRefLocatorsD ls

/-- map_referral_record.py:84-278 `sanitize` -/
def DRefRecord.sanitize (r : DRefRecord) : Except Err DRefRecord :=
  if r.ttl.intIn 0 0xffffffff = false then .error .value
  else if (r.action.eqs 0 || r.action.eqs 1 || r.action.eqs 2 || r.action.eqs 3 || r.action.eqs 4 ||
      r.action.eqs 5) = false then .error .value
  else if r.authoritative.isBool = false then .error .value
  else if r.incomplete.isBool = false then .error .value
  else do
    let _ ← refTableD r.action r.incomplete r.locators r.ttl
    if r.mapVersion.intIn 0 (2 ^ 12 - 1) = false then .error .value
    else
      let eid ← wrapEidD r.eid
      let _ ← sanitizeRefLocatorsD r.locators
      let ls ← sortLocatorsD r.locators
      pure { r with eid := eid, locators := ls }

/-- map_referral_record.py:350-386: the writes of `to_bitstream` -/
def DRefRecord.encRaw (r : DRefRecord) : Except Err Bits := do
  let b1 ← encUintD 32 r.ttl
  let b2 ← encUint 8 r.locators.length
  let plen ← prefixlenD r.eid
  let b3 ← encUint 8 plen
  let b4 ← encUintD 3 r.action
  let f1 ← encBoolD r.authoritative
  let f2 ← encBoolD r.incomplete
  let b5 ← encUint 4 r.sigs
  let b6 ← encUintD 12 r.mapVersion
  let e ← encAddrD r.eid
  let ls ← encAll (encItem DLocator.enc) r.locators
  if r.sigs ≠ 0 then .error .notImpl
  else
    pure (b1 ++ b2 ++ b3 ++ b4 ++ f1 ++ f2 ++ natToBits 11 r.reserved1.toNat ++ b5 ++ b6 ++ e ++ ls)

/-- map_referral_record.py:343-386 `to_bitstream` -/
def DRefRecord.enc (r : DRefRecord) : Except Err Bits := do
  let r ← r.sanitize
  r.encRaw

/-- `for record in self.records: if not isinstance(record, cls): raise ...; record.sanitize()` (e.g. map_reply.py:79-83);
`cls` is true of the objects of the class -/
def sanitizeItems (cls : α → Bool) (f : α → Except Err α) : List (Item α) → Except Err (List (Item α))
  | [] => .ok []
  | .alien _ :: _ => .error .value
  | .obj a :: l =>
    if cls a = false then .error .value
    else do
      let a ← f a
      let l ← sanitizeItems cls f l
      pure (.obj a :: l)

/-! ### Messages -/

/-- map_request.py:23-42 -/
structure DMapRequest where
  authoritative : PyObj := .bool false
  probe : PyObj := .bool false
  smr : PyObj := .bool false
  pitr : PyObj := .bool false
  smrInvoked : PyObj := .bool false
  nonce : PyObj := .bytes (List.replicate 8 0)
  sourceEid : PyObj := .addr .none
  itrRlocs : List PyObj := []
  eidPrefixes : List PyObj := []
  mapReply : Option (Item DRecord) := none
  reserved1 : BitVec 9 := 0

/-- `len(bytes(x)) != n` for every n given -/
def Py.strLen (P : Py) (o : PyObj) (ok : Nat → Bool) : Except Err Unit := do
  let s ← P.str o
  if ok s.length then .ok () else .error .value

/-- map_request.py:127-139 -/
def sourceEidD : PyObj → Except Err Unit
  | .addr a => if sourceEidOk a then .ok () else .error .value
  | o => .error o.reprErr

/-- map_request.py:145-147 -/
def itrRlocsD : List PyObj → Except Err Unit
  | [] => .ok ()
  | .addr a :: l => if a.isIP then itrRlocsD l else .error .value
  | _ :: _ => .error .value

/-- map_request.py:159-169 -/
def eidPrefixesD : List PyObj → Except Err Unit
  | [] => .ok ()
  | .addr a :: l => if a.getAddresses.all Addr.isIPorNet then eidPrefixesD l else .error .value
  | o :: _ => .error o.reprErr

/-- map_request.py:176-180 -/
def mapReplyD : Option (Item DRecord) → Except Err (Option (Item DRecord))
  | none => .ok none
  | some (.alien _) => .error .value
  | some (.obj r) => do
    let r ← r.sanitize
    pure (some (.obj r))

/-- map_request.py:47-180 `sanitize` -/
def DMapRequest.sanitize (P : Py) (m : DMapRequest) : Except Err DMapRequest :=
  if m.authoritative.isBool = false then .error .value
  else if m.probe.isBool = false then .error .value
  else if m.smr.isBool = false then .error .value
  else if m.pitr.isBool = false then .error .value
  else if m.smrInvoked.isBool = false then .error .value
  else if m.itrRlocs.length < 1 ∨ m.itrRlocs.length > 32 then .error .value
  else if m.eidPrefixes.length < 1 ∨ m.eidPrefixes.length > 32 then .error .value
  else do
    let _ ← P.strLen m.nonce (· = 8)
    let _ ← sourceEidD m.sourceEid
    let _ ← itrRlocsD m.itrRlocs
    let _ ← eidPrefixesD m.eidPrefixes
    let r ← mapReplyD m.mapReply
    pure { m with mapReply := r }

/-- map_request.py:325-334; only addresses, networks and LCAF addresses get here -/
def encEidPrefixD : PyObj → Except Err Bits
  | .addr a => encEidPrefix a
  | _ => .error .value

/-- map_request.py:337-338 -/
def encOptRecordD : Option (Item DRecord) → Except Err Bits
  | none => .ok []
  | some r => encItem DRecord.enc r

/-- map_request.py:294-338: the writes of `to_bytes` -/
def DMapRequest.encRaw (P : Py) (m : DMapRequest) : Except Err Bits := do
  let f1 ← encBoolD m.authoritative
  let f2 ← encBoolD m.probe
  let f3 ← encBoolD m.smr
  let f4 ← encBoolD m.pitr
  let f5 ← encBoolD m.smrInvoked
  let b1 ← encUint 5 ((m.itrRlocs.length : Int) - 1)
  let b2 ← encUint 8 m.eidPrefixes.length
  let n ← P.raw m.nonce
  let b3 ← encAddrD m.sourceEid
  let b4 ← encAll encAddrD m.itrRlocs
  let b5 ← encAll encEidPrefixD m.eidPrefixes
  let b6 ← encOptRecordD m.mapReply
  pure (natToBits 4 1 ++ f1 ++ [m.mapReply.isSome] ++ f2 ++ f3 ++ f4 ++ f5 ++ natToBits 9 m.reserved1.toNat
    ++ b1 ++ b2 ++ bytesToBits n ++ b3 ++ b4 ++ b5 ++ b6)

/-- map_request.py:278-340 `to_bytes` -/
def DMapRequest.toBytes (P : Py) (m : DMapRequest) : Except Err Bytes := PyLisp.toBytes do
  let m ← m.sanitize P
  m.encRaw P

/-- map_reply.py:18-33 -/
structure DMapReply where
  probe : PyObj := .bool false
  enlraEnabled : PyObj := .bool false
  security : PyObj := .bool false
  nonce : PyObj := .bytes (List.replicate 8 0)
  records : List (Item DRecord) := []
  reserved1 : BitVec 17 := 0

/-- map_reply.py:35-83 `sanitize` -/
def DMapReply.sanitize (P : Py) (m : DMapReply) : Except Err DMapReply :=
  if m.probe.isBool = false then .error .value
  else if m.enlraEnabled.isBool = false then .error .value
  else if m.security.isBool = false then .error .value
  else if m.security.truth then .error .notImpl
  else do
    let _ ← P.strLen m.nonce (fun n => n = 3 || n = 8)
    let rs ← sanitizeItems (fun _ => true) DRecord.sanitize m.records
    pure { m with records := rs }

/-- map_reply.py:144-174: the writes of `to_bytes` -/
def DMapReply.encRaw (P : Py) (m : DMapReply) : Except Err Bits := do
  let f1 ← encBoolD m.probe
  let f2 ← encBoolD m.enlraEnabled
  let f3 ← encBoolD m.security
  let b1 ← encUint 8 m.records.length
  let n ← P.str m.nonce
  let b2 ← encAll (encItem DRecord.enc) m.records
  if m.security.truth then .error .notImpl
  else
    pure (natToBits 4 2 ++ f1 ++ f2 ++ f3 ++ natToBits 17 m.reserved1.toNat
      ++ b1 ++ zeros (8 * (8 - n.length)) ++ bytesToBits n ++ b2)

/-- map_reply.py:136-176 `to_bytes` -/
def DMapReply.toBytes (P : Py) (m : DMapReply) : Except Err Bytes := PyLisp.toBytes do
  let m ← m.sanitize P
  m.encRaw P

/-- map_register.py:26-47 -/
structure DMapRegister where
  proxyMapReply : PyObj := .bool false
  forRtr : PyObj := .bool false
  wantMapNotify : PyObj := .bool false
  nonce : PyObj := .bytes (List.replicate 8 0)
  keyId : PyObj := .int 0
  authData : PyObj := .bytes []
  records : List (Item DRecord) := []
  xtrId : PyObj := .int 0
  siteId : PyObj := .int 0
  reserved1 : BitVec 1 := 0
  reserved2 : BitVec 15 := 0

/-- `key_id in (0, 1, 2)` (map_register.py:134-136) -/
def PyObj.keyIdOk (o : PyObj) : Bool := o.eqs 0 || o.eqs 1 || o.eqs 2

/-- map_register.py:49-157 `sanitize` -/
def DMapRegister.sanitize (m : DMapRegister) : Except Err DMapRegister :=
  if m.proxyMapReply.isBool = false then .error .value
  else if m.xtrId.intIn 0 (2 ^ 128 - 1) = false then .error .value
  else if m.siteId.intIn 0 (2 ^ 64 - 1) = false then .error .value
  else if m.forRtr.isBool = false then .error .value
  else if m.wantMapNotify.isBool = false then .error .value
  else if m.keyId.keyIdOk = false then .error .value
  else if m.authData.isBytes = false then .error .value
  else do
    let rs ← sanitizeItems DRecord.register DRecord.sanitize m.records
    pure { m with records := rs }

/-- the tokens `uint:16=%d, hex=%s` of the authentication data (map_register.py:308-311) -/
def encAuthD : PyObj → Except Err (Bits × Bits)
  | .bytes b => do
    let n ← encUint 16 b.length
    let h ← encHex b
    pure (n, h)
  | _ => .error .attr

/-- map_register.py:318-320 -/
def encIdsD (present : Bool) (x s : PyObj) : Except Err Bits :=
  if present = true then do
    let b1 ← encUintD 128 x
    let b2 ← encUintD 64 s
    pure (b1 ++ b2)
  else .ok []

/-- map_register.py:282-320: the writes of `to_bytes` -/
def DMapRegister.encRaw (P : Py) (m : DMapRegister) : Except Err Bits := do
  let f1 ← encBoolD m.proxyMapReply
  let f2 ← encBoolD m.forRtr
  let f3 ← encBoolD m.wantMapNotify
  let ids := m.xtrId.truth || m.siteId.truth || m.forRtr.truth
  let b1 ← encUint 8 m.records.length
  let n ← P.raw m.nonce
  let b2 ← encUintD 16 m.keyId
  let a ← encAuthD m.authData
  let b4 ← encAll (encItem DRecord.enc) m.records
  let b5 ← encIdsD ids m.xtrId m.siteId
  pure (natToBits 4 3 ++ f1 ++ natToBits 1 m.reserved1.toNat ++ [ids] ++ f2 ++ natToBits 15 m.reserved2.toNat ++ f3 ++
    b1 ++ bytesToBits n ++ b2 ++ a.1 ++ a.2 ++ b4 ++ b5)

/-- map_register.py:274-322 `to_bytes` -/
def DMapRegister.toBytes (P : Py) (m : DMapRegister) : Except Err Bytes := PyLisp.toBytes do
  let m ← m.sanitize
  m.encRaw P

/-- map_notify.py:22-38 -/
structure DMapNotify where
  nonce : PyObj := .bytes (List.replicate 8 0)
  keyId : PyObj := .int 0
  authData : PyObj := .bytes []
  records : List (Item DRecord) := []
  xtrId : PyObj := .int 0
  siteId : PyObj := .int 0
  reserved1 : BitVec 19 := 0

/-- map_notify.py:40-95 `sanitize` -/
def DMapNotify.sanitize (P : Py) (m : DMapNotify) : Except Err DMapNotify :=
  if m.xtrId.intIn 0 (2 ^ 128 - 1) = false then .error .value
  else if m.siteId.intIn 0 (2 ^ 64 - 1) = false then .error .value
  else do
    let _ ← P.strLen m.nonce (· = 8)
    if m.keyId.keyIdOk = false then .error .value
    else if m.authData.isBytes = false then .error .value
    else
      let rs ← sanitizeItems DRecord.register DRecord.sanitize m.records
      pure { m with records := rs }

/-- map_notify.py:210-238: the writes of `to_bytes` -/
def DMapNotify.encRaw (P : Py) (m : DMapNotify) : Except Err Bits := do
  let ids := m.xtrId.truth || m.siteId.truth
  let b1 ← encUint 8 m.records.length
  let n ← P.raw m.nonce
  let b2 ← encUintD 16 m.keyId
  let a ← encAuthD m.authData
  let b4 ← encAll (encItem DRecord.enc) m.records
  let b5 ← encIdsD ids m.xtrId m.siteId
  pure (natToBits 4 4 ++ [ids] ++ natToBits 19 m.reserved1.toNat ++ b1 ++ bytesToBits n ++ b2 ++ a.1 ++ a.2 ++ b4 ++ b5)

/-- map_notify.py:202-240 `to_bytes` -/
def DMapNotify.toBytes (P : Py) (m : DMapNotify) : Except Err Bytes := PyLisp.toBytes do
  let m ← m.sanitize P
  m.encRaw P

/-- map_referral.py:18-29 -/
structure DMapReferral where
  nonce : PyObj := .bytes (List.replicate 8 0)
  records : List (Item DRefRecord) := []
  reserved1 : BitVec 20 := 0

/-- map_referral.py:31-61 `sanitize` -/
def DMapReferral.sanitize (P : Py) (m : DMapReferral) : Except Err DMapReferral := do
  let _ ← P.strLen m.nonce (· = 8)
  let rs ← sanitizeItems (fun _ => true) DRefRecord.sanitize m.records
  pure { m with records := rs }

/-- map_referral.py:111-124: the writes of `to_bytes` -/
def DMapReferral.encRaw (P : Py) (m : DMapReferral) : Except Err Bits := do
  let b1 ← encUint 8 m.records.length
  let n ← P.raw m.nonce
  let b2 ← encAll (encItem DRefRecord.enc) m.records
  pure (natToBits 4 6 ++ natToBits 20 m.reserved1.toNat ++ b1 ++ bytesToBits n ++ b2)

/-- map_referral.py:103-126 `to_bytes` -/
def DMapReferral.toBytes (P : Py) (m : DMapReferral) : Except Err Bytes := PyLisp.toBytes do
  let m ← m.sanitize P
  m.encRaw P

/-- info_message.py:27-45 -/
structure DInfo where
  isReply : PyObj := .bool false
  nonce : PyObj := .bytes (List.replicate 8 0)
  keyId : PyObj := .int 0
  authData : PyObj := .bytes []
  ttl : PyObj := .int 0
  eidPrefix : PyObj := .addr .none
  reply : PyObj := .addr .none
  reserved1 : BitVec 27 := 0
  reserved2 : BitVec 8 := 0

/-- info_message.py:103-110 -/
def replyOkD (isReply : PyObj) (reply : PyObj) : Bool :=
  match reply with
  | .addr a => replyOk isReply.truth a
  | _ => false

/-- info_message.py:47-110 `sanitize` -/
def DInfo.sanitize (P : Py) (m : DInfo) : Except Err DInfo :=
  if m.isReply.isBool = false then .error .value
  else do
    let _ ← P.strLen m.nonce (· = 8)
    if m.keyId.keyIdOk = false then .error .value
    else if m.authData.isBytes = false then .error .value
    else if m.ttl.intIn 0 0xffffffff = false then .error .value
    else if m.eidPrefix.isNet = false then .error .value
    else if replyOkD m.isReply m.reply = false then .error .value
    else .ok m

/-- info_message.py:227-257: the writes of `to_bytes` -/
def DInfo.encRaw (P : Py) (m : DInfo) : Except Err Bits := do
  let f ← encBoolD m.isReply
  let n ← P.raw m.nonce
  let b1 ← encUintD 16 m.keyId
  let a ← encAuthD m.authData
  let b3 ← encUintD 32 m.ttl
  let plen ← prefixlenD m.eidPrefix
  let b4 ← encUint 8 plen
  let b5 ← encAddrD m.eidPrefix
  let b6 ← encAddrD m.reply
  pure (natToBits 4 7 ++ f ++ natToBits 27 m.reserved1.toNat ++ bytesToBits n ++
    b1 ++ a.1 ++ a.2 ++ b3 ++ natToBits 8 m.reserved2.toNat ++ b4 ++ b5 ++ b6)

/-- info_message.py:219-259 `to_bytes` -/
def DInfo.toBytes (P : Py) (m : DInfo) : Except Err Bytes := PyLisp.toBytes do
  let m ← m.sanitize P
  m.encRaw P

/-! ### Headers -/

/-- encapsulated_control_message.py:19-33 -/
structure DEcmHdr where
  security : PyObj := .bool false
  ddtOriginated : PyObj := .bool false
  forRtr : PyObj := .bool false
  relayedByRtr : PyObj := .bool false

/-- encapsulated_control_message.py:35-70 `sanitize` -/
def DEcmHdr.sanitize (h : DEcmHdr) : Except Err Unit :=
  if h.security.isBool = false then .error .value
  else if h.security.truth then .error .notImpl
  else if h.ddtOriginated.isBool = false then .error .value
  else if h.forRtr.isBool = false then .error .value
  else if h.relayedByRtr.isBool = false then .error .value
  else .ok ()

/-- data.py:21-34 -/
structure DDataHdr where
  echoNonce : PyObj := .bool false
  nonce : PyObj := .addr .none
  srcVersion : PyObj := .addr .none
  dstVersion : PyObj := .addr .none
  lsb : PyObj := .addr .none
  iid : PyObj := .addr .none

/-- `x is None` -/
def PyObj.isNone : PyObj → Bool
  | .addr .none => true
  | _ => false

/-- data.py:67-69: a sequence of `n` real booleans.  Strings are sequences, but of strings. -/
def PyObj.lsbOk (n : Nat) : PyObj → Bool
  | .seq _ l => l.length = n && l.all PyObj.isBool
  | _ => false

/-- data.py:36-107 `sanitize` -/
def DDataHdr.sanitize (h : DDataHdr) : Except Err DDataHdr :=
  let nonceOk := match h.nonce with
    | .bytes b => b.length == 3
    | o => o.isNone
  let versions := !h.srcVersion.isNone || !h.dstVersion.isNone
  if nonceOk = false then .error .value
  else if !h.nonce.isNone && versions then .error .value
  else if !h.lsb.isNone && !h.lsb.lsbOk (if h.iid.isNone then 32 else 8) then .error .value
  else if h.echoNonce.isBool = false then .error .value
  else if versions && !h.srcVersion.intIn 0 (2 ^ 12 - 1) then .error .value
  else if versions && !h.dstVersion.intIn 0 (2 ^ 12 - 1) then .error .value
  else if !h.iid.isNone && !h.iid.intIn 0 (2 ^ 24 - 1) then .error .value
  else .ok { h with echoNonce := if h.echoNonce.truth && h.nonce.isNone then .bool false else h.echoNonce }

/-- ipv4.py:24-51, without the attributes that `sanitize` does not look at (`options`, and the next header, which
protocol.py:65-72 sets) -/
structure DV4Hdr where
  tos : PyObj := .int 0
  ident : PyObj := .int 0
  df : PyObj := .bool false
  mf : PyObj := .bool false
  fragOff : PyObj := .int 0
  ttl : PyObj := .int 0
  src : PyObj := .addr .none
  dst : PyObj := .addr .none

/-- `isinstance(x, IPv4Address)` / `isinstance(x, IPv6Address)` -/
def PyObj.isVer (v : Ver) : PyObj → Bool
  | .addr (.ip a) => a.ver = v
  | _ => false

/-- ipv4.py:76-136 `sanitize` -/
def DV4Hdr.sanitize (h : DV4Hdr) : Except Err Unit :=
  if h.tos.intIn 0 (2 ^ 8 - 1) = false then .error .value
  else if h.ident.intIn 0 (2 ^ 16 - 1) = false then .error .value
  else if h.df.isBool = false then .error .value
  else if h.mf.isBool = false then .error .value
  else if h.fragOff.intIn 0 (2 ^ 13 - 1) = false then .error .value
  else if h.df.truth && h.fragOff.intIn 1 (2 ^ 13 - 1) then .error .value
  else if h.ttl.intIn 0 (2 ^ 8 - 1) = false then .error .value
  else if h.src.isVer .v4 = false then .error .value
  else if h.dst.isVer .v4 = false then .error .value
  else .ok ()

/-- ipv6/base.py:23-37, without the next header -/
structure DV6Hdr where
  trafficClass : PyObj := .int 0
  flowLabel : PyObj := .int 0
  hopLimit : PyObj := .int 0
  src : PyObj := .addr .none
  dst : PyObj := .addr .none

/-- ipv6/base.py:72-101 `sanitize` -/
def DV6Hdr.sanitize (h : DV6Hdr) : Except Err Unit :=
  if h.trafficClass.intIn 0 (2 ^ 8 - 1) = false then .error .value
  else if h.flowLabel.intIn 0 (2 ^ 20 - 1) = false then .error .value
  else if h.hopLimit.intIn 0 (2 ^ 8 - 1) = false then .error .value
  else if h.src.isVer .v6 = false then .error .value
  else if h.dst.isVer .v6 = false then .error .value
  else .ok ()

/-- udp.py:17-24, without the checksum, which `sanitize` does not look at -/
structure DUdpHdr where
  sport : PyObj := .int 0
  dport : PyObj := .int 0

/-- udp.py:26-39 `sanitize` -/
def DUdpHdr.sanitize (h : DUdpHdr) : Except Err Unit :=
  if h.sport.intIn 0 (2 ^ 16 - 1) = false then .error .value
  else if h.dport.intIn 0 (2 ^ 16 - 1) = false then .error .value
  else .ok ()

end PyLisp
