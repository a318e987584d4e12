import Verif.AddrLemmas
import Verif.Sort
/-
Model of pylisp/packet/lisp/control/locator_record.py, map_reply_record.py,
map_register_record.py and map_referral_record.py.

Boolean attributes are typed `Bool`, so the `isinstance(x, bool)` checks are not modelled; numeric
attributes are unbounded integers as in Python.  The private `_reserved1` bit arrays keep their
constructor lengths (13, 16 and 11 bits).
-/
namespace PyLisp

/-! ### Locator records -/

/-- locator_record.py:25-44 (constructor attributes; notification targets are modelled in Etr) -/
structure Locator where
  priority : Int := 255
  weight : Int := 0
  mPriority : Int := 255
  mWeight : Int := 0
  isLocal : Bool := false
  probed : Bool := false
  reachable : Bool := false
  address : Addr := .none
  reserved1 : BitVec 13 := 0
  deriving DecidableEq

/-- 224.0.0.0/24 -/
def netLinkLocalMc4 : Net := ⟨.v4, 0xe0000000, 24, by decide, by decide, by decide⟩
/-- ff02::/16 -/
def netFf02 : Net := ⟨.v6, 0xff020000000000000000000000000000, 16, by decide, by decide, by decide⟩
/-- ff12::/16 -/
def netFf12 : Net := ⟨.v6, 0xff120000000000000000000000000000, 16, by decide, by decide, by decide⟩

/-- locator_record.py:186-210: the address checks.  For an IP address the loop runs once; for an
LCAF address the loop body tests `self.address` (the LCAF object) instead of the loop variable,
so every contained address raises; anything else raises. -/
def checkLocatorAddress (a : Addr) : Except Err Unit :=
  match a with
  | .ip a =>
    match a.ver with
    | .v4 =>
      if a.val = 0xffffffff then .error .value
      else if netLinkLocalMc4.containsIP a then .error .value
      else .ok ()
    | .v6 =>
      if netFf02.containsIP a || netFf12.containsIP a then .error .value
      else .ok ()
  | .none => .error .value
  | .net _ => .error .value
  | lcaf =>
    match lcaf.getAddresses with
    | [] => .ok ()
    | _ :: _ => .error .value

/-- locator_record.py:97-210 `sanitize` -/
def Locator.sanitize (l : Locator) : Except Err Unit :=
  if l.priority < 0 ∨ l.priority > 255 then .error .value
  else if l.weight < 0 ∨ l.weight > 255 then .error .value
  else if l.mPriority < 0 ∨ l.mPriority > 255 then .error .value
  else if l.mWeight < 0 ∨ l.mWeight > 255 then .error .value
  else checkLocatorAddress l.address

/-- locator_record.py:226-239: the reads of `from_bytes` -/
def readLocatorRaw : Rd Locator := do
  let priority ← readUint 8
  let weight ← readUint 8
  let mPriority ← readUint 8
  let mWeight ← readUint 8
  let reserved1 ← readUint 13
  let isLocal ← readBool
  let probed ← readBool
  let reachable ← readBool
  let address ← readAfi .none
  pure { priority := priority, weight := weight, mPriority := mPriority, mWeight := mWeight,
         isLocal := isLocal, probed := probed, reachable := reachable, address := address,
         reserved1 := BitVec.ofNat 13 reserved1 }

/-- locator_record.py:212-244 `from_bytes` -/
def readLocator : Rd Locator := do
  let l ← readLocatorRaw
  let _ ← Rd.lift l.sanitize
  pure l

/-- locator_record.py:259-276: the writes of `to_bitstream` -/
def encLocatorRaw (l : Locator) : Except Err Bits := do
  let b1 ← encUint 8 l.priority
  let b2 ← encUint 8 l.weight
  let b3 ← encUint 8 l.mPriority
  let b4 ← encUint 8 l.mWeight
  let a ← encAddr l.address
  pure (b1 ++ b2 ++ b3 ++ b4 ++ natToBits 13 l.reserved1.toNat ++
    [l.isLocal, l.probed, l.reachable] ++ a)

/-- locator_record.py:252-278 `to_bitstream` -/
def encLocator (l : Locator) : Except Err Bits := do
  let _ ← l.sanitize
  encLocatorRaw l

/-- locator_record.py:88-92 `sort_key`: `int(address)` of the single contained address.  Sanitised
locators have an IP address or an LCAF without addresses; for the latter
`determine_instance_id_and_afi` returns `None` and `int(None)` raises TypeError.  (LCAF addresses
with exactly one inner address never pass `sanitize`, so the difference is not visible.) -/
def Locator.sortKey (l : Locator) : Except Err Nat :=
  match l.address with
  | .ip a => .ok a.val
  | _ => .error .type

/-- the sort key of a locator whose key is defined -/
def Locator.key (l : Locator) : Nat :=
  match l.address with
  | .ip a => a.val
  | _ => 0

/-- `for locator_record in self.locator_records: ... locator_record.sanitize()`
(map_reply_record.py:127-132) -/
def sanitizeLocators : List Locator → Except Err Unit
  | [] => .ok ()
  | l :: ls => do
    let _ ← l.sanitize
    sanitizeLocators ls

/-- evaluation of the sort key for every element (raises if one raises) -/
def checkKeys : List Locator → Except Err Unit
  | [] => .ok ()
  | l :: ls => do
    let _ ← l.sortKey
    checkKeys ls

/-- `self.locator_records.sort(key=LocatorRecord.sort_key)` (map_reply_record.py:139) -/
def sortLocators (ls : List Locator) : Except Err (List Locator) := do
  let _ ← checkKeys ls
  pure (sortBy Locator.key ls)

/-- `for dummy in range(count): records.append(Record.from_bytes(bitstream))` -/
def readN (r : Rd α) : Nat → Rd (List α)
  | 0 => pure []
  | n + 1 => do
    let a ← r
    let l ← readN r n
    pure (a :: l)

/-- `for record in records: bitstream += record.to_bitstream()` -/
def encAll (e : α → Except Err Bits) : List α → Except Err Bits
  | [] => .ok []
  | a :: l => do
    let b ← e a
    let r ← encAll e l
    pure (b ++ r)

/-! ### Map-Reply and Map-Register records -/

/-- map_reply_record.py:40-54; `MapRegisterRecord` is an empty subclass
(map_register_record.py:12-13), so one model serves both. -/
structure Record where
  ttl : Int := 0
  action : Int := 0
  authoritative : Bool := false
  mapVersion : Int := 0
  eid : Addr := .none
  locators : List Locator := []
  reserved1 : BitVec 16 := 0
  deriving DecidableEq

/-- map_reply_record.py:59-139 `sanitize`, returning the fixed-up record -/
def Record.sanitize (r : Record) : Except Err Record :=
  if r.ttl < 0 ∨ r.ttl > 0xffffffff then .error .value
  else
    let action := if r.locators ≠ [] then 0 else r.action
    if ¬ (action = 0 ∨ action = 1 ∨ action = 2 ∨ action = 3) then .error .value
    else if r.mapVersion < 0 ∨ r.mapVersion ≥ 2 ^ 12 then .error .value
    else
      match r.eid with
      | .net _ => do
        let _ ← sanitizeLocators r.locators
        let ls ← sortLocators r.locators
        pure { r with action := action, locators := ls }
      | _ => .error .value

/-- map_reply_record.py:155-183: the reads of `from_bytes` -/
def readRecordRaw : Rd Record := do
  let ttl ← readUint 32
  let count ← readUint 8
  let plen ← readUint 8
  let action ← readUint 3
  let authoritative ← readBool
  let reserved1 ← readUint 16
  let mapVersion ← readUint 12
  let eid ← readAfi (.some plen)
  let locators ← readN readLocator count
  pure { ttl := ttl, action := action, authoritative := authoritative, mapVersion := mapVersion,
         eid := eid, locators := locators, reserved1 := BitVec.ofNat 16 reserved1 }

/-- map_reply_record.py:141-188 `from_bytes` -/
def readRecord : Rd Record := do
  let r ← readRecordRaw
  Rd.lift r.sanitize

/-- the attribute `prefixlen` of an EID prefix: networks have it, LCAF null is 0
(null_address.py:13), instance, AS and geo addresses delegate
(instance_address.py:39-41 etc.), everything else raises AttributeError -/
def Addr.prefixlen : Addr → Except Err Nat
  | .net n => .ok n.plen
  | .null => .ok 0
  | .inst _ a _ => a.prefixlen
  | .asn _ a => a.prefixlen
  | .geo _ _ _ _ _ _ _ _ _ a => a.prefixlen
  | _ => .error .attr

/-- map_reply_record.py:203-231: the writes of `to_bitstream` -/
def encRecordRaw (r : Record) : Except Err Bits := do
  let b1 ← encUint 32 r.ttl
  let b2 ← encUint 8 r.locators.length
  let plen ← r.eid.prefixlen
  let b3 ← encUint 8 plen
  let b4 ← encUint 3 r.action
  let b5 ← encUint 12 r.mapVersion
  let e ← encAddr r.eid
  let ls ← encAll encLocator r.locators
  pure (b1 ++ b2 ++ b3 ++ b4 ++ [r.authoritative] ++ natToBits 16 r.reserved1.toNat ++ b5 ++ e ++ ls)

/-- map_reply_record.py:196-231 `to_bitstream` -/
def encRecord (r : Record) : Except Err Bits := do
  let r ← r.sanitize
  encRecordRaw r

/-! ### Map-Referral records -/

/-- map_referral_record.py:62-79; `signatures` is represented by its length -/
structure RefRecord where
  ttl : Int := 0
  action : Int := 0
  authoritative : Bool := false
  incomplete : Bool := false
  mapVersion : Int := 0
  eid : Addr := .none
  locators : List Locator := []
  sigs : Nat := 0
  reserved1 : BitVec 11 := 0
  deriving DecidableEq

/-- map_referral_record.py:179-230: the table of allowed incomplete/referral-set/TTL values -/
def refTable (action : Int) (incomplete : Bool) (locators : List Locator) (ttl : Int) :
    Except Err Unit :=
  if action = 0 ∨ action = 1 then
    if incomplete then .error .value
    else if locators = [] then .error .value
    else if ttl ≠ 1440 then .error .value
    else .ok ()
  else if action = 2 then
    if ttl ≠ 1440 then .error .value else .ok ()
  else if action = 3 then
    if ttl ≠ 1 then .error .value else .ok ()
  else if action = 4 then
    if incomplete then .error .value
    else if locators ≠ [] then .error .value
    else if ttl ≠ 15 then .error .value
    else .ok ()
  else if action = 5 then
    if !incomplete then .error .value
    else if locators ≠ [] then .error .value
    else if ttl ≠ 0 then .error .value
    else .ok ()
  else .ok ()

/-- map_referral_record.py:259-266: each locator must not be probed and must be sane -/
def sanitizeRefLocators : List Locator → Except Err Unit
  | [] => .ok ()
  | l :: ls =>
    if l.probed then .error .value
    else do
      let _ ← l.sanitize
      sanitizeRefLocators ls

/-- map_referral_record.py:249-257: plain networks are wrapped with instance id 0 -/
def wrapEid : Addr → Except Err Addr
  | .inst i a m => .ok (.inst i a m)
  | .net n => .ok (.inst 0 (.net n) 32)
  | _ => .error .value

/-- map_referral_record.py:84-278 `sanitize` -/
def RefRecord.sanitize (r : RefRecord) : Except Err RefRecord :=
  if r.ttl < 0 ∨ r.ttl > 0xffffffff then .error .value
  else if ¬ (r.action = 0 ∨ r.action = 1 ∨ r.action = 2 ∨ r.action = 3 ∨ r.action = 4 ∨
      r.action = 5) then .error .value
  else do
    let _ ← refTable r.action r.incomplete r.locators r.ttl
    if r.mapVersion < 0 ∨ r.mapVersion ≥ 2 ^ 12 then .error .value
    else
      let eid ← wrapEid r.eid
      let _ ← sanitizeRefLocators r.locators
      let ls ← sortLocators r.locators
      pure { r with eid := eid, locators := ls }

/-- map_referral_record.py:294-330: the reads of `from_bytes`, including the refusal of
signatures -/
def readRefRecordRaw : Rd RefRecord := do
  let ttl ← readUint 32
  let count ← readUint 8
  let plen ← readUint 8
  let action ← readUint 3
  let authoritative ← readBool
  let incomplete ← readBool
  let reserved1 ← readUint 11
  let sigCount ← readUint 4
  let mapVersion ← readUint 12
  let eid ← readAfi (.some plen)
  let locators ← readN readLocator count
  if sigCount ≠ 0 then Rd.fail .notImpl
  else pure { ttl := ttl, action := action, authoritative := authoritative,
              incomplete := incomplete, mapVersion := mapVersion, eid := eid,
              locators := locators, reserved1 := BitVec.ofNat 11 reserved1 }

/-- map_referral_record.py:280-335 `from_bytes` -/
def readRefRecord : Rd RefRecord := do
  let r ← readRefRecordRaw
  Rd.lift r.sanitize

/-- map_referral_record.py:350-386: the writes of `to_bitstream`, including the refusal of
signatures -/
def encRefRecordRaw (r : RefRecord) : Except Err Bits := do
  let b1 ← encUint 32 r.ttl
  let b2 ← encUint 8 r.locators.length
  let plen ← r.eid.prefixlen
  let b3 ← encUint 8 plen
  let b4 ← encUint 3 r.action
  let b5 ← encUint 4 r.sigs
  let b6 ← encUint 12 r.mapVersion
  let e ← encAddr r.eid
  let ls ← encAll encLocator r.locators
  if r.sigs ≠ 0 then .error .notImpl
  else
    pure (b1 ++ b2 ++ b3 ++ b4 ++ [r.authoritative, r.incomplete] ++
      natToBits 11 r.reserved1.toNat ++ b5 ++ b6 ++ e ++ ls)

/-- map_referral_record.py:343-386 `to_bitstream` -/
def encRefRecord (r : RefRecord) : Except Err Bits := do
  let r ← r.sanitize
  encRefRecordRaw r

end PyLisp
