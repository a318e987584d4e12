import Verif.RecordLemmas
/-
Model of the LISP control messages with a fixed layout: Map-Request, Map-Reply, Map-Register,
Map-Notify, Map-Referral and Info (pylisp/packet/lisp/control/*.py).  Encapsulated control messages
contain IP packets and are modelled in Pkt.lean.

As in Records.lean, boolean attributes are typed `Bool` and byte strings `Bytes`, so the
`isinstance` checks for them are not modelled.  `sanitize` returns the message with the fix-ups
applied.  `to_bytes` is modelled in bits (`encX`); the final `.bytes` is `toBytes`.
-/
namespace PyLisp

/-- `bitstream.bytes` at the end of every `to_bytes` (e.g. map_request.py:340) -/
def toBytes (b : Except Err Bits) : Except Err Bytes := do
  let b ← b
  bitsToBytes b

/-- `for record in self.records: record.sanitize()` with the mutation made explicit
(e.g. map_reply.py:78-83) -/
def sanitizeAll (f : α → Except Err α) : List α → Except Err (List α)
  | [] => .ok []
  | a :: l => do
    let a ← f a
    let l ← sanitizeAll f l
    pure (a :: l)

/-- the type check at the start of every `from_bytes` (e.g. map_request.py:222-227) -/
def expectType (n : Nat) : Rd Unit := do
  let t ← readUint 4
  if t ≠ n then Rd.fail .value else pure ()

/-! ### Map-Request -/

/-- map_request.py:23-42 -/
structure MapRequest where
  authoritative : Bool := false
  probe : Bool := false
  smr : Bool := false
  pitr : Bool := false
  smrInvoked : Bool := false
  nonce : Bytes := List.replicate 8 0
  sourceEid : Addr := .none
  itrRlocs : List Addr := []
  eidPrefixes : List Addr := []
  mapReply : Option Record := .none
  reserved1 : BitVec 9 := 0
  deriving DecidableEq

/-- `isinstance(x, (IPv4Address, IPv6Address))` -/
def Addr.isIP : Addr → Bool
  | .ip _ => true
  | _ => false

/-- `isinstance(x, (IPv4Network, IPv4Address, IPv6Network, IPv6Address))` -/
def Addr.isIPorNet : Addr → Bool
  | .ip _ | .net _ => true
  | _ => false

/-- `isinstance(x, (IPv4Network, IPv6Network))` -/
def Addr.isNet : Addr → Bool
  | .net _ => true
  | _ => false

/-- map_request.py:127-139: the source EID is absent or carries exactly one address -/
def sourceEidOk (a : Addr) : Bool :=
  match a with
  | .none => true
  | a =>
    match a.getAddresses with
    | [x] => x.isIP
    | _ => false

/-- map_request.py:172-180: `if self.map_reply is not None: self.map_reply.sanitize()` -/
def sanitizeOpt : Option Record → Except Err (Option Record)
  | .none => .ok .none
  | .some r => do
    let r ← r.sanitize
    pure (.some r)

/-- map_request.py:47-180 `sanitize` -/
def MapRequest.sanitize (m : MapRequest) : Except Err MapRequest :=
  if m.itrRlocs.length < 1 ∨ m.itrRlocs.length > 32 then .error .value
  else if m.eidPrefixes.length < 1 ∨ m.eidPrefixes.length > 32 then .error .value
  else if m.nonce.length ≠ 8 then .error .value
  else if sourceEidOk m.sourceEid = false then .error .value
  else if m.itrRlocs.all Addr.isIP = false then .error .value
  else if m.eidPrefixes.all (fun p => p.getAddresses.all Addr.isIPorNet) = false then .error .value
  else do
    let r ← sanitizeOpt m.mapReply
    pure { m with mapReply := r }

/-- map_request.py:258-267: one EID prefix: 8 ignored bits, prefix length, address -/
def readEidPrefix : Rd Addr := do
  let _ ← readBits 8
  let plen ← readUint 8
  readAfi (.some plen)

/-- map_request.py:270-271 -/
def readOptRecord (present : Bool) : Rd (Option Record) :=
  if present = true then do
    let r ← readRecord
    pure (.some r)
  else pure .none

/-- map_request.py:222-271: the reads of `from_bytes` -/
def readMapRequestRaw : Rd MapRequest := do
  let _ ← expectType 1
  let authoritative ← readBool
  let mapDataPresent ← readBool
  let probe ← readBool
  let smr ← readBool
  let pitr ← readBool
  let smrInvoked ← readBool
  let reserved1 ← readUint 9
  let irc ← readUint 5
  let count ← readUint 8
  let nonce ← readBytes 8
  let sourceEid ← readAfi .none
  let itrRlocs ← readN (readAfi .none) (irc + 1)
  let eidPrefixes ← readN readEidPrefix count
  let mapReply ← readOptRecord mapDataPresent
  pure { authoritative := authoritative, probe := probe, smr := smr, pitr := pitr,
         smrInvoked := smrInvoked, nonce := nonce, sourceEid := sourceEid, itrRlocs := itrRlocs,
         eidPrefixes := eidPrefixes, mapReply := mapReply, reserved1 := BitVec.ofNat 9 reserved1 }

/-- map_request.py:183-276 `from_bytes` -/
def readMapRequest : Rd MapRequest := do
  let m ← readMapRequestRaw
  Rd.lift m.sanitize

/-- `ip_network(x)` (library): an address gives its host network, a network itself; an LCAF object
is parsed from its textual form, which for instance id 0 is that of the inner address
(lcaf/instance_address.py:23-27) and for all others raises, ValueError if there is a text. -/
def Addr.toNetwork : Addr → Except Err Net
  | .ip a => .ok a.toNet
  | .net n => .ok n
  | .inst i a _ => if i = 0 then a.toNetwork else .error a.noNetwork
  | a => .error a.noNetwork

/-- map_request.py:325-334: one EID prefix -/
def encEidPrefix (a : Addr) : Except Err Bits := do
  let n ← a.toNetwork
  let p ← encUint 8 n.plen
  pure (natToBits 8 0 ++ p ++ encIP n.first)

/-- map_request.py:337-338 -/
def encOptRecord : Option Record → Except Err Bits
  | .none => .ok []
  | .some r => encRecord r

/-- map_request.py:294-338: the writes of `to_bytes` -/
def encMapRequestRaw (m : MapRequest) : Except Err Bits := do
  let b1 ← encUint 5 ((m.itrRlocs.length : Int) - 1)
  let b2 ← encUint 8 m.eidPrefixes.length
  let b3 ← encAddr m.sourceEid
  let b4 ← encAll encAddr m.itrRlocs
  let b5 ← encAll encEidPrefix m.eidPrefixes
  let b6 ← encOptRecord m.mapReply
  pure (natToBits 4 1 ++ [m.authoritative, m.mapReply.isSome, m.probe, m.smr, m.pitr, m.smrInvoked]
    ++ natToBits 9 m.reserved1.toNat ++ b1 ++ b2 ++ bytesToBits m.nonce ++ b3 ++ b4 ++ b5 ++ b6)

/-- map_request.py:278-340 `to_bytes` -/
def encMapRequest (m : MapRequest) : Except Err Bits := do
  let m ← m.sanitize
  encMapRequestRaw m

/-! ### Map-Reply -/

/-- map_reply.py:18-33 -/
structure MapReply where
  probe : Bool := false
  enlraEnabled : Bool := false
  security : Bool := false
  nonce : Bytes := List.replicate 8 0
  records : List Record := []
  reserved1 : BitVec 17 := 0
  deriving DecidableEq

/-- map_reply.py:35-83 `sanitize` -/
def MapReply.sanitize (m : MapReply) : Except Err MapReply :=
  if m.security = true then .error .notImpl
  else if ¬ (m.nonce.length = 3 ∨ m.nonce.length = 8) then .error .value
  else do
    let rs ← sanitizeAll Record.sanitize m.records
    pure { m with records := rs }

/-- map_reply.py:99-129: the reads of `from_bytes` -/
def readMapReplyRaw : Rd MapReply := do
  let _ ← expectType 2
  let probe ← readBool
  let enlra ← readBool
  let security ← readBool
  let reserved1 ← readUint 17
  let count ← readUint 8
  let nonce ← readBytes 8
  let records ← readN readRecord count
  if security = true then Rd.fail .notImpl
  else pure { probe := probe, enlraEnabled := enlra, security := security, nonce := nonce,
              records := records, reserved1 := BitVec.ofNat 17 reserved1 }

/-- map_reply.py:86-134 `from_bytes` -/
def readMapReply : Rd MapReply := do
  let m ← readMapReplyRaw
  Rd.lift m.sanitize

/-- map_reply.py:144-174: the writes of `to_bytes`; short nonces are left padded (158-164) -/
def encMapReplyRaw (m : MapReply) : Except Err Bits := do
  let b1 ← encUint 8 m.records.length
  let b2 ← encAll encRecord m.records
  if m.security = true then .error .notImpl
  else
    pure (natToBits 4 2 ++ [m.probe, m.enlraEnabled, m.security] ++ natToBits 17 m.reserved1.toNat
      ++ b1 ++ zeros (8 * (8 - m.nonce.length)) ++ bytesToBits m.nonce ++ b2)

/-- map_reply.py:136-176 `to_bytes` -/
def encMapReply (m : MapReply) : Except Err Bits := do
  let m ← m.sanitize
  encMapReplyRaw m

/-! ### Map-Register -/

/-- map_register.py:26-47 -/
structure MapRegister where
  proxyMapReply : Bool := false
  forRtr : Bool := false
  wantMapNotify : Bool := false
  nonce : Bytes := List.replicate 8 0
  keyId : Int := 0
  authData : Bytes := []
  records : List Record := []
  xtrId : Int := 0
  siteId : Int := 0
  reserved1 : BitVec 1 := 0
  reserved2 : BitVec 15 := 0
  deriving DecidableEq

/-- `key_id in (KEY_ID_NONE, KEY_ID_HMAC_SHA_1_96, KEY_ID_HMAC_SHA_256_128)`
(map_register.py:134-136; constants.py: 0, 1, 2) -/
def keyIdOk (k : Int) : Prop := k = 0 ∨ k = 1 ∨ k = 2

instance (k : Int) : Decidable (keyIdOk k) := by unfold keyIdOk; infer_instance

/-- map_register.py:49-157 `sanitize` (the nonce is not checked: lines 121-130) -/
def MapRegister.sanitize (m : MapRegister) : Except Err MapRegister :=
  if m.xtrId < 0 ∨ m.xtrId ≥ 2 ^ 128 then .error .value
  else if m.siteId < 0 ∨ m.siteId ≥ 2 ^ 64 then .error .value
  else if ¬ keyIdOk m.keyId then .error .value
  else do
    let rs ← sanitizeAll Record.sanitize m.records
    pure { m with records := rs }

/-- map_register.py:265-267 / map_notify.py:193-195: the ids are only present with the I flag -/
def readIds (present : Bool) : Rd (Nat × Nat) :=
  if present = true then do
    let x ← readUint 128
    let s ← readUint 64
    pure (x, s)
  else pure (0, 0)

/-- map_register.py:223-267: the reads of `from_bytes` -/
def readMapRegisterRaw : Rd MapRegister := do
  let _ ← expectType 3
  let proxyMapReply ← readBool
  let reserved1 ← readUint 1
  let hasIds ← readBool
  let forRtr ← readBool
  let reserved2 ← readUint 15
  let wantMapNotify ← readBool
  let count ← readUint 8
  let nonce ← readBytes 8
  let keyId ← readUint 16
  let len ← readUint 16
  let authData ← readBytes len
  let records ← readN readRecord count
  let ids ← readIds hasIds
  pure { proxyMapReply := proxyMapReply, forRtr := forRtr, wantMapNotify := wantMapNotify,
         nonce := nonce, keyId := keyId, authData := authData, records := records,
         xtrId := ids.1, siteId := ids.2, reserved1 := BitVec.ofNat 1 reserved1,
         reserved2 := BitVec.ofNat 15 reserved2 }

/-- map_register.py:210-272 `from_bytes` -/
def readMapRegister : Rd MapRegister := do
  let m ← readMapRegisterRaw
  Rd.lift m.sanitize

/-- map_register.py:291 `bool(self.xtr_id or self.site_id or self.for_rtr)` -/
def MapRegister.hasIds (m : MapRegister) : Bool := m.xtrId != 0 || m.siteId != 0 || m.forRtr

/-- map_register.py:318-320 / map_notify.py:236-238 -/
def encIds (present : Bool) (x s : Int) : Except Err Bits :=
  if present = true then do
    let b1 ← encUint 128 x
    let b2 ← encUint 64 s
    pure (b1 ++ b2)
  else .ok []

/-- the token `hex=%s` for the authentication data (map_register.py:308-311, map_notify.py:226-229,
info_message.py:239-242).  bitstring (3.x) takes an `=` with nothing behind it for a token without a
value and raises ValueError, so empty authentication data cannot be written. -/
def encHex (b : Bytes) : Except Err Bits :=
  if b = [] then .error .value else .ok (bytesToBits b)

/-- map_register.py:282-320: the writes of `to_bytes` -/
def encMapRegisterRaw (m : MapRegister) : Except Err Bits := do
  let b1 ← encUint 8 m.records.length
  let b2 ← encUint 16 m.keyId
  let b3 ← encUint 16 m.authData.length
  let a ← encHex m.authData
  let b4 ← encAll encRecord m.records
  let b5 ← encIds m.hasIds m.xtrId m.siteId
  pure (natToBits 4 3 ++ [m.proxyMapReply] ++ natToBits 1 m.reserved1.toNat ++
    [m.hasIds, m.forRtr] ++ natToBits 15 m.reserved2.toNat ++ [m.wantMapNotify] ++ b1 ++
    bytesToBits m.nonce ++ b2 ++ b3 ++ a ++ b4 ++ b5)

/-- map_register.py:274-322 `to_bytes` -/
def encMapRegister (m : MapRegister) : Except Err Bits := do
  let m ← m.sanitize
  encMapRegisterRaw m

/-! ### Map-Notify -/

/-- map_notify.py:22-38 -/
structure MapNotify where
  nonce : Bytes := List.replicate 8 0
  keyId : Int := 0
  authData : Bytes := []
  records : List Record := []
  xtrId : Int := 0
  siteId : Int := 0
  reserved1 : BitVec 19 := 0
  deriving DecidableEq

/-- map_notify.py:40-95 `sanitize` -/
def MapNotify.sanitize (m : MapNotify) : Except Err MapNotify :=
  if m.xtrId < 0 ∨ m.xtrId ≥ 2 ^ 128 then .error .value
  else if m.siteId < 0 ∨ m.siteId ≥ 2 ^ 64 then .error .value
  else if m.nonce.length ≠ 8 then .error .value
  else if ¬ keyIdOk m.keyId then .error .value
  else do
    let rs ← sanitizeAll Record.sanitize m.records
    pure { m with records := rs }

/-- map_notify.py:161-195: the reads of `from_bytes` -/
def readMapNotifyRaw : Rd MapNotify := do
  let _ ← expectType 4
  let hasIds ← readBool
  let reserved1 ← readUint 19
  let count ← readUint 8
  let nonce ← readBytes 8
  let keyId ← readUint 16
  let len ← readUint 16
  let authData ← readBytes len
  let records ← readN readRecord count
  let ids ← readIds hasIds
  pure { nonce := nonce, keyId := keyId, authData := authData, records := records,
         xtrId := ids.1, siteId := ids.2, reserved1 := BitVec.ofNat 19 reserved1 }

/-- map_notify.py:148-200 `from_bytes` -/
def readMapNotify : Rd MapNotify := do
  let m ← readMapNotifyRaw
  Rd.lift m.sanitize

/-- map_notify.py:213 `bool(self.xtr_id or self.site_id)` -/
def MapNotify.hasIds (m : MapNotify) : Bool := m.xtrId != 0 || m.siteId != 0

/-- map_notify.py:210-238: the writes of `to_bytes` -/
def encMapNotifyRaw (m : MapNotify) : Except Err Bits := do
  let b1 ← encUint 8 m.records.length
  let b2 ← encUint 16 m.keyId
  let b3 ← encUint 16 m.authData.length
  let a ← encHex m.authData
  let b4 ← encAll encRecord m.records
  let b5 ← encIds m.hasIds m.xtrId m.siteId
  pure (natToBits 4 4 ++ [m.hasIds] ++ natToBits 19 m.reserved1.toNat ++ b1 ++
    bytesToBits m.nonce ++ b2 ++ b3 ++ a ++ b4 ++ b5)

/-- map_notify.py:202-240 `to_bytes` -/
def encMapNotify (m : MapNotify) : Except Err Bits := do
  let m ← m.sanitize
  encMapNotifyRaw m

/-! ### Map-Referral -/

/-- map_referral.py:18-29 -/
structure MapReferral where
  nonce : Bytes := List.replicate 8 0
  records : List RefRecord := []
  reserved1 : BitVec 20 := 0
  deriving DecidableEq

/-- map_referral.py:31-61 `sanitize` -/
def MapReferral.sanitize (m : MapReferral) : Except Err MapReferral :=
  if m.nonce.length ≠ 8 then .error .value
  else do
    let rs ← sanitizeAll RefRecord.sanitize m.records
    pure { m with records := rs }

/-- map_referral.py:77-96: the reads of `from_bytes` -/
def readMapReferralRaw : Rd MapReferral := do
  let _ ← expectType 6
  let reserved1 ← readUint 20
  let count ← readUint 8
  let nonce ← readBytes 8
  let records ← readN readRefRecord count
  pure { nonce := nonce, records := records, reserved1 := BitVec.ofNat 20 reserved1 }

/-- map_referral.py:64-101 `from_bytes` -/
def readMapReferral : Rd MapReferral := do
  let m ← readMapReferralRaw
  Rd.lift m.sanitize

/-- map_referral.py:111-124: the writes of `to_bytes` -/
def encMapReferralRaw (m : MapReferral) : Except Err Bits := do
  let b1 ← encUint 8 m.records.length
  let b2 ← encAll encRefRecord m.records
  pure (natToBits 4 6 ++ natToBits 20 m.reserved1.toNat ++ b1 ++ bytesToBits m.nonce ++ b2)

/-- map_referral.py:103-126 `to_bytes` -/
def encMapReferral (m : MapReferral) : Except Err Bits := do
  let m ← m.sanitize
  encMapReferralRaw m

/-! ### Info -/

/-- info_message.py:27-45 -/
structure Info where
  isReply : Bool := false
  nonce : Bytes := List.replicate 8 0
  keyId : Int := 0
  authData : Bytes := []
  ttl : Int := 0
  eidPrefix : Addr := .none
  reply : Addr := .none
  reserved1 : BitVec 27 := 0
  reserved2 : BitVec 8 := 0
  deriving DecidableEq

/-- info_message.py:103-110: a reply has a NAT-traversal address, a request has nothing -/
def replyOk (isReply : Bool) (a : Addr) : Bool :=
  match isReply, a with
  | true, .natT .. => true
  | false, .none => true
  | _, _ => false

/-- info_message.py:47-110 `sanitize` -/
def Info.sanitize (m : Info) : Except Err Info :=
  if m.nonce.length ≠ 8 then .error .value
  else if ¬ keyIdOk m.keyId then .error .value
  else if m.ttl < 0 ∨ m.ttl > 0xffffffff then .error .value
  else if m.eidPrefix.isNet = false then .error .value
  else if replyOk m.isReply m.reply = false then .error .value
  else .ok m

/-- info_message.py:176-212: the reads of `from_bytes` -/
def readInfoRaw : Rd Info := do
  let _ ← expectType 7
  let isReply ← readBool
  let reserved1 ← readUint 27
  let nonce ← readBytes 8
  let keyId ← readUint 16
  let len ← readUint 16
  let authData ← readBytes len
  let ttl ← readUint 32
  let reserved2 ← readUint 8
  let plen ← readUint 8
  let eidPrefix ← readAfi (.some plen)
  let reply ← readAfi .none
  pure { isReply := isReply, nonce := nonce, keyId := keyId, authData := authData, ttl := ttl,
         eidPrefix := eidPrefix, reply := reply, reserved1 := BitVec.ofNat 27 reserved1,
         reserved2 := BitVec.ofNat 8 reserved2 }

/-- info_message.py:163-217 `from_bytes` -/
def readInfo : Rd Info := do
  let m ← readInfoRaw
  Rd.lift m.sanitize

/-- info_message.py:227-257: the writes of `to_bytes` -/
def encInfoRaw (m : Info) : Except Err Bits := do
  let b1 ← encUint 16 m.keyId
  let b2 ← encUint 16 m.authData.length
  let a ← encHex m.authData
  let b3 ← encUint 32 m.ttl
  let plen ← m.eidPrefix.prefixlen
  let b4 ← encUint 8 plen
  let b5 ← encAddr m.eidPrefix
  let b6 ← encAddr m.reply
  pure (natToBits 4 7 ++ [m.isReply] ++ natToBits 27 m.reserved1.toNat ++ bytesToBits m.nonce ++
    b1 ++ b2 ++ a ++ b3 ++ natToBits 8 m.reserved2.toNat ++ b4 ++ b5 ++ b6)

/-- info_message.py:219-259 `to_bytes` -/
def encInfo (m : Info) : Except Err Bits := do
  let m ← m.sanitize
  encInfoRaw m

end PyLisp
