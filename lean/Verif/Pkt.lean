import Verif.Wire
import Verif.Checksum
/-
Model of the packet classes: IPv4 and IPv6 packets, IPv6 extension headers, UDP, LISP data packets
and encapsulated control messages, and of the parsers that nest them
(pylisp/packet/ip/*.py, pylisp/packet/lisp/data.py, pylisp/packet/lisp/control/base.py and
encapsulated_control_message.py).

Simplifications: a payload is a byte string or one of the modelled packet classes; boolean and byte
string attributes are typed; `next_header` is an integer (setting it to `None` on anything but an
`IPv6NoNextHeader` is not modelled, nor is setting it on an `IPv6NoNextHeader`, whose constructor
forces `None`); the class attribute `version` is constant.  Addresses are `Option IP`: `None`, or an
IPv4/IPv6 address.
-/
namespace PyLisp

/-- the control messages other than the encapsulated one -/
inductive Ctrl
  | request (m : MapRequest)
  | reply (m : MapReply)
  | register (m : MapRegister)
  | notify (m : MapNotify)
  | referral (m : MapReferral)
  | info (m : Info)
  deriving DecidableEq

/-- `to_bytes` of the control message classes -/
def Ctrl.toBytes : Ctrl → Except Err Bytes
  | .request m => m.toBytes
  | .reply m => m.toBytes
  | .register m => m.toBytes
  | .notify m => m.toBytes
  | .referral m => m.toBytes
  | .info m => m.toBytes

/-- ipv4.py:24-51 (`next_header` is also `protocol`, 54-60) -/
structure V4Hdr where
  tos : Int := 0
  ident : Int := 0
  df : Bool := false
  mf : Bool := false
  fragOff : Int := 0
  ttl : Int := 0
  nextHeader : Int := 0
  src : Option IP := none
  dst : Option IP := none
  options : Bytes := []
  deriving DecidableEq

/-- ipv6/base.py:23-37 -/
structure V6Hdr where
  trafficClass : Int := 0
  flowLabel : Int := 0
  nextHeader : Int := 0
  hopLimit : Int := 0
  src : Option IP := none
  dst : Option IP := none
  deriving DecidableEq

/-- udp.py:17-24 -/
structure UdpHdr where
  sport : Int := 0
  dport : Int := 0
  cksum : Int := 0
  deriving DecidableEq

/-- data.py:21-34 -/
structure DataHdr where
  echoNonce : Bool := false
  nonce : Option Bytes := none
  srcVersion : Option Int := none
  dstVersion : Option Int := none
  lsb : Option (List Bool) := none
  iid : Option Int := none
  deriving DecidableEq

/-- encapsulated_control_message.py:19-33 -/
structure EcmHdr where
  security : Bool := false
  ddtOriginated : Bool := false
  forRtr : Bool := false
  relayedByRtr : Bool := false
  reserved1 : BitVec 26 := 0
  deriving DecidableEq

/-- Everything that can be a payload, and the packets themselves:
* `hbh`, `dest` — hop_by_hop_options_header.py:15-20, destination_options_header.py:15-20
* `routing` — routing_header.py:15-23
* `fragment` — fragment_header.py:14-22
* `nonext` — no_next_header.py:14-20 -/
inductive Pkt
  | raw (b : Bytes)
  | ipv4 (h : V4Hdr) (payload : Pkt)
  | ipv6 (h : V6Hdr) (payload : Pkt)
  | hbh (nextHeader : Int) (options : Bytes) (payload : Pkt)
  | dest (nextHeader : Int) (options : Bytes) (payload : Pkt)
  | routing (nextHeader routingType segmentsLeft : Int) (data : Bytes) (payload : Pkt)
  | fragment (nextHeader fragOff : Int) (mf : Bool) (ident : Int) (payload : Pkt)
  | nonext (payload : Pkt)
  | udp (h : UdpHdr) (payload : Pkt)
  | data (h : DataHdr) (payload : Pkt)
  | ctrl (m : Ctrl)
  | ecm (h : EcmHdr) (payload : Pkt)
  deriving DecidableEq

/-- `header_type` of the `Protocol` subclasses (ipv4.py:21, ipv6/base.py:20,
hop_by_hop_options_header.py:13, routing_header.py:13, fragment_header.py:12, no_next_header.py:12,
destination_options_header.py:13, udp.py:15); LISP messages and byte strings are no `Protocol` -/
def Pkt.headerType : Pkt → Option Nat
  | .ipv4 .. => some 4
  | .ipv6 .. => some 41
  | .hbh .. => some 0
  | .routing .. => some 43
  | .fragment .. => some 44
  | .nonext .. => some 59
  | .dest .. => some 60
  | .udp .. => some 17
  | .raw _ | .data .. | .ctrl _ | .ecm .. => none

/-- protocol.py:65-72 `Protocol.sanitize`: the next header becomes the type of a `Protocol`
payload -/
def fixNextHeader (payload : Pkt) (nh : Int) : Int :=
  match payload.headerType with
  | some t => t
  | none => nh

/-- `isinstance(x, IPv4Address)` / `isinstance(x, IPv6Address)` -/
def isVer (v : Ver) : Option IP → Bool
  | some a => a.ver = v
  | none => false

/-- ipv4.py:68-136 `sanitize` -/
def V4Hdr.sanitize (h : V4Hdr) (payload : Pkt) : Except Err V4Hdr :=
  let h := { h with nextHeader := fixNextHeader payload h.nextHeader }
  if h.tos < 0 ∨ h.tos ≥ 2 ^ 8 then .error .value
  else if h.ident < 0 ∨ h.ident ≥ 2 ^ 16 then .error .value
  else if h.fragOff < 0 ∨ h.fragOff ≥ 2 ^ 13 then .error .value
  else if h.df = true ∧ h.fragOff > 0 then .error .value
  else if h.ttl < 0 ∨ h.ttl ≥ 2 ^ 8 then .error .value
  else if isVer .v4 h.src = false then .error .value
  else if isVer .v4 h.dst = false then .error .value
  else .ok h

/-- ipv6/base.py:64-101 `sanitize` -/
def V6Hdr.sanitize (h : V6Hdr) (payload : Pkt) : Except Err V6Hdr :=
  let h := { h with nextHeader := fixNextHeader payload h.nextHeader }
  if h.trafficClass < 0 ∨ h.trafficClass ≥ 2 ^ 8 then .error .value
  else if h.flowLabel < 0 ∨ h.flowLabel ≥ 2 ^ 20 then .error .value
  else if h.hopLimit < 0 ∨ h.hopLimit ≥ 2 ^ 8 then .error .value
  else if isVer .v6 h.src = false then .error .value
  else if isVer .v6 h.dst = false then .error .value
  else .ok h

/-- udp.py:26-39 `sanitize` -/
def UdpHdr.sanitize (h : UdpHdr) : Except Err Unit :=
  if h.sport < 0 ∨ h.sport ≥ 2 ^ 16 then .error .value
  else if h.dport < 0 ∨ h.dport ≥ 2 ^ 16 then .error .value
  else .ok ()

/-- `v is None or not isinstance(v, Integral) or v < 0 or v >= 2 ** n`, negated (data.py:88-96) -/
def versionOk (v : Option Int) : Prop := ∃ x, v = some x ∧ 0 ≤ x ∧ x < 2 ^ 12

instance (v : Option Int) : Decidable (versionOk v) :=
  match v with
  | none => .isFalse (by rintro ⟨x, h, _⟩; cases h)
  | some x =>
    if h : 0 ≤ x ∧ x < 2 ^ 12 then .isTrue ⟨x, rfl, h⟩
    else .isFalse (by rintro ⟨y, hy, h'⟩; cases hy; exact h h')

/-- data.py:59-70: how many locator status bits are expected -/
def lsbBits (iid : Option Int) : Nat := if iid.isSome then 8 else 32

/-- data.py:36-107 `sanitize` -/
def DataHdr.sanitize (h : DataHdr) : Except Err DataHdr :=
  if h.nonce.any (fun n => n.length != 3) = true then .error .value
  else if h.nonce.isSome = true ∧ (h.srcVersion.isSome = true ∨ h.dstVersion.isSome = true) then
    .error .value
  else if h.lsb.any (fun l => l.length != lsbBits h.iid) = true then .error .value
  else if (h.srcVersion.isSome = true ∨ h.dstVersion.isSome = true) ∧ ¬ versionOk h.srcVersion then
    .error .value
  else if (h.srcVersion.isSome = true ∨ h.dstVersion.isSome = true) ∧ ¬ versionOk h.dstVersion then
    .error .value
  else if h.iid.any (fun i => decide (i < 0 ∨ i ≥ 2 ^ 24)) = true then .error .value
  else .ok { h with echoNonce := h.echoNonce && h.nonce.isSome }

/-- encapsulated_control_message.py:35-70 `sanitize` -/
def EcmHdr.sanitize (h : EcmHdr) : Except Err Unit :=
  if h.security = true then .error .notImpl else .ok ()

/-! ### Writing -/

/-- `int(self.source)` of an address that passed `sanitize` -/
def addrInt : Option IP → Int
  | some a => a.val
  | none => 0

/-- ipv4.py:239-282: the header with a zero checksum, for a payload of `plen` bytes.  Note that the
total length ignores the options (251). -/
def encV4Raw (h : V4Hdr) (plen : Nat) : Except Err Bits := do
  let b1 ← encUint 4 (5 + ((h.options.length + 3) / 4 : Nat))
  let b2 ← encUint 8 h.tos
  let b3 ← encUint 16 (20 + plen : Nat)
  let b4 ← encUint 16 h.ident
  let b5 ← encUint 13 h.fragOff
  let b6 ← encUint 8 h.ttl
  let b7 ← encUint 8 h.nextHeader
  let b8 ← encUint 32 (addrInt h.src)
  let b9 ← encUint 32 (addrInt h.dst)
  pure (natToBits 4 4 ++ b1 ++ b2 ++ b3 ++ b4 ++ [false, h.df, h.mf] ++ b5 ++ b6 ++ b7 ++ zeros 16 ++
    b8 ++ b9 ++ bytesToBits h.options ++ zeros (8 * ((4 - h.options.length % 4) % 4)))

/-- ipv4.py:284-288: fill in the checksum and append the payload -/
def encV4 (h : V4Hdr) (payload : Bytes) : Except Err Bytes := do
  let b ← encV4Raw h payload.length
  let hb ← bitsToBytes b
  let c ← encUint 16 (onesComplement hb)
  let out ← bitsToBytes (b.take 80 ++ c ++ b.drop 96)
  pure (out ++ payload)

/-- ipv6/base.py:165-188 -/
def encV6Raw (h : V6Hdr) (plen : Nat) : Except Err Bits := do
  let b1 ← encUint 8 h.trafficClass
  let b2 ← encUint 20 h.flowLabel
  let b3 ← encUint 16 plen
  let b4 ← encUint 8 h.nextHeader
  let b5 ← encUint 8 h.hopLimit
  let b6 ← encUint 128 (addrInt h.src)
  let b7 ← encUint 128 (addrInt h.dst)
  pure (natToBits 4 6 ++ b1 ++ b2 ++ b3 ++ b4 ++ b5 ++ b6 ++ b7)

/-- hop_by_hop_options_header.py:69-80 / destination_options_header.py:69-80 -/
def encOpts (nh : Int) (options : Bytes) : Except Err Bits := do
  let b1 ← encUint 8 nh
  let b2 ← encUint 8 (((options.length + 2 + 7) / 8 : Nat) - 1 : Int)
  pure (b1 ++ b2 ++ bytesToBits options ++ zeros (8 * ((8 - (options.length + 2) % 8) % 8)))

/-- routing_header.py:78-95 -/
def encRouting (nh rt sl : Int) (data : Bytes) : Except Err Bits := do
  let b1 ← encUint 8 nh
  let b2 ← encUint 8 (((data.length + 4 + 7) / 8 : Nat) - 1 : Int)
  let b3 ← encUint 8 rt
  let b4 ← encUint 8 sl
  pure (b1 ++ b2 ++ b3 ++ b4 ++ bytesToBits data ++ zeros (8 * ((8 - (data.length + 4) % 8) % 8)))

/-- fragment_header.py:75-91 -/
def encFragment (nh off : Int) (mf : Bool) (ident : Int) : Except Err Bits := do
  let b1 ← encUint 8 nh
  let b2 ← encUint 13 off
  let b3 ← encUint 32 ident
  pure (b1 ++ zeros 8 ++ b2 ++ zeros 2 ++ [mf] ++ b3)

/-- udp.py:194-205 -/
def encUdpRaw (h : UdpHdr) (plen : Nat) : Except Err Bits := do
  let b1 ← encUint 16 h.sport
  let b2 ← encUint 16 h.dport
  let b3 ← encUint 16 (plen + 8 : Nat)
  let b4 ← encUint 16 h.cksum
  pure (b1 ++ b2 ++ b3 ++ b4)

/-- data.py:237-249: the 24 bits after the flags -/
def encNonceOrVersions (h : DataHdr) : Except Err Bits :=
  match h.nonce, h.srcVersion, h.dstVersion with
  | some n, _, _ => .ok (bytesToBits n)
  | none, some s, some d => do
    let b1 ← encUint 12 s
    let b2 ← encUint 12 d
    pure (b1 ++ b2)
  | none, none, none => .ok (zeros 24)
  | none, _, _ => .error .type       -- '%d' % None; excluded by sanitize

/-- data.py:251-253: the instance id, if present -/
def encIid : Option Int → Except Err Bits
  | some i => encUint 24 i
  | none => .ok []

/-- data.py:258-264: the locator status bits (least significant first in the object, last on the
wire) -/
def lsbWire (iid : Option Int) : Option (List Bool) → Bits
  | some l => l.reverse
  | none => zeros (lsbBits iid)

/-- data.py:251-264: instance id and locator status bits -/
def encIidLsb (h : DataHdr) : Except Err Bits := do
  let b1 ← encIid h.iid
  pure (b1 ++ lsbWire h.iid h.lsb)

/-- data.py:225-264 -/
def encDataRaw (h : DataHdr) : Except Err Bits := do
  let b1 ← encNonceOrVersions h
  let b2 ← encIidLsb h
  pure ([h.nonce.isSome, h.lsb.isSome, h.echoNonce, h.srcVersion.isSome || h.dstVersion.isSome,
    h.iid.isSome] ++ zeros 3 ++ b1 ++ b2)

/-- encapsulated_control_message.py:178-186 -/
def encEcmRaw (h : EcmHdr) : Bits :=
  natToBits 4 8 ++ [h.security, h.ddtOriginated] ++ natToBits 26 h.reserved1.toNat

/-- `bitstream.bytes + payload_bytes` -/
def withPayload (b : Bits) (payload : Bytes) : Except Err Bytes := do
  let d ← bitsToBytes b
  pure (d ++ payload)

/-- `to_bytes` / `bytes(payload)` of every packet class: ipv4.py:232-288, ipv6/base.py:158-190,
hop_by_hop_options_header.py:62-82, destination_options_header.py:62-82, routing_header.py:71-97,
fragment_header.py:68-93, no_next_header.py:48-55, udp.py:187-207, data.py:213-266,
encapsulated_control_message.py:167-193.  The header length of an IPv4 packet (ipv4.py:241-243) is written, and can
fail, before the payload is serialised. -/
def Pkt.toBytes : Pkt → Except Err Bytes
  | .raw b => .ok b
  | .ipv4 h p => do
    let h ← h.sanitize p
    let _ ← encUint 4 (5 + ((h.options.length + 3) / 4 : Nat))
    let pb ← p.toBytes
    encV4 h pb
  | .ipv6 h p => do
    let h ← h.sanitize p
    let pb ← p.toBytes
    let b ← encV6Raw h pb.length
    withPayload b pb
  | .hbh nh o p => do
    let b ← encOpts nh o
    let pb ← p.toBytes
    withPayload b pb
  | .dest nh o p => do
    let b ← encOpts nh o
    let pb ← p.toBytes
    withPayload b pb
  | .routing nh rt sl d p => do
    let b ← encRouting nh rt sl d
    let pb ← p.toBytes
    withPayload b pb
  | .fragment nh off mf ident p => do
    let b ← encFragment nh off mf ident
    let pb ← p.toBytes
    withPayload b pb
  | .nonext p => p.toBytes
  | .udp h p => do
    let _ ← h.sanitize
    let pb ← p.toBytes
    let b ← encUdpRaw h pb.length
    withPayload b pb
  | .data h p => do
    let h ← h.sanitize
    let b ← encDataRaw h
    let pb ← p.toBytes
    withPayload b pb
  | .ctrl m => m.toBytes
  | .ecm h p => do
    let _ ← h.sanitize
    let pb ← p.toBytes
    withPayload (encEcmRaw h) pb

/-! ### Reading -/

/-- `bitstream.peek(n)` -/
def peekBits (n : Nat) : Rd Bits := fun s =>
  if n ≤ s.length then .ok (s.take n, s) else .error .read

/-- the header with the checksum field zeroed (ipv4.py:200) -/
def zeroCksum (b : Bits) : Bits := b.take 80 ++ zeros 16 ++ b.drop 96

/-- `checksum.ones_complement(header.bytes)` (ipv4.py:200-201) -/
def headerCksum (header : Bits) : Except Err Nat := do
  let hb ← bitsToBytes (zeroCksum header)
  pure (onesComplement hb)

/-- `if cond: raise ValueError` -/
def rejectIf (c : Bool) : Rd Unit := if c = true then Rd.fail .value else pure ()

/-- ipv4.py:152-216: header fields and payload bytes -/
def readV4 : Rd (V4Hdr × Bytes) := do
  let version ← readUint 4
  let _ ← rejectIf (version != 4)
  let ihl ← readUint 4
  let _ ← rejectIf (decide (ihl < 5))
  let peeked ← peekBits (ihl * 32 - 8)
  let tos ← readUint 8
  let totalLength ← readUint 16
  let _ ← rejectIf (decide (totalLength < ihl * 4))
  let ident ← readUint 16
  let reserved ← readBool
  let df ← readBool
  let mf ← readBool
  let _ ← rejectIf reserved
  let fragOff ← readUint 13
  let ttl ← readUint 8
  let proto ← readUint 8
  let cksum ← readUint 16
  let mine ← Rd.lift (headerCksum (natToBits 4 4 ++ natToBits 4 ihl ++ peeked))
  let _ ← rejectIf (mine != cksum)
  let src ← readIP .v4
  let dst ← readIP .v4
  let options ← readBytes ((ihl - 5) * 4)
  let payload ← readBytes (totalLength - ihl * 4)
  pure ({ tos := tos, ident := ident, df := df, mf := mf, fragOff := fragOff, ttl := ttl,
          nextHeader := proto, src := some src, dst := some dst, options := options }, payload)

/-- ipv6/base.py:117-142 -/
def readV6 : Rd (V6Hdr × Bytes) := do
  let version ← readUint 4
  let _ ← rejectIf (version != 6)
  let trafficClass ← readUint 8
  let flowLabel ← readUint 20
  let plen ← readUint 16
  let nh ← readUint 8
  let hopLimit ← readUint 8
  let src ← readIP .v6
  let dst ← readIP .v6
  let payload ← readBytes plen
  pure ({ trafficClass := trafficClass, flowLabel := flowLabel, nextHeader := nh,
          hopLimit := hopLimit, src := some src, dst := some dst }, payload)

/-- `remaining = bitstream[bitstream.pos:]; remaining.bytes` -/
def readRest : Rd Bytes := fun s =>
  match bitsToBytes s with
  | .ok b => .ok (b, [])
  | .error e => .error e

/-- hop_by_hop_options_header.py:39-51 / destination_options_header.py:39-51 -/
def readOpts : Rd (Nat × Bytes × Bytes) := do
  let nh ← readUint 8
  let len ← readUint 8
  let options ← readBytes ((len + 1) * 8 - 2)
  let payload ← readRest
  pure (nh, options, payload)

/-- routing_header.py:42-60 -/
def readRouting : Rd (Nat × Nat × Nat × Bytes × Bytes) := do
  let nh ← readUint 8
  let len ← readUint 8
  let rt ← readUint 8
  let sl ← readUint 8
  let data ← readBytes ((len + 1) * 8 - 4)
  let payload ← readRest
  pure (nh, rt, sl, data, payload)

/-- fragment_header.py:41-61 -/
def readFragment : Rd Pkt := do
  let nh ← readUint 8
  let _ ← readBits 8
  let off ← readUint 13
  let _ ← readBits 2
  let mf ← readBool
  let ident ← readUint 32
  let payload ← readRest
  pure (.fragment nh off mf ident (.raw payload))

/-- udp.py:152-166 -/
def readUdp : Rd (UdpHdr × Bytes) := do
  let sport ← readUint 16
  let dport ← readUint 16
  let length ← readUint 16
  let _ ← rejectIf (decide (length < 8))
  let cksum ← readUint 16
  let payload ← readBytes (length - 8)
  pure ({ sport := sport, dport := dport, cksum := cksum }, payload)

/-- data.py:155-173 -/
def readNonceOrVersions (n v : Bool) : Rd (Option Bytes × Option Int × Option Int) :=
  if n = true then do
    let b ← readBytes 3
    pure (some b, none, none)
  else if v = true then do
    let s ← readUint 12
    let d ← readUint 12
    pure (none, some (s : Int), some (d : Int))
  else do
    let _ ← readBits 24
    pure (none, none, none)

/-- data.py:175-183 -/
def readIid (i : Bool) : Rd (Option Int) :=
  if i = true then do
    let x ← readUint 24
    pure (some (x : Int))
  else pure none

/-- data.py:185-193 -/
def readLsb (l : Bool) (n : Nat) : Rd (Option (List Bool)) := do
  let b ← readBits n
  pure (if l = true then some b.reverse else none)

/-- data.py:145-193 -/
def readDataHdr : Rd DataHdr := do
  let n ← readBool
  let l ← readBool
  let e ← readBool
  let v ← readBool
  let i ← readBool
  let _ ← readBits 3
  let nv ← readNonceOrVersions n v
  let iid ← readIid i
  let lsb ← readLsb l (lsbBits iid)
  pure { echoNonce := e, nonce := nv.1, srcVersion := nv.2.1, dstVersion := nv.2.2, lsb := lsb,
         iid := iid }

/-- encapsulated_control_message.py:129-148 -/
def readEcmHdr : Rd EcmHdr := do
  let _ ← expectType 8
  let security ← readBool
  let ddt ← readBool
  let reserved1 ← readUint 26
  if security = true then Rd.fail .notImpl
  else pure { security := security, ddtOriginated := ddt, reserved1 := BitVec.ofNat 26 reserved1 }

/-- which `from_bytes` is called; the flag is `decode_payload` -/
inductive Kind
  | ipv4 (decodePayload : Bool)
  | ipv6 (decodePayload : Bool)
  | hbh | dest | routing | fragment | nonext | udp
  | data (decodePayload : Bool)
  | control
  deriving DecidableEq

/-- protocol_registry.get_type_class with the registrations at the end of each module: 4, 41, 17, 0,
43, 44, 59, 60 -/
def protoKind (nh : Nat) : Option Kind :=
  if nh = 4 then some (.ipv4 true)
  else if nh = 41 then some (.ipv6 true)
  else if nh = 17 then some .udp
  else if nh = 0 then some .hbh
  else if nh = 43 then some .routing
  else if nh = 44 then some .fragment
  else if nh = 59 then some .nonext
  else if nh = 60 then some .dest
  else none

/-- `payload_class = get_type_class(nh); if payload_class: payload = payload_class.from_bytes(...)`
(ipv4.py:218-221, ipv6/base.py:144-147, routing_header.py:62-64 and the other headers) -/
def decPayload (rec : Kind → Bits → Except Err Pkt) (decode : Bool) (nh : Nat) (pl : Bytes) :
    Except Err Pkt :=
  if decode = true then
    match protoKind nh with
    | some k => rec k (bytesToBits pl)
    | none => .ok (.raw pl)
  else .ok (.raw pl)

/-- data.py:195-206, encapsulated_control_message.py:150-160: the payload is parsed by IP version
nibble -/
def decByVersion (rec : Kind → Bits → Except Err Pkt) (decode : Bool) (s : Bits) :
    Except Err Pkt :=
  if s = [] then .ok (.raw [])
  else do
    let v ← runOn (readUint 4) s
    if v = 4 then rec (.ipv4 decode) s
    else if v = 6 then rec (.ipv6 decode) s
    else do
      let b ← bitsToBytes s
      pure (.raw b)

/-- `if bitstream.pos != bitstream.len: raise ValueError` -/
def noneLeft (rest : Bits) : Except Err Unit := if rest = [] then .ok () else .error .value

/-- ipv4.py:138-230 `from_bytes` -/
def decV4 (rec : Kind → Bits → Except Err Pkt) (decode : Bool) (s : Bits) : Except Err Pkt := do
  let r ← readV4 s
  let p ← decPayload rec decode r.1.1.nextHeader.toNat r.1.2
  let _ ← noneLeft r.2
  let h ← r.1.1.sanitize p
  pure (.ipv4 h p)

/-- ipv6/base.py:103-156 `from_bytes` -/
def decV6 (rec : Kind → Bits → Except Err Pkt) (decode : Bool) (s : Bits) : Except Err Pkt := do
  let r ← readV6 s
  let p ← decPayload rec decode r.1.1.nextHeader.toNat r.1.2
  let _ ← noneLeft r.2
  let h ← r.1.1.sanitize p
  pure (.ipv6 h p)

/-- hop_by_hop_options_header.py:28-60 / destination_options_header.py:28-60 -/
def decOpts (rec : Kind → Bits → Except Err Pkt) (mk : Int → Bytes → Pkt → Pkt) (s : Bits) :
    Except Err Pkt := do
  let r ← readOpts s
  let p ← decPayload rec true r.1.1 r.1.2.2
  pure (mk r.1.1 r.1.2.1 p)

/-- routing_header.py:31-69 -/
def decRouting (rec : Kind → Bits → Except Err Pkt) (s : Bits) : Except Err Pkt := do
  let r ← readRouting s
  let p ← decPayload rec true r.1.1 r.1.2.2.2.2
  pure (.routing r.1.1 r.1.2.1 r.1.2.2.1 r.1.2.2.2.1 p)

/-- udp.py:168-176: payloads on the LISP ports are parsed -/
def decUdpPayload (rec : Kind → Bits → Except Err Pkt) (h : UdpHdr) (pl : Bytes) : Except Err Pkt :=
  if h.sport = 4341 ∨ h.dport = 4341 then rec (.data true) (bytesToBits pl)
  else if h.sport = 4342 ∨ h.dport = 4342 then rec .control (bytesToBits pl)
  else .ok (.raw pl)

/-- udp.py:138-185 `from_bytes` -/
def decUdp (rec : Kind → Bits → Except Err Pkt) (s : Bits) : Except Err Pkt := do
  let r ← readUdp s
  let p ← decUdpPayload rec r.1.1 r.1.2
  let _ ← noneLeft r.2
  let _ ← r.1.1.sanitize
  pure (.udp r.1.1 p)

/-- data.py:109-211 `from_bytes` -/
def decData (rec : Kind → Bits → Except Err Pkt) (decode : Bool) (s : Bits) : Except Err Pkt := do
  let r ← readDataHdr s
  let p ← decByVersion rec decode r.2
  let h ← r.1.sanitize
  pure (.data h p)

/-- encapsulated_control_message.py:97-165 `from_bytes` -/
def decEcm (rec : Kind → Bits → Except Err Pkt) (s : Bits) : Except Err Pkt := do
  let r ← readEcmHdr s
  let p ← decByVersion rec true r.2
  let _ ← r.1.sanitize
  pure (.ecm r.1 p)

/-- control/base.py:34-59 `ControlMessage.from_bytes`: dispatch on the type nibble; registered are
1 Map-Request, 2 Map-Reply, 3 Map-Register, 4 Map-Notify, 6 Map-Referral, 7 Info, 8 Encapsulated -/
def decControl (rec : Kind → Bits → Except Err Pkt) (s : Bits) : Except Err Pkt := do
  let t ← runOn (readUint 4) s
  if t = 1 then do let m ← runOn readMapRequest s; pure (.ctrl (.request m))
  else if t = 2 then do let m ← runOn readMapReply s; pure (.ctrl (.reply m))
  else if t = 3 then do let m ← runOn readMapRegister s; pure (.ctrl (.register m))
  else if t = 4 then do let m ← runOn readMapNotify s; pure (.ctrl (.notify m))
  else if t = 6 then do let m ← runOn readMapReferral s; pure (.ctrl (.referral m))
  else if t = 7 then do let m ← runOn readInfo s; pure (.ctrl (.info m))
  else if t = 8 then decEcm rec s
  else .error .value

/-- one `from_bytes` call, with nested calls left open -/
def decStep (rec : Kind → Bits → Except Err Pkt) (k : Kind) (s : Bits) : Except Err Pkt :=
  match k with
  | .ipv4 d => decV4 rec d s
  | .ipv6 d => decV6 rec d s
  | .hbh => decOpts rec .hbh s
  | .dest => decOpts rec .dest s
  | .routing => decRouting rec s
  | .fragment => runOn readFragment s
  | .nonext => do
    let b ← bitsToBytes s                -- no_next_header.py:39-41
    pure (.nonext (.raw b))
  | .udp => decUdp rec s
  | .data d => decData rec d s
  | .control => decControl rec s

/-- nested parsing with a bound on the nesting depth -/
def decFuel : Nat → Kind → Bits → Except Err Pkt
  | 0, _, _ => .error .fuel
  | f + 1, k, s => decStep (decFuel f) k s

/-- `from_bytes`: the depth bound is never reached (theorem `dec_ne_fuel`) -/
def dec (k : Kind) (s : Bits) : Except Err Pkt := decFuel (s.length + 1) k s

/-- `X.from_bytes(data)` on a byte string -/
def Pkt.fromBytes (k : Kind) (d : Bytes) : Except Err Pkt := dec k (bytesToBits d)

/-! ### Inspection -/

/-- ipv6/base.py:57-62: the walk over extension headers; an `IPv6NoNextHeader` has no next header
and ends it -/
def finalPayload : Int → Pkt → Int × Pkt
  | _, .hbh nh _ p => finalPayload nh p
  | _, .dest nh _ p => finalPayload nh p
  | _, .routing nh _ _ _ p => finalPayload nh p
  | _, .fragment nh _ _ _ p => finalPayload nh p
  | nh, p => (nh, p)

/-- ipv4.py:65-66 and ipv6/base.py:53-62 `get_final_payload` -/
def Pkt.getFinalPayload : Pkt → Option (Int × Pkt)
  | .ipv4 h p => some (h.nextHeader, p)
  | .ipv6 h p => some (finalPayload h.nextHeader p)
  | _ => none

/-- ipv6/base.py:42-51 -/
def hasFragment : Pkt → Bool
  | .fragment .. => true
  | .hbh _ _ p | .dest _ _ p | .routing _ _ _ _ p => hasFragment p
  | _ => false

/-- ipv4.py:62-63 and ipv6/base.py:39-51 `is_fragmented` -/
def Pkt.isFragmented : Pkt → Option Bool
  | .ipv4 h _ => some (h.mf || decide (h.fragOff ≠ 0))
  | .ipv6 _ p => some (hasFragment p)
  | _ => none

/-- encapsulated_control_message.py:80-94 `get_udp`, applied to the payload -/
def getUdp (payload : Pkt) : Except Err Pkt :=
  match payload.isFragmented, payload.getFinalPayload with
  | some frag, some (nh, p) =>
    if frag = true then .error .value
    else if nh ≠ 17 then .error .value
    else match p with
      | .udp h q => .ok (.udp h q)
      | _ => .error .value
  | _, _ => .error .value

/-- udp.py:106-130 `get_lisp_message(only_data, only_control)` -/
def getLispMessage (h : UdpHdr) (p : Pkt) (onlyData onlyControl : Bool) : Except Err Pkt :=
  let isData : Bool := decide (h.sport = 4341 ∨ h.dport = 4341)
  let isControl : Bool := decide (h.sport = 4342 ∨ h.dport = 4342)
  if isData = true ∧ isControl = true then .error .value
  else if isData = true ∨ onlyData = true then
    match p with
    | .data h' q => .ok (.data h' q)
    | _ => .error .value
  else if isControl = true ∨ onlyControl = true then
    match p with
    | .ctrl m => .ok (.ctrl m)
    | .ecm h' q => .ok (.ecm h' q)
    | _ => .error .value
  else .error .value

/-- udp.py:132-133 `get_lisp_data_packet` -/
def getLispDataPacket (h : UdpHdr) (p : Pkt) : Except Err Pkt := getLispMessage h p true false

/-- udp.py:135-136 `get_lisp_control_message` -/
def getLispControlMessage (h : UdpHdr) (p : Pkt) : Except Err Pkt := getLispMessage h p false true

/-! ### UDP checksum -/

/-- udp.py:44-72 `generate_pseudo_header` for a UDP length -/
def pseudoHeader (src dst : Option IP) (len : Nat) : Except Err Bytes :=
  match src, dst with
  | some a, some b =>
    if a.ver = .v4 ∧ b.ver = .v4 then do
      let l ← encUint 16 len
      bitsToBytes (natToBits 32 a.val ++ natToBits 32 b.val ++ natToBits 16 17 ++ l)
    else if a.ver = .v6 ∧ b.ver = .v6 then do
      let l ← encUint 32 len
      bitsToBytes (natToBits 128 a.val ++ natToBits 128 b.val ++ l ++ natToBits 32 17)
    else .error .value
  | _, _ => .error .value

/-- udp.py:74-95 `calculate_checksum` -/
def udpChecksum (h : UdpHdr) (p : Pkt) (src dst : Option IP) : Except Err Nat := do
  let pb ← p.toBytes
  let ph ← pseudoHeader src dst (8 + pb.length)
  let msg ← (Pkt.udp { h with cksum := 0 } p).toBytes
  let c := onesComplement (ph ++ msg)
  pure (if c = 0 then 0xffff else c)

/-- udp.py:97-104 `verify_checksum` -/
def udpVerify (h : UdpHdr) (p : Pkt) (src dst : Option IP) : Except Err Bool :=
  if h.cksum = 0 then .ok true
  else do
    let c ← udpChecksum h p src dst
    pure (decide (h.cksum = c))

end PyLisp
