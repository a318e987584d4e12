import Verif.Objects
/-
Packets as objects: the payload of a packet is a reference to another object, which several packets can share, and
`sanitize`, `to_bytes`, `calculate_checksum` and `verify_checksum` change packets in place, also when they end in an
exception.

A heap maps references to objects; the control messages among them live in the heap of `Verif.Objects`.  Assignments to
attributes by other code are not part of this model.  A packet that contains itself (where Python would run out of
stack) answers `Err.fuel`; the theorems are about heaps without such cycles, numbered so that a payload has a smaller
number than the packet around it.
-/
namespace PyLisp

/-- a packet object without its payload.  ipv4.py:24-51, ipv6/base.py:23-37, hop_by_hop_options_header.py:15-20,
destination_options_header.py:15-20, routing_header.py:15-23, fragment_header.py:14-22, no_next_header.py:14-20,
udp.py:17-24, data.py:21-34, encapsulated_control_message.py:19-33 -/
inductive Layer
  | ipv4 (h : V4Hdr)
  | ipv6 (h : V6Hdr)
  | hbh (nextHeader : Int) (options : Bytes)
  | dest (nextHeader : Int) (options : Bytes)
  | routing (nextHeader routingType segmentsLeft : Int) (data : Bytes)
  | fragment (nextHeader fragOff : Int) (mf : Bool) (ident : Int)
  | nonext
  | udp (h : UdpHdr)
  | data (h : DataHdr)
  | ecm (h : EcmHdr)
  deriving DecidableEq

/-- an object that can be a payload: a byte string, a control message (a reference to it), or a packet: its own
attributes and a reference to its payload (protocol.py:55-63) -/
inductive PObj
  | raw (b : Bytes)
  | msg (m : Nat)
  | layer (l : Layer) (payload : Nat)
  deriving DecidableEq

/-- all objects -/
structure PHeap where
  ctl : Heap
  obj : Nat → PObj

/-- `header_type` (see `Pkt.headerType`) -/
def Layer.headerType : Layer → Option Nat
  | .ipv4 _ => some 4
  | .ipv6 _ => some 41
  | .hbh .. => some 0
  | .routing .. => some 43
  | .fragment .. => some 44
  | .nonext => some 59
  | .dest .. => some 60
  | .udp _ => some 17
  | .data _ | .ecm _ => none

/-- `header_type` of a payload that is a `Protocol` -/
def PObj.headerType : PObj → Option Nat
  | .layer l _ => l.headerType
  | .raw _ | .msg _ => none

/-- data.py:84-107: the checks of `sanitize` after the echo-nonce-request flag has been cleared -/
def DataHdr.lateChecks (h : DataHdr) : Except Err Unit :=
  if (h.srcVersion.isSome = true ∨ h.dstVersion.isSome = true) ∧ ¬ versionOk h.srcVersion then .error .value
  else if (h.srcVersion.isSome = true ∨ h.dstVersion.isSome = true) ∧ ¬ versionOk h.dstVersion then .error .value
  else if h.iid.any (fun i => decide (i < 0 ∨ i ≥ 2 ^ 24)) = true then .error .value
  else .ok ()

/-- data.py:36-107 `sanitize`, in place -/
def DataHdr.sanitizeInPlace (h : DataHdr) : DataHdr × Except Err Unit :=
  if h.nonce.any (fun n => n.length != 3) = true then (h, .error .value)
  else if h.nonce.isSome = true ∧ (h.srcVersion.isSome = true ∨ h.dstVersion.isSome = true) then (h, .error .value)
  else if h.lsb.any (fun l => l.length != lsbBits h.iid) = true then (h, .error .value)
  else if h.echoNonce = true ∧ h.nonce = none then
    ({ h with echoNonce := false }, ({ h with echoNonce := false } : DataHdr).lateChecks)
  else (h, h.lateChecks)

/-- protocol.py:71-72 `if isinstance(self.payload, Protocol): self.next_header = self.payload.header_type` -/
def nextHeaderFor (payload : Option Nat) (nh : Int) : Int :=
  match payload with
  | some t => t
  | none => nh

/-- `sanitize` of the packet classes, in place, for a payload of the given header type: what the attributes are
afterwards, and whether it raises.  IPv4 and IPv6 packets first correct `next_header` (protocol.py:65-72) and then
check (ipv4.py:75-136, ipv6/base.py:72-101: what `V4Hdr.sanitize` checks, which for a byte string as payload changes
nothing); the extension headers do nothing (hop_by_hop_options_header.py:22-26, destination_options_header.py:22-26,
routing_header.py:25-29, fragment_header.py:24-28, no_next_header.py:22-26); udp.py:26-39; data.py:36-107;
encapsulated_control_message.py:35-70 -/
def Layer.sanitize (payload : Option Nat) : Layer → Layer × Except Err Unit
  | .ipv4 h =>
    (.ipv4 { h with nextHeader := nextHeaderFor payload h.nextHeader },
      (({ h with nextHeader := nextHeaderFor payload h.nextHeader } : V4Hdr).sanitize (.raw [])).map fun _ => ())
  | .ipv6 h =>
    (.ipv6 { h with nextHeader := nextHeaderFor payload h.nextHeader },
      (({ h with nextHeader := nextHeaderFor payload h.nextHeader } : V6Hdr).sanitize (.raw [])).map fun _ => ())
  | .udp h => (.udp h, h.sanitize)
  | .data h => (.data h.sanitizeInPlace.1, h.sanitizeInPlace.2)
  | .ecm h => (.ecm h, h.sanitize)
  | l => (l, .ok ())

/-- the part of `to_bytes` between `sanitize` and the serialisation of the payload that can raise: ipv4.py:239-243 (the
length of the header), hop_by_hop_options_header.py:69-80, destination_options_header.py:69-80,
routing_header.py:78-95, fragment_header.py:75-91, data.py:225-264 -/
def Layer.head : Layer → Except Err Bits
  | .ipv4 h => encUint 4 (5 + ((h.options.length + 3) / 4 : Nat))
  | .hbh nh o => encOpts nh o
  | .dest nh o => encOpts nh o
  | .routing nh rt sl d => encRouting nh rt sl d
  | .fragment nh off mf ident => encFragment nh off mf ident
  | .data h => encDataRaw h
  | .ecm h => .ok (encEcmRaw h)
  | .ipv6 _ | .nonext | .udp _ => .ok []

/-- the rest of `to_bytes`, given what came before the payload and the bytes of the payload: ipv4.py:248-288,
ipv6/base.py:172-190, udp.py:199-207, no_next_header.py:55, and `bitstream.bytes + payload` of the others -/
def Layer.finish (before : Bits) (payload : Bytes) : Layer → Except Err Bytes
  | .ipv4 h => encV4 h payload
  | .ipv6 h => do
    let b ← encV6Raw h payload.length
    withPayload b payload
  | .udp h => do
    let b ← encUdpRaw h payload.length
    withPayload b payload
  | .nonext => .ok payload
  | _ => withPayload before payload

namespace PHeap

/-- assignment to attributes of a packet -/
def setLayer (h : PHeap) (i : Nat) (l : Layer) (p : Nat) : PHeap := { h with obj := Heap.put h.obj i (.layer l p) }

/-- `to_bytes`, or `bytes(payload)` of a byte string; at most `n` packets deep.  The same lines as `Pkt.toBytes` -/
def toBytesF : Nat → PHeap → Nat → PHeap × Except Err Bytes
  | 0, h, _ => (h, .error .fuel)
  | n + 1, h, i =>
    match h.obj i with
    | .raw b => (h, .ok b)
    | .msg m => ({ h with ctl := (h.ctl.toBytes m).1 }, (h.ctl.toBytes m).2)
    | .layer l p =>
      match l.sanitize (h.obj p).headerType with
      | (l1, .error e) => (h.setLayer i l1 p, .error e)
      | (l1, .ok _) =>
        match l1.head with
        | .error e => (h.setLayer i l1 p, .error e)
        | .ok b =>
          match toBytesF n (h.setLayer i l1 p) p with
          | (h2, .error e) => (h2, .error e)
          | (h2, .ok pb) => (h2, l1.finish b pb)

/-- `to_bytes`: the numbering bounds the depth (see above) -/
def toBytes (h : PHeap) (i : Nat) : PHeap × Except Err Bytes := toBytesF (i + 1) h i

/-- `sanitize`; byte strings have no such method -/
def sanitize (h : PHeap) (i : Nat) : PHeap × Except Err Unit :=
  match h.obj i with
  | .raw _ => (h, .error .attr)
  | .msg m => ({ h with ctl := (h.ctl.sanitizeMsg (h.ctl.msg m)).1 }, (h.ctl.sanitizeMsg (h.ctl.msg m)).2)
  | .layer l p => (h.setLayer i (l.sanitize (h.obj p).headerType).1 p, (l.sanitize (h.obj p).headerType).2)

/-- udp.py:78-95: the second half of `calculate_checksum`, after the pseudo-header: the checksum is set to 0, the message
is serialised, the checksum is put back - unless `to_bytes` raises, then the 0 stays -/
def checksumOver (h : PHeap) (i : Nat) (u : UdpHdr) (p : Nat) (pseudo : Bytes) : PHeap × Except Err Nat :=
  match (h.setLayer i (.udp { u with cksum := 0 }) p).toBytes i with
  | (h1, .error e) => (h1, .error e)
  | (h1, .ok msg) =>
    (h1.setLayer i (.udp u) p,
      .ok (if onesComplement (pseudo ++ msg) = 0 then 0xffff else onesComplement (pseudo ++ msg)))

/-- udp.py:44-95 `calculate_checksum`; other objects have no such method -/
def checksum (h : PHeap) (i : Nat) (src dst : Option IP) : PHeap × Except Err Nat :=
  match h.obj i with
  | .layer (.udp u) p =>
    match h.toBytes p with
    | (h1, .error e) => (h1, .error e)
    | (h1, .ok pb) =>
      match pseudoHeader src dst (8 + pb.length) with
      | .error e => (h1, .error e)
      | .ok ph => h1.checksumOver i u p ph
  | _ => (h, .error .attr)

/-- udp.py:97-104 `verify_checksum` -/
def verifyChecksum (h : PHeap) (i : Nat) (src dst : Option IP) : PHeap × Except Err Bool :=
  match h.obj i with
  | .layer (.udp u) _ =>
    if u.cksum = 0 then (h, .ok true)
    else ((h.checksum i src dst).1, (h.checksum i src dst).2.map fun c => decide (u.cksum = c))
  | _ => (h, .error .attr)

end PHeap

/-- the methods a user can call on packets, and on the control messages in them -/
inductive PCall
  | sanitize (i : Nat)
  | toBytes (i : Nat)
  | checksum (i : Nat) (src dst : Option IP)
  | verifyChecksum (i : Nat) (src dst : Option IP)
  | msg (c : Call)

/-- what a method returns -/
inductive PReturned
  | ret (r : Returned)
  | number (n : Nat)
  deriving DecidableEq

namespace PHeap

/-- one call (the dispatch of Python; no code of its own in /repo) -/
def call (H : Mac) (h : PHeap) : PCall → PHeap × Except Err PReturned
  | .sanitize i => ((h.sanitize i).1, (h.sanitize i).2.map fun _ => .ret .nothing)
  | .toBytes i => ((h.toBytes i).1, (h.toBytes i).2.map fun b => .ret (.bytes b))
  | .checksum i s d => ((h.checksum i s d).1, (h.checksum i s d).2.map .number)
  | .verifyChecksum i s d => ((h.verifyChecksum i s d).1, (h.verifyChecksum i s d).2.map fun b => .ret (.bool b))
  | .msg c => ({ h with ctl := (h.ctl.call H c).1 }, (h.ctl.call H c).2.map .ret)

/-- a sequence of calls; exceptions are caught by the caller, who goes on -/
def calls (H : Mac) : PHeap → List PCall → PHeap × List (Except Err PReturned)
  | h, [] => (h, [])
  | h, c :: cs => (((h.call H c).1.calls H cs).1, (h.call H c).2 :: ((h.call H c).1.calls H cs).2)

end PHeap
end PyLisp
