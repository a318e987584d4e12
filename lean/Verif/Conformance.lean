/-
The repository's own unit tests (unittests/*.py) and doctests, evaluated by the kernel on the model.
These are tests of the model's fidelity, not proofs of properties; no property rests on them.

Not transcribed: the cases which hand a value of the wrong Python type to a constructor
(`test_bad_echo_nonce_request`, `test_bad_lsb_content`, `test_bad_input_address`): the types of the model rule
those values out.
-/
import Verif.Pkt
import Verif.Registry
import Verif.DdtText
namespace PyLisp.Conformance

open PyLisp

/-- `'…'.decode('hex')` of `k` bytes, the digits written as one hexadecimal number -/
def hex (k n : Nat) : Bytes := (List.range k).reverse.map fun i => (BitVec.ofNat 8 (n / 256 ^ i))

/-! ### unittests/test_packet_data.py -/

/-- unittests/utils.py:27-45 `test_method` without an exception: the packet gives these bytes, and these bytes
are parsed to the packet (as it is after `sanitize`) -/
def dataCase (h : DataHdr) (p d : Bytes) (h' : DataHdr := h) : Bool :=
  decide ((Pkt.data h (.raw p)).toBytes = .ok d) &&
  decide (Pkt.fromBytes (.data true) d = .ok (.data h' (.raw p)))

/-- unittests/utils.py:31-35: `sanitize` raises a ValueError -/
def dataRaises (h : DataHdr) : Bool := decide ((Pkt.data h (.raw [])).toBytes = .error .value)

-- test_empty_packet
example : dataCase {} [] (hex 8 0x0000000000000000) = true := by decide +kernel
-- test_echo_nonce_request (the flag is dropped, there being no nonce)
example : dataCase { echoNonce := true } [] (hex 8 0x0000000000000000) {} = true := by decide +kernel
-- test_echo_nonce_request_with_nonce
example : dataCase { echoNonce := true, nonce := some [0x41, 0x42, 0x43] } [] (hex 8 0xa041424300000000) = true := by
  decide +kernel
-- test_nonce
example : dataCase { nonce := some [0x41, 0x42, 0x43] } [] (hex 8 0x8041424300000000) = true := by decide +kernel
-- test_bad_nonce
example : dataRaises { nonce := some [0x41, 0x42, 0x43, 0x44, 0x45, 0x46, 0x47, 0x48] } = true := by decide +kernel
-- test_source_map_version
example : dataRaises { srcVersion := some 1234 } = true := by decide +kernel
-- test_destination_map_version
example : dataRaises { dstVersion := some 1234 } = true := by decide +kernel
-- test_source_and_destination_map_version
example : dataCase { srcVersion := some 0x123, dstVersion := some 0x456 } [] (hex 8 0x1012345600000000) = true := by
  decide +kernel
-- test_nonce_and_map_version
example : dataRaises { nonce := some [0x58, 0x59, 0x5a], srcVersion := some 0x123, dstVersion := some 0x456 } = true := by
  decide +kernel
-- test_bad_source_map_version
example : dataRaises { srcVersion := some 9999, dstVersion := some 1234 } = true := by decide +kernel
-- test_bad_destination_map_version
example : dataRaises { srcVersion := some 1234, dstVersion := some 9999 } = true := by decide +kernel
-- test_lsb
example : dataCase { lsb := some (List.replicate 16 [true, false]).flatten } [] (hex 8 0x4000000055555555) = true := by
  decide +kernel
-- test_bad_lsb_length
example : dataRaises { lsb := some (List.replicate 8 [true, false]).flatten } = true := by decide +kernel
-- test_instance_id
example : dataCase { iid := some 11259375 } [] (hex 8 0x08000000abcdef00) = true := by decide +kernel
-- test_bad_instance_id
example : dataRaises { iid := some 112593750 } = true := by decide +kernel
-- test_lsb_and_instance_id
example : dataCase { iid := some 11259375, lsb := some (List.replicate 4 [true, false]).flatten } []
    (hex 8 0x48000000abcdef55) = true := by decide +kernel
-- test_bad_lsb_and_instance_id
example : dataRaises { iid := some 11259375, lsb := some (List.replicate 16 [true, false]).flatten } = true := by
  decide +kernel
-- test_payload ('SomePayload' is no IP packet: version nibble 5)
example : dataCase {} (hex 11 0x536f6d655061796c6f6164) (hex 19 0x0000000000000000536f6d655061796c6f6164) = true := by
  decide +kernel

/-! ### unittests/test_packet_control_map_request.py -/

/-- the message of test_minimal_map_request -/
def minimalRequest : MapRequest :=
  { itrRlocs := [.ip (.v4 0x01020304)], eidPrefixes := [.net ⟨.v4, 0xc0000200, 24, by decide, by decide, by decide⟩] }

example : minimalRequest.toBytes = .ok (hex 28 0x100000010000000000000000000000010102030400180001c0000200) := by
  decide +kernel
example : MapRequest.fromBytes (hex 28 0x100000010000000000000000000000010102030400180001c0000200) = .ok minimalRequest := by
  decide +kernel

/-! ### unittests/test_utils_afi.py -/

/-- reading gives the address and consumes everything, writing it gives the same bytes -/
def afiCase (plen : Option Nat) (d : Bytes) (a : Addr) : Bool :=
  decide (readAfi plen (bytesToBits d) = .ok (a, [])) && decide (toBytes (encAddr a) = .ok d)

-- test_afi_0_without_prefixlen
example : afiCase .none (hex 2 0) .none = true := by decide +kernel
-- test_afi_0_with_prefixlen
example : readAfi (.some 16) (bytesToBits (hex 2 0)) = .error .value := by decide +kernel
-- test_afi_0_with_prefixlen_0
example : afiCase (.some 0) (hex 2 0) .none = true := by decide +kernel
-- test_afi_1_without_prefixlen
example : afiCase .none (hex 6 0x0001c00002ab) (.ip (.v4 0xc00002ab)) = true := by decide +kernel
-- test_afi_1_with_prefixlen
example : afiCase (.some 24) (hex 6 0x0001c0000200) (.net ⟨.v4, 0xc0000200, 24, by decide, by decide, by decide⟩) = true := by decide +kernel
-- test_afi_1_with_bad_prefixlen
example : readAfi (.some 24) (bytesToBits (hex 6 0x0001c00002ab)) = .error .value := by decide +kernel
-- test_afi_2_without_prefixlen
example : afiCase .none (hex 18 0x000220010db80102abcd000000000000cafe)
    (.ip (.v6 0x20010db80102abcd000000000000cafe)) = true := by decide +kernel
-- test_afi_2_with_prefixlen
example : afiCase (.some 64) (hex 18 0x000220010db80102abcd0000000000000000)
    (.net ⟨.v6, 0x20010db80102abcd0000000000000000, 64, by decide, by decide, by decide⟩) = true := by decide +kernel
-- test_afi_2_with_bad_prefixlen
example : readAfi (.some 64) (bytesToBits (hex 18 0x000220010db80102abcd000000000000cafe)) = .error .value := by
  decide +kernel
-- test_afi_65535
example : readAfi .none (bytesToBits (hex 8 0xffffabcdabcdabcd)) = .error .value := by decide +kernel

/-! ### unittests/test_packet_control_type_registry.py -/

/-- `ValidType` / `ValidType1` -/
def validType : TypeClass := { id := 1, subclass := true, nr := some 1 }

-- test_register_type_class
example : ((Registry.register 1 15 [] validType).map (Registry.get · 1)) = some (some validType) := by decide +kernel
-- test_wrong_class
example : Registry.register 1 15 [] { id := 2, subclass := false, nr := none } = none := by decide +kernel
-- test_wrong_message_type
example : Registry.register 1 15 [] { id := 3, subclass := true, nr := some 16 } = none := by decide +kernel
-- test_duplicate_registration_of_same_class
example : (Registry.run 1 15 [] [validType, validType]).get 1 = some validType := by decide +kernel
-- test_bad_duplicate_registration
example : Registry.register 1 15 (Registry.run 1 15 [] [validType]) { validType with id := 4 } = none := by
  decide +kernel
example : (Registry.run 1 15 [] [validType, { validType with id := 4 }]).get 1 = some validType := by decide +kernel

/-! ### doctests -/

/-- pylisp/packet/lisp/data.py:114-119, the IP packet in the data packet -/
def dataPayload : Bytes :=
  hex 88 0x45c0005835400000ff06094a254d38204d45d1a30016f597a1c3c7406718bf1b50180ff0793f0000b555e59ff5ba6aad33d875c600fd8c1fc5268078f365ee199179fbd09d09d690193622a6b70bcbc7bf5f20dda4258801

-- pylisp/packet/lisp/data.py:114-134
example : (match Pkt.fromBytes (.data true) (hex 8 0xc033d3c100000007 ++ dataPayload) with
    | .ok (.data h p) => decide (h = {
        nonce := some [0x33, 0xd3, 0xc1], lsb := some ([true, true, true] ++ List.replicate 29 false) }) && decide (p.toBytes = .ok dataPayload)
    | _ => false) = true := by decide +kernel

/-- pylisp/packet/lisp/control/encapsulated_control_message.py:102-109 without the first four bytes -/
def ecmPayload : Bytes :=
  hex 112 0x6e000000004811402a0086400001ffff000000000000000a2a02000000000000000000000000000010f610f60048739610000201ee924adef97a97d70000000157c3c44d00015f61535d0002200109e085000b000000000000000001000f00022a020000000000000000000000000000

-- pylisp/packet/lisp/control/encapsulated_control_message.py:102-118
example : (match Pkt.fromBytes .control (hex 4 0x80000000 ++ ecmPayload) with
    | .ok (.ecm h p) => decide (h.security = false ∧ h.ddtOriginated = false) && decide (p.toBytes = .ok ecmPayload)
    | _ => false) = true := by decide +kernel

-- pylisp/packet/lisp/control/map_request.py:187-212
example : Pkt.fromBytes .control (hex 32 0x13000001ae92b5574f849cd00001ac101f0300015cfe1cbd00200001ac101f01) =
    .ok (.ctrl (.request {
      probe := true, smr := true, nonce := hex 8 0xae92b5574f849cd0, sourceEid := .ip (.v4 0xac101f03), itrRlocs := [.ip (.v4 0x5cfe1cbd)],
      eidPrefixes := [.net ⟨.v4, 0xac101f01, 32, by decide, by decide, by decide⟩] })) := by decide +kernel

-- pylisp/utils/afi.py:23-38
example : readAfi .none (bytesToBits (hex 6 0x0001c00002ab)) = .ok (.ip (.v4 0xc00002ab), []) := by decide +kernel
example : readAfi (.some 24) (bytesToBits (hex 6 0x0001c0000200)) = .ok (.net ⟨.v4, 0xc0000200, 24, by decide, by decide, by decide⟩, []) := by
  decide +kernel

/-! ### the shipped DDT root file (an excerpt: the kernel needs 14 GB for all of it) -/

/-- split at a character -/
def splitAt (c : Char) : List Char → List (List Char)
  | [] => [[]]
  | x :: l => if x = c then [] :: splitAt c l else
    match splitAt c l with
    | [] => [[x]]
    | w :: ws => (x :: w) :: ws

/-- the digit's value in base 16 -/
def hexDigit (c : Char) : Nat :=
  if 'a' ≤ c then c.toNat - 'a'.toNat + 10 else if 'A' ≤ c then c.toNat - 'A'.toNat + 10 else c.toNat - '0'.toNat

/-- a word in the given base, below a bound -/
def number (b bound : Nat) (w : List Char) : Option Nat :=
  if w = [] then none else
    let n := w.foldl (fun n c => b * n + hexDigit c) 0
    if w.all (fun c => hexDigit c < b) ∧ n < bound then some n else none

/-- a simple reader of dotted-quad and colon notation, for these tests only (the theorems of C71 hold for every
reader of addresses) -/
def ipOf (w : List Char) : Option IP :=
  match splitAt ':' w with
  | [_] =>
    match (splitAt '.' w).mapM (number 10 256) with
    | some [a, b, c, d] => if h : ((a * 256 + b) * 256 + c) * 256 + d < 2 ^ 32 then some (IP.v4 _ h) else none
    | _ => none
  | ws =>
    let pre := ws.takeWhile (· ≠ [])
    let post := (ws.reverse.takeWhile (· ≠ [])).reverse
    let all := if ws.all (· ≠ []) then ws else
      pre ++ List.replicate (8 - pre.length - post.length) ['0'] ++ post
    if all.length ≠ 8 then none else
    match all.mapM (number 16 65536) with
    | some l => if h : l.foldl (fun n x => n * 65536 + x) 0 < 2 ^ 128 then some (IP.v6 _ h) else none
    | none => none

/-- the same for `address/length` -/
def netOf (w : List Char) : Option Net :=
  match splitAt '/' w with
  | [a, l] =>
    match ipOf a, number 10 129 l with
    | some ip, some n =>
      if h : n ≤ ip.ver.width ∧ ip.val % 2 ^ (ip.ver.width - n) = 0 then
        some ⟨ip.ver, ip.val, n, h.1, ip.lt, h.2⟩ else none
    | _, _ => none
  | _ => none

/-- an excerpt of etc/lispd/ddt_root: line 1, the lines of a prefix and the lines of instance 223 -/
def shippedRoot : List Char := "# FORMAT: InstanceID EID-AFI EID-Prefix MAP_SERVER # ASN | Organisation | Contact\n\
  0 1 38.125.5.0/24 199.119.73.6 # AS17169 | VXNet.com | Paul Vinciguerra \n\
  0 1 38.125.5.0/24 2607:1F00:0:4::6 # AS17169 | VXNet.com | Paul Vinciguerra \n\
  \n\
  223 0 0 158.38.1.91 # Cisco testing\n\
  223 0 0 173.36.254.167 # Cisco testing\n\
  223 0 0 208.217.187.20 # Cisco testing\n\
  ".toList

/-- the referrals below the root of an instance and address family: version, first address, length and number of
DDT nodes -/
def referrals (st : Instances) (inst afi : Nat) : Option (List (Nat × Nat × Nat × Nat)) :=
  (st (inst, afi)).map fun cs => cs.filterMap fun c => match c with
    | .leaf (.ddtReferral l) _ q => some (if q.ver = .v4 then 4 else 6, q.base, q.plen, l.length)
    | _ => none

set_option maxRecDepth 100000 in
-- the excerpt loads, and delegates what it says
example : (match loadDdtText ipOf netOf shippedRoot with
    | .ok st => (referrals st 0 1 == some [(4, 0x267d0500, 24, 2)]) &&
        (referrals st 223 1 == some [(4, 0x0, 0, 3)]) &&
        (referrals st 223 2 == some [(6, 0x0, 0, 3)]) && (referrals st 1 1).isNone
    | .error _ => false) = true := by decide +kernel

/-! ### the sample configuration -/

/-- a prefix in text -/
def net (s : String) : Net := (netOf s.toList).getD anyV4

/-- etc/lispd/settings.py:14-18: the children of the AuthContainerNode for 37.77.56.0/21 -/
def sampleServers : List Node :=
  [.leaf .mapServer 1 (net "37.77.56.32/31"), .leaf .mapServer 2 (net "37.77.56.64/26"),
   .leaf .mapServer 3 (net "37.77.57.56/30")]

/-- etc/lispd/settings.py:12-18: the tree for instance 0 and IPv4, both containers built by `update` -/
def sampleTree : Node × Option Err × Option Err :=
  let inner := updateChildren (net "37.77.56.0/21") [] sampleServers
  let outer := updateChildren (net "0.0.0.0/0") [] [.cont (some []) 4 (net "37.77.56.0/21") inner.1]
  (.cont none 5 (net "0.0.0.0/0") outer.1, inner.2, outer.2)

/-- the identity of the node found for a prefix -/
def found (s : String) : Option Nat := (sampleTree.1.resolve (net s)).toOption.map Node.id

-- the sample tree is built without an exception
example : sampleTree.2 = (none, none) := by decide +kernel
-- and finds its nodes
example : [found "37.77.56.33/32", found "37.77.56.127/32", found "37.77.56.128/32", found "37.77.57.59/32",
    found "37.77.57.60/32", found "37.77.64.0/32"] = [some 1, some 2, some 4, some 3, some 4, some 5] := by
  decide +kernel

end PyLisp.Conformance
