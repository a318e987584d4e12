import Verif.Dyn
/-
Attributes that no check looks at: those of the LCAF addresses (utils/lcaf/*.py) and of the IPv6 extension headers
(packet/ip/ipv6/*.py), whose `sanitize` is empty, and the checksum of a UDP message.  Their values go straight into
format strings with `%d`.
-/
namespace PyLisp

/-- library: the conversion `%d` of Python 2 for one value: ints, longs and booleans as they are, floats truncated, and
objects with an `__int__` (of the values here, IP addresses) converted with it; TypeError for anything else, and for nan
and the infinities -/
def PyObj.toInt : PyObj → Except Err Int
  | .bool b => .ok (boolInt b)
  | .int i => .ok i
  | .float (some i) => .ok i
  | .frac t => .ok t
  | .addr (.ip a) => .ok a.val
  | _ => .error .type

/-- library: `'…%d' % x` with one conversion in the format: a tuple is the list of the arguments, so that a tuple of one
value counts as this value, and any other tuple is a TypeError -/
def PyObj.toIntLone : PyObj → Except Err Int
  | .seq true [x] => x.toInt
  | o => o.toInt

/-- the token `uint:n=%d` alone in its format string -/
def encUintLone (n : Nat) (o : PyObj) : Except Err Bits := do
  let i ← o.toIntLone
  encUint n i

/-- the token `bool=%d` -/
def encBoolInt (i : Int) : Except Err Bits :=
  if i = 0 then .ok [false] else if i = 1 then .ok [true] else .error .value

/-- geo_address.py:107-111, 112-116: the four tokens `bool=%d, uint:15=%d, uint:8=%d, uint:8=%d`: all four values are
formatted before any bits are made -/
def encCoordinate (flag deg min sec : PyObj) : Except Err Bits := do
  let f ← flag.toInt
  let d ← deg.toInt
  let m ← min.toInt
  let s ← sec.toInt
  let b0 ← encBoolInt f
  let b1 ← encUint 15 d
  let b2 ← encUint 8 m
  let b3 ← encUint 8 s
  pure (b0 ++ b1 ++ b2 ++ b3)

/-- An address object whose attributes hold arbitrary values: any value that is no LCAF address (`val`; for
convenience also an LCAF address with attributes of the documented types), or an object of one of the LCAF classes:
afi_list_address.py:17-19, instance_address.py:17-21, autonomous_system_address.py:17-20, geo_address.py:17-31,
nat_traversal_address.py:16-24.  The lists of addresses are lists, with arbitrary elements. -/
inductive DAddr
  | val (o : PyObj)
  | afiList (l : List DAddr)
  | inst (iid : PyObj) (address : DAddr) (mask : PyObj)
  | asn (n : PyObj) (address : DAddr)
  | geo (north latDeg latMin latSec east lonDeg lonMin lonSec altitude : PyObj) (address : DAddr)
  | natT (msPort etrPort : PyObj) (globalEtr mapServer privateEtr : DAddr) (rtrs : List DAddr)

mutual
/-- afi.py:89-116 `get_bitstream_for_afi_address`, with lcaf/base.py:80-106 `to_bytes` and the `_to_data_bytes` and
`_to_rsvd2` of the classes (afi_list_address.py:55-59, instance_address.py:60-67, autonomous_system_address.py:55-58,
geo_address.py:106-119, nat_traversal_address.py:61-68) inlined; the `sanitize` methods do nothing -/
def DAddr.enc : DAddr → Except Err Bits
  | .val o => encAddrD o
  | .afiList l => do
    let d ← encDAddrs l
    let b ← encLcaf 1 (zeros 8) d
    pure (natToBits 16 16387 ++ b)
  | .inst iid a mask => do
    let m ← encUintLone 8 mask
    let i ← encUintLone 32 iid
    let d ← a.enc
    let b ← encLcaf 2 m (i ++ d)
    pure (natToBits 16 16387 ++ b)
  | .asn n a => do
    let i ← encUintLone 32 n
    let d ← a.enc
    let b ← encLcaf 3 (zeros 8) (i ++ d)
    pure (natToBits 16 16387 ++ b)
  | .geo north ld lm ls east od om os alt a => do
    let b1 ← encCoordinate north ld lm ls
    let b2 ← encCoordinate east od om os
    let v ← alt.toIntLone
    let b3 ← encInt 32 v
    let d ← a.enc
    let b ← encLcaf 5 (zeros 8) (b1 ++ b2 ++ b3 ++ d)
    pure (natToBits 16 16387 ++ b)
  | .natT mp ep g m p rtrs => do
    let v1 ← mp.toInt
    let v2 ← ep.toInt
    let b1 ← encUint 16 v1
    let b2 ← encUint 16 v2
    let dg ← g.enc
    let dm ← m.enc
    let dp ← p.enc
    let dr ← encDAddrs rtrs
    let b ← encLcaf 7 (zeros 8) (b1 ++ b2 ++ dg ++ dm ++ dp ++ dr)
    pure (natToBits 16 16387 ++ b)
/-- the loops over lists of addresses (afi_list_address.py:57-58, nat_traversal_address.py:66-67) -/
def encDAddrs : List DAddr → Except Err Bits
  | [] => .ok []
  | a :: l => do
    let b ← a.enc
    let r ← encDAddrs l
    pure (b ++ r)
end

/-! ### IPv6 extension headers and UDP -/

/-- hop_by_hop_options_header.py:62-80, destination_options_header.py:62-80 -/
def encOptsD (nh : PyObj) (options : Bytes) : Except Err Bits := do
  let b1 ← encUintLone 8 nh
  let b2 ← encUint 8 (((options.length + 2 + 7) / 8 : Nat) - 1 : Int)
  pure (b1 ++ b2 ++ bytesToBits options ++ zeros (8 * ((8 - (options.length + 2) % 8) % 8)))

/-- routing_header.py:78-95 -/
def encRoutingD (nh rt sl : PyObj) (data : Bytes) : Except Err Bits := do
  let b1 ← encUintLone 8 nh
  let b2 ← encUint 8 (((data.length + 4 + 7) / 8 : Nat) - 1 : Int)
  let b3 ← encUintLone 8 rt
  let b4 ← encUintLone 8 sl
  pure (b1 ++ b2 ++ b3 ++ b4 ++ bytesToBits data ++ zeros (8 * ((8 - (data.length + 4) % 8) % 8)))

/-- fragment_header.py:75-91 -/
def encFragmentD (nh off mf ident : PyObj) : Except Err Bits := do
  let b1 ← encUintLone 8 nh
  let b2 ← encUintLone 13 off
  let f ← mf.toIntLone
  let b3 ← encBoolInt f
  let b4 ← encUintLone 32 ident
  pure (b1 ++ zeros 8 ++ b2 ++ zeros 2 ++ b3 ++ b4)

/-- udp.py:187-205: `sanitize` looks at the ports only -/
def encUdpD (h : DUdpHdr) (cksum : PyObj) (plen : Nat) : Except Err Bits := do
  let _ ← h.sanitize
  let b1 ← encUintD 16 h.sport
  let b2 ← encUintD 16 h.dport
  let b3 ← encUint 16 (plen + 8 : Nat)
  let b4 ← encUintLone 16 cksum
  pure (b1 ++ b2 ++ b3 ++ b4)

end PyLisp
