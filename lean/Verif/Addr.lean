import Verif.IPAddr
/-
Model of pylisp/utils/afi.py and pylisp/utils/lcaf/*.py.
-/
namespace PyLisp

/-- Everything that can appear where pylisp expects an "AFI address":
`None`, an ipaddress address or network, or one of the registered LCAF classes.
Numeric attributes are unchecked integers, as in the Python classes (the `sanitize` methods of the
LCAF classes are empty).
* `null` — lcaf/null_address.py
* `afiList` — lcaf/afi_list_address.py:14-20
* `inst iid address mask` — lcaf/instance_address.py:14-21
* `asn` — lcaf/autonomous_system_address.py:14-20
* `geo` — lcaf/geo_address.py:14-32 (for the decimal `latitude`/`longitude` properties see Geo.lean)
* `natT` — lcaf/nat_traversal_address.py:15-24 -/
inductive Addr
  | none
  | ip (a : IP)
  | net (n : Net)
  | null
  | afiList (addresses : List Addr)
  | inst (iid : Int) (address : Addr) (iidMaskLen : Int)
  | asn (asn : Int) (address : Addr)
  | geo (north : Bool) (latDeg latMin latSec : Int) (east : Bool) (lonDeg lonMin lonSec : Int)
      (altitude : Int) (address : Addr)
  | natT (msPort etrPort : Int) (globalEtr mapServer privateEtr : Addr) (rtrs : List Addr)

/-- lcaf/base.py:80-106 `LCAFAddress.to_bytes`, given the class's type number, its `_to_rsvd2`
bits and its data bits: 8 reserved zero bits, 8 zero flag bits, type, rsvd2, 16-bit length in
bytes (floor of bits/8, Python 2 integer division), data. -/
def encLcaf (type : Nat) (rsvd2 data : Bits) : Except Err Bits := do
  let len ← encUint 16 ((data.length / 8 : Nat) : Int)
  pure (zeros 8 ++ zeros 8 ++ natToBits 8 type ++ rsvd2 ++ len ++ data)

/-- `'uint:16=1, uint:32=%d'` / `'uint:16=2, uint:128=%d'` (afi.py:96-108) -/
def encIP (a : IP) : Bits :=
  match a.ver with
  | .v4 => natToBits 16 1 ++ natToBits 32 a.val
  | .v6 => natToBits 16 2 ++ natToBits 128 a.val

mutual
/-- afi.py:89-116 `get_bitstream_for_afi_address`, with `LCAFAddress.to_bytes` and the
`_to_data_bytes` of each class inlined:
null_address.py:35-36, afi_list_address.py:55-59, instance_address.py:60-67,
autonomous_system_address.py:55-58, geo_address.py:106-119, nat_traversal_address.py:61-68. -/
def encAddr : Addr → Except Err Bits
  | .none => .ok (zeros 16)
  | .ip a => .ok (encIP a)
  | .net n => .ok (encIP n.first)
  | .null => do
    let b ← encLcaf 0 (zeros 8) []
    pure (natToBits 16 16387 ++ b)
  | .afiList l => do
    let d ← encAddrs l
    let b ← encLcaf 1 (zeros 8) d
    pure (natToBits 16 16387 ++ b)
  | .inst iid a mask => do
    let m ← encUint 8 mask
    let i ← encUint 32 iid
    let d ← encAddr a
    let b ← encLcaf 2 m (i ++ d)
    pure (natToBits 16 16387 ++ b)
  | .asn n a => do
    let i ← encUint 32 n
    let d ← encAddr a
    let b ← encLcaf 3 (zeros 8) (i ++ d)
    pure (natToBits 16 16387 ++ b)
  | .geo north ld lm ls east od om os alt a => do
    let b1 ← encUint 15 ld
    let b2 ← encUint 8 lm
    let b3 ← encUint 8 ls
    let b4 ← encUint 15 od
    let b5 ← encUint 8 om
    let b6 ← encUint 8 os
    let b7 ← encInt 32 alt
    let d ← encAddr a
    let b ← encLcaf 5 (zeros 8)
      ([north] ++ b1 ++ b2 ++ b3 ++ [east] ++ b4 ++ b5 ++ b6 ++ b7 ++ d)
    pure (natToBits 16 16387 ++ b)
  | .natT mp ep g m p rtrs => do
    let b1 ← encUint 16 mp
    let b2 ← encUint 16 ep
    let dg ← encAddr g
    let dm ← encAddr m
    let dp ← encAddr p
    let dr ← encAddrs rtrs
    let b ← encLcaf 7 (zeros 8) (b1 ++ b2 ++ dg ++ dm ++ dp ++ dr)
    pure (natToBits 16 16387 ++ b)
/-- the concatenation loops `for address in ...: data += get_bitstream_for_afi_address(address)` -/
def encAddrs : List Addr → Except Err Bits
  | [] => .ok []
  | a :: l => do
    let b ← encAddr a
    let r ← encAddrs l
    pure (b ++ r)
end

/-- `unicode(address)` raises TypeError: the text of an AFI list is `u','.join(self.addresses)`
(lcaf/afi_list_address.py:21-22), which accepts strings only, so that every non-empty list raises; the
texts of instance, AS, geo and NAT traversal addresses (lcaf/instance_address.py:23-27,
autonomous_system_address.py:22-23, geo_address.py:33-34, nat_traversal_address.py:26-30) contain those of
their inner addresses (for the RTRs of a NAT traversal address it is the `repr`, which is always defined) -/
def Addr.textRaises : Addr → Bool
  | .afiList l => !l.isEmpty
  | .inst _ a _ => a.textRaises
  | .asn _ a => a.textRaises
  | .geo _ _ _ _ _ _ _ _ _ a => a.textRaises
  | .natT _ _ g m p _ => g.textRaises || m.textRaises || p.textRaises
  | _ => false

/-- the exception `ip_network(x)` (library) raises for an object whose text is no network: TypeError when
there is no text at all, else ValueError -/
def Addr.noNetwork (a : Addr) : Err := if a.textRaises = true then .type else .value

/-- `address = ip_network(address).supernet(new_prefix=prefix_len);
if address[0] != orig_address: raise ValueError`, when `prefix_len is not None`
(afi.py:61-67, 72-78; instance_address.py:47-53 and the same lines in the other LCAF classes).
For `None` and LCAF addresses `ip_network` or the comparison always raises: instance id 0 parses as
its inner address, but an address object never equals an LCAF object. -/
def applyPrefix : Option Nat → Addr → Except Err Addr
  | .none, a => .ok a
  | .some p, .ip a =>
    match a.toNet.supernet p with
    | .ok n => if n.first = a then .ok (.net n) else .error .value
    | .error e => .error e
  | .some _, a => .error a.noNetwork

/-- run a reader on a complete sub-stream and ignore what it leaves unread -/
def runOn (r : Rd α) (data : Bits) : Except Err α :=
  match r data with
  | .ok (a, _) => .ok a
  | .error e => .error e

theorem readUint_lt {n : Nat} {s : Bits} {v : Nat} {rest : Bits}
    (h : readUint n s = .ok (v, rest)) : v < 2 ^ n := by
  unfold readUint at h
  split at h
  · cases h
    have := bitsToNat_lt (s.take n)
    rwa [List.length_take_of_le ‹_›] at this
  · cases h

/-- reading `IPv4Address(bitstream.read('uint:32'))` / `IPv6Address(bitstream.read('uint:128'))` -/
def readIP (v : Ver) : Rd IP := fun s =>
  if h : v.width ≤ s.length then
    .ok (⟨v, bitsToNat (s.take v.width), by
      have := bitsToNat_lt (s.take v.width)
      rwa [List.length_take_of_le h] at this⟩, s.drop v.width)
  else .error .read

/-- lcaf/instance_address.py:43-58 `_from_data_bytes`; `rd` reads one AFI address -/
def instFromData (rd : Rd Addr) (plen : Option Nat) (rsvd2 : Nat) : Rd Addr := do
  let iid ← readUint 32
  let a ← rd
  let a ← Rd.lift (applyPrefix plen a)
  pure (.inst iid a rsvd2)

/-- lcaf/autonomous_system_address.py:39-53 -/
def asnFromData (rd : Rd Addr) (plen : Option Nat) : Rd Addr := do
  let n ← readUint 32
  let a ← rd
  let a ← Rd.lift (applyPrefix plen a)
  pure (.asn n a)

/-- lcaf/geo_address.py:78-104 -/
def geoFromData (rd : Rd Addr) (plen : Option Nat) : Rd Addr := do
  let north ← readBool
  let ld ← readUint 15
  let lm ← readUint 8
  let ls ← readUint 8
  let east ← readBool
  let od ← readUint 15
  let om ← readUint 8
  let os ← readUint 8
  let alt ← readInt 32
  let a ← rd
  let a ← Rd.lift (applyPrefix plen a)
  pure (.geo north ld lm ls east od om os alt a)

/-- read the whole rest of the data with `rds` -/
def readAll (rds : Bits → Except Err α) : Rd α := fun rest =>
  match rds rest with
  | .ok l => .ok (l, [])
  | .error e => .error e

/-- lcaf/nat_traversal_address.py:38-59; `rds` reads AFI addresses until the data ends -/
def natFromData (rd : Rd Addr) (rds : Bits → Except Err (List Addr)) : Rd Addr := do
  let mp ← readUint 16
  let ep ← readUint 16
  let g ← rd
  let m ← rd
  let p ← rd
  let l ← readAll rds
  pure (.natT mp ep g m p l)

/-- the registered LCAF classes (lcaf/base.py:70-78 and lcaf/__init__.py): dispatch on the type
number to `_from_data_bytes`; data not read by a class is ignored. -/
def lcafFromData (rd : Rd Addr) (rds : Option Nat → Bits → Except Err (List Addr))
    (plen : Option Nat) (type rsvd2 : Nat) (data : Bits) : Except Err Addr :=
  if type = 0 then .ok .null                                   -- null_address.py:28-33
  else if type = 1 then                                         -- afi_list_address.py:38-53
    match rds plen data with
    | .ok l => .ok (.afiList l)
    | .error e => .error e
  else if type = 2 then runOn (instFromData rd plen rsvd2) data
  else if type = 3 then runOn (asnFromData rd plen) data
  else if type = 5 then runOn (geoFromData rd plen) data
  else if type = 7 then runOn (natFromData rd (rds .none)) data
  else .error .value

/-- lcaf/base.py:39-78 `LCAFAddress.from_bytes`: reserved, flags (both ignored), type, rsvd2,
length in bytes, data -/
def readLcaf (rd : Rd Addr) (rds : Option Nat → Bits → Except Err (List Addr))
    (plen : Option Nat) : Rd Addr := do
  let _rsvd1 ← readBits 8
  let _flags ← readBits 8
  let type ← readUint 8
  let rsvd2 ← readUint 8
  let len ← readUint 16
  let data ← readBits (len * 8)
  Rd.lift (lcafFromData rd rds plen type rsvd2 data)

/-- afi.py:18-86 `read_afi_address_from_bitstream`, parametric in the reader for nested addresses -/
def readAddrStep (rd : Rd Addr) (rds : Option Nat → Bits → Except Err (List Addr))
    (plen : Option Nat) : Rd Addr := do
  let afi ← readUint 16
  if afi = 0 then
    match plen with
    | .none => pure .none
    | .some p => if p = 0 then pure .none else Rd.fail .value
  else if afi = 1 then do
    let a ← readIP .v4
    Rd.lift (applyPrefix plen (.ip a))
  else if afi = 2 then do
    let a ← readIP .v6
    Rd.lift (applyPrefix plen (.ip a))
  else if afi = 16387 then readLcaf rd rds plen
  else Rd.fail .value

mutual
/-- afi.py:18-86: the recursion through nested LCAF addresses; the first argument bounds the
nesting depth (fuel). -/
def readAddr : Nat → Option Nat → Rd Addr
  | 0, _ => Rd.fail .fuel
  | f + 1, plen => readAddrStep (readAddr f .none) (readAddrs f) plen
/-- the loops `while data.pos != data.len: ... read_afi_address_from_bitstream(data)` of
afi_list_address.py:42-50 and nat_traversal_address.py:46-48 -/
def readAddrs : Nat → Option Nat → Bits → Except Err (List Addr)
  | 0, _, _ => .error .fuel
  | f + 1, plen, data =>
    if data = [] then .ok []
    else
      match readAddr f .none data with
      | .ok (a, rest) =>
        match applyPrefix plen a with
        | .ok a =>
          match readAddrs f plen rest with
          | .ok l => .ok (a :: l)
          | .error e => .error e
        | .error e => .error e
      | .error e => .error e
end

/-- `read_afi_address_from_bitstream(bitstream, prefix_len)`; the fuel is enough for every
input (theorem `readAfi_ne_fuel`). -/
def readAfi (plen : Option Nat) : Rd Addr := fun s => readAddr (s.length + 1) plen s

mutual
/-- What a receiver sees of an address when no prefix length is available: networks are sent as
their first address. -/
def Addr.strip : Addr → Addr
  | .none => .none
  | .ip a => .ip a
  | .net n => .ip n.first
  | .null => .null
  | .afiList l => .afiList (stripList l)
  | .inst i a m => .inst i a.strip m
  | .asn n a => .asn n a.strip
  | .geo n a b c e d f g h x => .geo n a b c e d f g h x.strip
  | .natT mp ep g m p l => .natT mp ep g.strip m.strip p.strip (stripList l)
/-- (helper of `Addr.strip`: the addresses inside an AFI list or NAT-traversal address) -/
def stripList : List Addr → List Addr
  | [] => []
  | a :: l => a.strip :: stripList l
end

mutual
/-- `get_addresses` of the LCAF classes (lcaf/base.py:29-37, null_address.py:25-26,
afi_list_address.py:24-32, instance_address.py:29-33, autonomous_system_address.py:25-29,
geo_address.py:36-40, nat_traversal_address.py:31-32).  For something that is not an LCAF the
callers use the address itself, so the same function covers both. -/
def Addr.getAddresses : Addr → List Addr
  | .none => [.none]
  | .ip a => [.ip a]
  | .net n => [.net n]
  | .null => []
  | .afiList l => getAddressesList l
  | .inst _ a _ => a.getAddresses
  | .asn _ a => a.getAddresses
  | .geo _ _ _ _ _ _ _ _ _ a => a.getAddresses
  | .natT _ _ _ _ _ rtrs => rtrs
/-- afi_list_address.py:24-32: those of every address in the list, in order -/
def getAddressesList : List Addr → List Addr
  | [] => []
  | a :: l => a.getAddresses ++ getAddressesList l
end

/-- `isinstance(x, LCAFAddress)` -/
def Addr.isLcaf : Addr → Bool
  | .none | .ip _ | .net _ => false
  | _ => true

/-! Decidable equality of address values (used for concrete examples only). -/
mutual
/-- equality of address values, no code -/
def Addr.beq : Addr → Addr → Bool
  | .none, .none => true
  | .ip a, .ip b => decide (a = b)
  | .net a, .net b => decide (a = b)
  | .null, .null => true
  | .afiList l, .afiList l' => beqList l l'
  | .inst i a m, .inst j b n => decide (i = j) && a.beq b && decide (m = n)
  | .asn i a, .asn j b => decide (i = j) && a.beq b
  | .geo n a b c e d f g h x, .geo n' a' b' c' e' d' f' g' h' x' =>
    decide (n = n') && decide (a = a') && decide (b = b') && decide (c = c') && decide (e = e') &&
      decide (d = d') && decide (f = f') && decide (g = g') && decide (h = h') && x.beq x'
  | .natT a b c d e l, .natT a' b' c' d' e' l' =>
    decide ((a, b) = (a', b')) && c.beq c' && d.beq d' && e.beq e' && beqList l l'
  | _, _ => false
/-- equality of lists of address values, no code -/
def beqList : List Addr → List Addr → Bool
  | [], [] => true
  | a :: l, b :: l' => a.beq b && beqList l l'
  | _, _ => false
end

mutual
theorem Addr.beq_iff : ∀ a b : Addr, a.beq b = true ↔ a = b
  | .none, b => by cases b <;> simp [Addr.beq]
  | .ip _, b => by cases b <;> simp [Addr.beq]
  | .net _, b => by cases b <;> simp [Addr.beq]
  | .null, b => by cases b <;> simp [Addr.beq]
  | .afiList l, b => by cases b <;> simp [Addr.beq, beqList_iff l]
  | .inst _ a _, b => by cases b <;> simp [Addr.beq, Addr.beq_iff a, and_assoc]
  | .asn _ a, b => by cases b <;> simp [Addr.beq, Addr.beq_iff a]
  | .geo _ _ _ _ _ _ _ _ _ a, b => by cases b <;> simp [Addr.beq, Addr.beq_iff a, and_assoc]
  | .natT _ _ c d e l, b => by
    cases b <;>
      simp [Addr.beq, Addr.beq_iff c, Addr.beq_iff d, Addr.beq_iff e, beqList_iff l, and_assoc]
theorem beqList_iff : ∀ l l' : List Addr, beqList l l' = true ↔ l = l'
  | [], l' => by cases l' <;> simp [beqList]
  | a :: l, l' => by cases l' <;> simp [beqList, Addr.beq_iff a, beqList_iff l]
end

instance : DecidableEq Addr := fun a b => decidable_of_iff _ (Addr.beq_iff a b)

end PyLisp
