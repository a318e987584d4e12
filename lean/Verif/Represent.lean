import Verif.Pkt
/-
What `repr()` shows of packets, messages, records and LCAF addresses (pylisp/utils/represent.py and the `__repr__`
methods that call it), and a reader of Python expressions that evaluates such a text with the constructors of the
classes.

`RVal` is a Python value with the instance dictionary of objects: in the order in which it is iterated, with the private
attributes (`_reserved1`, `_notify_targets`).
-/
namespace PyLisp.Rep

/-- A Python value.  `int i long`: an int or a long; `str`: a byte string; `text`: a unicode string; `auto`: an
`AutoIPv4Address`/`AutoIPv6Address` of an interface; `obj`: an object of a class of the package with its `__dict__`
(`keys[i]` has the value `vals[i]`), in iteration order; `other`: any other object. -/
inductive RVal
  | none
  | bool (b : Bool)
  | int (i : Int) (long : Bool)
  | str (b : Bytes)
  | text (t : List Char)
  | list (l : List RVal)
  | ip (a : IP)
  | net (n : Net)
  | auto (v : Ver) (ifname : String)
  | obj (cls : String) (keys : List String) (vals : List RVal)
  | other

/-- the ipaddress library: how it writes addresses and networks (`unicode(x)`), and how it reads them (`none`: it
raises ValueError) -/
structure IpLib where
  addrText : IP → List Char
  netText : Net → List Char
  parseAddr : Ver → List Char → Option IP
  parseNet : Ver → List Char → Option Net
  /-- what is written is read again -/
  addr_back : ∀ a, parseAddr a.ver (addrText a) = some a
  net_back : ∀ n, parseNet n.ver (netText n) = some n
  /-- texts consist of digits, letters, colons, dots and slashes -/
  addr_chars : ∀ a, ∀ c ∈ addrText a, c ∈ "0123456789abcdef.:/".toList
  net_chars : ∀ n, ∀ c ∈ netText n, c ∈ "0123456789abcdef.:/".toList

/-! ### writing -/

/-- a decimal digit -/
def digit (k : Nat) : Char := Char.ofNat (48 + k)

/-- the decimal digits of `n` (with enough fuel) -/
def digitsF : Nat → Nat → List Char
  | 0, n => [digit (n % 10)]
  | f + 1, n => if n < 10 then [digit n] else digitsF f (n / 10) ++ [digit (n % 10)]

/-- `str(n)` -/
def digits (n : Nat) : List Char := digitsF n n

/-- `repr` of an int or a long (which ends in L) -/
def reprInt (i : Int) (long : Bool) : List Char :=
  (if i < 0 then ['-'] else []) ++ digits i.natAbs ++ (if long then ['L'] else [])

/-- a lower case hexadecimal digit -/
def hexChar (k : Nat) : Char := if k < 10 then Char.ofNat (48 + k) else Char.ofNat (87 + k)

/-- one byte in `repr` of a byte string with quote `q` -/
def escByte (q : Char) (b : Byte) : List Char :=
  if b.toNat = q.toNat ∨ b.toNat = 92 then ['\\', Char.ofNat b.toNat]
  else if b.toNat = 9 then ['\\', 't']
  else if b.toNat = 10 then ['\\', 'n']
  else if b.toNat = 13 then ['\\', 'r']
  else if b.toNat < 32 ∨ b.toNat ≥ 127 then ['\\', 'x', hexChar (b.toNat / 16), hexChar (b.toNat % 16)]
  else [Char.ofNat b.toNat]

/-- the quote that `repr` of a byte string uses: double quotes only around single ones -/
def quoteFor (b : Bytes) : Char := if 39 ∈ b ∧ 34 ∉ b then '"' else '\''

/-- `repr` of a byte string -/
def reprStr (b : Bytes) : List Char := quoteFor b :: b.flatMap (escByte (quoteFor b)) ++ [quoteFor b]

/-- `', '.join(l)` -/
def commas : List (List Char) → List Char
  | [] => []
  | [x] => x
  | x :: y :: l => x ++ ',' :: ' ' :: commas (y :: l)

/-- `key.startswith('_')` -/
def isPrivate (k : String) : Bool := k.toList.head? == some '_'

/-- represent.py:13-18 `represent`, for an instance dictionary with the `repr` of its values, in the order of
`iteritems()` -/
def represent (cls : String) (dict : List (String × List Char)) (ignore : List String) : List Char :=
  cls.toList ++ '(' :: commas ((dict.filter (fun p => !isPrivate p.1 && !ignore.contains p.1)).map
    (fun p => p.1.toList ++ '=' :: p.2)) ++ [')']

/-- the name of the class of an address -/
def addrClass : Ver → String
  | .v4 => "IPv4Address"
  | .v6 => "IPv6Address"

/-- the name of the class of a network -/
def netClass : Ver → String
  | .v4 => "IPv4Network"
  | .v6 => "IPv6Network"

/-- the name of the class of an automatic address (auto_addresses.py:117, 129) -/
def autoClass : Ver → String
  | .v4 => "AutoIPv4Address"
  | .v6 => "AutoIPv6Address"

/-- `repr` of a constant -/
def reprName (w : String) : List Char := w.toList

/-- `repr` of a bool -/
def reprBool (b : Bool) : List Char := if b then reprName "True" else reprName "False"

/-- a unicode string (quotes and backslashes in it are left out) -/
def reprText (t : List Char) : List Char := 'u' :: '\'' :: t ++ ['\'']

/-- a call with one argument -/
def reprCall (f : String) (t : List Char) : List Char := f.toList ++ '(' :: t ++ [')']

/-- a list display -/
def reprItems (l : List (List Char)) : List Char := '[' :: commas l ++ [']']

mutual
/-- `repr(x)`: protocol.py:19-20 (all packets, control messages and LCAF addresses), locator_record.py:94-95,
map_reply_record.py:56-57 and map_referral_record.py:81-82 call `represent` without names to ignore;
auto_addresses.py:50-51 writes the name of the interface without quotes; the ipaddress library writes
`IPv4Address(u'…')`. -/
def reprOf (L : IpLib) : RVal → List Char
  | .none => reprName "None"
  | .bool b => reprBool b
  | .int i long => reprInt i long
  | .str b => reprStr b
  | .text t => reprText t
  | .list l => reprItems (reprAll L l)
  | .ip a => reprCall (addrClass a.ver) (reprText (L.addrText a))
  | .net n => reprCall (netClass n.ver) (reprText (L.netText n))
  | .auto v i => reprCall (autoClass v) i.toList
  | .obj cls keys vals => represent cls (keys.zip (reprAll L vals)) []
  | .other => reprName "<object>"
/-- `repr` of each value -/
def reprAll (L : IpLib) : List RVal → List (List Char)
  | [] => []
  | v :: l => reprOf L v :: reprAll L l
end

/-! ### the constructors -/

/-- what a constructor does with a parameter: `plain d` stores it (default `d`); `orEmpty` stores `x or []` (default
None); `orProtocol` stores `next_header or protocol` (ipv4.py:32); `ignored` is accepted and not stored -/
inductive ArgKind
  | plain (default : RVal)
  | orEmpty
  | orProtocol
  | ignored (default : RVal)

/-- a class: the parameters of `__init__` with what becomes of them, and the attributes that are always set to None -/
structure ClassDef where
  name : String
  args : List (String × ArgKind)
  fixed : List String := []

/-- the 8 zero bytes that are the default of `nonce` -/
def zeroNonce : RVal := .str (List.replicate 8 0)

/-- a parameter with a number as default -/
def aInt (k : String) (i : Int := 0) : String × ArgKind := (k, .plain (.int i false))
/-- a parameter with default False -/
def aBool (k : String) : String × ArgKind := (k, .plain (.bool false))
/-- a parameter with default None -/
def aNone (k : String) : String × ArgKind := (k, .plain .none)
/-- a parameter with default '' -/
def aStr (k : String) : String × ArgKind := (k, .plain (.str []))
/-- a parameter stored as `x or []` -/
def aList (k : String) : String × ArgKind := (k, .orEmpty)

/-- The classes whose objects are shown by `represent`, with their `__init__`: ipv4.py:24-51, ipv6/base.py:23-37,
hop_by_hop_options_header.py:15-20, destination_options_header.py:15-20, routing_header.py:15-23,
fragment_header.py:14-22, no_next_header.py:14-20, udp.py:17-24 (with protocol.py:52-58), data.py:21-34,
encapsulated_control_message.py:19-30, map_request.py:23-42, map_reply.py:18-30, map_register.py:26-43,
map_notify.py:22-35, map_referral.py:18-26, info_message.py:27-41, map_reply_record.py:40-51 (also
map_register_record.py:12), map_referral_record.py:62-76, locator_record.py:26-40, lcaf/null_address.py:15,
afi_list_address.py:17-19, instance_address.py:17-21, autonomous_system_address.py:17-20, geo_address.py:17-31,
nat_traversal_address.py:15-23.  (Private attributes are left out.) -/
def classes : List ClassDef := [
  ⟨"IPv4Packet", [aInt "tos", aInt "identification", aBool "dont_fragment", aBool "more_fragments",
    aInt "fragment_offset", aInt "ttl", ("protocol", .ignored (.int 0 false)), aNone "source", aNone "destination",
    aStr "options", aStr "payload", ("next_header", .orProtocol)], []⟩,
  ⟨"IPv6Packet", [aInt "traffic_class", aInt "flow_label", aInt "next_header", aInt "hop_limit", aNone "source",
    aNone "destination", aStr "payload"], []⟩,
  ⟨"IPv6HopByHopOptionsHeader", [aInt "next_header", aStr "payload", aStr "options"], []⟩,
  ⟨"IPv6DestinationOptionsHeader", [aInt "next_header", aStr "payload", aStr "options"], []⟩,
  ⟨"IPv6RoutingHeader", [aInt "next_header", aStr "payload", aInt "routing_type", aInt "segments_left", aStr "data"], []⟩,
  ⟨"IPv6FragmentHeader", [aInt "next_header", aStr "payload", aInt "fragment_offset", aBool "more_fragments",
    aInt "identification"], []⟩,
  ⟨"IPv6NoNextHeader", [("next_header", .ignored (.int 0 false)), aStr "payload"], ["next_header"]⟩,
  ⟨"UDPMessage", [aInt "source_port", aInt "destination_port", aInt "checksum", aStr "payload"], ["next_header"]⟩,
  ⟨"DataPacket", [aBool "echo_nonce_request", aNone "nonce", aNone "source_map_version", aNone "destination_map_version",
    aNone "lsb", aNone "instance_id", aStr "payload"], []⟩,
  ⟨"EncapsulatedControlMessage", [aBool "security", aBool "ddt_originated", aBool "for_rtr", aBool "relayed_by_rtr",
    aStr "payload"], []⟩,
  ⟨"MapRequestMessage", [aBool "authoritative", aBool "probe", aBool "smr", aBool "pitr", aBool "smr_invoked",
    ("nonce", .plain zeroNonce), aNone "source_eid", aList "itr_rlocs", aList "eid_prefixes", aNone "map_reply"], []⟩,
  ⟨"MapReplyMessage", [aBool "probe", aBool "enlra_enabled", aBool "security", ("nonce", .plain zeroNonce),
    aList "records"], []⟩,
  ⟨"MapRegisterMessage", [aBool "proxy_map_reply", aBool "for_rtr", aBool "want_map_notify", ("nonce", .plain zeroNonce),
    aInt "key_id", aStr "authentication_data", aList "records", aInt "xtr_id", aInt "site_id"], []⟩,
  ⟨"MapNotifyMessage", [("nonce", .plain zeroNonce), aInt "key_id", aStr "authentication_data", aList "records",
    aInt "xtr_id", aInt "site_id"], []⟩,
  ⟨"MapReferralMessage", [("nonce", .plain zeroNonce), aList "records"], []⟩,
  ⟨"InfoMessage", [aBool "is_reply", ("nonce", .plain zeroNonce), aInt "key_id", aStr "authentication_data", aInt "ttl",
    aNone "eid_prefix", aNone "reply"], []⟩,
  ⟨"MapReplyRecord", [aInt "ttl", aInt "action", aBool "authoritative", aInt "map_version", aNone "eid_prefix",
    aList "locator_records"], []⟩,
  ⟨"MapRegisterRecord", [aInt "ttl", aInt "action", aBool "authoritative", aInt "map_version", aNone "eid_prefix",
    aList "locator_records"], []⟩,
  ⟨"MapReferralRecord", [aInt "ttl", aInt "action", aBool "authoritative", aBool "incomplete", aInt "map_version",
    aNone "eid_prefix", aList "locator_records", aList "signatures"], []⟩,
  ⟨"LocatorRecord", [aInt "priority" 255, aInt "weight", aInt "m_priority" 255, aInt "m_weight", aBool "local",
    aBool "probed_locator", aBool "reachable", aNone "address"], []⟩,
  ⟨"LCAFNullAddress", [], []⟩,
  ⟨"LCAFAFIListAddress", [aList "addresses"], []⟩,
  ⟨"LCAFInstanceAddress", [aInt "instance_id", aNone "address", aInt "iid_mask_len" 32], []⟩,
  ⟨"LCAFAutonomousSystemAddress", [aInt "asn", aNone "address"], []⟩,
  ⟨"LCAFGeoAddress", [aBool "north", aInt "latitude_degrees", aInt "latitude_minutes", aInt "latitude_seconds",
    aBool "east", aInt "longitude_degrees", aInt "longitude_minutes", aInt "longitude_seconds",
    aInt "altitude" 0x7fffffff, aNone "address"], []⟩,
  ⟨"LCAFNATTraversalAddress", [aInt "map_server_port", aInt "etr_port", aNone "global_etr_rloc", aNone "map_server_rloc",
    aNone "private_etr_rloc", aList "rtr_rlocs"], []⟩]

/-- what evaluating an expression can raise -/
inductive EvalErr
  | name
  | type
  | value
  deriving DecidableEq

/-- truth of a value -/
def RVal.truth : RVal → Bool
  | .none => false
  | .bool b => b
  | .int i _ => i != 0
  | .str b => !b.isEmpty
  | .text t => !t.isEmpty
  | .list l => !l.isEmpty
  | _ => true

/-- the number that a value is -/
def RVal.num : RVal → Option Int
  | .bool b => some (if b then 1 else 0)
  | .int i _ => some i
  | _ => Option.none

/-- the value of a parameter: what is given, or the default -/
def given (kw : List (String × RVal)) (k : String) (d : RVal) : RVal := (kw.lookup k).getD d

/-- the attributes that the constructor of a class sets -/
def ClassDef.attrNames (d : ClassDef) : List String :=
  (d.args.filter (fun a => match a.2 with | .ignored _ => false | _ => true)).map (·.1) ++ d.fixed

/-- the value that the constructor gives to the attribute `k` -/
def ClassDef.attr (d : ClassDef) (kw : List (String × RVal)) (k : String) : RVal :=
  if d.fixed.contains k then .none
  else match d.args.lookup k with
    | some (.plain v) => given kw k v
    | some .orEmpty => let v := given kw k .none; if v.truth then v else .list []
    | some .orProtocol =>
      let v := given kw k .none; if v.truth then v else given kw "protocol" (.int 0 false)
    | some (.ignored _) => .none
    | none => .none

/-- ipv4.py:38-40: both are given and differ -/
def conflict (d : ClassDef) (kw : List (String × RVal)) : Bool :=
  match d.args.lookup "next_header", given kw "next_header" .none with
  | some .orProtocol, .none => false
  | some .orProtocol, v =>
    let p := given kw "protocol" (.int 0 false)
    p.num != some 0 && (v.num.isNone || v.num != p.num)
  | _, _ => false

/-- calling a class with keyword arguments -/
def construct (d : ClassDef) (kw : List (String × RVal)) : Except EvalErr RVal :=
  if kw.all (fun p => (d.args.map (·.1)).contains p.1) then
    if conflict d kw then .error .value
    else .ok (.obj d.name d.attrNames (d.attrNames.map (d.attr kw)))
  else .error .type

/-! ### reading expressions -/

/-- a digit -/
def isDig (c : Char) : Bool := 48 ≤ c.toNat && c.toNat ≤ 57

/-- the first character of a name -/
def isNameStart (c : Char) : Bool :=
  (65 ≤ c.toNat && c.toNat ≤ 90) || (97 ≤ c.toNat && c.toNat ≤ 122) || c == '_'

/-- a further character of a name -/
def isNameChar (c : Char) : Bool := isNameStart c || isDig c

/-- the number that digits write -/
def valueOf (w : List Char) : Nat := w.foldl (fun a c => 10 * a + (c.toNat - 48)) 0

/-- a number literal; one with a leading zero would be octal and is not read -/
def pNum (neg : Bool) (s : List Char) : Option (Except EvalErr RVal × List Char) :=
  let w := s.takeWhile isDig
  let v : Int := if neg then -(valueOf w) else valueOf w
  match w with
  | [] => none
  | c :: w' =>
    if c = '0' ∧ w' ≠ [] then none
    else match s.dropWhile isDig with
      | 'L' :: r => some (.ok (.int v true), r)
      | r => some (.ok (.int v false), r)

/-- the value of a hexadecimal digit -/
def hexVal (c : Char) : Option Nat :=
  if 48 ≤ c.toNat ∧ c.toNat ≤ 57 then some (c.toNat - 48)
  else if 97 ≤ c.toNat ∧ c.toNat ≤ 102 then some (c.toNat - 87)
  else if 65 ≤ c.toNat ∧ c.toNat ≤ 70 then some (c.toNat - 55)
  else none

/-- one character of a byte string literal: escapes other than those that `repr` writes are not read -/
def pChar : List Char → Option (Byte × List Char)
  | [] => none
  | c :: s =>
    if c = '\\' then
      match s with
      | [] => none
      | e :: s =>
        if e = 'x' then
          match s with
          | a :: b :: s =>
            match hexVal a, hexVal b with
            | some i, some j => some (BitVec.ofNat 8 (16 * i + j), s)
            | _, _ => none
          | _ => none
        else if e = 't' then some (9, s)
        else if e = 'n' then some (10, s)
        else if e = 'r' then some (13, s)
        else if e = '\\' ∨ e = '\'' ∨ e = '"' then some (BitVec.ofNat 8 e.toNat, s)
        else none
    else if c = '\n' ∨ c.toNat ≥ 128 then none
    else some (BitVec.ofNat 8 c.toNat, s)

/-- the rest of a byte string literal after its opening quote `q` -/
def pStr (q : Char) : Nat → List Char → Option (Bytes × List Char)
  | 0, _ => none
  | n + 1, s =>
    match s with
    | [] => none
    | c :: r =>
      if c = q then some ([], r)
      else match pChar s with
        | none => none
        | some (b, r) => (pStr q n r).map (fun x => (b :: x.1, x.2))

/-- the rest of a unicode literal after its opening quote `q`; escapes are not read -/
def pText (q : Char) : List Char → Option (List Char × List Char)
  | [] => none
  | c :: s =>
    if c = q then some ([], s)
    else if c = '\\' ∨ c = '\n' then none
    else (pText q s).map (fun x => (c :: x.1, x.2))

/-- the value of a name: the constants; nothing else that a name can stand for is a value here -/
def nameVal (w : List Char) : Except EvalErr RVal :=
  if w = "None".toList then .ok .none
  else if w = "True".toList then .ok (.bool true)
  else if w = "False".toList then .ok (.bool false)
  else .error .name

/-- an argument or item, with its key if there is one -/
abbrev Arg := Option String × Except EvalErr RVal

/-- the values of all arguments or items, or the first exception -/
def allOk : List Arg → Except EvalErr (List (Option String × RVal))
  | [] => .ok []
  | (k, .ok v) :: l =>
    match allOk l with
    | .ok r => .ok ((k, v) :: r)
    | .error e => .error e
  | (_, .error e) :: _ => .error e

/-- the arguments without a key -/
def positional : List (Option String × RVal) → List RVal
  | [] => []
  | (none, v) :: l => v :: positional l
  | (some _, _) :: l => positional l

/-- the arguments with a key -/
def keywords : List (Option String × RVal) → List (String × RVal)
  | [] => []
  | (none, _) :: l => keywords l
  | (some k, v) :: l => (k, v) :: keywords l

/-- calling a class with values -/
def apply (L : IpLib) (f : String) (args : List (Option String × RVal)) : Except EvalErr RVal :=
  if f = "IPv4Address" ∨ f = "IPv6Address" then
    match args with
    | [(none, .text t)] =>
      match L.parseAddr (if f = "IPv4Address" then .v4 else .v6) t with
      | some a => .ok (.ip a)
      | none => .error .value
    | _ => .error .type
  else if f = "IPv4Network" ∨ f = "IPv6Network" then
    match args with
    | [(none, .text t)] =>
      match L.parseNet (if f = "IPv4Network" then .v4 else .v6) t with
      | some a => .ok (.net a)
      | none => .error .value
    | _ => .error .type
  else match classes.find? (fun d => d.name == f) with
    | none => .error .type
    | some d =>
      let all : List (String × RVal) := (d.args.map (·.1)).zip (positional args) ++ keywords args
      if (positional args).length ≤ d.args.length ∧ (all.map Prod.fst).Nodup then construct d all else .error .type

/-- the names of classes in scope -/
def isFun (f : String) : Bool :=
  ["IPv4Address", "IPv6Address", "IPv4Network", "IPv6Network", "AutoIPv4Address", "AutoIPv6Address"].contains f ||
    classes.any (fun d => d.name == f)

/-- a call: the name is looked up, then the arguments are evaluated from left to right, then the class is called -/
def call (L : IpLib) (f : String) (args : List Arg) : Except EvalErr RVal :=
  if isFun f then
    match allOk args with
    | .error e => .error e
    | .ok vs => apply L f vs
  else .error .name

/-- the items of a list display; a keyword in it would be a syntax error -/
def listOf (its : List Arg) : Option (Except EvalErr RVal) :=
  if its.all (fun i => i.1.isNone) then
    some (match allOk its with
      | .error e => .error e
      | .ok vs => .ok (.list (vs.map (·.2))))
  else none

/-- blanks between tokens -/
def skip (s : List Char) : List Char := s.dropWhile (· == ' ')

/-- `key=` before an argument: the key and what follows -/
def pKey (s : List Char) : Option (String × List Char) :=
  match s with
  | [] => none
  | c :: _ =>
    if isNameStart c then
      match s.dropWhile isNameChar with
      | '=' :: r => some (String.ofList (s.takeWhile isNameChar), r)
      | _ => none
    else none

mutual
/-- Reads and evaluates one expression at the start of a text: a number, a string, a name, a list, or a call of a name.
The result is the value or the exception raised, and the rest of the text; `none` is a syntax error. -/
def pExpr (L : IpLib) : Nat → List Char → Option (Except EvalErr RVal × List Char)
  | 0, _ => none
  | n + 1, s =>
    match skip s with
    | [] => none
    | c :: s' =>
      if c = '\'' ∨ c = '"' then (pStr c (s'.length + 1) s').map (fun x => (.ok (.str x.1), x.2))
      else if c = '[' then
        match pItems L n ']' s' with
        | none => none
        | some (its, r) => (listOf its).map (·, r)
      else if c = '-' then pNum true s'
      else if isDig c then pNum false (c :: s')
      else if isNameStart c then
        match (c :: s').takeWhile isNameChar, (c :: s').dropWhile isNameChar with
        | w, [] => some (nameVal w, [])
        | w, q :: r =>
          if w = ['u'] ∧ (q = '\'' ∨ q = '"') then (pText q r).map (fun x => (.ok (.text x.1), x.2))
          else if q = '(' then (pItems L n ')' r).map (fun x => (call L (String.ofList w) x.1, x.2))
          else some (nameVal w, q :: r)
      else none
/-- arguments or list items up to the closing bracket -/
def pItems (L : IpLib) : Nat → Char → List Char →
    Option (List Arg × List Char)
  | 0, _, _ => none
  | n + 1, close, s =>
    match skip s with
    | [] => none
    | c :: s' =>
      if c = close then some ([], s')
      else
        let item : Option (Arg × List Char) := match pKey (c :: s') with
          | some (k, r) => (pExpr L n r).map (fun x => ((some k, x.1), x.2))
          | none => (pExpr L n (c :: s')).map (fun x => ((none, x.1), x.2))
        match item with
        | none => none
        | some (i, r) =>
          match skip r with
          | [] => none
          | d :: r' =>
            if d = ',' then (pItems L n close r').map (fun x => (i :: x.1, x.2))
            else if d = close then some ([i], r')
            else none
end

/-- `eval(s)`: `none` if `s` is not an expression of the kinds above -/
def evalText (L : IpLib) (s : List Char) : Option (Except EvalErr RVal) :=
  match pExpr L (s.length + 1) s with
  | some (r, rest) => if skip rest = [] then some r else none
  | none => none

/-! ### the objects for the packets and messages of the other modules -/

/-- None or a value -/
def optVal {α : Type} (f : α → RVal) : Option α → RVal
  | none => .none
  | some a => f a

/-- an int attribute -/
def vInt (i : Int) : RVal := .int i false

/-- an object whose attributes are listed as pairs -/
def mkObj (cls : String) (attrs : List (String × RVal)) : RVal := .obj cls (attrs.map (·.1)) (attrs.map (·.2))

mutual
/-- an address (afi.py, lcaf/*.py) as a Python value -/
def addrVal : Addr → RVal
  | .none => .none
  | .ip a => .ip a
  | .net n => .net n
  | .null => mkObj "LCAFNullAddress" []
  | .afiList l => mkObj "LCAFAFIListAddress" [("addresses", .list (addrVals l))]
  | .inst i a m => mkObj "LCAFInstanceAddress" [("instance_id", vInt i), ("address", addrVal a), ("iid_mask_len", vInt m)]
  | .asn n a => mkObj "LCAFAutonomousSystemAddress" [("asn", vInt n), ("address", addrVal a)]
  | .geo n ld lm ls e od om os alt a => mkObj "LCAFGeoAddress" [("north", .bool n), ("latitude_degrees", vInt ld),
      ("latitude_minutes", vInt lm), ("latitude_seconds", vInt ls), ("east", .bool e), ("longitude_degrees", vInt od),
      ("longitude_minutes", vInt om), ("longitude_seconds", vInt os), ("altitude", vInt alt), ("address", addrVal a)]
  | .natT mp ep g m p r => mkObj "LCAFNATTraversalAddress" [("map_server_port", vInt mp), ("etr_port", vInt ep),
      ("global_etr_rloc", addrVal g), ("map_server_rloc", addrVal m), ("private_etr_rloc", addrVal p),
      ("rtr_rlocs", .list (addrVals r))]
/-- a list of addresses -/
def addrVals : List Addr → List RVal
  | [] => []
  | a :: l => addrVal a :: addrVals l
end

/-- a locator record (locator_record.py:26-40) -/
def locVal (l : Locator) : RVal := mkObj "LocatorRecord" [("priority", vInt l.priority), ("weight", vInt l.weight),
  ("m_priority", vInt l.mPriority), ("m_weight", vInt l.mWeight), ("local", .bool l.isLocal),
  ("probed_locator", .bool l.probed), ("reachable", .bool l.reachable), ("address", addrVal l.address)]

/-- a record of a Map-Reply, Map-Register or Map-Notify (map_reply_record.py:40-51) -/
def recVal (cls : String) (r : Record) : RVal := mkObj cls [("ttl", vInt r.ttl), ("action", vInt r.action),
  ("authoritative", .bool r.authoritative), ("map_version", vInt r.mapVersion), ("eid_prefix", addrVal r.eid),
  ("locator_records", .list (r.locators.map locVal))]

/-- a record of a Map-Referral (map_referral_record.py:62-76); signatures are objects of no known class -/
def refVal (r : RefRecord) : RVal := mkObj "MapReferralRecord" [("ttl", vInt r.ttl), ("action", vInt r.action),
  ("authoritative", .bool r.authoritative), ("incomplete", .bool r.incomplete), ("map_version", vInt r.mapVersion),
  ("eid_prefix", addrVal r.eid), ("locator_records", .list (r.locators.map locVal)),
  ("signatures", .list (List.replicate r.sigs .other))]

/-- a control message (the `__init__` methods of control/*.py).  The records of a Map-Register and of a Map-Notify are
`MapRegisterRecord`s. -/
def ctrlVal : Ctrl → RVal
  | .request m => mkObj "MapRequestMessage" [("authoritative", .bool m.authoritative), ("probe", .bool m.probe),
      ("smr", .bool m.smr), ("pitr", .bool m.pitr), ("smr_invoked", .bool m.smrInvoked), ("nonce", .str m.nonce),
      ("source_eid", addrVal m.sourceEid), ("itr_rlocs", .list (m.itrRlocs.map addrVal)),
      ("eid_prefixes", .list (m.eidPrefixes.map addrVal)), ("map_reply", optVal (recVal "MapReplyRecord") m.mapReply)]
  | .reply m => mkObj "MapReplyMessage" [("probe", .bool m.probe), ("enlra_enabled", .bool m.enlraEnabled),
      ("security", .bool m.security), ("nonce", .str m.nonce), ("records", .list (m.records.map (recVal "MapReplyRecord")))]
  | .register m => mkObj "MapRegisterMessage" [("proxy_map_reply", .bool m.proxyMapReply), ("for_rtr", .bool m.forRtr),
      ("want_map_notify", .bool m.wantMapNotify), ("nonce", .str m.nonce), ("key_id", vInt m.keyId),
      ("authentication_data", .str m.authData), ("records", .list (m.records.map (recVal "MapRegisterRecord"))),
      ("xtr_id", vInt m.xtrId), ("site_id", vInt m.siteId)]
  | .notify m => mkObj "MapNotifyMessage" [("nonce", .str m.nonce), ("key_id", vInt m.keyId),
      ("authentication_data", .str m.authData), ("records", .list (m.records.map (recVal "MapRegisterRecord"))),
      ("xtr_id", vInt m.xtrId), ("site_id", vInt m.siteId)]
  | .referral m => mkObj "MapReferralMessage" [("nonce", .str m.nonce), ("records", .list (m.records.map refVal))]
  | .info m => mkObj "InfoMessage" [("is_reply", .bool m.isReply), ("nonce", .str m.nonce), ("key_id", vInt m.keyId),
      ("authentication_data", .str m.authData), ("ttl", vInt m.ttl), ("eid_prefix", addrVal m.eidPrefix),
      ("reply", addrVal m.reply)]

/-- a packet (the `__init__` methods of packet/ip, lisp/data.py, encapsulated_control_message.py); UDP messages have
an attribute `next_header` from protocol.py:57, which is None -/
def pktVal : Pkt → RVal
  | .raw b => .str b
  | .ipv4 h p => mkObj "IPv4Packet" [("next_header", vInt h.nextHeader), ("payload", pktVal p), ("tos", vInt h.tos),
      ("identification", vInt h.ident), ("dont_fragment", .bool h.df), ("more_fragments", .bool h.mf),
      ("fragment_offset", vInt h.fragOff), ("ttl", vInt h.ttl), ("source", optVal .ip h.src),
      ("destination", optVal .ip h.dst), ("options", .str h.options)]
  | .ipv6 h p => mkObj "IPv6Packet" [("next_header", vInt h.nextHeader), ("payload", pktVal p),
      ("traffic_class", vInt h.trafficClass), ("flow_label", vInt h.flowLabel), ("hop_limit", vInt h.hopLimit),
      ("source", optVal .ip h.src), ("destination", optVal .ip h.dst)]
  | .hbh nh o p => mkObj "IPv6HopByHopOptionsHeader" [("next_header", vInt nh), ("payload", pktVal p), ("options", .str o)]
  | .dest nh o p => mkObj "IPv6DestinationOptionsHeader" [("next_header", vInt nh), ("payload", pktVal p), ("options", .str o)]
  | .routing nh t s d p => mkObj "IPv6RoutingHeader" [("next_header", vInt nh), ("payload", pktVal p),
      ("routing_type", vInt t), ("segments_left", vInt s), ("data", .str d)]
  | .fragment nh o mf i p => mkObj "IPv6FragmentHeader" [("next_header", vInt nh), ("payload", pktVal p),
      ("fragment_offset", vInt o), ("more_fragments", .bool mf), ("identification", vInt i)]
  | .nonext p => mkObj "IPv6NoNextHeader" [("next_header", .none), ("payload", pktVal p)]
  | .udp h p => mkObj "UDPMessage" [("next_header", .none), ("payload", pktVal p), ("source_port", vInt h.sport),
      ("destination_port", vInt h.dport), ("checksum", vInt h.cksum)]
  | .data h p => mkObj "DataPacket" [("echo_nonce_request", .bool h.echoNonce), ("nonce", optVal .str h.nonce),
      ("source_map_version", optVal vInt h.srcVersion), ("destination_map_version", optVal vInt h.dstVersion),
      ("lsb", optVal (fun l => .list (l.map .bool)) h.lsb), ("instance_id", optVal vInt h.iid), ("payload", pktVal p)]
  | .ctrl m => ctrlVal m
  | .ecm h p => mkObj "EncapsulatedControlMessage" [("security", .bool h.security), ("ddt_originated", .bool h.ddtOriginated),
      ("for_rtr", .bool h.forRtr), ("relayed_by_rtr", .bool h.relayedByRtr), ("payload", pktVal p)]

end PyLisp.Rep
