import Verif.Represent
/-
The texts of IP addresses and networks: how the ipaddress library writes them (`unicode(x)`) and reads them
(`ip_address(text)`, `ip_network(text)`), character by character.  The library is not part of /repo; the code
relies on it wherever an address goes through its text: send_message.py:30, 37, etr_node.py:559, 602, 628,
auto_socket.py:72, 104, map_request.py:327, container_node.py:62, 96, base.py:21, ddt_root_loader.py:71, 79.
-/
namespace PyLisp.IPText
open PyLisp.Rep

/-- `sep.join(parts)` (library; used for the texts of addresses, send_message.py:37) -/
def joinWith (sep : Char) : List (List Char) → List Char
  | [] => []
  | [p] => p
  | p :: q :: r => p ++ sep :: joinWith sep (q :: r)

/-- `text.split(sep)` (library; used to read addresses, send_message.py:37) -/
def splitOn (sep : Char) : List Char → List (List Char)
  | [] => [[]]
  | c :: t =>
    if c = sep then [] :: splitOn sep t
    else
      match splitOn sep t with
      | [] => [[c]]
      | p :: ps => (c :: p) :: ps

/-- the `k` digits of `v` in base `b`, most significant first (the bytes of an IPv4 address, the 16 bit groups of
an IPv6 address; library, see send_message.py:37) -/
def groups (b : Nat) : Nat → Nat → List Nat
  | 0, _ => []
  | k + 1, v => groups b k (v / b) ++ [v % b]

/-- the number with these digits in base `b` (library, see send_message.py:37) -/
def ungroup (b : Nat) (l : List Nat) : Nat := l.foldl (fun a d => a * b + d) 0

/-- `'%x' % n` (with enough fuel) (library, see send_message.py:37) -/
def hexF : Nat → Nat → List Char
  | 0, n => [hexChar (n % 16)]
  | f + 1, n => if n < 16 then [hexChar n] else hexF f (n / 16) ++ [hexChar (n % 16)]

/-- `'%x' % n` (library, see send_message.py:37) -/
def hex (n : Nat) : List Char := hexF n n

/-- the text of an IPv4 address: four decimal numbers with dots between them (`_string_from_ip_int` of the library,
see send_message.py:37) -/
def text4 (v : Nat) : List Char := joinWith '.' ((groups 256 4 v).map digits)

/-- the loop of the library's `_compress_hextets` (see send_message.py:37): start and length of the longest run of
groups that are zero, the first of them if there are several.  `i` is the index, `cs`, `cl` the current run (`cs` only
matters when `cl` is not 0), `bs`, `bl` the best one so far. -/
def bestRun : Nat → Nat → Nat → Nat → Nat → List Bool → Nat × Nat
  | _, _, _, bs, bl, [] => (bs, bl)
  | i, cs, cl, bs, bl, true :: l =>
    let cs' := if cl = 0 then i else cs
    if cl + 1 > bl then bestRun (i + 1) cs' (cl + 1) cs' (cl + 1) l
    else bestRun (i + 1) cs' (cl + 1) bs bl l
  | i, cs, _, bs, bl, false :: l => bestRun (i + 1) cs 0 bs bl l

/-- `_compress_hextets` of the library (see send_message.py:37): the longest run of at least two `0` becomes an empty
part, with another empty part at an end of the address it reaches -/
def compress (hs : List (List Char)) : List (List Char) :=
  let r := bestRun 0 0 0 0 0 (hs.map (· == ['0']))
  if r.2 > 1 then
    (if r.1 = 0 then [[]] else []) ++ hs.take r.1 ++ [[]] ++ hs.drop (r.1 + r.2) ++
      (if r.1 + r.2 = hs.length then [[]] else [])
  else hs

/-- the text of an IPv6 address (`_string_from_ip_int` of the library, see send_message.py:37) -/
def text6 (v : Nat) : List Char := joinWith ':' (compress ((groups 65536 8 v).map hex))

/-- `unicode(address)` (library, see send_message.py:37) -/
def addrText (a : IP) : List Char :=
  match a.ver with
  | .v4 => text4 a.val
  | .v6 => text6 a.val

/-- `unicode(network)` (library): the first address, a slash and the prefix length (see map_request.py:327) -/
def netText (n : Net) : List Char := addrText n.first ++ '/' :: digits n.plen

/-- a list with all results, if there are results for all (a `for` loop in which a ValueError may be raised; library,
see send_message.py:37) -/
def allSome : List (Option α) → Option (List α)
  | [] => some []
  | none :: _ => none
  | some x :: l => (allSome l).map (x :: ·)

/-- `_parse_octet` of the library (see send_message.py:37): at most three digits, at most 255, no leading zero that
could be octal -/
def octet (p : List Char) : Option Nat :=
  if p = [] then none
  else if !p.all isDig then none
  else if p.length > 3 then none
  else if valueOf p > 7 ∧ p.head? = some '0' then none
  else if valueOf p > 255 then none
  else some (valueOf p)

/-- reading an IPv4 address: the number (`_ip_int_from_string` of the library, see send_message.py:37); `none` for
ValueError -/
def parse4 (t : List Char) : Option Nat :=
  let parts := splitOn '.' t
  if parts.length ≠ 4 then none else (allSome (parts.map octet)).map (ungroup 256)

/-- the value of a hexadecimal digit; the library takes both cases (see send_message.py:37) -/
def hexDigit (c : Char) : Option Nat :=
  if isDig c then some (c.toNat - 48)
  else if 97 ≤ c.toNat ∧ c.toNat ≤ 102 then some (c.toNat - 87)
  else if 65 ≤ c.toNat ∧ c.toNat ≤ 70 then some (c.toNat - 55)
  else none

/-- a part of an IPv6 address: `some none` for an empty one, else `_parse_hextet` of the library (see
send_message.py:37): at most four hexadecimal digits -/
def hextet (p : List Char) : Option (Option Nat) :=
  if p = [] then some none
  else if p.length > 4 then none
  else (allSome (p.map hexDigit)).map fun l => some (ungroup 16 l)

/-- the last of the parts, when it has a dot in it, is an IPv4 address: two parts (`_ip_int_from_string` of the
library, see send_message.py:37) -/
def v4Suffix : List (List Char) → Option (List (List Char))
  | [] => some []
  | [p] => if '.' ∈ p then (parse4 p).map fun v => [hex (v / 65536), hex (v % 65536)] else some [p]
  | p :: ps => (v4Suffix ps).map (p :: ·)

/-- the first place in the list that is empty: what is before and what is after it (library, see send_message.py:37) -/
def skipAt : List (Option Nat) → Option (List (Option Nat) × List (Option Nat))
  | [] => none
  | none :: l => some ([], l)
  | some x :: l => (skipAt l).map fun r => (some x :: r.1, r.2)

/-- the parts before (or after) a double colon: nothing but an empty part at the very end of the address, or numbers
only (library, see send_message.py:37) -/
def side (l : List (Option Nat)) : Option (List Nat) :=
  if l = [none] then some [] else allSome l

/-- the groups of an IPv6 address from its parts (`_ip_int_from_string` of the library, see send_message.py:37).  An
empty part that is neither first nor last stands for the groups left out; there is at most one.  All failures are
ValueError, so their order does not matter. -/
def expand (l : List (Option Nat)) : Option (List Nat) :=
  if l.length > 9 then none
  else
    match l with
    | [] => none
    | first :: rest =>
      match skipAt rest.dropLast with
      | none => if l.length = 8 then allSome l else none
      | some (before, after) =>
        match side (first :: before), side (after ++ rest.getLast?.toList) with
        | some hi, some lo =>
          if hi.length + lo.length < 8 then some (hi ++ List.replicate (8 - (hi.length + lo.length)) 0 ++ lo) else none
        | _, _ => none

/-- reading an IPv6 address: the number (`_ip_int_from_string` of the library, see send_message.py:37); `none` for
ValueError -/
def parse6 (t : List Char) : Option Nat :=
  let parts := splitOn ':' t
  if parts.length < 3 then none
  else
    match v4Suffix parts with
    | none => none
    | some ps =>
      match allSome (ps.map hextet) with
      | none => none
      | some l => (expand l).map (ungroup 65536)

/-- `IPv4Address(text)`, `IPv6Address(text)` (library, see send_message.py:37) -/
def parseAddr (v : Ver) (t : List Char) : Option IP :=
  match (match v with | .v4 => parse4 t | .v6 => parse6 t) with
  | none => none
  | some x => if h : x < 2 ^ v.width then some ⟨v, x, h⟩ else none

/-- `IPv4Network(text)`, `IPv6Network(text)` (library, see map_request.py:327): an address, and after a slash the prefix
length in digits; without a slash, the address alone.  The bits after the prefix must be zero.  (Masks written as
addresses, which the library also takes, are not modelled: they contain more than digits, and no text of a network has
them.) -/
def parseNet (v : Ver) (t : List Char) : Option Net :=
  match splitOn '/' t with
  | [a] => (parseAddr v a).map IP.toNet
  | [a, p] =>
    match parseAddr v a with
    | none => none
    | some x =>
      if h : p ≠ [] ∧ p.all isDig = true ∧ valueOf p ≤ x.ver.width ∧ x.val % 2 ^ (x.ver.width - valueOf p) = 0 then
        some ⟨x.ver, x.val, valueOf p, h.2.2.1, x.lt, h.2.2.2⟩
      else none
  | _ => none

/-- `ip_address(text)` (library, see send_message.py:37): IPv4 is tried first -/
def ipAddress (t : List Char) : Option IP := (parseAddr .v4 t).or (parseAddr .v6 t)

/-- `ip_network(text)` (library, see map_request.py:327): IPv4 is tried first -/
def ipNetwork (t : List Char) : Option Net := (parseNet .v4 t).or (parseNet .v6 t)

end PyLisp.IPText
