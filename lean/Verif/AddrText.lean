import Verif.IPTextLemmas
import Verif.Lispd
/-
The texts of addresses of all kinds: `unicode(address)` (`__unicode__` of the LCAF classes), and what reading such a
text gives.
-/
namespace PyLisp.IPText
open PyLisp PyLisp.Rep

/-- `u'{0}'.format(number)` (instance_address.py:25, autonomous_system_address.py:23, nat_traversal_address.py:26): longs
have no L here -/
def intText (i : Int) : List Char := reprInt i false

/-- `unicode(address)`: instance_address.py:23-27, autonomous_system_address.py:22-23, geo_address.py:33-34,
nat_traversal_address.py:25-29, null_address.py:18-19, afi_list_address.py:21-22 (`join` takes texts only: TypeError
unless the list is empty), and the texts of None and of the library's addresses and networks.  The RTRs are shown with
`repr`, as every list is.  `coord d m s` is the text of the float `d + m / 60.0 + s / 3600.0`. -/
def unicodeOf (coord : Int → Int → Int → List Char) : Addr → Except Err (List Char)
  | .none => .ok ['N', 'o', 'n', 'e']
  | .ip a => .ok (addrText a)
  | .net n => .ok (netText n)
  | .null => .ok ['N', 'U', 'L', 'L']
  | .afiList l => if l.isEmpty then .ok [] else .error .type
  | .inst i a _ =>
    match unicodeOf coord a with
    | .error e => .error e
    | .ok t => .ok (if i ≠ 0 then '[' :: intText i ++ ']' :: t else t)
  | .asn n a =>
    match unicodeOf coord a with
    | .error e => .error e
    | .ok t => .ok ('[' :: 'A' :: 'S' :: intText n ++ ']' :: t)
  | .geo _ ld lm ls _ od om os _ a =>
    match unicodeOf coord a with
    | .error e => .error e
    | .ok t => .ok ('[' :: coord od om os ++ ',' :: coord ld lm ls ++ ']' :: t)
  | .natT mp ep g m p r =>
    match unicodeOf coord m, unicodeOf coord p, unicodeOf coord g with
    | .ok tm, .ok tp, .ok tg =>
      .ok ("<MS:[".toList ++ tm ++ "]:".toList ++ intText mp ++ " Private:[".toList ++ tp ++ "] Public:[".toList ++ tg ++
        "]:".toList ++ intText ep ++ " RTRs:".toList ++ reprOf stdLib (.list (addrVals r)) ++ ">".toList)
    | _, _, _ => .error .type

/-- reading a text: ValueError if it cannot be read (send_message.py:37, map_request.py:327) -/
def readText (parse : List Char → Option α) : Except Err (List Char) → Except Err α
  | .error e => .error e
  | .ok t =>
    match parse t with
    | none => .error .value
    | some x => .ok x

end PyLisp.IPText
