import Verif.DdtRoot
/-
Model of the text side of pylisp/application/lispd/utils/ddt_root_loader.py: lines, comments, the
regular expression.  The text of a file is a list of characters.  `ip_address` and `ip_network` (the
ipaddress library) are parameters: any functions from text to an address or network, `none` standing
for ValueError.
-/
namespace PyLisp

/-- the whitespace of `str.strip` and of `\s` (Python 2 byte strings): space, \t, \n, \v, \f, \r -/
def isSpace (c : Char) : Bool :=
  c = ' ' || c = '\t' || c = '\n' || c = '\x0b' || c = '\x0c' || c = '\r'

/-- `[0-9]` -/
def isDigit (c : Char) : Bool := '0' ≤ c && c ≤ '9'

/-- `[0-9a-fA-F.:]`, ddt_root_loader.py:17 -/
def isAddrChar (c : Char) : Bool :=
  isDigit c || ('a' ≤ c && c ≤ 'f') || ('A' ≤ c && c ≤ 'F') || c = '.' || c = ':'

/-- `[0-9a-fA-F.:/]`, ddt_root_loader.py:16 -/
def isPrefixChar (c : Char) : Bool := isAddrChar c || c = '/'

/-- `for line in ddt_root`, ddt_root_loader.py:59: the lines of a file, each with its newline; `cur` is
the line so far -/
def fileLines (cur : List Char) : List Char → List (List Char)
  | [] => if cur = [] then [] else [cur]
  | c :: cs => if c = '\n' then (cur ++ [c]) :: fileLines [] cs else fileLines (cur ++ [c]) cs

/-- `line.split('#')[0].strip()`, ddt_root_loader.py:60 -/
def stripLine (l : List Char) : List Char :=
  (((l.takeWhile fun c => c ≠ '#').dropWhile isSpace).reverse.dropWhile isSpace).reverse

/-- `(?P<name>[class]+)`: the longest run of characters of the class, if it is not empty.  (No two
neighbouring classes of the expression share a character, so a shorter run never helps.) -/
def takeRun (p : Char → Bool) (l : List Char) : Option (List Char × List Char) :=
  if l.takeWhile p = [] then none else some (l.takeWhile p, l.dropWhile p)

/-- the groups of a match -/
structure DdtGroups where
  inst : List Char
  afi : List Char
  pfx : List Char
  addr : List Char
  deriving DecidableEq

/-- `ddt_line.match(line)`, ddt_root_loader.py:14-17, 64 -/
def ddtMatch (l : List Char) : Option DdtGroups := do
  let (a, l) ← takeRun isDigit l
  let (_, l) ← takeRun isSpace l
  let (b, l) ← takeRun isDigit l
  let (_, l) ← takeRun isSpace l
  let (c, l) ← takeRun isPrefixChar l
  let (_, l) ← takeRun isSpace l
  let (d, l) ← takeRun isAddrChar l
  if l = [] then some ⟨a, b, c, d⟩ else none

/-- `int(text)` of a string of digits, ddt_root_loader.py:69-70 -/
def intOf (l : List Char) : Nat := l.foldl (fun n c => 10 * n + (c.toNat - '0'.toNat)) 0

/-- one line, ddt_root_loader.py:60-71: nothing, or the fields of the line -/
def readDdtLine (ipAddress : List Char → Option IP) (ipNetwork : List Char → Option Net)
    (l : List Char) : Except Err (Option DdtLine) :=
  if stripLine l = [] then .ok none
  else match ddtMatch (stripLine l) with
    | none => .error .value
    | some g => .ok (some ⟨intOf g.inst, intOf g.afi, ipNetwork g.pfx, ipAddress g.addr⟩)

/-- the loop, ddt_root_loader.py:59-84 -/
def loadTextLines (ipAddress : List Char → Option IP) (ipNetwork : List Char → Option Net)
    (st : Instances) : List (List Char) → Except Err Instances
  | [] => .ok st
  | l :: ls =>
    match readDdtLine ipAddress ipNetwork l with
    | .error e => .error e
    | .ok none => loadTextLines ipAddress ipNetwork st ls
    | .ok (some x) =>
      match loadLine st x with
      | .error e => .error e
      | .ok st => loadTextLines ipAddress ipNetwork st ls

/-- ddt_root_loader.py:55-84 `load_ddt_root`, from the text of the file -/
def loadDdtText (ipAddress : List Char → Option IP) (ipNetwork : List Char → Option Net)
    (text : List Char) : Except Err Instances :=
  loadTextLines ipAddress ipNetwork (fun _ => none) (fileLines [] text)

end PyLisp
