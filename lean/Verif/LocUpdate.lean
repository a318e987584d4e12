import Verif.LocatorSet
import Verif.Delivery
import Verif.IPText
import Verif.Represent
/-
Updating the address of a locator, with the log (locator_record.py:280-292, utils/auto_addresses.py:67-114), reading the
texts that netifaces gives (80-83), and the two other places where texts of the operating system become addresses:
settings.py:59-64 and send_message.py:28-31.
-/
namespace PyLisp
open Rep IPText

/-- `text.split('%')[0]` (auto_addresses.py:80, settings.py:63) -/
def unscoped (t : List Char) : List Char := t.takeWhile fun c => c ≠ '%'

/-- auto_addresses.py:80-83 for one entry of the list; `none`: the dict has no 'addr' (KeyError).  The result is `none`
for a KeyError or ValueError. -/
def readEntry (e : Option (List Char)) : Option IP := e.bind fun t => ipAddress (unscoped t)

/-- auto_addresses.py:76-77 and 80-83: what netifaces has for the interface and the family (`none`: ValueError or
KeyError) -/
def readInterface (found : Option (List (Option (List Char)))) : Option (List (Option IP)) :=
  found.map fun l => l.map readEntry

/-- the level of a log line; only the two in use here -/
inductive Level
  | debug
  | info
  deriving DecidableEq

/-- a line in the log -/
structure LogLine where
  level : Level
  text : List Char
  deriving DecidableEq

/-- auto_addresses.py:50-51 `__repr__` -/
def autoRepr (v : Ver) (name : String) : List Char := (autoClass v).toList ++ '(' :: name.toList ++ [')']

/-- auto_addresses.py:85 -/
def foundLine (v : Ver) (name : String) (a : IP) : LogLine :=
  ⟨.debug, "Found potential address ".toList ++ addrText a ++ " for ".toList ++ autoRepr v name⟩

/-- auto_addresses.py:99 -/
def noAddressLine (v : Ver) (name : String) : LogLine := ⟨.info, "No address found for ".toList ++ autoRepr v name⟩

/-- auto_addresses.py:78-100: the log lines of the loop -/
def loopLines (v : Ver) (name : String) : List (Option IP) → List LogLine
  | [] => []
  | none :: _ => [noAddressLine v name]
  | some a :: l => foundLine v name a :: if autoSuitable a = true then [] else loopLines v name l

/-- auto_addresses.py:102-112: the line about the outcome; `old` and `new` are `orig_ip` and `new_ip` (`str(self)` in
line 107 is the text of the old address, which is the new one; `potential_address` in line 112 is the new one) -/
def outcomeLine (v : Ver) (name : String) (old new : IP) : LogLine :=
  if old.val = new.val then
    if new.val = 0 then ⟨.info, "Still no address found for ".toList ++ autoRepr v name⟩
    else ⟨.info, "Still using address ".toList ++ addrText old ++ " for ".toList ++ autoRepr v name⟩
  else
    if new.val = 0 then ⟨.info, "No usable ".toList ++ (autoClass v).toList ++ " found for ".toList ++ autoRepr v name⟩
    else ⟨.info, "Using address ".toList ++ addrText new ++ " for ".toList ++ autoRepr v name⟩

/-- auto_addresses.py:67-114: the log of `update_address` (what the observers log is left out) -/
def autoLines (name : String) (old : IP) (found : Option (List (Option (List Char)))) : List LogLine :=
  ⟨.debug, "Updating ".toList ++ autoRepr old.ver name⟩ ::
    (match readInterface found with
     | none => [noAddressLine old.ver name]
     | some l => loopLines old.ver name l) ++
    [outcomeLine old.ver name old (autoValue old.ver (readInterface found))]

/-- locator_record.py:286-292 -/
def locatorLines (old new : IP) : List LogLine :=
  if old.val ≠ new.val then
    if old.val = 0 then [⟨.info, "Locator activated with address ".toList ++ addrText new⟩]
    else if new.val = 0 then
      [⟨.info, "Locator with address ".toList ++ addrText old ++ " de-activated".toList⟩]
    else [⟨.info, "Locator with address ".toList ++ addrText old ++ " changed to ".toList ++ addrText new⟩]
  else []

/-- locator_record.py:280-292 `update_address` of locator `i`, when netifaces has `found` for the interface and family of
its address: the world after it, and the log -/
def LocWorld.updateAddress (w : LocWorld) (i : Nat) (found : Option (List (Option (List Char)))) :
    LocWorld × List LogLine :=
  match (w.obj i).ref with
  | .auto id name =>
    ({ w with auto := fun j => if j = id then autoValue (w.auto id).ver (readInterface found) else w.auto j },
      autoLines name (w.auto id) found ++ locatorLines (w.auto id) (autoValue (w.auto id).ver (readInterface found)))
  | _ => (w, [])

/-- settings.py:59-64 `default_listen_on`; `infos` are the texts `address[4][0]` of what getaddrinfo gives; `none` is a
ValueError.  (Nothing in lispd calls it.) -/
def defaultListenOn (infos : List (List Char)) : Option (List IP) :=
  allSome (infos.map fun t => ipAddress (unscoped t))

/-- send_message.py:28-31 `find_matching_addresses`; a socket is its family and the text `getsockname()[0]`; `none` is a
ValueError.  (Nothing in lispd calls it.) -/
def findMatchingAddresses (destination : IP) (socks : List (Ver × List Char)) : Option (List IP) :=
  allSome ((socks.filter fun s => s.1 = destination.ver).map fun s => ipAddress s.2)

end PyLisp
