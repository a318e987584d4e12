import Verif.Bits
/-
Model of pylisp/application/lispd/utils/id_generators.py
-/
namespace PyLisp

/-- id_generators.py:5 -/
def xtrWatermark : Nat := 110930286722065861025335556600219303936

/-- id_generators.py:18-22: the integer for a MAC address given as its parts.  (A MAC address is here its
list of byte parts; `getXtrIdText` below works on its text.) -/
def macInt (mac : List Byte) : Nat := mac.foldl (fun acc p => acc * 2 ^ 8 + p.toNat) 0

/-- id_generators.py:10-29: the loop over the link addresses; `none`: no usable one.  The empty text
has no first part: ValueError. -/
def firstUsable : List (List Byte) → Except Err (Option Nat)
  | [] => .ok none
  | [] :: _ => .error .value
  | (p :: ps) :: macs =>
    if p.toNat % 2 = 1 then firstUsable macs
    else if macInt (p :: ps) = 0 then firstUsable macs
    else .ok (some (macInt (p :: ps) ||| xtrWatermark))

/-- id_generators.py:4-32 `get_xtr_id`: the argument lists, per interface, its link addresses -/
def getXtrId : List (List (List Byte)) → Except Err Nat
  | [] => .ok 0
  | macs :: ifs =>
    match firstUsable macs with
    | .error e => .error e
    | .ok (some n) => .ok n
    | .ok none => getXtrId ifs

/-! The same on the texts of the link addresses. -/

/-- the value of a hexadecimal digit -/
def hexDigit (c : Char) : Option Nat :=
  match "0123456789abcdef".toList.findIdx? (· == c) with
  | some v => some v
  | none => "0123456789ABCDEF".toList.findIdx? (· == c)

/-- `int(part, 16)` (id_generators.py:14, 22).  (Simplification: blanks, signs and `0x`, which Python also accepts,
are taken for errors.) -/
def hexInt (acc : Nat) : List Char → Except Err Nat
  | [] => .ok acc
  | c :: cs =>
    match hexDigit c with
    | some v => hexInt (acc * 16 + v) cs
    | none => .error .value

/-- as above; the empty text is an error -/
def hexText (t : List Char) : Except Err Nat := if t = [] then .error .value else hexInt 0 t

/-- `mac.split(':')` (id_generators.py:20) -/
def splitColon (cur : List Char) : List Char → List (List Char)
  | [] => [cur]
  | c :: r => if c = ':' then cur :: splitColon [] r else splitColon (cur ++ [c]) r

/-- id_generators.py:20-22 -/
def macIntParts (acc : Nat) : List (List Char) → Except Err Nat
  | [] => .ok acc
  | p :: ps => do
    let v ← hexText p
    macIntParts (acc * 2 ^ 8 + v) ps

/-- id_generators.py:10-29 -/
def firstUsableText : List (List Char) → Except Err (Option Nat)
  | [] => .ok none
  | mac :: macs => do
    let first ← hexText (mac.take 2)
    if first % 2 = 1 then firstUsableText macs
    else
      let n ← macIntParts 0 (splitColon [] mac)
      if n = 0 then firstUsableText macs
      else pure (some (n ||| xtrWatermark))

/-- id_generators.py:4-32 `get_xtr_id` -/
def getXtrIdText : List (List (List Char)) → Except Err Nat
  | [] => .ok 0
  | macs :: ifs =>
    match firstUsableText macs with
    | .error e => .error e
    | .ok (some n) => .ok n
    | .ok none => getXtrIdText ifs

end PyLisp
