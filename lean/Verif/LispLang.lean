import Verif.LispWire
/-
The input language of the LISP control plane: which byte strings denote which addresses, locators,
records and messages for a receiver (a specification: nothing here is taken from the code's readers;
the pictures of LispWire.lean are reused where the receiver leaves no freedom).

A receiver accepts more than a sender writes: reserved and flag bytes of an LCAF are ignored, an
instance-ID, AS-number or geo LCAF may carry junk behind its address, locators may come in any order,
the action of a record with locators is ignored, …  Props/Accepted.lean proves that the parsers of
the code accept exactly these languages.
-/
namespace PyLisp

/-- an LCAF of the given type, mask byte and data: reserved and flags bytes are free -/
inductive IsLcaf (type x : Nat) (data : Bytes) : Bytes → Prop
  | mk (r f : Byte) : data.length < 2 ^ 16 → x < 2 ^ 8 →
    IsLcaf type x data
      (be16 16387 ++ [r, f, byteOf type, byteOf x] ++ be16 data.length ++ data)

/-- the fixed part of a geo-coordinates LCAF -/
def geoHead (n : Bool) (ld lm ls : Nat) (e : Bool) (od om os : Nat) (alt : Int) : Bytes :=
  be16 (pack [flag n, (15, ld)]) ++ [byteOf lm, byteOf ls] ++
  be16 (pack [flag e, (15, od)]) ++ [byteOf om, byteOf os] ++ be32 (alt % 2 ^ 32).toNat

/-- its fields fit -/
def GeoFits (ld lm ls od om os : Nat) (alt : Int) : Prop :=
  ld < 2 ^ 15 ∧ lm < 2 ^ 8 ∧ ls < 2 ^ 8 ∧ od < 2 ^ 15 ∧ om < 2 ^ 8 ∧ os < 2 ^ 8 ∧
  -(2 ^ 31) ≤ alt ∧ alt < 2 ^ 31

mutual
/-- the byte strings that denote an address, when no prefix length is given -/
inductive IsAddr : Addr → Bytes → Prop
  | none : IsAddr .none (be16 0)
  | ip (a : IP) : IsAddr (.ip a) (wIP a)
  | null {x : Nat} {data d : Bytes} : IsLcaf 0 x data d → IsAddr .null d
  | afiList {x : Nat} {l : List Addr} {data d : Bytes} :
    IsAddrs l data → IsLcaf 1 x data d → IsAddr (.afiList l) d
  | inst {i m : Nat} {a : Addr} {inner junk d : Bytes} : i < 2 ^ 32 → IsAddr a inner →
    IsLcaf 2 m (be32 i ++ inner ++ junk) d → IsAddr (.inst i a m) d
  | asn {n x : Nat} {a : Addr} {inner junk d : Bytes} : n < 2 ^ 32 → IsAddr a inner →
    IsLcaf 3 x (be32 n ++ inner ++ junk) d → IsAddr (.asn n a) d
  | geo {n e : Bool} {ld lm ls od om os x : Nat} {alt : Int} {a : Addr} {inner junk d : Bytes} :
    GeoFits ld lm ls od om os alt → IsAddr a inner →
    IsLcaf 5 x (geoHead n ld lm ls e od om os alt ++ inner ++ junk) d →
    IsAddr (.geo n ld lm ls e od om os alt a) d
  | natT {mp ep x : Nat} {g m p : Addr} {rtrs : List Addr} {bg bm bp br d : Bytes} :
    mp < 2 ^ 16 → ep < 2 ^ 16 → IsAddr g bg → IsAddr m bm → IsAddr p bp → IsAddrs rtrs br →
    IsLcaf 7 x (be16 mp ++ be16 ep ++ bg ++ bm ++ bp ++ br) d →
    IsAddr (.natT mp ep g m p rtrs) d
/-- addresses one after the other -/
inductive IsAddrs : List Addr → Bytes → Prop
  | nil : IsAddrs [] []
  | cons {a : Addr} {l : List Addr} {d e : Bytes} :
    IsAddr a d → IsAddrs l e → IsAddrs (a :: l) (d ++ e)
end

/-- the byte strings that denote an address when the prefix length `p` is given: addresses become
networks of that length, whose host bits must be zero -/
inductive IsPrefix : Nat → Addr → Bytes → Prop
  | none : IsPrefix 0 .none (be16 0)
  | net (n : Net) : IsPrefix n.plen (.net n) (wIP n.first)
  | null {p x : Nat} {data d : Bytes} : IsLcaf 0 x data d → IsPrefix p .null d
  | afiList {p x : Nat} {l : List Net} {d : Bytes} : (∀ n ∈ l, n.plen = p) →
    IsLcaf 1 x (l.flatMap fun n => wIP n.first) d → IsPrefix p (.afiList (l.map .net)) d
  | inst {i m : Nat} (n : Net) {junk d : Bytes} : i < 2 ^ 32 →
    IsLcaf 2 m (be32 i ++ wIP n.first ++ junk) d → IsPrefix n.plen (.inst i (.net n) m) d
  | asn {i x : Nat} (n : Net) {junk d : Bytes} : i < 2 ^ 32 →
    IsLcaf 3 x (be32 i ++ wIP n.first ++ junk) d → IsPrefix n.plen (.asn i (.net n)) d
  | geo {n e : Bool} {ld lm ls od om os x : Nat} {alt : Int} (k : Net) {junk d : Bytes} :
    GeoFits ld lm ls od om os alt →
    IsLcaf 5 x (geoHead n ld lm ls e od om os alt ++ wIP k.first ++ junk) d →
    IsPrefix k.plen (.geo n ld lm ls e od om os alt (.net k)) d
  | natT {p : Nat} {mp ep : Int} {g m q : Addr} {rtrs : List Addr} {d : Bytes} :
    IsAddr (.natT mp ep g m q rtrs) d → IsPrefix p (.natT mp ep g m q rtrs) d

/-- things one after the other, each denoted by its own bytes -/
inductive Sequence (P : α → Bytes → Prop) : List α → Bytes → Prop
  | nil : Sequence P [] []
  | cons {a : α} {l : List α} {d e : Bytes} :
    P a d → Sequence P l e → Sequence P (a :: l) (d ++ e)

end PyLisp
