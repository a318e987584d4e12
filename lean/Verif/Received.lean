import Verif.Pkt
/-
Model of pylisp/application/lispd/received_message.py
-/
namespace PyLisp

/-- received_message.py:35-38, 46-48, 58-59 (the source, destination and socket are just stored) -/
structure Received where
  nr : Nat
  message : Pkt
  udpLayer : Option UdpHdr := none
  innerMessage : Option Pkt := none
  deriving DecidableEq

/-- received_message.py:27-33: the next number, taken while holding the lock; `maxint` is
`sys.maxint` -/
def nextNr (maxint counter : Nat) : Nat := if counter = maxint then 1 else counter + 1

/-- received_message.py:23-33: the number, and the counter afterwards; a given number is used unless
it is None or 0 -/
def takeNr (maxint counter : Nat) : Option Nat → Nat × Nat
  | some (n + 1) => (n + 1, counter)
  | _ => (nextNr maxint counter, nextNr maxint counter)

/-- received_message.py:40-59 -/
def examine (nr : Nat) (m : Pkt) : Except Err Received :=
  match m with
  | .ecm h p =>
    match getUdp p with
    | .ok (.udp u q) =>
      match getLispControlMessage u q with
      | .error _ => .error .value
      | .ok inner =>
        if u.dport ≠ 4342 then .error .value
        else .ok ⟨nr, .ecm h p, some u, some inner⟩
    | _ => .error .value
  | .ctrl c => .ok ⟨nr, .ctrl c, none, none⟩
  | _ => .error .value

/-- received_message.py:21-59: a new ReceivedMessage; the counter afterwards, and the object or the
exception -/
def receive (maxint counter : Nat) (nr : Option Nat) (m : Pkt) : Nat × Except Err Received :=
  ((takeNr maxint counter nr).2, examine (takeNr maxint counter nr).1 m)

end PyLisp
