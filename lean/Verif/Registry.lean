/-
Model of the three type registries:
  pylisp/packet/lisp/control/type_registry.py   (numbers 1..15)
  pylisp/packet/ip/protocol_registry.py         (numbers 0..255)
  pylisp/utils/lcaf/type_registry.py            (numbers 0..255)
-/
namespace PyLisp

/-- what `register_type_class` looks at in a class: its identity, whether it is a subclass of the
required base class, and its `message_type`/`header_type`/`lcaf_type` attribute (`none`: not an
integer) -/
structure TypeClass where
  id : Nat
  subclass : Bool
  nr : Option Int
  deriving DecidableEq, Repr

/-- `_type_classes` of a registry (a dict; the newest entry first) -/
abbrev Registry := List (Int × TypeClass)

/-- `get_type_class`: lisp/control/type_registry.py:42-43, ip/protocol_registry.py:43-44,
lcaf/type_registry.py:42-43 -/
def Registry.get (r : Registry) (nr : Int) : Option TypeClass := List.lookup nr r

/-- the number of a class that may be registered; `lo` is 1 for control messages and 0 for IP
protocols and LCAF types, `hi` is 15 or 255.  lisp/control/type_registry.py:17-27,
ip/protocol_registry.py:18-28, lcaf/type_registry.py:17-27 -/
def TypeClass.number (lo hi : Int) (c : TypeClass) : Option Int :=
  if c.subclass then
    match c.nr with
    | some n => if n < lo ∨ n > hi then none else some n
    | none => none
  else none

/-- `register_type_class`: `none` is the ValueError.  lisp/control/type_registry.py:16-39,
ip/protocol_registry.py:17-40, lcaf/type_registry.py:16-39 -/
def Registry.register (lo hi : Int) (r : Registry) (c : TypeClass) : Option Registry :=
  match c.number lo hi with
  | none => none
  | some n =>
    match r.get n with
    | some d => if c = d then some r else none
    | none => some ((n, c) :: r)

/-- a sequence of calls, whatever they raise -/
def Registry.run (lo hi : Int) : Registry → List TypeClass → Registry
  | r, [] => r
  | r, c :: l => Registry.run lo hi ((r.register lo hi c).getD r) l

end PyLisp
