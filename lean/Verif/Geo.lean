import Verif.Addr
/-
Model of the decimal-degree properties `latitude` and `longitude` of
pylisp/utils/lcaf/geo_address.py:42-68.  Floating point numbers are replaced by exact fractions `x / d`
(an idealisation: rounding errors of the arithmetic are not modelled; the rounding the code asks for with
`int` and `round` is).
-/
namespace PyLisp

/-- geo_address.py:47-52 `_set_latitude`, 61-66 `_set_longitude`: degrees, minutes and seconds for the
fraction `x / d`.  `int` truncates towards zero, `% 1` is the distance to the next smaller integer,
`round` is to the nearest integer, halves up (of a number that is never negative here). -/
def setDecimal (x : Int) (d : Nat) : Int × Int × Int :=
  (Int.tdiv x d, x % d * 60 / d, (2 * (x % d * 60 % d * 60) + d) / (2 * d))

/-- geo_address.py:42-45 `_get_latitude`, 56-59 `_get_longitude`, times 3600 -/
def getDecimal (g : Int × Int × Int) : Int := 3600 * g.1 + 60 * g.2.1 + g.2.2

end PyLisp
