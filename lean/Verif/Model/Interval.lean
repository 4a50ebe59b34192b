import Verif.Model.Basic

/-!
# Model of `class Interval`  (functions.py lines 14–130)
-/

namespace Expdb

/-- An `Interval` object: fields `x0, x1, include_lower, include_upper`
(functions.py:45-48).  End points are `Fraction`s, modelled by `ℚ`. -/
structure Interval where
  x0 : ℚ
  x1 : ℚ
  incL : Bool
  incU : Bool
  deriving DecidableEq, Repr

namespace Interval

/-- Constructor, scheme 1 (functions.py:28,42-48): raises `ValueError` when `x0 - x1 > 0`. -/
def make (x0 x1 : ℚ) (incL incU : Bool) : Py Interval :=
  if x0 - x1 > 0 then .error .valueError else .ok ⟨x0, x1, incL, incU⟩

/-- `length` (functions.py:77-78). -/
def length (I : Interval) : ℚ := I.x1 - I.x0

/-- `is_empty` (functions.py:81-84). -/
def isEmpty (I : Interval) : Bool :=
  if I.length = 0 then !(I.incL && I.incU) else false

/-- `midpoint` (functions.py:87-88). -/
def midpoint (I : Interval) : ℚ := (I.x0 + I.x1) / 2

/-- `contains` (functions.py:91-103), the same four branches. -/
def contains (I : Interval) (x : ℚ) : Bool :=
  if I.incL then
    if I.incU then decide (x - I.x0 ≥ 0) && decide (I.x1 - x ≥ 0)
    else decide (x - I.x0 ≥ 0) && decide (I.x1 - x > 0)
  else if I.incU then decide (x - I.x0 > 0) && decide (I.x1 - x ≥ 0)
  else decide (x - I.x0 > 0) && decide (I.x1 - x > 0)

/-- `__eq__` (functions.py:55-64). -/
def pyEq (I J : Interval) : Bool :=
  if I.isEmpty && J.isEmpty then true
  else I.x0 == J.x0 && I.x1 == J.x1 && I.incL == J.incL && I.incU == J.incU

/-- `intersect` (functions.py:108-130). Python's `max`/`min` on two fractions are `max`/`min`;
the calls of the constructor (which may raise) are kept. -/
def intersect (I J : Interval) : Py Interval :=
  let lower := max I.x0 J.x0
  let upper := min I.x1 J.x1
  if lower > upper then make 0 0 false false
  else
    let incL :=
      if I.x0 > J.x0 then I.incL
      else if I.x0 < J.x0 then J.incL
      else I.incL && J.incL
    let incU :=
      if I.x1 < J.x1 then I.incU
      else if I.x1 > J.x1 then J.incU
      else I.incU && J.incU
    make lower upper incL incU

end Interval
end Expdb
