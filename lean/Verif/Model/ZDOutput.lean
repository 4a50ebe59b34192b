import Verif.Model.DerivedBeta

/-!
# Model of what `prove_zero_density` prints and draws (derived.py:341-361) and of `plot` in `examples.py` (264-287)

The points are floats in the code and exact numbers here. Text, labels and the curve of the literature are left out.
-/

namespace Expdb
namespace ZDOutput

open Rational

section

variable {K : Type} [Field K] [LinearOrder K]

/-- The piece whose proof is printed: the first that contains the midpoint of the interval from `x0` to `x1` (derived.py:341-347). -/
def printed (zdes : List (Rational.Piece K)) (x0 x1 : K) : Option (Rational.Piece K) :=
  if zdes.length > 0 then zdes.find? (fun h => h.dom.contains ((x0 + x1) / 2)) else none

/-- `np.linspace(0.5, 1, 100)` (derived.py:350). -/
def points : List K := (List.range 100).map (fun i : ℕ => 1 / 2 + (i : K) * ((1 - 1 / 2) / 99))

/-- `z.data.at(x) / (1 - x)` (derived.py:355). -/
def ratio (x : K) (z : Rational.Piece K) : Py K := if 1 - x = 0 then .error .zeroDivision else .ok (z.fn.at x / (1 - x))

/-- `min` of a sequence. -/
def minOf : List K → Py K
  | [] => .error .valueError
  | a :: l => .ok (l.foldl min a)

/-- The element added to `ys` (derived.py:353-357). -/
def height (zdes : List (Rational.Piece K)) (x : K) : Py (Option K) :=
  let zs := zdes.filter (fun z => z.dom.contains x)
  if zs.length > 0 then do
    let vs ← zs.mapM (ratio x)
    let m ← minOf vs
    return some m
  else .ok none

/-- The curve for `plot=True` (derived.py:349-358): `None` is a gap. Without estimates nothing is drawn. -/
def curve (zdes : List (Rational.Piece K)) : Py (List (K × Option K)) :=
  if zdes.length > 0 then points.mapM (fun x => do
    let y ← height zdes x
    return (x, y))
  else .ok []

/-- `computed_zdt` at `sigma` in `plot` (examples.py:272-274). -/
def exampleValue (zdt : List (Rational.Piece K)) (sigma : K) : Py K :=
  let A := match zdt.find? (fun p => p.dom.contains sigma) with
    | some p => p.fn.at sigma
    | none => 0
  if 1 - sigma = 0 then .error .zeroDivision else .ok (A / (1 - sigma))

/-- The points of `plot` (examples.py:265, 270-271). -/
def examplePoint (i : ℕ) : K := 1 / 2 + 1 / 2 * (i : K) / 500

end

end ZDOutput
end Expdb
