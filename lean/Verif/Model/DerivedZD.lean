import Verif.Model.Literature
import Verif.Model.ZeroDensity

/-!
# Model of the derivations of zero density estimates in `derived.py` (`prove_zero_density*`, method 1)

Printing, plotting and the returned hypothesis objects are left out; the result is the list of pairs of a rational function
and an interval, as in `Model/ZeroDensity`. A `Hypothesis_Set` keeps its hypotheses in a python set, so the order in which
they are listed is not determined: `orderR` and `orderK` are the orders of the large value estimates and of the transforms.
They are assumed to be functions of the list, in particular the large value estimates are listed in the same order before and after
the zeta large value estimates are added. `find_hypothesis` is represented by the bounds of the hypothesis which it finds.
-/

namespace Expdb
namespace DerivedZD

open Rational SupRatio LargeValues

/-- The bounds of `large_value_estimate_L2` (large_values.py:159). -/
def l2Bounds : List (List ℚ) := [[2, -2, 0], [1, -2, 1]]

section

variable {K : Type} [Field K] [LinearOrder K] (eng : Engine) (edges : Mat → List (Pt × Pt))
  (solve : RF K → RF K → List K) (isZero : Expr K → Bool) (orderR : List (Region ℕ) → List (Region ℕ)) (orderK : List ℚ → List ℚ)

/-- `prove_zero_density(additional_hypotheses, verbose, sigma_interval, name, tau0)` with method 1 (derived.py:277-363), where the
additional hypotheses are large value estimates with the regions `lvs` and zeta large value estimates with the regions
`zlvs`; `x0`, `x1` are the ends of `sigma_interval`, which is closed on the left and open on the right (functions.py:28).
Without bounds on beta `compute_large_value_estimate` gives the zeta large value estimates already present and those of `lv_to_zlv`
(zeta_large_values.py:65-77). -/
def proveZeroDensity (lvs zlvs : List (Region ℕ)) (x0 x1 tau0 : ℚ) : Py (List (Rational.Piece K)) := do
  let l2 ← convertBounds eng.canon l2Bounds
  let lv := orderR (l2 :: lvs)
  let transforms := (orderK [2, 3, 4, 5]).map raiseToPower
  let derived ← lvToZlv lv transforms
  ZeroDensity.lvZlvToZd eng edges solve isZero lv transforms (orderR (zlvs ++ derived)) x0 x1 true false tau0

/-- `prove_zero_density_ingham_1940` (derived.py:365-369). -/
def proveIngham : Py (List (Rational.Piece K)) :=
  proveZeroDensity eng edges solve isZero orderR orderK [] [] (1 / 2) (3 / 4) 3

/-- `prove_zero_density_jutila_1977` (derived.py:415-423). -/
def proveJutila : Py (List (Rational.Piece K)) := do
  let j ← convertBounds eng.canon (Literature.jutila 3)
  proveZeroDensity eng edges solve isZero orderR orderK [j] [] (11 / 14) 1 3

/-- `prove_zero_density_heathbrown_1979a` (derived.py:437-449). -/
def proveHB79a : Py (List (Rational.Piece K)) := do
  let j ← convertBounds eng.canon (Literature.jutila 3)
  let z ← convertBounds eng.canon Literature.heathBrownTwelfth
  proveZeroDensity eng edges solve isZero orderR orderK [j] [z] (11 / 14) 1 3

/-- `prove_zero_density_heathbrown_1979b` (derived.py:467-483). -/
def proveHB79b : Py (List (Rational.Piece K) × List (Rational.Piece K)) := do
  let j ← convertBounds eng.canon (Literature.jutila 3)
  let h ← convertBounds eng.canon Literature.heathBrown
  let z ← convertBounds eng.canon Literature.heathBrownTwelfth
  let a ← proveZeroDensity eng edges solve isZero orderR orderK [j, h] [z] (20 / 23) (25 / 28) 3
  let b ← proveZeroDensity eng edges solve isZero orderR orderK [j, h] [z] (25 / 28) 1 3
  return (a, b)

/-- `prove_zero_density_guth_maynard_2024` (derived.py:532-542). -/
def proveGuthMaynard : Py (List (Rational.Piece K)) := do
  let g ← convertBounds eng.canon Literature.guthMaynard
  proveZeroDensity eng edges solve isZero orderR orderK [g] [] (7 / 10) (9 / 10) 3

end

end DerivedZD
end Expdb
