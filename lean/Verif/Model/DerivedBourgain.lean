import Verif.Model.DerivedZD

/-!
# Model of `prove_zero_density_bourgain_improved` in `derived.py`

As in `Model/DerivedZD`.
-/

namespace Expdb
namespace DerivedZD

open Rational SupRatio LargeValues

variable {K : Type} [Field K] [LinearOrder K] (eng : Engine) (edges : Mat → List (Pt × Pt))
  (solve : RF K → RF K → List K) (isZero : Expr K → Bool) (orderR : List (Region ℕ) → List (Region ℕ)) (orderK : List ℚ → List ℚ)

/-- `prove_zero_density_bourgain_improved` (derived.py:606-621). The hypotheses found are those of literature.py:744-818 (Bourgain's
large value estimate), literature.py:732-740 with `k = 3` (Jutila) and literature.py:847-849 (Heath-Brown's twelfth moment). -/
def proveBourgainImproved : Py (List (Rational.Piece K) × List (Rational.Piece K)) := do
  let b ← Literature.bourgainRegion
  let j ← convertBounds eng.canon (Literature.jutila 3)
  let z ← convertBounds eng.canon Literature.heathBrownTwelfth
  let p ← proveZeroDensity eng edges solve isZero orderR orderK [b, j] [z] (3 / 4) (4 / 5) 3
  let q ← proveZeroDensity eng edges solve isZero orderR orderK [b, j] [z] (4 / 5) 1 3
  return (p, q)

end DerivedZD
end Expdb
