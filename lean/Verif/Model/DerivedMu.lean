import Verif.Model.DerivedZD2

/-!
# Model of the derivation of Huxley's zero density estimate (`prove_zero_density_huxley_1972` of `derived.py`)

The conventions are those of `Model/DerivedZD`: `find_hypothesis` is represented by the data of the hypothesis which it finds. For the keyword
'Huxley large value estimate' that is the estimate of literature.py:717-720; for `Bound_mu(1/2, 1/6)`, which is compared with the
bounds of the literature by its two numbers (bound_mu.py), the bound of literature.py:606.
-/

namespace Expdb

namespace LargeValues

/-- `mu_to_zlv(hypotheses)` (zeta_large_values.py:181-227) for the bounds `mu(p.1) <= p.2`. -/
def muToZlv {L : Type} : List (ℚ × ℚ) → Py (List (Region L))
  | [] => .ok []
  | p :: ps => do
    let r ← muRegion p.1 p.2
    let rest ← muToZlv ps
    return r :: rest

end LargeValues

namespace DerivedZD

open Rational SupRatio LargeValues

section

variable {K : Type} [Field K] [LinearOrder K] (eng : Engine) (edges : Mat → List (Pt × Pt))
  (solve : RF K → RF K → List K) (isZero : Expr K → Bool) (orderR : List (Region ℕ) → List (Region ℕ)) (orderK : List ℚ → List ℚ)

/-- `prove_zero_density_huxley_1972` (derived.py:379-394). -/
def proveHuxley : Py (List (Rational.Piece K)) := do
  let h ← convertBounds eng.canon Literature.huxley
  let z ← muToZlv [((1 : ℚ) / 2, (1 : ℚ) / 6)]
  proveZeroDensity eng edges solve isZero orderR orderK [h] z (3 / 4) 1 3

/-- `prove_zero_density_huxley_1972_v2` (derived.py:396-413). -/
def proveHuxleyV2 : Py (List (Rational.Piece K)) := do
  let h ← convertBounds eng.canon Literature.huxley
  let z ← muToZlv [((1 : ℚ) / 2, (1 : ℚ) / 6)]
  proveZeroDensity2 eng edges solve isZero orderR [h] z (3 / 4) 1 3 (-1)

end

end DerivedZD
end Expdb
