import Verif.Model.Beta
import Verif.Model.BetaPairs
import Verif.Model.DerivedZD2

/-!
# Model of the derivation of the extended Heath-Brown zero density estimate (`prove_zero_density_heathbrown_extended` of `derived.py`)

The conventions are those of `Model/DerivedZD`. The bounds on beta of a `Hypothesis_Set` are given in the order in which the set lists them;
`compute_best_beta_bounds` is called with its default domain `[0, 1/2]` (bound_beta.py:128).
-/

namespace Expdb

namespace LargeValues

/-- The loop of `beta_to_zlv` (zeta_large_values.py:110-178). -/
def betaRegions {L : Type} : List (Affine (Option ℕ)) → Py (List (Region L))
  | [] => .ok []
  | b :: bs => do
    let r ← betaRegion b
    let rest ← betaRegions bs
    return r :: rest

/-- `beta_to_zlv(hypotheses)` (zeta_large_values.py:105-178). -/
def betaToZlv {L : Type} (betas : List Beta.Hyp) : Py (List (Region L)) := do
  let best ← Beta.computeBest betas BetaPairs.half
  betaRegions (best.map Beta.Best.bound)

end LargeValues

namespace DerivedZD

open Rational SupRatio LargeValues

section

variable {K : Type} [Field K] [LinearOrder K] (eng : Engine) (edges : Mat → List (Pt × Pt))
  (solve : RF K → RF K → List K) (isZero : Expr K → Bool) (orderR : List (Region ℕ) → List (Region ℕ)) (orderK : List ℚ → List ℚ)

/-- `prove_zero_density` with method 1 (derived.py:277-363) where the additional hypotheses are large value estimates with the regions
`lvs` and the bounds `betas` on beta: `compute_large_value_estimate` gives the estimates of `lv_to_zlv` and those of `beta_to_zlv`
(zeta_large_values.py:65-77). -/
def proveZeroDensityBeta (lvs : List (Region ℕ)) (betas : List Beta.Hyp) (x0 x1 tau0 : ℚ) : Py (List (Rational.Piece K)) := do
  let l2 ← convertBounds eng.canon l2Bounds
  let lv := orderR (l2 :: lvs)
  let transforms := (orderK [2, 3, 4, 5]).map raiseToPower
  let derived ← lvToZlv lv transforms
  let fromBeta ← betaToZlv betas
  ZeroDensity.lvZlvToZd eng edges solve isZero lv transforms (orderR (derived ++ fromBeta)) x0 x1 true false tau0

/-- The hypotheses made of the list which `exponent_pairs_to_beta_bounds` returns (bound_beta.py:108-121), numbered. -/
def betaHyps (bs : List (Affine (Option ℕ) × Ep)) : List Beta.Hyp := bs.zipIdx.map (fun e => ⟨e.2, e.1.1⟩)

/-- `prove_zero_density_heathbrown_extended` (derived.py:555-577). The set given to `exponent_pairs_to_beta_bounds` has one exponent pair and
no transform. -/
def proveHBExtended : Py (List (Rational.Piece K)) := do
  let j ← convertBounds eng.canon (Literature.jutila 3)
  let h ← convertBounds eng.canon Literature.heathBrown
  let bs ← BetaPairs.toBeta [] [.known 0 (3 / 40) (31 / 40)]
  proveZeroDensityBeta eng edges solve isZero orderR orderK [j, h] (betaHyps bs) (20 / 23) 1 4

end

end DerivedZD
end Expdb
