import Verif.Model.DerivedZD

/-!
# Model of the second method for zero density estimates (`lv_zlv_to_zd2` of zero_density_estimate.py and the functions
`prove_zero_density_*_v2` of `derived.py`)

The conventions are those of `Model/ZeroDensity` and `Model/DerivedZD`. The function for the estimate of Huxley, which uses a bound on
`mu`, is in `Model/DerivedMu`; that for the extended estimate of Heath-Brown, which uses bounds on `beta`, is not modelled
(only the first method, in `Model/DerivedBeta`).
-/

namespace Expdb

namespace ZeroDensity

open Rational SupRatio

variable {K : Type} [Field K] [LinearOrder K]

/-- `lv_zlv_to_zd2(hypotheses, sigma_interval, tau0)` (zero_density_estimate.py:389-465) for `tau0 = m sigma + c` and the interval
from `x0` to `x1`; `zlvs` contains what `compute_large_value_estimate` adds in line 435. -/
def lvZlvToZd2 (eng : Engine) (edges : Mat → List (Pt × Pt)) (solve : RF K → RF K → List K) (isZero : Expr K → Bool)
    (lvs : List (Region ℕ)) (transforms : List (Region ℕ → Py (Region ℕ))) (zlvs : List (Region ℕ)) (x0 x1 : ℚ)
    (incL incU : Bool) (m c : ℚ) : Py (List (Rational.Piece K)) := do
  let D : Ival K := ⟨x0, x1, incL, incU⟩
  let h1 ← allHyps lvs transforms false zlvs
  let d1 ← zd2Domain m c x0 x1
  let r1 ← largeValueRegion eng (.polytope d1 none) h1
  let s1 ← supRhoOnTau edges solve isZero r1.1 D
  let h2 ← allHyps lvs transforms true zlvs
  let d2 ← zd2ZetaDomain m c
  let r2 ← largeValueRegion eng (.polytope d2 none) h2
  let s2 ← supRhoOnTau edges solve isZero r2.1 D
  return rfMax solve isZero (funcDomains s1 ++ funcDomains s2) D false

end ZeroDensity

namespace DerivedZD

open Rational SupRatio LargeValues

section

variable {K : Type} [Field K] [LinearOrder K] (eng : Engine) (edges : Mat → List (Pt × Pt))
  (solve : RF K → RF K → List K) (isZero : Expr K → Bool) (orderR : List (Region ℕ) → List (Region ℕ))

/-- `prove_zero_density(additional_hypotheses, verbose, sigma_interval, name, tau0, method=2)` (derived.py:277-363) for
`tau0 = m sigma + c`: without the hypotheses on powers. -/
def proveZeroDensity2 (lvs zlvs : List (Region ℕ)) (x0 x1 m c : ℚ) : Py (List (Rational.Piece K)) := do
  let l2 ← convertBounds eng.canon l2Bounds
  let lv := orderR (l2 :: lvs)
  let derived ← lvToZlv lv []
  ZeroDensity.lvZlvToZd2 eng edges solve isZero lv [] (orderR (zlvs ++ derived)) x0 x1 true false m c

/-- `prove_zero_density_ingham_1940_v2` (derived.py:371-377). -/
def proveInghamV2 : Py (List (Rational.Piece K)) :=
  proveZeroDensity2 eng edges solve isZero orderR [] [] (1 / 2) (3 / 4) (-1) 2

/-- `prove_zero_density_jutila_1977_v2` (derived.py:425-435). -/
def proveJutilaV2 : Py (List (Rational.Piece K)) := do
  let j ← convertBounds eng.canon (Literature.jutila 3)
  proveZeroDensity2 eng edges solve isZero orderR [j] [] (11 / 14) 1 0 (3 / 2)

/-- `prove_zero_density_heathbrown_1979a_v2` (derived.py:451-465). -/
def proveHB79aV2 : Py (List (Rational.Piece K)) := do
  let j ← convertBounds eng.canon (Literature.jutila 3)
  let z ← convertBounds eng.canon Literature.heathBrownTwelfth
  proveZeroDensity2 eng edges solve isZero orderR [j] [z] (11 / 14) 1 (7 / 3) (-(1 / 3))

/-- `prove_zero_density_heathbrown_1979b_v2` (derived.py:485-506). -/
def proveHB79bV2 : Py (List (Rational.Piece K) × List (Rational.Piece K)) := do
  let j ← convertBounds eng.canon (Literature.jutila 3)
  let h ← convertBounds eng.canon Literature.heathBrown
  let z ← convertBounds eng.canon Literature.heathBrownTwelfth
  let a ← proveZeroDensity2 eng edges solve isZero orderR [j, h] [z] (20 / 23) (25 / 28) 10 (-7)
  let b ← proveZeroDensity2 eng edges solve isZero orderR [j, h] [z] (25 / 28) 1 3 (-(3 / 4))
  return (a, b)

/-- `prove_zero_density_guth_maynard_2024_v2` (derived.py:544-553). -/
def proveGuthMaynardV2 : Py (List (Rational.Piece K)) := do
  let g ← convertBounds eng.canon Literature.guthMaynard
  proveZeroDensity2 eng edges solve isZero orderR [g] [] (7 / 10) (9 / 10) 1 (3 / 5)

end

end DerivedZD
end Expdb
