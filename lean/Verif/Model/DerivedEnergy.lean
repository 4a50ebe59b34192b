import Verif.Model.DerivedZD

/-!
# Model of the derivations of zero density energy estimates in `derived.py` (`prove_zero_density_energy_*`)

As in `Model/DerivedZD`, printing and the returned hypothesis objects are left out, `find_hypothesis` is represented by the bounds of the
hypothesis which it finds, and `orderR` and `orderK` are the orders in which the (python) sets of hypotheses list the regions and
the transforms. The large value estimates of the literature are found by keywords which match one name only, and the
literature has one zeta large value estimate (literature.py:717-850).
-/

namespace Expdb
namespace DerivedEnergy

open Rational LargeValues

/-- Converting all bounds of a list into regions. -/
def convertAll (canon : Mat → Mat) : List (List (List ℚ)) → Py (List (Region ℕ))
  | [] => .ok []
  | b :: bs => do
    let r ← convertBounds canon b
    let rs ← convertAll canon bs
    return r :: rs

/-- The loop of `lv_to_lver` (additive_energy.py:277-294). -/
def lverAll : List (Region ℕ) → Py (List (Region ℕ))
  | [] => .ok []
  | r :: rs => do
    let a ← lvToLver r
    let as ← lverAll rs
    return a :: as

section

variable {K : Type} [Field K] [LinearOrder K] (eng : Engine) (hrep : List Pt → Mat) (edges : Mat → List (Pt × Pt))
  (solve : RF K → RF K → List K) (isZero : Expr K → Bool) (orderR : List (Region ℕ) → List (Region ℕ)) (orderK : List ℚ → List ℚ)

/-- The common part of the functions `prove_zero_density_energy_*` (derived.py:814-984): the transforms that raise to the powers in `ks`,
large value estimates with the bounds `lb`, zeta large value estimates with the bounds `zb`, the large value energy region 2a of
Heath-Brown, the regions of `lv_to_lver` (`zeta=False` and `zeta=True`), and `tau0 = Affine(m, c, Interval(x0, x1))`. -/
def proveEnergy (ks : List ℚ) (lb zb : List (List (List ℚ))) (m c x0 x1 : ℚ) : Py (List (RF K × Ival K)) := do
  let lvs ← convertAll eng.canon lb
  let zlvs ← convertAll eng.canon zb
  let hb ← Literature.lverHB2a eng.canon
  let a ← lverAll (orderR lvs)
  let z ← lverAll (orderR zlvs)
  ZeroDensity.lverToEnergyBound eng hrep edges solve isZero (orderR (hb :: a)) ((orderK ks).map raiseToPowerEnergy) (orderR z)
    m c x0 x1 true false

/-- `prove_zero_density_energy_2` (derived.py:814-833); `lv_to_lver` is not called with `zeta=True`, but there is no zeta large
value estimate. -/
def proveEnergy2 : Py (List (RF K × Ival K)) :=
  proveEnergy eng hrep edges solve isZero orderR orderK [2, 3, 4] [DerivedZD.l2Bounds, Literature.guthMaynard] [] 0 2 (7 / 10) (3 / 4)

/-- `prove_zero_density_energy_3` (derived.py:835-856). -/
def proveEnergy3 : Py (List (RF K × Ival K)) :=
  proveEnergy eng hrep edges solve isZero orderR orderK [2, 3, 4] [Literature.huxley, Literature.guthMaynard]
    [Literature.heathBrownTwelfth] 8 (-4) (3 / 4) (4 / 5)

/-- `prove_zero_density_energy_4` (derived.py:858-874). -/
def proveEnergy4 : Py (List (RF K × Ival K)) :=
  proveEnergy eng hrep edges solve isZero orderR orderK [2, 3] [Literature.guthMaynard, Literature.jutila 10] [] 0 2 (664 / 877) (31 / 40)

/-- `prove_zero_density_energy_5` (derived.py:876-891). -/
def proveEnergy5 : Py (List (RF K × Ival K)) :=
  proveEnergy eng hrep edges solve isZero orderR orderK [2, 3] [Literature.jutila 6] [] 0 2 (42 / 55) (79 / 103)

/-- `prove_zero_density_energy_6` (derived.py:893-908). -/
def proveEnergy6 : Py (List (RF K × Ival K)) :=
  proveEnergy eng hrep edges solve isZero orderR orderK [2, 3] [Literature.jutila 5] [] 0 2 (79 / 103) (84 / 109)

/-- `prove_zero_density_energy_7` (derived.py:910-927): besides the estimate of Jutila with `k = 5` the optimised large value estimate of
Bourgain is used, whose region is given directly (literature.py:744-818), and not by a maximum of bounds. -/
def proveEnergy7 : Py (List (RF K × Ival K)) := do
  let b ← Literature.bourgainRegion
  let j ← convertBounds eng.canon (Literature.jutila 5)
  let z ← convertBounds eng.canon Literature.heathBrownTwelfth
  let hb ← Literature.lverHB2a eng.canon
  let a ← lverAll (orderR [b, j])
  let zs ← lverAll (orderR [z])
  ZeroDensity.lverToEnergyBound eng hrep edges solve isZero (orderR (hb :: a)) ((orderK [2, 3, 4, 5]).map raiseToPowerEnergy) (orderR zs)
    8 (-4) (84 / 109) (5 / 6) true false

/-- `prove_zero_density_energy_8` (derived.py:929-945). -/
def proveEnergy8 : Py (List (RF K × Ival K)) :=
  proveEnergy eng hrep edges solve isZero orderR orderK [2, 3] [Literature.guthMaynard, Literature.jutila 13] [] 0 2 (37 / 49) (443 / 586)

/-- `prove_zero_density_energy_9` (derived.py:947-966). -/
def proveEnergy9 : Py (List (RF K × Ival K)) :=
  proveEnergy eng hrep edges solve isZero orderR orderK [2, 3] [Literature.guthMaynard, Literature.jutila 12]
    [Literature.heathBrownTwelfth] 0 2 (443 / 586) (373 / 493)

/-- `prove_zero_density_energy_10` (derived.py:968-984). -/
def proveEnergy10 : Py (List (RF K × Ival K)) :=
  proveEnergy eng hrep edges solve isZero orderR orderK [2, 3] [Literature.guthMaynard, Literature.jutila 11] [] 0 2 (373 / 493) (103 / 136)

end

/-! ### The calls with the old signature -/

/-- The objects that are passed to `lver_to_energy_bound` in `derived.py`. -/
inductive Arg where
  | hypothesisSet
  | hypothesis
  | affine
  | interval
deriving DecidableEq, Repr

/-- The checks of the parameters in `lver_to_energy_bound` (zero_density_energy_estimate.py:192-195). -/
def checkArgs (hypotheses tau0 : Arg) : Py Unit :=
  if hypotheses ≠ .hypothesisSet then .error .valueError
  else if tau0 ≠ .affine then .error .valueError
  else .ok ()

/-- `lver_to_energy_bound(hypotheses, tau0, debug)` called with three positional arguments of which the first two are `a` and `b`; `run` is
the rest of the function. -/
def callEnergyBound {α : Type} (a b : Arg) (run : Py α) : Py α := do
  checkArgs a b
  run

end DerivedEnergy
end Expdb
