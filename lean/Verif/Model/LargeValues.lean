import Verif.Model.Region
import Verif.Model.Affine

/-!
# Model of the regions built by `large_values.py`, `zeta_large_values.py` and `additive_energy.py`

A hypothesis whose data is a large value estimate (or a large value energy region) is represented by its region. Names,
proof texts, references and dependencies are left out.
-/

namespace Expdb
namespace LargeValues

variable {L : Type}

/-- `Constants.TAU_UPPER_LIMIT` (constants.py:20). -/
def tauLimit : ℚ := 1000000

/-- `Constants.LV_DEFAULT_UPPER_BOUND` (constants.py:23). -/
def lvLimit : ℚ := 1000000

/-- A list of coefficients `[c0, c1, …]` as an inequality row (polytope.py:112-117); the lists of this file are not
empty. -/
def rowOf : List ℚ → Row
  | [] => ⟨false, 0, []⟩
  | c :: cs => ⟨false, c, cs⟩

/-- The list `box` in `convert_bounds` (large_values.py:90-97). -/
def lvBox : List Row :=
  [rowOf [-(1 / 2), 1, 0, 0], rowOf [1, -1, 0, 0], rowOf [0, 0, 1, 0], rowOf [tauLimit, 0, -1, 0], rowOf [0, 0, 0, 1],
    rowOf [lvLimit, 0, 0, -1]]

/-- `convert_bounds(bounds)` (large_values.py:72-113). For an empty list `bounds[0]` raises `IndexError`, after the region
was built. The text of the bounds is left out. -/
def convertBounds (canon : Mat → Mat) (bounds : List (List ℚ)) : Py (Region L) :=
  match Region.fromHalfplanes canon (bounds.map (fun b => rowOf (b ++ [-1]))) lvBox with
  | .error e => .error e
  | .ok region => if bounds = [] then .error .indexError else .ok region

/-- `transform` in `raise_to_power_hypothesis(k)` (large_values.py:173-180). -/
def raiseToPower (k : ℚ) (region : Region L) : Py (Region L) := region.scaleAll [1, k, k]

/-- `f` in `get_raise_to_power_hypothesis(k)` (additive_energy.py:173-179). -/
def raiseToPowerEnergy (k : ℚ) (region : Region L) : Py (Region L) := region.scaleAll [1, k, k, k, k]

/-- `for tr_hyp in lv_transforms: hyps.extend([tr_hyp.data.transform(lve) for lve in lvs])`
(zeta_large_values.py:86-88), for one transform. -/
def applyAll (f : Region L → Py (Region L)) : List (Region L) → Py (List (Region L))
  | [] => .ok []
  | r :: rs => do
    let r' ← f r
    let rs' ← applyAll f rs
    return r' :: rs'

/-- The same, for all transforms (zeta_large_values.py:87-88). -/
def applyTransforms (lvs : List (Region L)) : List (Region L → Py (Region L)) → Py (List (Region L))
  | [] => .ok []
  | f :: fs => do
    let a ← applyAll f lvs
    let b ← applyTransforms lvs fs
    return a ++ b

/-- `lv_to_zlv(hypotheses)` (zeta_large_values.py:82-98), given the large value estimates and the transforms. -/
def lvToZlv (lvs : List (Region L)) (transforms : List (Region L → Py (Region L))) : Py (List (Region L)) := do
  let transformed ← applyTransforms lvs transforms
  let dom ← Mat.ofConstraints [rowOf [-2, 0, 1, 0]]
  return (lvs ++ transformed).map (fun r => .intersect [.polytope dom none, r])

/-- `[Region.from_polytope(Polytope(p)) for p in polys]` (zeta_large_values.py:122-171, 190-221). -/
def polyRegions : List (List (List ℚ)) → Py (List (Region L))
  | [] => .ok []
  | p :: ps => do
    let m ← Mat.ofConstraints (p.map rowOf)
    let rest ← polyRegions ps
    return .polytope m none :: rest

/-- `tau_upper` (zeta_large_values.py:115-119). -/
def tauUpper (alpha0 : ℚ) : ℚ := if alpha0 = 0 then tauLimit else min tauLimit (1 / alpha0)

/-- `tau_lower` (zeta_large_values.py:120-122). -/
def tauLower (alpha1 : ℚ) : ℚ := if alpha1 = 0 then tauLimit else max 2 (1 / alpha1)

/-- The region for one bound `beta(alpha) <= A + B alpha` on an interval (zeta_large_values.py:110-175). -/
def betaRegion (b : Affine (Option ℕ)) : Py (Region L) :=
  let A := b.c
  let B := b.m
  let tu := tauUpper b.dom.x0
  let tl := tauLower b.dom.x1
  match polyRegions
    [[[0, 0, 0, -1], [0, 0, 0, 1], [1, -1, 0, 0], [-(1 / 2), 1, 0, 0], [-tl, 0, 1, 0], [tu, 0, -1, 0], [-B, 1, -A, 0]],
     [[0, 0, 1, -1], [0, 0, 0, 1], [1, -1, 0, 0], [-(1 / 2), 1, 0, 0], [-tl, 0, 1, 0], [tu, 0, -1, 0], [B, -1, A, 0]],
     [[0, 0, 1, -1], [0, 0, 0, 1], [1, -1, 0, 0], [-(1 / 2), 1, 0, 0], [tl, 0, -1, 0], [-2, 0, 1, 0]],
     [[0, 0, 1, -1], [0, 0, 0, 1], [1, -1, 0, 0], [-(1 / 2), 1, 0, 0], [-tu, 0, 1, 0], [tauLimit, 0, -1, 0]]] with
  | .error e => .error e
  | .ok rs => .ok (.disjoint rs)

/-- The region for one bound `mu(sigma0) <= mu0` (zeta_large_values.py:188-227). -/
def muRegion (sigma0 mu0 : ℚ) : Py (Region L) :=
  match polyRegions
    [[[0, 0, 0, 1], [0, 0, 0, -1], [1, -1, 0, 0], [-(1 / 2), 1, 0, 0], [-2, 0, 1, 0], [tauLimit, 0, -1, 0],
      [-sigma0, 1, -mu0, 0]],
     [[0, 0, 1, -1], [0, 0, 0, 1], [1, -1, 0, 0], [-(1 / 2), 1, 0, 0], [-2, 0, 1, 0], [tauLimit, 0, -1, 0],
      [sigma0, -1, mu0, 0]]] with
  | .error e => .error e
  | .ok rs => .ok (.disjoint rs)

/-- `Large_Value_Energy_Region.default_constraints()` (additive_energy.py:50-71). -/
def energyBox : List Row :=
  [((1 : ℚ) / 2, (1 : ℚ)), (0, tauLimit), (0, lvLimit), (0, lvLimit), (0, lvLimit)].zipIdx.flatMap
    (fun t => Mat.rangeRows 5 t.2 t.1.1 t.1.2)

/-- `first_max` (additive_energy.py:210-214). -/
def firstMax (k l : ℚ) : List (List ℚ) :=
  [[1, 0, 0, 1, 0, 0], [0, 0, 1 / 3, 5 / 3, 0, 0],
    [0, 0, (k + l) / (1 + 2 * k + 2 * l), (2 + 3 * k + 4 * l) / (1 + 2 * k + 2 * l), 0, 0]]

/-- `second_max` (additive_energy.py:216-220). -/
def secondMax : List (List ℚ) := [[1, 0, 0, 0, 1, 0], [0, 0, 0, 4, 0, 0], [0, 0, 1 / 2, 1, 3 / 4, 0]]

/-- `[add[i] + frac(1,2) * (max1[i] + max2[i]) for i in range(6)]` (additive_energy.py:227-228). -/
def epConstraint (max1 max2 : List ℚ) : List ℚ :=
  List.zipWith (fun a u => a + 1 / 2 * u) [1, -2, 0, 0, -1, 0] (List.zipWith (· + ·) max1 max2)

/-- `factor = -frac(1, constraint[4])` and the scaled constraint (additive_energy.py:230-231). `Fraction(1, 0)` raises
`ZeroDivisionError`. -/
def normalise (c : List ℚ) : Py (List ℚ) :=
  match c[4]? with
  | none => .error .indexError
  | some d => if d = 0 then .error .zeroDivision else .ok (c.map (fun x => x * (-(1 / d))))

/-- The inner loop (additive_energy.py:225-232). -/
def normaliseAll : List (List ℚ) → Py (List (List ℚ))
  | [] => .ok []
  | c :: cs => do
    let a ← normalise c
    let b ← normaliseAll cs
    return a :: b

/-- `ep_to_lver(eph)` (additive_energy.py:204-241) for the pair `(k, l)`. A zero denominator raises
`ZeroDivisionError`. -/
def epToLver (canon : Mat → Mat) (k l : ℚ) : Py (Region L) :=
  if 1 + 2 * k + 2 * l = 0 then .error .zeroDivision
  else do
    let constraints ← normaliseAll ((firstMax k l).flatMap (fun m1 => secondMax.map (fun m2 => epConstraint m1 m2)))
    Region.fromHalfplanes canon (constraints.map rowOf) energyBox

/-- The lift in `lv_to_lver` (additive_energy.py:279-286). -/
def lvToLver (region : Region L) : Py (Region L) :=
  region.lift [.dim 0, .dim 1, .dim 2, .range 0 lvLimit, .range 0 lvLimit]

/-- The domain of `compute_best_lver` (additive_energy.py:340-346). -/
def lverDomain (domain : Region L) : Py (Region L) :=
  domain.lift [.dim 0, .dim 1, .range 0 lvLimit, .range 0 lvLimit, .range 0 lvLimit]

/-- `compute_best_lver(hypotheses, sigma_tau_domain, zeta)` (additive_energy.py:296-366), given the large value energy
regions, the transforms and (for `zeta`) the zeta large value energy regions. Printing is left out. -/
def bestLver [DecidableEq L] (eng : Engine) (lvers : List (Region L)) (transforms : List (Region L → Py (Region L)))
    (zeta : Bool) (zlvers : List (Region L)) (domain : Region L) : Py (Region L) := do
  let transformed ← applyTransforms lvers transforms
  let all := lvers ++ transformed ++ (if zeta then zlvers else [])
  let dom ← lverDomain domain
  Region.asDisjointUnion eng false (.intersect (dom :: all))

end LargeValues
end Expdb
