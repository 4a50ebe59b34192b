import Verif.Model.LargeValues
import Verif.Model.Project
import Verif.Model.SupRatio
import Verif.Model.Printing

/-!
# Model of the derivation of zero density estimates and additive energy bounds
(`compute_large_value_region`, `lv_zlv_to_zd`, `lv_zlv_to_zd2`, `lver_to_zd` of zero_density_estimate.py, the projections of
additive_energy.py and `lver_to_energy_bound` of zero_density_energy_estimate.py)

Hypotheses are represented by their regions as in `Model/LargeValues`; names, proof texts, references and the checks of
argument types are left out. The returned zero density estimates are represented by their pairs of a rational function and
an interval.
-/

namespace Expdb

namespace Region

variable {L : Type}

/-- `polys = [r.child for r in region.child]` if all children have type POLYTOPE (region.py:83-87). (A POLYTOPE child which
contains a `Region` would make `try_union` raise; such a region is left unchanged here.) -/
def polyMats : List (Region L) → Option (List Mat)
  | [] => some []
  | .polytope m _ :: rs =>
    match polyMats rs with
    | some ms => some (m :: ms)
    | none => none
  | _ :: _ => none

/-- `_try_simplify_union_of_polys` for the list of children (region.py:80-91); the result is the new list of children. Labels
of polytopes that are not merged are kept in python; they are not used afterwards and dropped here. -/
def simplifyChildren [DecidableEq L] (eng : Engine) (rs : List (Region L)) : Py (List (Region L)) :=
  match polyMats rs with
  | none => .ok rs
  | some ms => do
    let out ← simplifyUnion (L := L) (Mat.tryUnion eng.canon eng.lp eng.verts) eng.order false (ms.map (fun m => ⟨m, []⟩))
    return out.map (fun p => .polytope p.mat none)

/-- `simplify()` (region.py:435-441): only unions of polytopes are changed. -/
def simplify [DecidableEq L] (eng : Engine) : Region L → Py (Region L)
  | .union rs => do return .union (← simplifyChildren eng rs)
  | .disjoint rs => do return .disjoint (← simplifyChildren eng rs)
  | r => .ok r

end Region

namespace ZeroDensity

open Rational SupRatio

/-- `r = Region.intersect([domain, hyps[i].data.region])`, converted to a disjoint union and simplified
(zero_density_estimate.py:206-208). -/
def clip (eng : Engine) (domain r : Region ℕ) : Py (Region ℕ) := do
  let r ← Region.asDisjointUnion eng false (.intersect [domain, r])
  Region.simplify eng r

/-- The loop over all hypotheses (zero_density_estimate.py:203-217): `i` is the index of the first element of the list, `seen`
is `uniq_hash`. The copy of line 215 is shallow (region.py:52-53), so python sets the label also on polytope objects that
are shared with the original hypotheses or with other clipped regions; this sharing is not modelled. -/
def clipLoop (eng : Engine) (domain : Region ℕ) : ℕ → List Printing.Str → List (Region ℕ) → Py (List (Region ℕ))
  | _, _, [] => .ok []
  | i, seen, h :: hs => do
    let r ← clip eng domain h
    let hsh ← Printing.regionStr none r
    if hsh ∈ seen then clipLoop eng domain (i + 1) seen hs
    else
      let rest ← clipLoop eng domain (i + 1) (hsh :: seen) hs
      return r.setLabel i :: rest

/-- The list `hyps` (zero_density_estimate.py:183-194). -/
def allHyps (lvs : List (Region ℕ)) (transforms : List (Region ℕ → Py (Region ℕ))) (zeta : Bool) (zlvs : List (Region ℕ)) :
    Py (List (Region ℕ)) := do
  let transformed ← LargeValues.applyTransforms lvs transforms
  return lvs ++ transformed ++ (if zeta then zlvs else [])

/-- `compute_large_value_region` for the list `hyps` (zero_density_estimate.py:201-229): the polytopes of the region and the
indices of the hypotheses it is said to depend on. -/
def largeValueRegion (eng : Engine) (domain : Region ℕ) (hyps : List (Region ℕ)) : Py (List Mat × List ℕ) := do
  let regions ← clipLoop eng domain 0 [] hyps
  let out ← Region.asDisjoint eng true (.intersect regions)
  return (out.map (·.mat), out.foldl (fun d p => d.union p.deps) [])

/-- `bounds = [(s[0], s[1]) for s in sup]` (zero_density_estimate.py:372, 450, 519). -/
def funcDomains {K : Type} (ps : List (Rational.Piece K)) : List (RF K × Ival K) := ps.map (fun p => (p.fn, p.dom))

variable {K : Type} [Field K] [LinearOrder K]

/-- `lv_zlv_to_zd(hypotheses, sigma_interval, tau0)` (zero_density_estimate.py:300-387) for the interval from `x0` to `x1` (with the
flags `incL`, `incU`). `lvs` and `zlvs` are the regions of the large value estimates and of the zeta large value estimates,
`transforms` the transforms; `zlvs` contains what `compute_large_value_estimate` adds in line 363. -/
def lvZlvToZd (eng : Engine) (edges : Mat → List (Pt × Pt)) (solve : RF K → RF K → List K) (isZero : Expr K → Bool)
    (lvs : List (Region ℕ)) (transforms : List (Region ℕ → Py (Region ℕ))) (zlvs : List (Region ℕ)) (x0 x1 : ℚ)
    (incL incU : Bool) (tau0 : ℚ) : Py (List (Rational.Piece K)) := do
  let D : Ival K := ⟨x0, x1, incL, incU⟩
  let h1 ← allHyps lvs transforms false zlvs
  let d1 ← Mat.rect [(x0, x1), (tau0, 2 * tau0), (0, LargeValues.lvLimit)]
  let r1 ← largeValueRegion eng (.polytope d1 none) h1
  let s1 ← supRhoOnTau edges solve isZero r1.1 D
  let h2 ← allHyps lvs transforms true zlvs
  let d2 ← Mat.rect [(x0, x1), (2, tau0), (0, LargeValues.lvLimit)]
  let r2 ← largeValueRegion eng (.polytope d2 none) h2
  let s2 ← supRhoOnTau edges solve isZero r2.1 D
  return rfMax solve isZero (funcDomains s1 ++ funcDomains s2) D false

/-- `sigma_rho_constraints` in `lv_zlv_to_zd2` (zero_density_estimate.py:415-420). -/
def sigmaRho (x0 x1 : ℚ) : List (List ℚ) :=
  [[-x0, 1, 0, 0], [x1, -1, 0, 0], [0, 0, 0, 1], [LargeValues.lvLimit, 0, 0, -1]]

/-- The domain of the large value estimates in `lv_zlv_to_zd2` (zero_density_estimate.py:426-429), for `tau0 = m sigma + c`. -/
def zd2Domain (m c x0 x1 : ℚ) : Py Mat :=
  Mat.ofConstraints (([[-(2 / 3) * c, -(2 / 3) * m, 1, 0], [c, m, -1, 0]] ++ sigmaRho x0 x1).map LargeValues.rowOf)

/-- The domain of the zeta large value estimates in `lv_zlv_to_zd2` (zero_density_estimate.py:440-443). -/
def zd2ZetaDomain (m c : ℚ) : Py Mat :=
  Mat.ofConstraints ([[-2, 0, 1, 0], [4 / 3 * c, 4 / 3 * m, 1, 0]].map LargeValues.rowOf)

variable {L : Type} [DecidableEq L]

/-- `proj = region.project(dims)`, followed by `proj.simplify()` unless the projection is `None` (additive_energy.py:399-400,
447-452, 477-481). -/
def projectSimplify (eng : Engine) (hrep : List Pt → Mat) (dims : List ℕ) (r : Region L) : Py (Option (Region L)) :=
  match Region.project eng.verts hrep dims r with
  | .error e => .error e
  | .ok none => .ok none
  | .ok (some p) =>
    match Region.simplify eng p with
    | .error e => .error e
    | .ok q => .ok (some q)

/-- `lver_to_lv(hypothesis)` (additive_energy.py:369-415): the region of the result. An empty projection is `None`, on which
`simplify` cannot be called. -/
def lverToLv (eng : Engine) (hrep : List Pt → Mat) (r : Region L) : Py (Region L) :=
  match Region.asDisjointUnion eng false r with
  | .error e => .error e
  | .ok u =>
    match projectSimplify eng hrep [0, 1, 2] u with
    | .error e => .error e
    | .ok none => .error .attributeError
    | .ok (some p) => .ok p

/-- `lver_to_energy(hypothesis)` (additive_energy.py:417-462). -/
def lverToEnergy (eng : Engine) (hrep : List Pt → Mat) (r : Region L) : Py (Option (Region L)) :=
  match Region.asDisjointUnion eng false r with
  | .error e => .error e
  | .ok u => projectSimplify eng hrep [0, 1, 3] u

/-- `compute_LV_star(hypotheses, sigma_tau_domain, debug, zeta)` (additive_energy.py:468-500). -/
def lvStar (eng : Engine) (hrep : List Pt → Mat) (lvers : List (Region L)) (transforms : List (Region L → Py (Region L)))
    (zeta : Bool) (zlvers : List (Region L)) (domain : Region L) : Py (Option (Region L)) :=
  match LargeValues.bestLver eng lvers transforms zeta zlvers domain with
  | .error e => .error e
  | .ok E => projectSimplify eng hrep [0, 1, 3] E

/-- One half of `lver_to_zd` (zero_density_estimate.py:498-505, 507-514). -/
def lverSup (eng : Engine) (hrep : List Pt → Mat) (edges : Mat → List (Pt × Pt)) (solve : RF K → RF K → List K)
    (isZero : Expr K → Bool) (D : Ival K) : Option (Region L) → Py (List (Rational.Piece K))
  | none => .ok []
  | some r =>
    match projectSimplify eng hrep [0, 1, 2] r with
    | .error e => .error e
    | .ok none => .error .attributeError
    | .ok (some p) => supLVOnTau edges solve isZero p D

/-- `lver_to_zd(LVER, LVER_zeta, sigma_interval)` (zero_density_estimate.py:467-530), for the regions of the two hypotheses (or
`None`). -/
def lverToZd (eng : Engine) (hrep : List Pt → Mat) (edges : Mat → List (Pt × Pt)) (solve : RF K → RF K → List K)
    (isZero : Expr K → Bool) (lver lverZeta : Option (Region L)) (D : Ival K) : Py (List (Rational.Piece K)) := do
  let s1 ← lverSup eng hrep edges solve isZero D lver
  let s2 ← lverSup eng hrep edges solve isZero D lverZeta
  return rfMax solve isZero (funcDomains s1 ++ funcDomains s2) D true

/-- `LVER_domain` (zero_density_energy_estimate.py:200-207), for `tau0 = m sigma + c` on the interval from `x0` to `x1`. -/
def energyDomain (m c x0 x1 : ℚ) : Py Mat :=
  Mat.ofConstraints ([[-x0, 1, 0], [x1, -1, 0], [-c, -m, 1], [2 * c, 2 * m, -1]].map LargeValues.rowOf)

/-- `LVER_zeta_domain` (zero_density_energy_estimate.py:219-226). -/
def energyZetaDomain (m c x0 x1 : ℚ) : Py Mat :=
  Mat.ofConstraints ([[-x0, 1, 0], [x1, -1, 0], [-2, 0, 1], [c, m, -1]].map LargeValues.rowOf)

/-- One half of `lver_to_energy_bound` (zero_density_energy_estimate.py:208-216, 227-235). -/
def energySup (eng : Engine) (hrep : List Pt → Mat) (edges : Mat → List (Pt × Pt)) (solve : RF K → RF K → List K)
    (isZero : Expr K → Bool) (lvers : List (Region L)) (transforms : List (Region L → Py (Region L))) (zeta : Bool)
    (zlvers : List (Region L)) (domain : Mat) (D : Ival K) : Py (List (Rational.Piece K)) :=
  match LargeValues.bestLver eng lvers transforms zeta zlvers (.polytope domain none) with
  | .error e => .error e
  | .ok E =>
    match lverToEnergy eng hrep E with
    | .error e => .error e
    | .ok none => .ok []
    | .ok (some p) => supLVOnTau edges solve isZero p D

/-- `lver_to_energy_bound(hypotheses, tau0)` (zero_density_energy_estimate.py:173-252), for `tau0 = m sigma + c` on the interval from
`x0` to `x1`. -/
def lverToEnergyBound (eng : Engine) (hrep : List Pt → Mat) (edges : Mat → List (Pt × Pt)) (solve : RF K → RF K → List K)
    (isZero : Expr K → Bool) (lvers : List (Region L)) (transforms : List (Region L → Py (Region L)))
    (zlvers : List (Region L)) (m c x0 x1 : ℚ) (incL incU : Bool) : Py (List (RF K × Ival K)) := do
  let D : Ival K := ⟨x0, x1, incL, incU⟩
  let d1 ← energyDomain m c x0 x1
  let s1 ← energySup eng hrep edges solve isZero lvers transforms false zlvers d1 D
  let d2 ← energyZetaDomain m c x0 x1
  let s2 ← energySup eng hrep edges solve isZero lvers transforms true zlvers d2 D
  return (rfMax solve isZero (funcDomains s1 ++ funcDomains s2) D true).map
    (fun p => (quotient p.fn (RF.make [-1, 1] none), p.dom))

end ZeroDensity
end Expdb
