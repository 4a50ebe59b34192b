import Verif.Model.Rational
import Verif.Model.Region

/-!
# The supremum of `rho / tau` over a union of polytopes (zero_density_estimate.py:242-298,
zero_density_energy_estimate.py:254-317)

Both functions contain the same loop. `Polytope.get_edges` (polytope.py:414-437) rests on `cdd`: it is the parameter `edges`. What
sympy computes in `RF.max` is a parameter as in `Model/Rational`.
-/

namespace Expdb
namespace SupRatio

open Rational

variable {K : Type} [Field K] [LinearOrder K]

/-- `RF([(u1 - u2) / (s1 - s2), (s1 * u2 - s2 * u1) / (s1 - s2)])`: the coordinate `u` as a function of `sigma` along an edge
(zero_density_estimate.py:281-291, zero_density_energy_estimate.py:300-310). -/
def alongEdge (s1 u1 s2 u2 : ℚ) : RF K :=
  RF.make [(((u1 - u2) / (s1 - s2) : ℚ) : K), (((s1 * u2 - s2 * u1) / (s1 - s2) : ℚ) : K)] none

/-- `rho.div(tau)` for two functions (functions.py:941-951). -/
def quotient (f g : RF K) : RF K := ⟨.mul f.num g.den, .mul f.den g.num⟩

/-- One round of the loop, for an edge not visited before (zero_density_estimate.py:274-293, zero_density_energy_estimate.py:293-312).
A vertex that does not have three coordinates raises `ValueError`. -/
def edgeFn : Pt → Pt → Py (Option (RF K × Ival K))
  | [s1, t1, r1], [s2, t2, r2] =>
    if s1 = s2 then .ok none
    else .ok (some (quotient (alongEdge s1 r1 s2 r2) (alongEdge s1 t1 s2 t2), Ival.half ((min s1 s2 : ℚ) : K) ((max s1 s2 : ℚ) : K)))
  | _, _ => .error .valueError

/-- The loop over all edges with the set `visited` (zero_density_estimate.py:265-293, zero_density_energy_estimate.py:284-312). The
set is shared by all polytopes, so the edges of all polytopes form one list. -/
def edgeLoop : List Pt → List (Pt × Pt) → Py (List (RF K × Ival K))
  | _, [] => .ok []
  | visited, (v1, v2) :: es =>
    if v1 ++ v2 ∈ visited ∨ v2 ++ v1 ∈ visited then edgeLoop visited es
    else
      match edgeFn v1 v2 with
      | .error e => .error e
      | .ok o =>
        match edgeLoop ((v1 ++ v2) :: visited) es with
        | .error e => .error e
        | .ok fs => .ok (o.toList ++ fs)

/-- `compute_sup_rho_on_tau(polys, sigma_interval)` (zero_density_estimate.py:242-298). -/
def supRhoOnTau (edges : Mat → List (Pt × Pt)) (solve : RF K → RF K → List K) (isZero : Expr K → Bool) (polys : List Mat)
    (domain : Ival K) : Py (List (Rational.Piece K)) :=
  match edgeLoop [] (polys.flatMap edges) with
  | .error e => .error e
  | .ok fs => .ok (rfMax solve isZero fs domain true)

variable {L : Type}

/-- `r.child`, followed by `get_edges()` (zero_density_energy_estimate.py:281, 285): the child must be a polytope. -/
def childPoly : Region L → Py Mat
  | .polytope m _ => .ok m
  | _ => .error .attributeError

/-- `[childPoly r for r in rs]`. -/
def childPolys : List (Region L) → Py (List Mat)
  | [] => .ok []
  | r :: rs => do
    let m ← childPoly r
    let ms ← childPolys rs
    return m :: ms

/-- `polys = [r.child for r in LV_region.child]` (zero_density_energy_estimate.py:281, zero_density_estimate.py:362, 377, 500, 509). If the
region consists of one polytope, or is a complement, `child` cannot be iterated: `TypeError`. -/
def regionPolys : Region L → Py (List Mat)
  | .union rs => childPolys rs
  | .disjoint rs => childPolys rs
  | .intersect rs => childPolys rs
  | .polytope _ _ => .error .typeError
  | .wrapped _ => .error .typeError
  | .complement _ => .error .typeError

/-- `compute_sup_LV_on_tau(LV_region, sigma_interval)` (zero_density_energy_estimate.py:254-317). (An `AttributeError` of a later child is
raised before the edges of the earlier ones are read; both end the computation.) -/
def supLVOnTau (edges : Mat → List (Pt × Pt)) (solve : RF K → RF K → List K) (isZero : Expr K → Bool) (region : Region L)
    (domain : Ival K) : Py (List (Rational.Piece K)) :=
  match regionPolys region with
  | .error e => .error e
  | .ok polys => supRhoOnTau edges solve isZero polys domain

end SupRatio
end Expdb
