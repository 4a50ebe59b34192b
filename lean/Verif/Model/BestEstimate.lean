import Verif.Model.Rational

/-!
# Model of `best_zero_density_estimate` and `compute_best_energy_bound`

The estimates of the hypothesis set carry their bound as a rational function (`_ensure_bound_is_computed` parses it
with sympy; left out). Printing and plotting (`verbose`) are left out. References are represented by numbers.
-/

namespace Expdb
namespace Rational

/-- A hypothesis whose data is a `Zero_Density_Estimate` or a `Zero_Density_Energy_Estimate` (zero_density_estimate.py:25-99,
zero_density_energy_estimate.py:25-80; hypotheses.py:25-46). `reference = none` is `Reference.trivial()`. -/
structure Est (K : Type) where
  name : String
  kind : String
  fn : RF K
  dom : Ival K
  proof : String
  reference : Option ℕ
  deps : List ℕ
  deriving DecidableEq

variable {K : Type} [Field K] [LinearOrder K]

/-- One element of the result (zero_density_estimate.py:772-788, zero_density_energy_estimate.py:343-359): the data is
new, name, type, proof and reference are copied, and the dependencies of a new hypothesis are empty. -/
def packOne (hs : List (Est K)) (p : Piece K) : Py (Est K) :=
  if p.ref < 0 then
    .ok ⟨"Placeholder zero density estimate", "Zero density estimate", p.fn, p.dom, "Placeholder zero density estimate", none, []⟩
  else match hs[p.ref.toNat]? with
    | none => .error .indexError
    | some h => .ok ⟨h.name, h.kind, p.fn, p.dom, h.proof, h.reference, []⟩

/-- The loop that packs the pieces (zero_density_estimate.py:771-788, zero_density_energy_estimate.py:342-359). -/
def pack (hs : List (Est K)) : List (Piece K) → Py (List (Est K))
  | [] => .ok []
  | p :: ps => do
    let h ← packOne hs p
    let rest ← pack hs ps
    return h :: rest

/-- The common part of both functions: the estimates of the given type, their minimum on `[1/2, 1)`, packed. -/
def bestEstimate (kind : String) (solve : RF K → RF K → List K) (isZero : Expr K → Bool) (H : List (Est K)) : Py (List (Est K)) :=
  let hs := H.filter (fun h => h.kind == kind)
  pack hs (rfMin solve isZero (hs.map (fun h => (h.fn, h.dom))) (Ival.half (1 / 2) 1) true)

/-- `best_zero_density_estimate(hypotheses)` (zero_density_estimate.py:760-788). -/
def bestZeroDensity (solve : RF K → RF K → List K) (isZero : Expr K → Bool) (H : List (Est K)) : Py (List (Est K)) :=
  bestEstimate "Zero density estimate" solve isZero H

/-- `compute_best_energy_bound(hypotheses)` (zero_density_energy_estimate.py:319-360). -/
def bestEnergyBound (solve : RF K → RF K → List K) (isZero : Expr K → Bool) (H : List (Est K)) : Py (List (Est K)) :=
  bestEstimate "Zero density energy estimate" solve isZero H

end Rational
end Expdb
