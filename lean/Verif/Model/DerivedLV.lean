import Verif.Model.Literature
import Verif.Model.ZeroDensity
import Verif.Model.Printing

/-!
# Model of the derivation of the Guth--Maynard large values theorem in `derived.py` (`prove_guth_maynard_large_values_theorem`)

`find_hypothesis` is represented by the regions of the hypotheses which it finds: its keywords are names of hypotheses of the
literature and match no other name. `order` is the order in which the (python) set of hypotheses lists the regions. The progress output
of `compute_best_lver` is left out; the text printed by the function itself is the result.
-/

namespace Expdb
namespace DerivedLV

variable (eng : Engine) (hrep : List Pt → Mat) (order : List (Region ℕ) → List (Region ℕ))

/-- The three hypotheses (derived.py:239-242). -/
def regions (canon : Mat → Mat) : Py (List (Region ℕ)) := do
  let a ← Literature.lverGM1 canon 2
  let b ← Literature.lverGM2 canon
  let c ← Literature.lverGM3 canon
  return [a, b, c]

/-- `ad.compute_best_lver(hypotheses, …, zeta=False)` and `ad.lver_to_lv` (derived.py:244-253). -/
def projected : Py (Region ℕ) := do
  let rs ← regions eng.canon
  let d ← Mat.rect [(1 / 2, 1), (0, LargeValues.lvLimit)]
  let E ← LargeValues.bestLver eng (order rs) [] false [] (.polytope d none)
  ZeroDensity.lverToLv eng hrep E

/-- `domain` (derived.py:259-261). -/
def domain : Py Mat := Mat.ofConstraints [LargeValues.rowOf [-(7 / 10), 1, 0], LargeValues.rowOf [8 / 10, -1, 0]]

/-- `for r in region.child` (derived.py:262): a `Polytope` cannot be iterated. -/
def childList : Region ℕ → Py (List (Region ℕ))
  | .union rs => .ok rs
  | .disjoint rs => .ok rs
  | .intersect rs => .ok rs
  | _ => .error .typeError

/-- `r.child.intersect(domain)` for one child (derived.py:262); only polytopes have this method. -/
def clipOne (dom : Mat) : Region ℕ → Py Mat
  | .polytope m _ => Mat.intersect eng.canon m dom
  | _ => .error .attributeError

/-- `[Region.from_polytope(r.child.intersect(domain)) for r in region.child]` (derived.py:262): the polytopes. -/
def clip (dom : Mat) : List (Region ℕ) → Py (List Mat)
  | [] => .ok []
  | r :: rs => do
    let m ← clipOne eng dom r
    let ms ← clip dom rs
    return m :: ms

/-- The polytope `poly`, or `None` (derived.py:239-266). -/
def guthMaynard : Py (Option Mat) := do
  let region ← projected eng hrep order
  let region ← region.substitute [(1, 6 / 5)]
  let dom ← domain
  let ms ← clip eng dom (← childList region)
  Mat.tryUnion eng.canon eng.lp eng.verts (ms.filter (fun m => !Mat.isEmptyExcl eng.lp m))

/-- `prove_guth_maynard_large_values_theorem()` (derived.py:234-268): the text printed. `None` has no method `to_str`. -/
def proveGuthMaynard : Py Printing.Str := do
  match ← guthMaynard eng hrep order with
  | none => .error .attributeError
  | some poly => return "Proved feasible region for (σ, τ, ρ): ".toList ++ (← Printing.polytopeToStr (Printing.names "στρ") poly)

end DerivedLV
end Expdb
