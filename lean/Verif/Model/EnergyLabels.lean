import Verif.Model.Basic

/-!
# Model of the types of the hypotheses made in `additive_energy.py`

The hypotheses about large value patterns, with their types (`hypothesis_type`). Names, proofs, dates and dependencies are left out. The regions are values of
a type `R`; the operations on regions (`region.py`) are parameters, see `Model/Region.lean`, `Model/LargeValues.lean` and `Model/ZeroDensity.lean` for these.
-/

namespace Expdb
namespace Labels

/-- `hypothesis.data`: an object with a region (large_values.py:39-43, additive_energy.py:20-23, 35-39), or the transform that raises to the power `k`
(additive_energy.py:167-187). -/
inductive Obj (R : Type)
  | region (r : R)
  | power (k : ℕ)

/-- A hypothesis (hypotheses.py:43-51): its type and its data. -/
structure Hyp (R : Type) where
  htype : String
  data : Obj R

variable {R : Type}

/-- `hypothesis.data.region`. -/
def Hyp.region (h : Hyp R) : Py R :=
  match h.data with
  | .region r => .ok r
  | .power _ => .error .attributeError

/-- `derived_large_value_energy_region` (additive_energy.py:102-112). -/
def derivedLver (r : R) : Hyp R := ⟨"Large value energy region", .region r⟩

/-- `derived_zeta_large_value_energy_region` (additive_energy.py:114-124). -/
def derivedZetaLver (r : R) : Hyp R := ⟨"Zeta large value energy region", .region r⟩

/-- `derived_additive_energy_estimate` (additive_energy.py:126-163), which does not use its parameter `zeta`. -/
def derivedEnergy (r : R) (_zeta : Bool) : Hyp R := ⟨"Additive energy estimate", .region r⟩

/-- `derived_bound_LV` (large_values.py:124-134). -/
def derivedLV (r : R) : Hyp R := ⟨"Large value estimate", .region r⟩

/-- `derived_bound_zeta_LV` (zeta_large_values.py:48-58). -/
def derivedZetaLV (r : R) : Hyp R := ⟨"Zeta large value estimate", .region r⟩

/-- `get_raise_to_power_hypothesis(k)` (additive_energy.py:167-187). -/
def raiseToPower (k : ℕ) : Hyp R := ⟨"Large value energy region transform", .power k⟩

/-- `hypotheses.list_hypotheses(hypothesis_type=t)` (hypotheses.py:189-195), in the order of the list. -/
def listOf (t : String) (hs : List (Hyp R)) : List (Hyp R) := hs.filter (fun h => h.htype = t)

/-- `tf.data.transform(lver)` (additive_energy.py:172-178); `scale k` is `scale_all([1, k, k, k, k])`. -/
def applyTf (scale : ℕ → R → Py R) (tf h : Hyp R) : Py (Hyp R) :=
  match tf.data with
  | .region _ => .error .attributeError
  | .power k => do
    let r ← h.region
    let s ← scale k r
    return derivedLver s

/-- The loops over the transforms and the regions (additive_energy.py:200-201, 330). -/
def transformAll (scale : ℕ → R → Py R) (hs : List (Hyp R)) : Py (List (Hyp R)) := do
  let l ← (listOf "Large value energy region transform" hs).mapM (fun tf => (listOf "Large value energy region" hs).mapM (applyTf scale tf))
  return l.flatten

/-- `expand_lver(hypotheses)` (additive_energy.py:189-201). -/
def expandLver (scale : ℕ → R → Py R) (hs : List (Hyp R)) : Py (List (Hyp R)) := do
  let new ← transformAll scale hs
  return hs ++ new

/-- `lv_to_lver(hypotheses, zeta)` (additive_energy.py:243-294); `lift` adds the coordinates `rho*` and `s`. -/
def lvToLver (lift : R → Py R) (zeta : Bool) (hs : List (Hyp R)) : Py (List (Hyp R)) :=
  (listOf (if zeta then "Zeta large value estimate" else "Large value estimate") hs).mapM (fun h => do
    let r ← h.region
    let s ← lift r
    return if zeta then derivedZetaLver s else derivedLver s)

/-- `compute_best_lver(hypotheses, sigma_tau_domain, zeta)` (additive_energy.py:296-366); `domain` is the lifted domain, `inter` the intersection, as a disjoint
union. -/
def bestLver (scale : ℕ → R → Py R) (inter : List R → Py R) (domain : R) (zeta : Bool) (hs : List (Hyp R)) : Py (Hyp R) := do
  let new ← transformAll scale hs
  let lvers := listOf "Large value energy region" hs ++ new ++ (if zeta then listOf "Zeta large value energy region" hs else [])
  let rs ← lvers.mapM Hyp.region
  let E ← inter (domain :: rs)
  return if zeta then derivedZetaLver E else derivedLver E

/-- `lver_to_lv(hypothesis)` (additive_energy.py:369-415); `proj dims` is `as_disjoint_union` followed by the projection, which is `None` if it is empty. -/
def lverToLv (proj : List ℕ → R → Py (Option R)) (h : Hyp R) : Py (Hyp R) :=
  if h.htype ≠ "Large value energy region" ∧ h.htype ≠ "Zeta large value energy region" then .error .valueError
  else do
    let r ← h.region
    match ← proj [0, 1, 2] r with
    | none => .error .attributeError
    | some p => return if h.htype = "Large value energy region" then derivedLV p else derivedZetaLV p

/-- `lver_to_energy(hypothesis)` (additive_energy.py:417-462). The variable `zeta` (additive_energy.py:456) is computed but not passed on, so that the default
`False` is used. -/
def lverToEnergy (proj : List ℕ → R → Py (Option R)) (h : Hyp R) : Py (Option (Hyp R)) :=
  if h.htype ≠ "Large value energy region" ∧ h.htype ≠ "Zeta large value energy region" then .error .valueError
  else do
    let r ← h.region
    match ← proj [0, 1, 3] r with
    | none => return none
    | some p => return some (derivedEnergy p false)

end Labels
end Expdb
