import Verif.Model.LargeValues
import Verif.Model.Affine

/-!
# Model of the tables and regions of `literature.py`

The hypotheses are represented by their data (a region, a list of pieces, a pair of numbers). Names, references and the set
`literature` itself are left out.
-/

namespace Expdb
namespace Literature

open LargeValues

variable {L : Type}

/-! ### Large value estimates (literature.py:716-849) -/

/-- The bounds in `add_huxley_large_values_estimate` (literature.py:717-720). -/
def huxley : List (List ℚ) := [[2, -2, 0], [4, -6, 1]]

/-- The bounds in `add_heath_brown_large_values_estimate` (literature.py:723-728). -/
def heathBrown : List (List ℚ) := [[2, -2, 0], [10, -13, 1]]

/-- The bounds in `add_jutila_large_values_estimate` for one `k ≥ 1` (literature.py:732-740). -/
def jutila (k : ℕ) : List (List ℚ) :=
  [[2, -2, 0], [4 - 2 / (k : ℚ), -(6 - 2 / (k : ℚ)), 1], [6 * (k : ℚ), -8 * (k : ℚ), 1]]

/-- The bounds in `add_guth_maynard_large_values_estimate` (literature.py:832-837). -/
def guthMaynard : List (List ℚ) := [[2, -2, 0], [18 / 5, -4, 0], [12 / 5, -4, 1]]

/-- The bound of the zeta large value estimate (literature.py:847-849), made by `literature_bound_ZLV_Max`
(zeta_large_values.py:37-45), which keeps the region of `literature_bound_LV_max`. -/
def heathBrownTwelfth : List (List ℚ) := [[6, -12, 2]]

/-- The polytopes `polys[1:]` in `add_bourgain_large_values_estimate` (literature.py:753-812). -/
def bourgainPolys : List (List (List ℚ)) :=
  [[[16 / 3, -(20 / 3), 1 / 3, -1], [0, 0, 0, 1], [10, -14, 1, 0], [-1, 0, 1, 0], [4, 4, -5, 0], [-11, 16, -1, 0]],
   [[5, -7, 3 / 4, -1], [0, 0, 0, 1], [8, -8, -1, 0], [-16, 20, 1 / 3, 0], [-6, 10, -(7 / 6), 0], [-4, -4, 5, 0]],
   [[3, -5, 1, -1], [0, 0, 0, 1], [-8, 8, 1, 0], [2, -6, 2, 0], [-10, 14, -(2 / 3), 0], [6, -2, -2, 0]],
   [[0, -4, 2, -1], [0, 0, 0, 1], [-6, 2, 2, 0], [-12, 12, 1, 0], [tauLimit, 0, -1, 0], [1, -1, 0, 0]],
   [[8, -12, 4 / 3, 0], [0, 0, 0, 1], [-(1 / 2), 1, 0, 0], [15, -21, 1, 0], [12, -12, -1, 0], [-(3 / 2), 0, 1, 0],
    [6, -10, 7 / 6, 0]],
   [[2, -2, 0, -1], [0, 0, 0, 1], [1, -1, 0, 0], [-(1 / 2), 1, 0, 0], [-10, 14, -1, 0], [-1, 0, 1, 0], [tauLimit, 0, -1, 0],
    [-2, 6, -2, 0]],
   [[9, -12, 2 / 3, -1], [0, 0, 0, 1], [3 / 2, 0, -1, 0], [-(1 / 2), 1, 0, 0], [-1, 0, 1, 0], [11, -16, 1, 0],
    [16, -20, -(1 / 3), 0]]]

/-- The region in `add_bourgain_large_values_estimate` (literature.py:744-818): the rectangle `τ ≤ 1` and the polytopes of the
table, as a disjoint union. -/
def bourgainRegion : Py (Region L) := do
  let rect ← Mat.rect [(1 / 2, 1), (0, 1), (0, lvLimit)]
  let rs ← polyRegions bourgainPolys
  return .disjoint (.polytope rect none :: rs)

/-! ### Large value energy regions (literature.py:855-1093) -/

/-- `region.child.append(Region(Region_Type.POLYTOPE, Polytope(rect)))` (literature.py:888, 956, 1056, 1081, 1085) on a region
made by `from_union_of_halfplanes`; a region whose child is not a list does not have `append`. -/
def appendChild (rect : List Row) (region : Region L) : Py (Region L) := do
  let m ← Mat.ofConstraints rect
  match region with
  | .disjoint rs => return .disjoint (rs ++ [.polytope m none])
  | .union rs => return .union (rs ++ [.polytope m none])
  | .intersect rs => return .intersect (rs ++ [.polytope m none])
  | _ => .error .attributeError

/-- The region in `add_lver_heath_brown_1979` (literature.py:855-863). -/
def lverHB1 (canon : Mat → Mat) : Py (Region L) :=
  Region.fromHalfplanes canon ([[2, 0, 0, 1, 0, -1], [1, 0, 0, 2, 0, -1], [1, 0, 1 / 2, 5 / 4, 0, -1]].map rowOf) energyBox

/-- The region in `add_lver_ivic_1985` (literature.py:874-888). -/
def lverIvic (canon : Mat → Mat) : Py (Region L) := do
  let region ← Region.fromHalfplanes canon ([[2, 0, 0, 1, 0, -1], [1, 0, 0, 2, 0, -1]].map rowOf)
    (energyBox ++ [rowOf [1, 0, -1, 0, 0, 0]])
  appendChild (energyBox ++ [rowOf [-1, 0, 1, 0, 0, 0]]) region

/-- The region in `add_lver_heath_brown_1979b1` (literature.py:899-930). -/
def lverHB2a (canon : Mat → Mat) : Py (Region L) :=
  Region.fromHalfplanes canon ([[2, -2, 0, 1 / 2, -(1 / 2), 0], [3 / 2, -2, 0, 1, -(1 / 2), 0],
    [3 / 2, -2, 1 / 4, 5 / 8, -(1 / 2), 0], [3 / 2, -2, 0, 5 / 2, -1, 0], [1, -2, 0, 3, -1, 0], [1, -2, 1 / 4, 21 / 8, -1, 0],
    [3 / 2, -2, 1 / 4, 1, -(5 / 8), 0], [1, -2, 1 / 4, 3 / 2, -(5 / 8), 0], [1, -2, 1 / 2, 9 / 8, -(5 / 8), 0]].map rowOf)
    energyBox

/-- The region in `add_lver_heath_brown_1979b2` (literature.py:941-956). -/
def lverHB2b (canon : Mat → Mat) : Py (Region L) := do
  let region ← Region.fromHalfplanes canon
    ([[1, -2, 0, 3, -1, 0], [4, -4, 0, 1, -1, 0], [3 / 2, -2, 0, 5 / 2, -1, 0]].map rowOf)
    (energyBox ++ [rowOf [3 / 2, 0, -1, 0, 0, 0]])
  appendChild (energyBox ++ [rowOf [-(3 / 2), 0, 1, 0, 0, 0]]) region

/-- The region in `add_lver_heath_brown_1979c` for one `k` (literature.py:968-978). -/
def lverHB3 (canon : Mat → Mat) (k : ℕ) : Py (Region L) :=
  Region.fromHalfplanes canon ([[2, -2, 0, -1, 0, 0], [3 * (k : ℚ) / 4, -(k : ℚ), 1 / 4, -1, 1 / 4, 0],
    [(k : ℚ) / 2, -(k : ℚ), (k : ℚ) / 4, -1, 1 / 4, 0]].map rowOf) energyBox

/-- The list `common` in `add_lver_guth_maynard_2024a` (literature.py:993-1012). -/
def gmCommon (k : ℕ) : List (List ℚ) :=
  [[2, -2, 0, -1, 0, 0], [-(7 / 3), -2, 0, -1, 0, 0], [5, -6, 0, -1, 0, 0], [4, -6, 1, -(((k : ℚ) + 1) / k), 0, 0],
    [5 / 3, -2, 1 / (6 * (k : ℚ)), -(1 / 3) - 1 / (4 * (k : ℚ)), 0, 0]]

/-- The region in `add_lver_guth_maynard_2024a` for one `k` (literature.py:988-1036). -/
def lverGM1 (canon : Mat → Mat) (k : ℕ) : Py (Region L) := do
  let reg1 ← Region.fromHalfplanes canon ((gmCommon k ++ [[1, -2, 2 / 3, 1 / 6, -(5 / 6), 0]]).map rowOf) energyBox
  let reg2 ← Region.fromHalfplanes canon
    ((gmCommon k ++ [[1, -2, 2 / 3, -(1 / 2), 0, 0], [4 / 3, -2, 1 / 3, -(5 / 6), 1 / 6, 0]]).map rowOf) energyBox
  return .intersect [reg1, reg2]

/-- The region in `add_lver_guth_maynard_2024b` (literature.py:1040-1056). -/
def lverGM2 (canon : Mat → Mat) : Py (Region L) := do
  let region ← Region.fromHalfplanes canon ([[1, -2, 0, 3, -1, 0], [2, -2, 0, 2, -1, 0]].map rowOf)
    (energyBox ++ [rowOf [3 / 2, 0, -1, 0, 0, 0]])
  appendChild (energyBox ++ [rowOf [-(3 / 2), 0, 1, 0, 0, 0]]) region

/-- The region in `add_lver_guth_maynard_2024c` (literature.py:1067-1085). -/
def lverGM3 (canon : Mat → Mat) : Py (Region L) := do
  let region ← Region.fromHalfplanes canon
    ([[4, -4, 0, 1, -1, 0], [1, -2, 1 / 4, 21 / 8, -1, 0], [1, -2, 0, 3, -1, 0]].map rowOf)
    (energyBox ++ [rowOf [4 / 3, 0, -1, 0, 0, 0], rowOf [-1, 0, 1, 0, 0, 0]])
  let region ← appendChild (energyBox ++ [rowOf [-(4 / 3), 0, 1, 0, 0, 0]]) region
  appendChild (energyBox ++ [rowOf [1, 0, -1, 0, 0, 0]]) region

end Literature
end Expdb
