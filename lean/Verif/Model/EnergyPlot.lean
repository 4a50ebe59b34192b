import Verif.Model.Formula

/-!
# Model of the bounds drawn by `zero_density_energy_plot` (visualizations.py:250-318)

The list of new estimates, which is written into the function, and the minimum that is drawn. The decimal numbers of the code (floats) are
exact rational numbers here, and the points at which the functions are drawn are rational. The minimum of the literature and of the
trivial estimates are parameters (they are treated in C95 and with the literature).
-/

namespace Expdb
namespace EnergyPlot

open Printing (Str)
open Formula (Fml parse)

/-- A row of the list: the text of the function and the interval. -/
structure Row where
  expr : Str
  lo : ℚ
  hi : ℚ

/-- `energy_estimates` (visualizations.py:259-274). -/
def table : List Row :=
  [⟨"1000000".toList, 1 / 2, 1⟩,
   ⟨"5 * (18 - 19 * x) / (2 * (5 * x + 3) * (1 - x))".toList, 7 / 10, 1451 / 2000⟩,
   ⟨"2 * (45 - 44 * x) / ((2 * x + 15) * (1 - x))".toList, 1451 / 2000, 3 / 4⟩,
   ⟨"(197 - 220 * x) / (8 * (5 * x - 1) * (1 - x))".toList, 3 / 4, 25 / 33⟩,
   ⟨"(110 * x - 53) / (16 * (85 * x - 63) * (1 - x))".toList, 25 / 33, 3039 / 4010⟩,
   ⟨"(570 * x - 413) / (10 * (85 * x - 63) * (1 - x))".toList, 3039 / 4010, 254 / 335⟩,
   ⟨"(66 - 83 * x) / ((69 * x - 50) * (1 - x))".toList, 254 / 335, 758233 / 1000000⟩,
   ⟨"5 * (18 - 19 * x) / (2 * (5 * x + 3) * (1 - x))".toList, 758233 / 1000000, 42 / 55⟩,
   ⟨"(18 - 19 * x) / (6 * (15 * x - 11) * (1 - x))".toList, 42 / 55, 97 / 127⟩,
   ⟨"3 * (18 - 19 * x) / (4 * (4 * x - 1) * (1 - x))".toList, 97 / 127, 79 / 103⟩,
   ⟨"(18 - 19 * x) / (2 * (37 * x - 27) * (1 - x))".toList, 79 / 103, 33 / 43⟩,
   ⟨"5 * (18 - 19 * x) / (2 * (13 * x - 3) * (1 - x))".toList, 33 / 43, 84 / 109⟩,
   ⟨"(18 - 19 * x) / (9 * (3 * x - 2) * (1 - x))".toList, 33 / 43, 7721 / 10000⟩,
   ⟨"4 * (10 - 9 * x) / (5 * (4 * x - 1) * (1 - x))".toList, 7721 / 10000, 5 / 6⟩]

/-- The values of the generator `bound.at(sigma) for (bound, interval) in energy_estimates if interval.contains(sigma)`
(visualizations.py:296-300). The texts are parsed when the list is made, before anything is drawn; the intervals include the lower and not
the upper end. -/
noncomputable def valuesAt (s : ℚ) : List Row → Py (List ℝ)
  | [] => .ok []
  | r :: rs => do
    let f ← parse r.expr
    let rest ← valuesAt s rs
    if (⟨r.lo, r.hi, true, false⟩ : Interval).contains s then return f.eval s :: rest else return rest

/-- `min` of a sequence (python library): `ValueError` if it is empty. -/
noncomputable def pyMin : List ℝ → Py ℝ
  | [] => .error .valueError
  | v :: vs => .ok (vs.foldl min v)

/-- `best` (visualizations.py:296-300). -/
noncomputable def newBound (s : ℚ) : Py ℝ := do pyMin (← valuesAt s table)

/-- `min(best, lit, trivial)` (visualizations.py:301). -/
noncomputable def drawn (lit trivial : ℝ) (s : ℚ) : Py ℝ := do
  let best ← newBound s
  return min (min best lit) trivial

/-- The line of the Lindelöf hypothesis (visualizations.py:303-306). -/
def lindelof (s : ℚ) : ℚ := if s > 3 / 4 then 0 else 8 - 4 * s

end EnergyPlot
end Expdb
