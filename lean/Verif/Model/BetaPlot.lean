import Verif.Model.Plots
import Verif.Model.LiteratureBeta

/-!
# Model of the plots of bounds on beta

`van_der_corput_plot`, `van_der_corput_plot2` and `beta_bound_plot` (visualizations.py:30-142) and `display_beta_bounds`
(bound_beta.py:166-186). A curve is the list of the points handed to `plt.plot`. As in `Model/Plots`, the floats of
`numpy.linspace` are exact rational numbers here; labels, colours and limits of the axes are left out, and of the text that is
printed only the last line of `beta_bound_plot` is kept.
-/

namespace Expdb
namespace BetaPlot

/-- `numpy.linspace(a, b, n)`, used with `n > 1` (visualizations.py:31,72,73,107). -/
def linspace (a b : ℚ) (n : ℕ) : List ℚ := (List.range n).map (fun (i : ℕ) => a + (i : ℚ) * ((b - a) / ((n : ℚ) - 1)))

/-- The points of `plt.plot(xs, [f(x) for x in xs])`. -/
def curve (f : ℚ → ℚ) (xs : List ℚ) : List (ℚ × ℚ) := xs.map (fun x => (x, f x))

/-- The curves of `van_der_corput_plot` (visualizations.py:30-68). -/
def vanDerCorputPlot : List (List (ℚ × ℚ)) :=
  let xs := linspace 0 1 500
  [curve (Plots.vanDerCorput 2) xs, curve (Plots.vanDerCorput 3) xs, curve (Plots.vanDerCorput 4) xs, curve (Plots.vanDerCorput 5) xs,
    curve Plots.optimized xs, curve (fun alpha => alpha / 2) xs]

/-- The curves of `van_der_corput_plot2` (visualizations.py:71-96). -/
def vanDerCorputPlot2 : List (List (ℚ × ℚ)) :=
  let xs := linspace 0 1 500
  let full := linspace 0 2 1000
  [curve Plots.optimized full, curve (fun alpha => alpha) xs, curve Plots.conjectured full]

/-- `min` of a sequence of numbers; an empty sequence raises `ValueError`. -/
def pyMin : List ℚ → Py ℚ
  | [] => .error .valueError
  | a :: l => .ok (l.foldl min a)

/-- `b.data.bound.at(alpha)` as an operand of `min`: numbers and `None` cannot be compared (functions.py:172-175). -/
def valueAt (b : Beta.Best) (alpha : ℚ) : Py ℚ :=
  match b.bound.at alpha with
  | some v => .ok v
  | none => .error .typeError

/-- `min(b.data.bound.at(alpha) for b in best_beta_bounds if b.data.bound.domain.contains(alpha))` (visualizations.py:112-116 and
137-141). -/
def minAt (best : List Beta.Best) (alpha : ℚ) : Py ℚ := do
  let vals ← (best.filter (fun b => b.bound.dom.contains alpha)).mapM (fun b => valueAt b alpha)
  pyMin vals

/-- `beta_bound_plot()` (visualizations.py:99-142), given the bounds of the set in the order in which they are listed: the two curves
and the number that is printed last. -/
def betaBoundPlot (hyps : List Beta.Hyp) : Py (List (ℚ × ℚ) × List (ℚ × ℚ) × ℚ) := do
  let best ← Beta.computeBest hyps ⟨0, 1 / 2, true, true⟩
  let xs := linspace 0 (1 / 2) 500
  let c ← xs.mapM (fun alpha => do
    let v ← minAt best alpha
    return (alpha, v))
  let last ← minAt best 0
  return (c, curve Plots.optimized xs, last)

/-- The segments drawn by `display_beta_bounds(hypotheses)` (bound_beta.py:166-186): for every bound its two end points, with the values
there even when they do not belong to the domain. -/
def displaySegments (hyps : List Beta.Best) : List ((ℚ × ℚ) × (ℚ × ℚ)) :=
  hyps.map (fun h => ((h.bound.dom.x0, h.bound.ev h.bound.dom.x0), (h.bound.dom.x1, h.bound.ev h.bound.dom.x1)))

end BetaPlot
end Expdb
