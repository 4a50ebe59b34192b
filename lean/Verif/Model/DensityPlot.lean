import Verif.Model.BourgainZD
import Verif.Model.LiteratureZD

/-!
# Model of the bounds drawn by `zero_density_plot` (visualizations.py:200-246)

The two sets of hypotheses and the minimum that is drawn. The points at which the functions are drawn are floats in the code and rational
numbers here, and the values are exact. The set of hypotheses that are no zero density estimates is left out (they are skipped,
visualizations.py:222). The hypotheses come as a list; the python sets have no fixed order, and the theorems hold for every order. The same
set of hypotheses is used by `compute_best_zero_density` (derived.py:625-632).
-/

namespace Expdb
namespace DensityPlot

open Formula (Fml parse)
open LitZD (Entry)

/-- The value of the formula at `t` is a finite real number: no denominator vanishes and no root of a negative number is taken. In the other
cases sympy gives `zoo`, `nan` or a complex number (library). -/
def Finite : Fml → ℝ → Prop
  | .num _, _ => True
  | .x, _ => True
  | .add a b, t => Finite a t ∧ Finite b t
  | .sub a b, t => Finite a t ∧ Finite b t
  | .mul a b, t => Finite a t ∧ Finite b t
  | .div a b, t => Finite a t ∧ Finite b t ∧ b.eval t ≠ 0
  | .pow a b, t => Finite a t ∧ Finite b t ∧ (0 < a.eval t ∨ a.eval t = 0 ∧ 0 < b.eval t)
  | .neg a, t => Finite a t

/-- The data of a hypothesis: an estimate with a formula, or a piece made by `bourgain_ep_to_zd` (zero_density_estimate.py:709-714). -/
inductive Est
  | text (e : Entry)
  | piece (p : PairZD.Sol ℝ)

/-- `h.data.interval.contains(sigma)` (visualizations.py:223). -/
noncomputable def Est.contains : Est → ℚ → Bool
  | .text e, s => e.dom.contains s
  | .piece p, s => p.dom.contains (s : ℝ)

open Classical in
/-- `h.data.at(sigma)` (visualizations.py:224, zero_density_estimate.py:79-84, functions.py:901-905); `none` is a value for which
`q.is_real and math.isfinite(q)` is false. -/
noncomputable def Est.value : Est → ℚ → Py (Option ℝ)
  | .text e, s => do
    let f ← parse e.expr
    return if Finite f s then some (f.eval s) else none
  | .piece p, s => .ok (if p.fn.den.eval (s : ℝ) = 0 then none else some (p.fn.at s))

/-- The loop of `best_zd_at` (visualizations.py:221-226) with the current `min_`. -/
noncomputable def bestLoop (s : ℚ) : ℝ → List Est → Py ℝ
  | m, [] => .ok m
  | m, h :: hs =>
    if h.contains s then do
      let q ← h.value s
      match q with
      | some v => if m > v then bestLoop s v hs else bestLoop s m hs
      | none => bestLoop s m hs
    else bestLoop s m hs

/-- `best_zd_at(hypotheses, sigma)` (visualizations.py:219-227). -/
noncomputable def bestAt (hs : List Est) (s : ℚ) : Py ℝ := bestLoop s 1000000 hs

open LitZD in
/-- The new estimates (visualizations.py:213-215, derived.py:629-631). -/
def newEntries : Py (List Entry) := seq
  [entry "2/(9*x - 6)".toList (Interval.parse "[17/22, 38/49]".toList),
    entry "9/(8*(2*x - 1))".toList (Interval.parse "[38/49, 4/5]".toList),
    entry "3/(10 * x - 7)".toList (Interval.parse "[701/1000, 1]".toList)]

/-- The zero density estimates of `literature`. -/
noncomputable def litSet : Py (List Est) := do
  let lit ← LitZD.all
  return lit.map Est.text

/-- The set `hs` (visualizations.py:209-216, derived.py:625-632); `bourgain` is the result of `bourgain_ep_to_zd()`. -/
noncomputable def plotSet (bourgain : Py (List (PairZD.Sol ℝ))) : Py (List Est) := do
  let lit ← litSet
  let new ← newEntries
  let b ← bourgain
  return lit ++ new.map Est.text ++ b.map Est.piece

/-- The points (visualizations.py:203, 229-230). -/
def point (i : ℕ) : ℚ := 1 / 2 + 1 / 2 * i / 500

/-- The bound under the Lindelöf hypothesis (visualizations.py:234). -/
def lindelof (s : ℚ) : ℚ := if s ≤ 3 / 4 then 2 else 0

end DensityPlot
end Expdb
