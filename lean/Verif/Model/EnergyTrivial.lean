import Verif.Model.LiteratureZD

/-!
# Model of `add_trivial_zero_density_energy_estimates` of `zero_density_energy_estimate.py`

An estimate is its string, its interval and the function object once it has been computed. The object (a
`RationalFunction` of sympy) is represented by a parsed expression. The names and references of the
hypotheses are left out.
-/

namespace Expdb
namespace EnergyTrivial
open Printing (Str)
open Formula (Fml parse)
open LitZD (Entry itvl)

/-- A `Zero_Density_Estimate` or `Zero_Density_Energy_Estimate` (zero_density_estimate.py:65-69,
zero_density_energy_estimate.py:28-45). -/
structure Est where
  expr : Str
  dom : Interval
  bound : Option Fml
  deriving DecidableEq

/-- The constructor (zero_density_estimate.py:52-69, zero_density_energy_estimate.py:28-45): the string is parsed later. -/
def Est.new (expr : Str) (dom : Interval) : Est := ⟨expr, dom, none⟩

/-- `from_rational_func(rf, interval)` (zero_density_estimate.py:92-98); `str(rf)`, the LaTeX text made by sympy (functions.py:768-769),
is a parameter. -/
def Est.fromRational (str : Fml → Str) (rf : Fml) (dom : Interval) : Est := ⟨str rf, dom, some rf⟩

/-- `_ensure_bound_is_computed()` (zero_density_energy_estimate.py:50-52): the function that is used. -/
def Est.function (e : Est) : Py Fml :=
  match e.bound with
  | some f => .ok f
  | none => parse e.expr

/-- `at(sigma)` (zero_density_energy_estimate.py:55-60). -/
noncomputable def Est.at (e : Est) (s : ℚ) : Py ℝ :=
  if e.dom.contains s then
    match e.function with
    | .error x => .error x
    | .ok f => .ok (f.eval s)
  else .error .valueError

/-- `f"3 * ({expr})"` (zero_density_energy_estimate.py:160). -/
def tripled (expr : Str) : Str := "3 * (".toList ++ expr ++ ")".toList

/-- `add_trivial_zero_density_energy_estimates(hypotheses)` (zero_density_energy_estimate.py:148-171): the estimates added for
the zero density estimates of the set, in order. -/
def addTrivial (zdes : List Est) : Py (List Est) := do
  let last ← itvl (1 / 2) 1
  return zdes.map (fun z => Est.new (tripled z.expr) z.dom) ++ [Est.new "3 / (1 - x)".toList last]

end EnergyTrivial
end Expdb
