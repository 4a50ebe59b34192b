import Verif.Model.BourgainZD

/-!
# Model of `prime_gap.py` and of `prove_prime_gap2` (derived.py:1002-1028)

A hypothesis with a zero density estimate or a zero density energy estimate is represented by its function and its interval. The
functions are real functions (some estimates of the literature contain a square root, so that `Rational.RF` does not suffice).
`compute_gap2` returns nothing: its result is what it prints, one line for each interval, up to the exception if there is one. The
numbers are exact; the code rounds the printed maximum to a float. The two formulas that are printed after the maximum, the printing
of the estimates at the beginning and the output for `debug=True` are left out.
-/

namespace Expdb
namespace PrimeGap
open Rational (Ival)

/-- A hypothesis in `best_zd` or `best_ze` (prime_gap.py:16-22). -/
structure Pc where
  fn : ℝ → ℝ
  dom : Ival ℝ

/-- The sorted list `crits` (prime_gap.py:25-31). -/
noncomputable def crits (zd ze : List Pc) : List ℝ :=
  List.insertionSort (fun a b => a ≤ b)
    ([1 / 2, 1] ++ zd.map (fun h : Pc => h.dom.x0) ++ zd.map (fun h : Pc => h.dom.x1) ++ ze.map (fun h : Pc => h.dom.x0) ++
      ze.map (fun h : Pc => h.dom.x1)).dedup

/-- `next(h for h in best if h.data.interval.contains(mid))` (prime_gap.py:39-40). -/
noncomputable def pick (ps : List Pc) (mid : ℝ) : Py Pc :=
  match ps.find? (fun h => h.dom.contains mid) with
  | none => .error .stopIteration
  | some h => .ok h

/-- The expression `alpha` (prime_gap.py:47). -/
noncomputable def alpha (A B : ℝ → ℝ) (x : ℝ) : ℝ := 4 * x - 2 + 2 * (B x * (1 - x) - 1) / (B x - A x)

/-- The expression `beta` (prime_gap.py:48). -/
noncomputable def beta (A B : ℝ → ℝ) (x : ℝ) : ℝ := 4 * x - 2 + (B x * (1 - x) - 1) / A x

/-- `float(alpha.subs(x, p))` (prime_gap.py:54). Where the denominator vanishes sympy gives `zoo`, and `float` raises `TypeError`.
(If the numerator vanishes as well sympy may give `nan` or, after a cancellation, a number; this case is not distinguished.) -/
noncomputable def alphaAt (A B : ℝ → ℝ) (p : ℝ) : Py ℝ := if B p - A p = 0 then .error .typeError else .ok (alpha A B p)

/-- `float(beta.subs(x, p))` (prime_gap.py:64); as for `alphaAt`. -/
noncomputable def betaAt (A B : ℝ → ℝ) (p : ℝ) : Py ℝ := if A p = 0 then .error .typeError else .ok (beta A B p)

/-- `statpts` (prime_gap.py:51-53, 61-63); `solve f` are the real solutions that `sympy.solve` finds for `f' = 0`. -/
noncomputable def statpts (solve : (ℝ → ℝ) → List ℝ) (f : ℝ → ℝ) (I : Ival ℝ) : List ℝ :=
  (solve f).filter (fun p => I.contains p) ++ [I.x0, I.x1]

/-- `max(f(p) for p in statpts)` (prime_gap.py:54, 64). -/
noncomputable def maxOver (f : ℝ → Py ℝ) : List ℝ → Py ℝ
  | [] => .error .valueError
  | [p] => f p
  | p :: q :: ps => do
    let a ← f p
    let b ← maxOver f (q :: ps)
    return max a b

/-- The body of the loop (prime_gap.py:36-69): the interval and the maximum that are printed. -/
noncomputable def line (solve : (ℝ → ℝ) → List ℝ) (zd ze : List Pc) (c d : ℝ) : Py (Ival ℝ × ℝ) := do
  let interval := Ival.half c d
  let mid := interval.midpoint
  let zdh ← pick zd mid
  let zeh ← pick ze mid
  let supAlpha ← maxOver (alphaAt zdh.fn zeh.fn) (statpts solve (alpha zdh.fn zeh.fn) interval)
  let supBeta ← maxOver (betaAt zdh.fn zeh.fn) (statpts solve (beta zdh.fn zeh.fn) interval)
  return (interval, max supAlpha supBeta)

/-- The loop (prime_gap.py:35-69): the lines printed, and the exception that ends it. -/
noncomputable def lines (solve : (ℝ → ℝ) → List ℝ) (zd ze : List Pc) : List (ℝ × ℝ) → List (Ival ℝ × ℝ) × Option PyErr
  | [] => ([], none)
  | t :: ts =>
    match line solve zd ze t.1 t.2 with
    | .error e => ([], some e)
    | .ok r => (r :: (lines solve zd ze ts).1, (lines solve zd ze ts).2)

/-- `compute_gap2` (prime_gap.py:11-69) after `best_zd` and `best_ze` were computed. -/
noncomputable def gap2 (solve : (ℝ → ℝ) → List ℝ) (zd ze : List Pc) : List (Ival ℝ × ℝ) × Option PyErr :=
  lines solve zd ze ((crits zd ze).zip (crits zd ze).tail)

/-! ### `prove_prime_gap2` -/

/-- The interval of an entry. -/
noncomputable def real (I : Interval) : Ival ℝ := ⟨I.x0, I.x1, I.incL, I.incU⟩

/-- The estimate of an entry after `_ensure_bound_is_computed` (zero_density_estimate.py:74-77,
zero_density_energy_estimate.py:52-54). -/
noncomputable def parsed (e : LitZD.Entry) : Py Pc := do
  let f ← Formula.parse e.expr
  return ⟨f.eval, real e.dom⟩

/-- All of them. -/
noncomputable def parsedAll : List LitZD.Entry → Py (List Pc)
  | [] => .ok []
  | e :: es => do
    let a ← parsed e
    let rest ← parsedAll es
    return a :: rest

open LitZD in
/-- The new zero density estimates (derived.py:1010-1016) without those of `bourgain_ep_to_zd`. -/
def newZD : Py (List Entry) := seq
  [entry "2/(9*x - 6)".toList (Interval.parse "[17/22, 38/49]".toList),
    entry "9/(8*(2*x - 1))".toList (Interval.parse "[38/49, 4/5]".toList),
    entry "3/(10 * x - 7)".toList (Interval.parse "[701/1000, 1]".toList),
    entry "3/(40 * x - 35)".toList (Interval.parse "[39/40, 40/41)".toList),
    entry "2/(13 * x - 10)".toList (Interval.parse "[40/41, 41/42)".toList)]

open LitZD in
/-- The new energy estimates (derived.py:1019-1025). The two decimal numbers are floats in the code; here they have the value that is
written. -/
def newEnergy : Py (List Entry) := seq
  [entry "5 * (18 - 19 * x) / ((2 * (5 * x + 3)) * (1 - x))".toList
      (itvl (7 / 10) (7255782330963900973348270455 / 10000000000000000000000000000)),
    entry "2 * (45 - 44 * x) / ((2 * x + 15) * (1 - x))".toList
      (itvl (7255782330963900973348270455 / 10000000000000000000000000000) (3 / 4)),
    entry "(197 - 220 * x) / (8 * (5 * x - 1) * (1 - x))".toList (itvl (3 / 4) (289 / 380)),
    entry "3 * (29 - 30 * x) / (5 * (5 * x - 1) * (1 - x))".toList
      (itvl (289 / 380) (7929182893891673924914902646 / 10000000000000000000000000000)),
    entry "(40 - 36 * x) / ((20 * x - 5) * (1 - x))".toList
      (itvl (7929182893891673924914902646 / 10000000000000000000000000000) (5 / 6))]

/-- The zero density estimates of the hypothesis set (derived.py:1004-1016); `bourgain` is the result of `bourgain_ep_to_zd()`. -/
noncomputable def gapZD (bourgain : Py (List (PairZD.Sol ℝ))) : Py (List Pc) := do
  let lit ← LitZD.all
  let new ← newZD
  let b ← bourgain
  let ps ← parsedAll (lit ++ new)
  return ps ++ b.map (fun s => ⟨s.fn.at, s.dom⟩)

/-- The energy estimates of the hypothesis set (derived.py:1007, 1019-1025). -/
noncomputable def gapEnergy : Py (List Pc) := do
  let lit ← LitZD.energy
  let new ← newEnergy
  parsedAll (lit ++ new)

/-- `prove_prime_gap2()` (derived.py:1002-1028). `best` stands for the minimum on `[1/2, 1)` that `best_zero_density_estimate` and
`compute_best_energy_bound` take with `RF.min` (see `Rational.bestEstimate` for the case without roots). -/
noncomputable def provePrimeGap2 (best : List Pc → List Pc) (solve : (ℝ → ℝ) → List ℝ) (bourgain : Py (List (PairZD.Sol ℝ))) :
    Py (List (Ival ℝ × ℝ) × Option PyErr) := do
  let zd ← gapZD bourgain
  let ze ← gapEnergy
  return gap2 solve (best zd) (best ze)

end PrimeGap
end Expdb
