import Verif.Model.Formula

/-!
# Model of the zero density estimates in `literature.py` (lines 1097–1394)

A hypothesis is represented by the string and the interval that are passed to `add_zero_density` or to
`literature_zero_density_energy_estimate`; names and references are left out. The decimal string of `frac("0.80119")` is written as a
fraction.
-/

namespace Expdb
namespace LitZD
open Printing (Str)

/-- `Zero_Density_Estimate(expr, interval)` (zero_density_estimate.py:65-69): the string is parsed later. -/
structure Entry where
  expr : Str
  dom : Interval
  deriving DecidableEq

/-- `Itvl(x0, x1)`: closed on the left, open on the right (functions.py:28). -/
def itvl (x0 x1 : ℚ) : Py Interval := Interval.make x0 x1 true false

/-- `zd.add_zero_density(literature, expr, interval, ref)` (zero_density_estimate.py:114-144). -/
def entry (expr : Str) (I : Py Interval) : Py Entry := do
  let d ← I
  return ⟨expr, d⟩

/-- The calls one after the other. -/
def seq : List (Py Entry) → Py (List Entry)
  | [] => .ok []
  | e :: es => do
    let a ← e
    let rest ← seq es
    return a :: rest

/-- `Constants.ZERO_DENSITY_SIGMA_LIMIT` (constants.py:27). -/
def sigmaLimit : ℚ := 999 / 1000

/-- The entries before the loop of `add_zero_density_ivic_1984` (literature.py:1101-1245). -/
def before : List (Py Entry) :=
  [entry "4*x".toList (itvl (1 / 2) 1),
    entry "3/(2 - x)".toList (itvl (1 / 2) 1),
    entry "1600 * (1 - x) ** (1/2)".toList (itvl (1 / 2) 1),
    entry "3/(3 * x - 1)".toList (itvl (1 / 2) 1),
    entry "39/(115 * x - 75)".toList (itvl (55 / 67) (189 / 230)),
    entry "2".toList (itvl (189 / 230) (75 / 89)),
    entry "48/(37 * (2 * x - 1))".toList (itvl (61 / 74) (75 / 89)),
    entry "3/(2 * x)".toList (itvl (37 / 42) 1),
    entry "48/(37 * (2 * x - 1))".toList (itvl (61 / 74) (37 / 42)),
    entry "2".toList (itvl (80119 / 100000) 1),
    entry "2".toList (itvl (4 / 5) 1),
    entry "4/(4 * x - 1)".toList (Interval.parse "[25/28, 1]".toList),
    entry "3/(10 * x - 7)".toList (Interval.parse "[3/4, 25/28)".toList),
    entry "9/(7 * x - 1)".toList (Interval.parse "[11/14, 1)".toList),
    entry "6/(5 * x - 1)".toList (itvl (67 / 87) 1),
    entry "3/(34 * x - 25)".toList (itvl (28 / 37) (74 / 95)),
    entry "9/(7 * x - 1)".toList (itvl (74 / 95) 1),
    entry "3/(2 * x)".toList (itvl (4 / 5) 1),
    entry "68/(98 * x - 47)".toList (itvl (115 / 166) 1),
    entry "3/(2 * x)".toList (itvl (3831 / 4791) 1),
    entry "2".toList (itvl (11 / 14) 1),
    entry "9/(7 * x - 1)".toList (itvl (41 / 53) 1),
    entry "6/(5 * x - 1)".toList (itvl (13 / 17) 1),
    entry "4/(2 * x + 1)".toList (itvl (17 / 18) 1),
    entry "24/(30 * x - 11)".toList (itvl (155 / 174) 1),
    entry "(3/2 - x) / (1 - x)".toList (itvl (155 / 174) 1),
    entry "3/(7 * x - 4)".toList (itvl (3 / 4) (10 / 13)),
    entry "9/(8 * x - 2)".toList (itvl (10 / 13) 1),
    entry "15/(22 * x - 10)".toList (itvl (10 / 13) (5 / 6))]

/-- The lower limit on sigma for the number `k` (literature.py:1256-1262). -/
def ivicLower (k : ℕ) : ℚ :=
  if k = 3 then 41 / 53
  else min ((6 * (k : ℚ) ^ 2 - 5 * k + 2) / (8 * (k : ℚ) ^ 2 - 7 * k + 2)) ((9 * (k : ℚ) ^ 2 - 4 * k + 2) / (12 * (k : ℚ) ^ 2 - 6 * k + 2))

/-- The string `f"{3*k}/({3*k-2} * x + {2-k})"` (literature.py:1266). -/
def ivicExpr (k : ℕ) : Str :=
  intChars (3 * (k : ℤ)) ++ '/' :: '(' :: (intChars (3 * (k : ℤ) - 2) ++ (" * x + ".toList ++ (intChars (2 - (k : ℤ)) ++ [')'])))

/-- The loop of `add_zero_density_ivic_1984` with its `break` (literature.py:1255-1267). -/
def ivicLoop : List ℕ → List (Py Entry)
  | [] => []
  | k :: ks => if ivicLower k > sigmaLimit then [] else entry (ivicExpr k) (itvl (ivicLower k) 1) :: ivicLoop ks

/-- `add_zero_density_ivic_1984` (literature.py:1254-1268). -/
def ivic1984 : List (Py Entry) := ivicLoop (List.range' 3 97)

/-- The entries between the two loops (literature.py:1271-1336). -/
def middle : List (Py Entry) :=
  [entry "(1 + (1 - 2 * x) * 4/7) / (1 - x)".toList (itvl (1 / 2) 1),
    entry "4 / (30 * x - 25)".toList (itvl (15 / 16) 1),
    entry "2 / (7 * x - 5)".toList (itvl (17 / 19) 1),
    entry "2".toList (itvl (25 / 32) 1),
    entry "58.05 * (1 - x) ** (1/2)".toList (itvl (1 / 2) 1),
    entry "3/(2 * x)".toList (itvl (3734 / 4694) 1),
    entry "6.42 * (1 - x) ** (1/2)".toList (itvl (9 / 10) 1),
    entry "3/(24 * x - 20)".toList (itvl (23 / 24) (39 / 40)),
    entry "2/(15 * x - 12)".toList (itvl (39 / 40) (41 / 42)),
    entry "3/(40 * x - 35)".toList (itvl (41 / 42) (59 / 60))]

/-- The string `f"3 / ({k} * (1 - 2 * ({k} - 1) * (1 - x)))"` (literature.py:1343). -/
def pintzExpr (k : ℕ) : Str :=
  "3 / (".toList ++ (natChars k ++ (" * (1 - 2 * (".toList ++ (natChars k ++ " - 1) * (1 - x)))".toList)))

/-- `1 - frac(1, 2 * k * (k - 1))` (literature.py:1338). -/
def pintzLower (k : ℕ) : ℚ := 1 - 1 / (2 * k * (k - 1))

/-- `1 - frac(1, 2 * k * (k + 1))` (literature.py:1344). -/
def pintzUpper (k : ℕ) : ℚ := 1 - 1 / (2 * k * (k + 1))

/-- The loop of `add_zero_density_pintz_2023` with its `break` (literature.py:1337-1346). -/
def pintzLoop : List ℕ → List (Py Entry)
  | [] => []
  | k :: ks => if pintzLower k > sigmaLimit then [] else entry (pintzExpr k) (itvl (pintzLower k) (pintzUpper k)) :: pintzLoop ks

/-- The loop of `add_zero_density_pintz_2023` for `k` in `range(6, 100)` (literature.py:1337). -/
def pintz2023 : List (Py Entry) := pintzLoop (List.range' 6 94)

/-- The entries after the loops (literature.py:1350-1364). -/
def after : List (Py Entry) :=
  [entry "24 / (30 * x - 11)".toList (itvl (279 / 314) (17 / 18)),
    entry "15 / (3 + 5 * x)".toList (itvl (1 / 2) 1)]

/-- All zero density estimates of `literature.py`, in order. -/
def all : Py (List Entry) := seq (before ++ ivic1984 ++ middle ++ pintz2023 ++ after)

/-- `add_zero_density_energy_heath_brown_1979` (literature.py:1369-1392). -/
def energy : Py (List Entry) := seq
  [entry "(10 - 11 * x) / ((2 - x) * (1 - x))".toList (Interval.make (1 / 2) (2 / 3) true true),
    entry "(18 - 19 * x) / ((4 - 2 * x) * (1 - x))".toList (Interval.make (2 / 3) (3 / 4) true true),
    entry "12 / (4 * x - 1)".toList (Interval.make (3 / 4) 1 true true)]

/-- `at(sigma)` (zero_density_estimate.py:79-84): `ValueError` outside the interval, else the string is parsed and evaluated. -/
noncomputable def Entry.at (e : Entry) (s : ℚ) : Py ℝ := do
  if !e.dom.contains s then .error .valueError
  let f ← Formula.parse e.expr
  return f.eval s

end LitZD
end Expdb
