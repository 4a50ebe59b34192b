import Verif.Model.LiteratureZD

/-!
# Model of the zero density estimates from exponent pairs (zero_density_estimate.py:530-728)

An exponent pair hypothesis is represented by its pair of numbers; the dependency of a result is the pair itself. Names, proof texts
and references are left out. `bourgain_ep_to_zd` has its list of pairs written into its body; here the list is a parameter, and
`bourgainPairs` is the list of the code. `approx_bourgain_ep_to_zd` only prints floating point numbers and is left out.
-/

namespace Expdb
namespace PairZD
open Printing (Str)

/-- The expression `v` of the loop (zero_density_estimate.py:545-547); `ZeroDivisionError` if the denominator vanishes. -/
def ivicV (m k l : ℚ) : Py ℚ :=
  if 4 * m * m * (1 + 2 * k + 2 * l) - (6 * k + 4 * l) * m + 2 * k + 2 * l = 0 then .error .zeroDivision
  else .ok ((3 * m * m * (1 + 2 * k + 2 * l) - (4 * k + 2 * l) * m + 2 * k + 2 * l) /
    (4 * m * m * (1 + 2 * k + 2 * l) - (6 * k + 4 * l) * m + 2 * k + 2 * l))

/-- The loop over the pairs (zero_density_estimate.py:543-550), with `sigma0` and `dep`. -/
def ivicLoop (m : ℚ) : List (ℚ × ℚ) → ℚ → Option (ℚ × ℚ) → Py (ℚ × Option (ℚ × ℚ))
  | [], sigma0, dep => .ok (sigma0, dep)
  | p :: ps, sigma0, dep => do
    let v ← ivicV m p.1 p.2
    if v < sigma0 then ivicLoop m ps v (some p) else ivicLoop m ps sigma0 dep

/-- The string `f"{3*m}/({3*m-2}x + {2-m})"` (zero_density_estimate.py:555). -/
def ivicText (m : ℕ) : Str :=
  intChars (3 * (m : ℤ)) ++ '/' :: '(' :: (intChars (3 * (m : ℤ) - 2) ++ ("x + ".toList ++ (intChars (2 - (m : ℤ)) ++ [')'])))

/-- `ivic_ep_to_zd(exp_pairs, m)` (zero_density_estimate.py:538-558) for a whole number `m`. The denominators of the two calls of `frac`
have no integral zero. The `AttributeError` comes from `dep.data` if no pair was chosen. -/
def ivicEpToZd (pairs : List (ℚ × ℚ)) (m : ℕ) : Py (LitZD.Entry × (ℚ × ℚ)) := do
  let r ← ivicLoop m pairs 1 none
  let s1 := max r.1 ((9 * (m : ℚ) * m - 4 * m + 2) / (12 * m * m - 6 * m + 2))
  let s2 := min s1 ((6 * (m : ℚ) * m - 5 * m + 2) / (8 * m * m - 7 * m + 2))
  let zde ← LitZD.entry (ivicText m) (LitZD.itvl s2 1)
  match r.2 with
  | none => .error .attributeError
  | some d => .ok (zde, d)

open Rational

variable {K : Type} [Field K] [LinearOrder K]

/-- An element `(RF, Interval, h)` of the list `bounds` (zero_density_estimate.py:640-663). -/
structure Bound (K : Type) where
  fn : RF K
  dom : Ival K
  pair : ℚ × ℚ

/-- The lower limit `s0` (zero_density_estimate.py:645, 652-656). -/
def lowerLimit (k l : ℚ) : ℚ :=
  if k ≤ 11 / 85 then max (1 / 2) ((l + 1) / (2 * (k + 1)))
  else max (max (1 / 2) ((l + 1) / (2 * (k + 1)))) ((144 * k - 11 * l - 11) / (170 * k - 22))

/-- The function `RF([4 * k], [2 * (1 + k), -1 - l])` (zero_density_estimate.py:649, 660). -/
def boundFn (k l : ℚ) : RF K := RF.make [((4 * k : ℚ) : K)] (some [((2 * (1 + k) : ℚ) : K), ((-1 - l : ℚ) : K)])

/-- The list `bounds` (zero_density_estimate.py:640-663). -/
def bounds : List (ℚ × ℚ) → List (Bound K)
  | [] => []
  | (k, l) :: ps =>
    if k ≤ 1 / 5 ∧ l ≥ 3 / 5 ∧ 15 * l + 20 * k ≥ 13 then
      if lowerLimit k l ≥ 1 then bounds ps
      else ⟨boundFn k l, .half ((lowerLimit k l : ℚ) : K) 1, (k, l)⟩ :: bounds ps
    else bounds ps

/-- `intersect` (functions.py:108-130). -/
def meet (I J : Ival K) : Ival K :=
  let lower := max I.x0 J.x0
  let upper := min I.x1 J.x1
  if lower > upper then ⟨0, 0, false, false⟩
  else ⟨lower, upper,
    if I.x0 > J.x0 then I.incL else if I.x0 < J.x0 then J.incL else I.incL && J.incL,
    if I.x1 < J.x1 then I.incU else if I.x1 > J.x1 then J.incU else I.incU && J.incU⟩

/-- What the two nested loops add to `crits` for one pair of bounds (zero_density_estimate.py:668-671). -/
def critPair (isConstant : Expr K → Bool) (realRoots : Expr K → List K) (b1 b2 : Bound K) : List K :=
  b1.fn.intersections isConstant realRoots b2.fn (meet b1.dom b2.dom) ++ [b1.dom.x0, b1.dom.x1, b2.dom.x0, b2.dom.x1]

/-- The two nested loops (zero_density_estimate.py:666-671): `seen` are the bounds with smaller index. -/
def critLoop (isConstant : Expr K → Bool) (realRoots : Expr K → List K) : List (Bound K) → List (Bound K) → List K
  | _, [] => []
  | seen, b :: bs => seen.flatMap (critPair isConstant realRoots b) ++ critLoop isConstant realRoots (seen ++ [b]) bs

/-- The sorted list of critical points (zero_density_estimate.py:665-674). -/
def critList (isConstant : Expr K → Bool) (realRoots : Expr K → List K) (bs : List (Bound K)) : List K :=
  List.insertionSort (fun a b => a ≤ b) (critLoop isConstant realRoots [] bs).dedup

/-- The loop that looks for the smallest value at `s` (zero_density_estimate.py:686-693); `none` stands for `float("inf")` and
`None`. -/
def argmin (s : K) : Option (Bound K) → List (Bound K) → Option (Bound K)
  | cur, [] => cur
  | none, b :: bs => argmin s (some b) bs
  | some c, b :: bs => if b.fn.at s < c.fn.at s then argmin s (some b) bs else argmin s (some c) bs

/-- A piece of the result: the function, the interval and the pair it depends on. -/
structure Sol (K : Type) where
  fn : RF K
  dom : Ival K
  pair : ℚ × ℚ

/-- The loop over neighbouring critical points (zero_density_estimate.py:677-694). `argmax[0]` of `None` is a `TypeError`. -/
def solve (bs : List (Bound K)) : List (K × K) → Py (List (Sol K))
  | [] => .ok []
  | (s1, s2) :: cs =>
    if s2 = s1 ∨ s1 < 1 / 2 then solve bs cs
    else
      let I := Ival.half s1 s2
      match argmin I.midpoint none (bs.filter (fun b => b.dom.contains I.midpoint)) with
      | none => .error .typeError
      | some b => do
        let rest ← solve bs cs
        return ⟨b.fn, I, b.pair⟩ :: rest

/-- The merging of neighbours, from the last one to the first (zero_density_estimate.py:697-703). -/
def mergeBack (isZero : Expr K → Bool) : List (Sol K) → List (Sol K)
  | [] => []
  | p :: ps =>
    match mergeBack isZero ps with
    | [] => [p]
    | q :: qs =>
      if RF.eq isZero p.fn q.fn && decide (p.dom.x1 = q.dom.x0) then ⟨p.fn, { p.dom with x1 := q.dom.x1 }, p.pair⟩ :: qs
      else p :: q :: qs

/-- `bourgain_ep_to_zd()` (zero_density_estimate.py:626-714) for the list `eps` of exponent pairs. -/
def bourgainEpToZd (isConstant : Expr K → Bool) (realRoots : Expr K → List K) (isZero : Expr K → Bool) (eps : List (ℚ × ℚ)) :
    Py (List (Sol K)) := do
  let bs : List (Bound K) := bounds eps
  let cs := critList isConstant realRoots bs
  let soln ← solve bs (cs.zip cs.tail)
  return mergeBack isZero soln

/-- The pairs in the body of `bourgain_ep_to_zd` (zero_density_estimate.py:630-639). -/
def bourgainPairs : List (ℚ × ℚ) :=
  [(11 / 85, 59 / 85), (391 / 4595, 3461 / 4595), (2779 / 38033, 58699 / 76066), (1101653 / 15854002, 12327829 / 15854002),
    (1959 / 47230, 3975 / 4723), (1175779 / 38456886, 16690288 / 19228443), (89 / 3478, 15327 / 17390), (1 / 100, 14 / 15)]

end PairZD
end Expdb
