import Verif.Model.Printing
import Verif.Model.Affine
import Verif.Model.Affine2
import Verif.Model.Rational

/-!
# Printed forms of functions

`Affine.to_str`, `Affine2.__repr__` and `RationalFunction2.__repr__` (functions.py:147-168, 343-348, 680-724). Strings are lists of
characters, as in `Model/Printing`.
-/

namespace Expdb
namespace FunctionText

open Printing

/-- `f"  ({self.label})" if self.label is not None else ""` (functions.py:167). -/
def labelStr : Option ℕ → Str
  | none => []
  | some l => "  (".toList ++ (natChars l ++ [')'])

/-- `Affine.to_str(variable)` (functions.py:166-168). -/
def affineToStr (f : Affine (Option ℕ)) (var : Str) : Py Str := do
  let s ← format [f.c, f.m] [var]
  return s ++ (" for ".toList ++ (var ++ (" \\in ".toList ++ (f.dom.repr ++ labelStr f.label))))

/-- `Affine.__repr__` (functions.py:147-148). -/
def affineRepr (f : Affine (Option ℕ)) : Py Str := affineToStr f ['x']

/-- The symbols of `Affine2.__repr__` (functions.py:345-347), for a function with `n` variables. -/
def symbols (n : ℕ) : List Str := if n + 1 > 5 then xNames n else names "xyzw"

/-- `Affine2.__repr__` (functions.py:343-348). -/
def affine2Repr (f : Affine2) : Py Str := do
  let s ← affineString (f.c0 :: f.cs) (symbols f.cs.length)
  let d ← polytopeRepr f.dom
  return s ++ (" on ".toList ++ d)

/-- The loop of `_poly_str` (functions.py:703-713); `deg` is the degree of the first coefficient. In contrast to `Polynomial.to_str` the
empty text of a vanishing term is appended as well. -/
def polyWords2 (var : Str) : Bool → ℕ → List ℚ → List Str
  | _, _, [] => []
  | front, deg, c :: cs =>
    let sign : List Str := if front then (if c < 0 then [['-']] else []) else [if c < 0 then ['-'] else ['+']]
    sign ++ monomialStr c var deg :: polyWords2 var false (deg - 1) cs

/-- `RationalFunction2._poly_str(coeffs, var_name)` (functions.py:702-716); `_mon_str` (functions.py:719-724) is the same function as
`Polynomial._monomial_str`. -/
def polyStr2 (coeffs : List ℚ) (var : Str) : Str :=
  match polyWords2 var true (coeffs.length - 1) coeffs with
  | [] => ['0']
  | s => (s.intersperse [' ']).flatten

/-- The brackets of `RationalFunction2.__repr__` (functions.py:695-696). -/
def bracket (coeffs : List ℚ) (s : Str) : Str :=
  if 1 < (coeffs.filter (fun c => c ≠ 0)).length then '(' :: (s ++ [')']) else s

/-- `RationalFunction2.__repr__` (functions.py:680-698). The first coefficient of an empty tuple raises `IndexError`. -/
def rf2Repr (f : Rational.RF2) (dom : Interval) : Py Str :=
  let on := " on ".toList ++ dom.repr
  if f.isZero then .ok ('0' :: on)
  else if f.isConstant then
    match f.num, f.den with
    | a :: _, b :: _ => if b = 0 then .error .zeroDivision else .ok (ratChars (a / b) ++ on)
    | _, _ => .error .indexError
  else
    let num := polyStr2 f.num ['x']
    let den := polyStr2 f.den ['x']
    if den = ['1'] then .ok (num ++ on)
    else .ok (bracket f.num num ++ '/' :: (bracket f.den den ++ on))

end FunctionText
end Expdb
