import Verif.Model.Text
import Verif.Model.Region
import Verif.Model.Polynomial

/-!
# Printed forms of linear expressions, constraints, polytopes, regions and polynomials

Strings are lists of characters, as in `Model/Text`. A sequence of variable names given as one python string is the list of its characters.
-/

namespace Expdb
namespace Printing

/-- A python string. -/
abbrev Str := List Char

/-- One round of the loop of `format` (str_helper.py:20-34). -/
def formatTerm (f v : Str) (c : ℚ) : Str :=
  if c = 0 then f
  else
    let f' := if c > 0 then (if f.length ≠ 0 then f ++ " + ".toList else f)
      else f ++ (if f.length ≠ 0 then " - ".toList else "-".toList)
    if c = 1 ∨ c = -1 then f' ++ v else f' ++ (ratChars |c| ++ v)

/-- The loop of `format` (str_helper.py:20-34). `variables[i - 1]` raises `IndexError` if there are too few names. -/
def formatLoop (f : Str) : List Str → List ℚ → Py Str
  | _, [] => .ok f
  | [], _ :: _ => .error .indexError
  | v :: vs, c :: cs => formatLoop (formatTerm f v c) vs cs

/-- `Str_Helper.format(coefficients, variables)` (str_helper.py:5-35). -/
def format (coefficients : List ℚ) (vnames : List Str) : Py Str :=
  match coefficients with
  | [] => .error .indexError
  | c0 :: cs => formatLoop (if c0 ≠ 0 then ratChars c0 else []) vnames cs

/-- The characters of a python string as a sequence of names. -/
def names (s : String) : List Str := s.toList.map (fun c => [c])

/-- `[f"x_{i}" for i in range(1, n + 1)]` (polytope.py:36, 153, functions.py:349). -/
def xNames (n : Nat) : List Str := (List.range n).map (fun i => "x_".toList ++ natChars (i + 1))

/-- One round of the loop of `Constraint.__repr__` (polytope.py:41-51). -/
def constraintTerm (f v : Str) (c : ℚ) : Str :=
  if c = 0 then f
  else
    let f' := if f.length ≠ 0 then f ++ (if c > 0 then " + ".toList else " - ".toList) else f
    if c = 1 ∨ c = -1 then f' ++ v else f' ++ (ratChars |c| ++ v)

/-- The loop of `Constraint.__repr__` (polytope.py:41-51). -/
def constraintLoop (f : Str) : List Str → List ℚ → Py Str
  | _, [] => .ok f
  | [], _ :: _ => .error .indexError
  | v :: vs, c :: cs => constraintLoop (constraintTerm f v c) vs cs

/-- The inequality types of `Constraint` (polytope.py:17-19). -/
inductive Kind
  | greaterEquals
  | greater
  | equals
  deriving DecidableEq

/-- The text after the linear form (polytope.py:53-57). -/
def Kind.suffix : Kind → Str
  | .greaterEquals => " >= 0".toList
  | .greater => " > 0".toList
  | .equals => " = 0".toList

/-- `Constraint.__repr__` (polytope.py:30-57). For more than five coefficients the names are `x_1, …, x_{len-2}` (line 35). -/
def constraintRepr (coefficients : List ℚ) (kind : Kind) : Py Str :=
  match coefficients with
  | [] => .error .indexError
  | c0 :: cs => do
    let chSet := if coefficients.length > 5 then xNames (coefficients.length - 2) else names "xyzwu"
    let f ← constraintLoop (if c0 ≠ 0 then ratChars c0 else []) chSet cs
    return f ++ kind.suffix

/-- One term of `Affine2.to_string` (functions.py:360-369). -/
def affineTerm (f v : Str) (c : ℚ) : Str :=
  if c = 0 then f
  else if c = 1 then f ++ (" + ".toList ++ v)
  else if c = -1 then f ++ (" - ".toList ++ v)
  else if c < 0 then f ++ (" - ".toList ++ (ratChars |c| ++ v))
  else f ++ (" + ".toList ++ (ratChars c ++ v))

/-- The loop of `Affine2.to_string` (functions.py:359-369). -/
def affineLoop (f : Str) : List Str → List ℚ → Str
  | v :: vs, c :: cs => affineLoop (affineTerm f v c) vs cs
  | _, _ => f

/-- `Affine2.to_string(coeffs, symbols)` (functions.py:352-371). -/
def affineString (coeffs : List ℚ) (symbols : List Str) : Py Str :=
  match coeffs with
  | [] => .error .indexError
  | c0 :: cs => if symbols.length < cs.length then .error .valueError else .ok (affineLoop (ratChars c0) symbols cs)

/-- `str(strings)` for a list of strings (python library). The quotes of python's `repr` for a string that contains no quote and
no backslash. -/
def listRepr (ss : List Str) : Str :=
  '[' :: ((ss.map (fun s => '\'' :: (s ++ ['\'']))).intersperse ", ".toList).flatten ++ [']']

/-- One entry of the list in `Polytope.to_str` (polytope.py:162). -/
def rowStr (vnames : List Str) (r : Row) : Py Str := do
  let f ← format (r.c0 :: r.cs) vnames
  return f ++ (if r.lin then " = 0".toList else " >= 0".toList)

/-- `[… for i in range(len(self.mat))]` (polytope.py:161-164). -/
def rowStrs (vnames : List Str) : List Row → Py (List Str)
  | [] => .ok []
  | r :: rs => do
    let s ← rowStr vnames r
    let ss ← rowStrs vnames rs
    return s :: ss

/-- `Polytope.to_str(variables)` (polytope.py:155-165). -/
def polytopeToStr (vnames : List Str) (m : Mat) : Py Str :=
  if vnames.length < m.cols - 1 then .error .valueError
  else do return listRepr (← rowStrs vnames m.rows)

/-- `Polytope.__repr__` (polytope.py:150-153). -/
def polytopeRepr (m : Mat) : Py Str :=
  if m.cols - 1 ≤ 5 then polytopeToStr (names "xyzwu") m else polytopeToStr (xNames (m.cols - 1)) m

/-- `str(region.child) if variables is None else region.child.to_str(variables)` (region.py:67). -/
def leafStr (vnames : Option (List Str)) (m : Mat) : Py Str :=
  match vnames with
  | none => polytopeRepr m
  | some vs => polytopeToStr vs m

/-- `Region_Type.to_str(region_type) + " of {" + ", ".join(…) + "}"` (region.py:69-70). -/
def joinStr (name : String) (ss : List Str) : Str :=
  name.toList ++ (" of {".toList ++ ((ss.intersperse ", ".toList).flatten ++ "}".toList))

variable {L : Type}

mutual
/-- The short form of `Region.to_str` (region.py:65-71), which is also `__repr__` (region.py:49-50: the argument `0` is
`use_indentation`). A child that is a `Region` (complements) cannot be iterated: `TypeError`. -/
def regionStr (vnames : Option (List Str)) : Region L → Py Str
  | .polytope m _ => leafStr vnames m
  | .wrapped _ => .error .typeError
  | .complement _ => .error .typeError
  | .union rs => do return joinStr "Union" (← regionStrs vnames rs)
  | .disjoint rs => do return joinStr "Disjoint union" (← regionStrs vnames rs)
  | .intersect rs => do return joinStr "Intersection" (← regionStrs vnames rs)
/-- `Region.to_str(r, …) for r in region.child` (region.py:71). -/
def regionStrs (vnames : Option (List Str)) : List (Region L) → Py (List Str)
  | [] => .ok []
  | r :: rs => do
    let s ← regionStr vnames r
    let ss ← regionStrs vnames rs
    return s :: ss
end

/-- `_monomial_str(c, var, deg)` (polynomial.py:60-65). -/
def monomialStr (c : ℚ) (var : Str) (deg : Nat) : Str :=
  if c = 0 then []
  else if deg = 0 then ratChars |c|
  else
    let stem := if deg = 1 then var else var ++ '^' :: natChars deg
    if |c| = 1 then stem else ratChars |c| ++ stem

/-- The loop of `Polynomial.to_str` (polynomial.py:43-55): the list `s`. -/
def polyWords (var : Str) : Bool → Nat → List ℚ → List Str
  | _, _, [] => []
  | front, deg, c :: cs =>
    let sign : List Str := if front then (if c < 0 then [['-']] else []) else [if c < 0 then ['-'] else ['+']]
    let mon := monomialStr c var deg
    if mon.length > 0 then sign ++ mon :: polyWords var false (deg + 1) cs
    else sign ++ polyWords var front (deg + 1) cs

/-- `Polynomial.to_str(var)` (polynomial.py:39-58). -/
def polyStr (p : Poly) (var : Str) : Str :=
  match polyWords var true 0 p.coeffs with
  | [] => ['0']
  | s => (s.intersperse [' ']).flatten

end Printing
end Expdb
