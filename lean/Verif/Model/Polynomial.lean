import Verif.Model.Basic

/-!
# Model of `class Polynomial` (polynomial.py lines 4–134)
-/

namespace Expdb

/-- A `Polynomial` object: the tuple `coefficients`, lowest degree first (polynomial.py:17). -/
structure Poly where
  coeffs : List ℚ
  deriving DecidableEq, Repr

namespace Poly

/-- `__init__` (polynomial.py:9-17): `ValueError` if the tuple is non-empty and its last entry
is zero. (The type test of line 10 is discharged by typing.) -/
def make (c : List ℚ) : Py Poly :=
  match c.getLast? with
  | some a => if a = 0 then .error .valueError else .ok ⟨c⟩
  | none => .ok ⟨c⟩

/-- The loop of `_trim_trailing_zeroes` (polynomial.py:67-73) with loop variable `n`. -/
def trimLoop (c : List ℚ) : Nat → List ℚ
  | 0 => []
  | n + 1 =>
    match c[n]? with
    | some a => if a ≠ 0 then c.take (n + 1) else trimLoop c n
    | none => trimLoop c n      -- not reached for n < len(c)

/-- `_trim_trailing_zeroes` (polynomial.py:67-73). -/
def trim (c : List ℚ) : List ℚ := trimLoop c c.length

/-- `is_zero` (polynomial.py:80-81). -/
def isZero (p : Poly) : Bool := p.coeffs.length == 0

/-- `degree` (polynomial.py:75-78); `none` stands for `-inf`. -/
def degree (p : Poly) : Option Nat :=
  if p.coeffs.length = 0 then none else some (p.coeffs.length - 1)

/-- `add` (polynomial.py:84-95), the three branches on the lengths. -/
def add (a b : Poly) : Py Poly :=
  let p := a.coeffs
  let q := b.coeffs
  let m := p.length
  let n := q.length
  let c :=
    if m = n then List.zipWith (· + ·) p q
    else if m > n then List.zipWith (· + ·) (p.take n) q ++ p.drop n
    else List.zipWith (· + ·) p (q.take m) ++ q.drop m
  make (trim c)

/-- `subtract` (polynomial.py:98-109). -/
def subtract (a b : Poly) : Py Poly :=
  let p := a.coeffs
  let q := b.coeffs
  let m := p.length
  let n := q.length
  let c :=
    if m = n then List.zipWith (· - ·) p q
    else if m > n then List.zipWith (· - ·) (p.take n) q ++ p.drop n
    else List.zipWith (· - ·) p (q.take m) ++ (q.drop m).map (fun a => -a)
  make (trim c)

/-- Inner loop of `multiply` (polynomial.py:122-123): `for j: c[i + j] += p[i] * q[j]`;
`k` is the running index `i + j`. -/
def mulInner (a : ℚ) (c : List ℚ) (k : Nat) : List ℚ → List ℚ
  | [] => c
  | b :: q => mulInner a (c.modify k (· + a * b)) (k + 1) q

/-- Outer loop of `multiply` (polynomial.py:121-123); `i` is the loop variable. -/
def mulOuter (c : List ℚ) (i : Nat) (q : List ℚ) : List ℚ → List ℚ
  | [] => c
  | a :: p => mulOuter (mulInner a c i q) (i + 1) q p

/-- `multiply` (polynomial.py:112-124). -/
def multiply (a b : Poly) : Py Poly :=
  if a.isZero || b.isZero then make []
  else
    let p := a.coeffs
    let q := b.coeffs
    let c := List.replicate (p.length + q.length - 1) (0 : ℚ)
    make (trim (mulOuter c 0 q p))

/-- `divide` (polynomial.py:127-134): after the zero test, `RationalFunction2(self, other)` is
called with `Polynomial` objects; its constructor (functions.py:663-665) tests
`isinstance(coeffs, list)`/`tuple` on a `Polynomial` and raises `ValueError`. -/
def divide {α : Type} (_a b : Poly) : Py α :=
  if b.isZero then .error .valueError else .error .valueError

end Poly
end Expdb
