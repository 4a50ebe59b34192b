import Verif.Model.Basic
import Mathlib.Algebra.Order.Field.Basic
import Mathlib.Data.List.Dedup
import Mathlib.Data.List.Sort

/-!
# Model of `class RationalFunction` and `class RationalFunction2` (functions.py lines 628–1002)

`RationalFunction` wraps sympy. The model is parametrised by the ordered field `K` of the numbers (roots may be
irrational). An expression made by the class is a term of `Expr`; what sympy computes with it (solutions, roots,
the zero test) is a parameter. `RationalFunction.parse` and printing are left out. A value `num / den` at a point
where `den` vanishes (sympy gives `zoo`, `nan` or a simplified value) is not meaningful in the model.
-/

namespace Expdb
namespace Rational

/-- The sympy expressions in the variable `x` that the class builds (functions.py:742-766). -/
inductive Expr (K : Type)
  | const (c : K)
  | var
  | add (a b : Expr K)
  | sub (a b : Expr K)
  | mul (a b : Expr K)
  deriving DecidableEq

/-- The value at a point: `expr.subs(x, v)` (functions.py:901). -/
def Expr.eval {K : Type} [Field K] : Expr K → K → K
  | .const c, _ => c
  | .var, x => x
  | .add a b, x => a.eval x + b.eval x
  | .sub a b, x => a.eval x - b.eval x
  | .mul a b, x => a.eval x * b.eval x

/-- `sympy.diff(expr, x)` (functions.py:960-961). -/
def Expr.diff {K : Type} [Field K] : Expr K → Expr K
  | .const _ => .const 0
  | .var => .const 1
  | .add a b => .add a.diff b.diff
  | .sub a b => .sub a.diff b.diff
  | .mul a b => .add (.mul a.diff b) (.mul a b.diff)

/-- A `RationalFunction` object: the fields `num` and `den` (functions.py:765-766). -/
structure RF (K : Type) where
  num : Expr K
  den : Expr K
  deriving DecidableEq

section
variable {K : Type} [Field K]

/-- The loop `for coeff in coeffs[::-1]: p += coeff * xn; xn *= x` (functions.py:756-764). -/
def polyLoop : List K → Expr K → Expr K → Expr K
  | [], p, _ => p
  | c :: cs, p, xn => polyLoop cs (.add p (.mul (.const c) xn)) (.mul xn .var)

/-- The polynomial with the given coefficients, highest degree first (functions.py:754-764). -/
def polyExpr (coeffs : List K) : Expr K := polyLoop coeffs.reverse (.const 0) (.const 1)

/-- The constructor (functions.py:749-766); `none` stands for `den_coeffs=None`. -/
def RF.make (num : List K) (den : Option (List K)) : RF K := ⟨polyExpr num, polyExpr (den.getD [1])⟩

/-- `at(x)` (functions.py:897-901). -/
def RF.at (f : RF K) (x : K) : K := f.num.eval x / f.den.eval x

/-- The second argument of an arithmetic operation. -/
inductive Arg (K : Type)
  | number (c : K)
  | fn (f : RF K)
  | other

/-- What an arithmetic operation returns: a function, or (for `add`) the exception object itself. -/
inductive Res (K : Type)
  | fn (f : RF K)
  | exceptionObject

/-- `add(other)`, `__add__` (functions.py:781-782, 903-914): for other types `NotImplementedError()` is returned, not
raised. -/
def RF.add (f : RF K) : Arg K → Py (Res K)
  | .number c => .ok (.fn ⟨.add f.num (.mul f.den (.const c)), f.den⟩)
  | .fn g => .ok (.fn ⟨.add (.mul f.num g.den) (.mul f.den g.num), .mul f.den g.den⟩)
  | .other => .ok .exceptionObject

/-- `subtract(other)` (functions.py:916-926). -/
def RF.subtract (f : RF K) : Arg K → Py (Res K)
  | .number c => .ok (.fn ⟨.sub f.num (.mul f.den (.const c)), f.den⟩)
  | .fn g => .ok (.fn ⟨.sub (.mul f.num g.den) (.mul f.den g.num), .mul f.den g.den⟩)
  | .other => .error .notImplemented

/-- The operator `-`: `__sub__` calls `self.sub`, which does not exist (functions.py:784-785). -/
def RF.opSub (_f : RF K) (_a : Arg K) : Py (Res K) := .error .attributeError

/-- `mul(other)`, `__mul__` (functions.py:787-788, 928-938). -/
def RF.mul (f : RF K) : Arg K → Py (Res K)
  | .number c => .ok (.fn ⟨.mul f.num (.const c), f.den⟩)
  | .fn g => .ok (.fn ⟨.mul f.num g.num, .mul f.den g.den⟩)
  | .other => .error .notImplemented

/-- `div(other)`, `__truediv__` (functions.py:790-791, 941-951). -/
def RF.div (f : RF K) : Arg K → Py (Res K)
  | .number c => .ok (.fn ⟨.mul f.num (.const c), f.den⟩)
  | .fn g => .ok (.fn ⟨.mul f.num g.den, .mul f.den g.num⟩)
  | .other => .error .notImplemented

/-- `__eq__` (functions.py:771-779); `isZero` is sympy's zero test. -/
def RF.eq (isZero : Expr K → Bool) (f g : RF K) : Bool := isZero (.sub (.mul f.num g.den) (.mul f.den g.num))

/-- An `Interval` with end points in `K` (functions.py:14-48). -/
structure Ival (K : Type) where
  x0 : K
  x1 : K
  incL : Bool
  incU : Bool
  deriving DecidableEq

variable [LinearOrder K]

/-- `contains` (functions.py:91-103). -/
def Ival.contains (I : Ival K) (x : K) : Bool :=
  (if I.incL then decide (I.x0 ≤ x) else decide (I.x0 < x)) && (if I.incU then decide (x ≤ I.x1) else decide (x < I.x1))

/-- `midpoint` (functions.py:87-88). -/
def Ival.midpoint (I : Ival K) : K := (I.x0 + I.x1) / 2

/-- `Interval(x0, x1)` with the default flags (functions.py:28). The `ValueError` for `x0 > x1` cannot occur where
the model uses it, because the end points are neighbours in a sorted list. -/
def Ival.half (x0 x1 : K) : Ival K := ⟨x0, x1, true, false⟩

/-- An element `(func, interval, ref)` of the lists of `_compute_optimal`. -/
structure Piece (K : Type) where
  fn : RF K
  dom : Ival K
  ref : ℤ
  deriving DecidableEq

/-- The critical points, as a sorted list without repetitions (functions.py:827-834). `solve f g` are the real
solutions of `f = g`. -/
def crits (solve : RF K → RF K → List K) (f1 : RF K) (in1 : Ival K) (p : Piece K) : List K :=
  List.insertionSort (fun a b => a ≤ b)
    (((solve f1 p.fn ++ [in1.x0, in1.x1]).filter (fun c => p.dom.contains c) ++ [p.dom.x0, p.dom.x1]).dedup)

/-- The choice on one interval (functions.py:836-841); `cmp` is the comparator. -/
def choose (cmp : K → K → Bool) (f1 : RF K) (in1 : Ival K) (ref1 : ℤ) (p : Piece K) (c d : K) : Piece K :=
  let inter := Ival.half c d
  let mid := inter.midpoint
  if !in1.contains mid || cmp (p.fn.at mid) (f1.at mid) then ⟨p.fn, inter, p.ref⟩ else ⟨f1, inter, ref1⟩

/-- The new pieces for one piece of the previous bound (functions.py:826-841). -/
def splitPiece (solve : RF K → RF K → List K) (cmp : K → K → Bool) (f1 : RF K) (in1 : Ival K) (ref1 : ℤ) (p : Piece K) :
    List (Piece K) :=
  let cs := crits solve f1 in1 p
  (cs.zip cs.tail).map (fun t => choose cmp f1 in1 ref1 p t.1 t.2)

/-- The inner loop of the simplification (functions.py:846-862): `cur` is the piece being extended. -/
def mergeFrom (isZero : Expr K → Bool) (track : Bool) (cur : Piece K) : List (Piece K) → List (Piece K)
  | [] => [⟨cur.fn, .half cur.dom.x0 cur.dom.x1, cur.ref⟩]
  | q :: qs =>
    if RF.eq isZero cur.fn q.fn && decide (cur.dom.x1 = q.dom.x0) && (!track || decide (cur.ref = q.ref)) then
      mergeFrom isZero track ⟨cur.fn, .half cur.dom.x0 q.dom.x1, cur.ref⟩ qs
    else ⟨cur.fn, .half cur.dom.x0 cur.dom.x1, cur.ref⟩ :: mergeFrom isZero track q qs

/-- The simplification (functions.py:843-862). -/
def mergePieces (isZero : Expr K → Bool) (track : Bool) : List (Piece K) → List (Piece K)
  | [] => []
  | p :: ps => mergeFrom isZero track p ps

/-- The loop over the functions (functions.py:822-862); `i` is the index of the first function of the list. -/
def optimalLoop (solve : RF K → RF K → List K) (isZero : Expr K → Bool) (cmp : K → K → Bool) (track : Bool) :
    ℕ → List (RF K × Ival K) → List (Piece K) → List (Piece K)
  | _, [], best => best
  | i, t :: ts, best =>
    optimalLoop solve isZero cmp track (i + 1) ts
      (mergePieces isZero track (best.flatMap (splitPiece solve cmp t.1 t.2 (i : ℤ))))

/-- `_compute_optimal` (functions.py:811-867), before the index is dropped when `track` is false. -/
def computeOptimal (solve : RF K → RF K → List K) (isZero : Expr K → Bool) (cmp : K → K → Bool) (default : K)
    (fs : List (RF K × Ival K)) (domain : Ival K) (track : Bool) : List (Piece K) :=
  optimalLoop solve isZero cmp track 0 fs [⟨RF.make [default] none, domain, -1⟩]

/-- `min(func_and_domains, domain, track_dependencies)` (functions.py:873-880). -/
def rfMin (solve : RF K → RF K → List K) (isZero : Expr K → Bool) (fs : List (RF K × Ival K)) (domain : Ival K)
    (track : Bool) : List (Piece K) := computeOptimal solve isZero (fun x y => decide (x < y)) 1000000 fs domain track

/-- `max(func_and_domains, domain, track_dependencies)` (functions.py:887-893). -/
def rfMax (solve : RF K → RF K → List K) (isZero : Expr K → Bool) (fs : List (RF K × Ival K)) (domain : Ival K)
    (track : Bool) : List (Piece K) := computeOptimal solve isZero (fun x y => decide (x > y)) (-1000000) fs domain track

/-! ### Extreme values on an interval -/

/-- The numerator of the derivative, up to sign: `P Q' - P' Q` (functions.py:960-962). -/
def RF.dnum (f : RF K) : Expr K := .sub (.mul f.num f.den.diff) (.mul f.num.diff f.den)

/-- `_compute_critical_pts(interval)` (functions.py:955-971). `isConstant` and `realRoots` are sympy's. -/
def critPts (isConstant : Expr K → Bool) (realRoots : Expr K → List K) (f : RF K) (I : Ival K) : List K :=
  [I.x0, I.x1] ++ (if isConstant f.dnum then [] else (realRoots f.dnum).filter (fun r => I.contains r))

/-- `max(enumerate(crit), key=…)` for `better = (>)`, `min(…)` for `(<)`: the first best element (functions.py:995,
1001). -/
def firstBest (better : K → K → Bool) (f : RF K) : K → List K → K
  | b, [] => b
  | b, c :: cs => if better (f.at c) (f.at b) then firstBest better f c cs else firstBest better f b cs

/-- `maximise(interval)` (functions.py:993-996). -/
def RF.maximise (isConstant : Expr K → Bool) (realRoots : Expr K → List K) (f : RF K) (I : Ival K) : K × K :=
  let c := firstBest (fun x y => decide (x > y)) f I.x0 (critPts isConstant realRoots f I).tail
  (c, f.at c)

/-- `minimise(interval)` (functions.py:999-1002). -/
def RF.minimise (isConstant : Expr K → Bool) (realRoots : Expr K → List K) (f : RF K) (I : Ival K) : K × K :=
  let c := firstBest (fun x y => decide (x < y)) f I.x0 (critPts isConstant realRoots f I).tail
  (c, f.at c)

/-- `intersections(other, interval)` (functions.py:975-984). -/
def RF.intersections (isConstant : Expr K → Bool) (realRoots : Expr K → List K) (f g : RF K) (I : Ival K) : List K :=
  let h : Expr K := .sub (.mul f.num g.den) (.mul f.den g.num)
  if isConstant h then [] else (realRoots h).filter (fun r => I.contains r)

end

/-! ### `class RationalFunction2` -/

/-- The argument `coeffs` of the constructor (functions.py:659-668). -/
inductive Coeffs
  /-- a list of numbers -/
  | list (cs : List ℚ)
  /-- a tuple (or list) of lists of numbers -/
  | tuple (cs : List (List ℚ))
  /-- anything that is neither a list nor a tuple -/
  | other

/-- A `RationalFunction2` object: the coefficients of numerator and denominator (functions.py:673-677). -/
structure RF2 where
  num : List ℚ
  den : List ℚ
  deriving DecidableEq

/-- The constructor (functions.py:663-678), for a valid domain. A list of one number is the constant; a longer list of
numbers raises `TypeError` (`tuple(coeffs[0])` of a number). A tuple of one list gives an object whose only coefficient
is a list; this case is left out (marked `notImplemented`). -/
def RF2.make : Coeffs → Py RF2
  | .other => .error .valueError
  | .list [] => .error .valueError
  | .list [c] => .ok ⟨[c], [1]⟩
  | .list (_ :: _ :: _) => .error .typeError
  | .tuple [] => .error .valueError
  | .tuple [_] => .error .notImplemented
  | .tuple (p :: q :: _) => .ok ⟨p, q⟩

/-- `is_zero` (functions.py:728-729). -/
def RF2.isZero (f : RF2) : Bool := f.num.all (fun c => c == 0)

/-- `is_constant` (functions.py:731-733). -/
def RF2.isConstant (f : RF2) : Bool := (f.num.drop 1).all (fun c => c == 0) && (f.den.drop 1).all (fun c => c == 0)

/-- `is_affine` (functions.py:735-737). -/
def RF2.isAffine (f : RF2) : Bool := (f.num.drop 2).all (fun c => c == 0) && (f.den.drop 1).all (fun c => c == 0)

end Rational
end Expdb
