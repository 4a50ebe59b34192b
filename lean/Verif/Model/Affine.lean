import Verif.Model.Interval
import Mathlib.Data.List.Dedup
import Mathlib.Data.List.Sort

/-!
# Model of `class Affine` (functions.py lines 134–320)
-/

namespace Expdb

/-- An `Affine` object `f(x) = m x + c` on `domain` with a `label` (functions.py:141-145).
`L` is the type of labels including python's `None`. -/
structure Affine (L : Type) where
  m : ℚ
  c : ℚ
  dom : Interval
  label : L
  deriving DecidableEq

namespace Affine

variable {L : Type} [DecidableEq L]

/-- `m * x + c`. -/
def ev (f : Affine L) (x : ℚ) : ℚ := f.m * x + f.c

/-- `at(x)` (functions.py:172-175) with `extend_domain = False`; `none` is python's `None`. -/
def «at» (f : Affine L) (x : ℚ) : Option ℚ := if f.dom.contains x then some (f.ev x) else none

/-- `function_equals` (functions.py:179-180). -/
def functionEquals (f g : Affine L) : Bool := f.m == g.m && f.c == g.c

/-- `__eq__` for two `Affine` objects (functions.py:150-161). -/
def pyEq (f g : Affine L) : Bool :=
  if f.dom.length = 0 ∧ g.dom.length = 0 ∧ f.dom.x0 = g.dom.x0 then
    decide (f.at f.dom.x0 = g.at f.dom.x0)
  else f.m == g.m && f.c == g.c && f.dom.pyEq g.dom

/-- `intersection` (functions.py:184-190). -/
def intersection (f g : Affine L) : Option ℚ :=
  if f.m = g.m then none
  else
    let inter := (g.c - f.c) / (f.m - g.m)
    if f.dom.contains inter && g.dom.contains inter then some inter else none

/-- The object returned by `compare_f` once `f` is selected (functions.py:212). -/
def crop (f : Affine L) (I : Interval) : Py (Affine L) := do
  return ⟨f.m, f.c, ← f.dom.intersect I, f.label⟩

/-- `comparator(p.at(x), q.at(x))`: a `TypeError` if one of the values is `None`. -/
def compareAt (cmp : ℚ → ℚ → Bool) (p q : Affine L) (x : ℚ) : Py Bool :=
  match p.at x, q.at x with
  | some u, some v => .ok (cmp u v)
  | _, _ => .error .typeError

/-- `compare_f(p, q, domain)` (functions.py:201-212) for `q` not `None`, which is the only way it is
called; `p = none` is python's `None`. -/
def compareF (cmp : ℚ → ℚ → Bool) (p : Option (Affine L)) (q : Affine L) (I : Interval) :
    Py (Affine L) :=
  match p with
  | none => q.crop I
  | some p => do
    if (← compareAt cmp p q I.midpoint) then p.crop I else q.crop I

/-- A reference held in the list `pieces`: either the object `self` itself or a new object. -/
inductive Ref (L : Type) where
  | self
  | new (f : Affine L)

/-- The object a reference points to, given the present state of `self`. -/
def Ref.deref (self : Affine L) : Ref L → Affine L
  | .self => self
  | .new f => f

/-- All pairwise intersections `f2[i].intersection(f2[j])`, `j < i` (functions.py:224-228). -/
def pairInters : List (Affine L) → List ℚ
  | [] => []
  | f :: fs => fs.filterMap (fun g => g.intersection f) ++ pairInters fs

/-- `crits` before cropping (functions.py:215-228), as a list with repetitions. -/
def rawCrits (self : Affine L) (f2 : List (Affine L)) : List ℚ :=
  [self.dom.x0, self.dom.x1] ++ f2.map (·.dom.x0) ++ f2.map (·.dom.x1) ++
    f2.filterMap (fun p => self.intersection p) ++ pairInters f2

/-- Cropping to the domain (functions.py:231-233). -/
def cropCrits (domain : Option Interval) (cs : List ℚ) : List ℚ :=
  match domain with
  | none => cs
  | some D => cs.filter (fun b => D.contains b) ++ [D.x0, D.x1]

/-- The sorted list of distinct critical points (functions.py:215-236). -/
def crits (self : Affine L) (f2 : List (Affine L)) (domain : Option Interval) : List ℚ :=
  (cropCrits domain (rawCrits self f2)).dedup.insertionSort (· ≤ ·)

/-- `for f in f2: if f.domain.contains(t): p = compare_f(p, f, interval)`
(functions.py:251-253, 263-265); `t` is the test point of the cell. -/
def bestOn (cmp : ℚ → ℚ → Bool) (I : Interval) (t : ℚ) :
    Option (Affine L) → List (Affine L) → Py (Option (Affine L))
  | p, [] => .ok p
  | p, f :: fs =>
    if f.dom.contains t then do
      let q ← compareF cmp p f I
      bestOn cmp I t (some q) fs
    else bestOn cmp I t p fs

/-- The piece of one cell. While no function of the list has been compared, `p` is the object
`self` (or `None`); the first `compare_f` replaces it by a new object (functions.py:250-255,
262-267). -/
def cellPiece (cmp : ℚ → ℚ → Bool) (self : Affine L) (f2 : List (Affine L)) (I : Interval) (t : ℚ) :
    Py (List (Ref L)) :=
  if f2.any (fun f => f.dom.contains t) then do
    let p ← bestOn cmp I t (if self.dom.contains t then some self else none) f2
    return (p.map Ref.new).toList
  else .ok (if self.dom.contains t then [Ref.self] else [])

/-- The singleton cell `{x}` (functions.py:245-257); skipped outside the domain. -/
def pointPiece (cmp : ℚ → ℚ → Bool) (self : Affine L) (f2 : List (Affine L))
    (domain : Option Interval) (x : ℚ) : Py (List (Ref L)) :=
  if domain.all (fun D => D.contains x) then do
    let I ← Interval.make x x true true
    cellPiece cmp self f2 I x
  else .ok []

/-- The open cell `(x, y)` (functions.py:259-267). -/
def openPiece (cmp : ℚ → ℚ → Bool) (self : Affine L) (f2 : List (Affine L)) (x y : ℚ) :
    Py (List (Ref L)) := do
  let I ← Interval.make x y false false
  cellPiece cmp self f2 I I.midpoint

/-- The `while` loop over the cells `{b0}, (b0,b1), {b1}, …, {bn}` (functions.py:241-269).
(`crits` is never empty.) -/
def cellLoop (cmp : ℚ → ℚ → Bool) (self : Affine L) (f2 : List (Affine L))
    (domain : Option Interval) : List ℚ → Py (List (Ref L))
  | [] => .error .indexError
  | [x] => pointPiece cmp self f2 domain x
  | x :: y :: rest => do
    let a ← pointPiece cmp self f2 domain x
    let b ← openPiece cmp self f2 x y
    let r ← cellLoop cmp self f2 domain (y :: rest)
    return a ++ b ++ r

/-- The test whether two consecutive pieces can be combined (functions.py:278-293). -/
def isMatch (p1 p2 : Affine L) : Bool :=
  decide (p1.dom.x1 = p2.dom.x0) && (p1.dom.incU || p2.dom.incL) && decide (p1.label = p2.label) &&
    ((decide (p1.dom.length = 0) && decide (p1.at p1.dom.x1 = p2.at p2.dom.x0)) ||
     (decide (p2.dom.length = 0) && decide (p1.at p1.dom.x1 = p2.at p2.dom.x0)) ||
     p1.functionEquals p2)

/-- `p1.domain.x1 = p2.domain.x1; p1.domain.include_upper = p2.domain.include_upper`
(functions.py:298-299). -/
def extendTo (p1 p2 : Affine L) : Affine L :=
  { p1 with dom := { p1.dom with x1 := p2.dom.x1, incU := p2.dom.incU } }

/-- The simplification loop (functions.py:271-301) with `p` the piece at position `j`. Extending a
piece that is the object `self` changes `self`; the final state of `self` is returned. -/
def mergeLoop (self : Affine L) : Ref L → List (Ref L) → Affine L × List (Ref L)
  | p, [] => (self, [p])
  | p, q :: rest =>
    if isMatch (p.deref self) (q.deref self) then
      match p with
      | .self => mergeLoop (extendTo self (q.deref self)) .self rest
      | .new f => mergeLoop self (.new (extendTo f (q.deref self))) rest
    else
      let r := mergeLoop self q rest
      (r.1, p :: r.2)

/-- The simplification loop for any list of pieces. -/
def merge (self : Affine L) : List (Ref L) → Affine L × List (Ref L)
  | [] => (self, [])
  | p :: rest => mergeLoop self p rest

/-- `compare_with(f2, domain, comparator)` (functions.py:199-302). The result is the state of `self`
after the call together with the returned list of references. (The elements of `f2` are only read:
every object appended to `pieces` is `self` or created by `compare_f`; we assume no element of `f2`
is the object `self`.) -/
def compareRefs (cmp : ℚ → ℚ → Bool) (self : Affine L) (f2 : List (Affine L))
    (domain : Option Interval) : Py (Affine L × List (Ref L)) := do
  let pieces ← cellLoop cmp self f2 domain (crits self f2 domain)
  return merge self pieces

/-- `compare_with` (functions.py:199-302), with the returned objects given by their values. -/
def compareWith (cmp : ℚ → ℚ → Bool) (self : Affine L) (f2 : List (Affine L))
    (domain : Option Interval) : Py (Affine L × List (Affine L)) := do
  let r ← compareRefs cmp self f2 domain
  return (r.1, r.2.map (Ref.deref r.1))

/-- `min_with` (functions.py:309-310). -/
def minWith (self : Affine L) (f2 : List (Affine L)) (domain : Option Interval) :=
  compareWith (fun x y => decide (x < y)) self f2 domain

/-- `max_with` (functions.py:317-318). -/
def maxWith (self : Affine L) (f2 : List (Affine L)) (domain : Option Interval) :=
  compareWith (fun x y => decide (x > y)) self f2 domain

end Affine
end Expdb
