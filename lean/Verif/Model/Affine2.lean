import Verif.Model.Polytope

/-!
# Model of `class Affine2` and `class Piecewise` (functions.py lines 322–626)

The external engines of cdd are parameters as in `Verif/Model/Polytope.lean`. `to_string`, plotting and
`check` are left out.
-/

namespace Expdb

/-- An `Affine2` object (functions.py:329-334): `a = [c0] + cs`, the domain and the label (an int or `None`). -/
structure Affine2 where
  c0 : ℚ
  cs : List ℚ
  dom : Mat
  label : Option ℤ
  deriving DecidableEq

namespace Affine2

/-- The value `a[0] + sum(a[i + 1] * x[i])` (functions.py:377). -/
def ev (f : Affine2) (x : Pt) : ℚ := f.c0 + dot f.cs x

/-- `at(x)` (functions.py:374-377). -/
def «at» (f : Affine2) (x : Pt) : Py ℚ := if x.length ≠ f.cs.length then .error .valueError else .ok (f.ev x)

/-- `self.label < f.label` (functions.py:410): comparing with `None` raises `TypeError`. -/
def labelLt : Option ℤ → Option ℤ → Py Bool
  | some a, some b => .ok (decide (a < b))
  | _, _ => .error .typeError

/-- `[self.a[i] - f.a[i] for i in range(len(self.a))]` (functions.py:417, 422), as an inequality. -/
def diff (f g : Affine2) : Row := ⟨false, f.c0 - g.c0, List.zipWith (· - ·) f.cs g.cs⟩

/-- `all(self.a[i] == f.a[i] for i in range(len(self.a)))` (functions.py:409). -/
def sameFn (f g : Affine2) : Bool := decide (f.c0 = g.c0) && decide (f.cs = g.cs.take f.cs.length)

/-- `if not d.is_empty(include_boundary=False): pieces.append(…)` (functions.py:429-433). -/
def keep (lp : Mat.LPSolver) (f : Affine2) (d : Mat) : List Affine2 :=
  if Mat.isEmptyExcl lp d then [] else [⟨f.c0, f.cs, d, f.label⟩]

/-- The branch in which the difference changes sign on the domain (functions.py:419-433). The row of `d2` is
`[f.a[i] - self.a[i] for i in range(len(self.a))]`. -/
def splitPieces (canon : Mat → Mat) (lp : Mat.LPSolver) (f g : Affine2) (domain : Mat) : Py (List Affine2) := do
  let h1 ← Mat.ofConstraints [diff f g]
  let d1 ← Mat.intersect canon domain h1
  let h2 ← Mat.ofConstraints [diff g f]
  let d2 ← Mat.intersect canon domain h2
  return keep lp g d1 ++ keep lp f d2

/-- The branch in which one function is at most the other on the whole domain (functions.py:434-440). -/
def onePiece (verts : Mat → List Pt) (f g : Affine2) (domain : Mat) : Py (List Affine2) := do
  let x ← Mat.centroid verts domain
  let u ← f.at x
  let v ← g.at x
  if u < v then return [⟨f.c0, f.cs, domain, f.label⟩] else return [⟨g.c0, g.cs, domain, g.label⟩]

/-- The body of the loop of `min_with` (functions.py:397-440): the pieces for one function `g` of the list.
If `g` has fewer coefficients `IndexError` is raised. -/
def minPieces (canon : Mat → Mat) (lp : Mat.LPSolver) (verts : Mat → List Pt) (f g : Affine2) : Py (List Affine2) := do
  let domain ← Mat.intersect canon f.dom g.dom
  if Mat.isEmptyExcl lp domain then return []
  else if g.cs.length < f.cs.length then .error .indexError
  else if sameFn f g then do
    if (← labelLt f.label g.label) then return [⟨f.c0, f.cs, domain, f.label⟩] else return [⟨g.c0, g.cs, domain, g.label⟩]
  else if Mat.intersects verts domain (diff f g) then splitPieces canon lp f g domain
  else onePiece verts f g domain

/-- `scale(i, factor, additional_constraints)` (functions.py:386-389): the coefficients are copied, the label is
dropped. -/
def scale (canon : Mat → Mat) (f : Affine2) (i : ℕ) (factor : ℚ) (additional : List Row) : Py Affine2 := do
  let d ← Mat.scale canon f.dom i factor additional
  return ⟨f.c0, f.cs, d, none⟩

/-- `min_with(other)` (functions.py:395-441). -/
def minWith (canon : Mat → Mat) (lp : Mat.LPSolver) (verts : Mat → List Pt) (f : Affine2) : List Affine2 → Py (List Affine2)
  | [] => .ok []
  | g :: gs => do
    let a ← minPieces canon lp verts f g
    let b ← minWith canon lp verts f gs
    return a ++ b

end Affine2

/-! ### `class Piecewise`: the list `pieces` (functions.py:447-448) -/

namespace Piecewise

/-- `at(x)` (functions.py:547-551): the first piece whose domain contains the point; `none` is `None`. -/
def «at» : List Affine2 → Pt → Py (Option ℚ)
  | [], _ => .ok none
  | p :: ps, x => do
    if (← p.dom.contains x) then do
      let v ← p.at x
      return some v
    else Piecewise.at ps x

/-- The first loop of `crop` (functions.py:525-526). -/
def cropDoms (canon : Mat → Mat) (domain : Mat) : List Affine2 → Py (List Affine2)
  | [] => .ok []
  | p :: ps => do
    let d ← Mat.intersect canon p.dom domain
    let r ← cropDoms canon domain ps
    return ⟨p.c0, p.cs, d, p.label⟩ :: r

/-- `crop(domain, simplify)` (functions.py:521-532). -/
def crop (canon : Mat → Mat) (lp : Mat.LPSolver) (domain : Mat) (simplify : Bool) (ps : List Affine2) : Py (List Affine2) := do
  let r ← cropDoms canon domain ps
  if simplify then return r.filter (fun p => !Mat.isEmptyExcl lp p.dom) else return r

/-- `min_with(other)` (functions.py:541-545). -/
def minWith (canon : Mat → Mat) (lp : Mat.LPSolver) (verts : Mat → List Pt) (qs : List Affine2) : List Affine2 → Py (List Affine2)
  | [] => .ok []
  | p :: ps => do
    let a ← p.minWith canon lp verts qs
    let b ← minWith canon lp verts qs ps
    return a ++ b

/-- `scale(i, factor, additional_constraints)` (functions.py:554-557). -/
def scale (canon : Mat → Mat) (i : ℕ) (factor : ℚ) (additional : List Row) : List Affine2 → Py (List Affine2)
  | [] => .ok []
  | p :: ps => do
    let q ← p.scale canon i factor additional
    let r ← scale canon i factor additional ps
    return q :: r

/-! ### `simplify` -/

/-- `tuple([p.label] + p.a)` (functions.py:599). -/
def key (p : Affine2) : Option ℤ × ℚ × List ℚ := (p.label, p.c0, p.cs)

/-- A group with its key: an entry of the dictionary `matchable`. -/
abbrev Group := (Option ℤ × ℚ × List ℚ) × List Affine2

/-- The dictionary update for one piece (functions.py:600-603). -/
def insertGroup (p : Affine2) : List Group → List Group
  | [] => [(key p, [p])]
  | g :: gs => if g.1 = key p then (g.1, g.2 ++ [p]) :: gs else g :: insertGroup p gs

/-- The computation of `matchable` (functions.py:595-603). -/
def groups (ps : List Affine2) : List Group := ps.foldl (fun gs p => insertGroup p gs) []

/-- `itertools.combinations(l, n)` (python library). -/
def combinations : ℕ → List ℕ → List (List ℕ)
  | 0, _ => [[]]
  | _ + 1, [] => []
  | n + 1, a :: l => (combinations n l).map (fun c => a :: c) ++ combinations (n + 1) l

/-- `[group[fi].domain for fi in c]` (functions.py:576). -/
def pickDoms (group : List Affine2) : List ℕ → Py (List Mat)
  | [] => .ok []
  | i :: is =>
    match group[i]? with
    | none => .error .indexError
    | some f => do
      let r ← pickDoms group is
      return f.dom :: r

/-- The group after the members with the given positions were replaced by one with the domain `u`
(functions.py:579-584). -/
def replaced (group : List Affine2) (c : List ℕ) (f : Affine2) (u : Mat) : List Affine2 :=
  ((group ++ [(⟨f.c0, f.cs, u, f.label⟩ : Affine2)]).zipIdx.filter (fun t => !decide (t.2 ∈ c))).map (·.1)

/-- The loop over the combinations (functions.py:575-591); `none` if no union was found. -/
def tryCombos (unionFn : List Mat → Py (Option Mat)) (group : List Affine2) : List (List ℕ) → Py (Option (List Affine2))
  | [] => .ok none
  | c :: cs => do
    let doms ← pickDoms group c
    match (← unionFn doms) with
    | some u =>
      match c.head?.bind (fun i => group[i]?) with
      | some f => return some (replaced group c f u)
      | none => .error .indexError
    | none => tryCombos unionFn group cs

/-- `iteration(matchable, n)` (functions.py:565-592): the new dictionary and the flag `changed`. -/
def iteration (unionFn : List Mat → Py (Option Mat)) (n : ℕ) : List Group → Py (List Group × Bool)
  | [] => .ok ([], false)
  | g :: gs => do
    let r ← tryCombos unionFn g.2 (combinations n (List.range g.2.length))
    let rest ← iteration unionFn n gs
    match r with
    | some g' => return ((g.1, g') :: rest.1, true)
    | none => return (g :: rest.1, rest.2)

/-- The number of pieces in all groups. -/
def total (gs : List Group) : ℕ := (gs.map (fun g => g.2.length)).sum

/-- `while iteration(matchable, n): pass` (functions.py:618-619). The recursion is only taken when the number of
pieces has decreased; otherwise the marker `diverged` is returned. -/
def whileLoop (unionFn : List Mat → Py (Option Mat)) (n : ℕ) (gs : List Group) : Py (List Group) :=
  match iteration unionFn n gs with
  | .error e => .error e
  | .ok (gs', changed) =>
    if changed then
      if _h : total gs' < total gs then whileLoop unionFn n gs' else .error .diverged
    else .ok gs'
termination_by total gs

/-- `for n in range(2, max_grouping + 1)` (functions.py:617-619). -/
def forLoop (unionFn : List Mat → Py (Option Mat)) : List ℕ → List Group → Py (List Group)
  | [], gs => .ok gs
  | n :: ns, gs => do
    let gs' ← whileLoop unionFn n gs
    forLoop unionFn ns gs'

/-- `simplify(max_grouping)` (functions.py:560-626): the new list of pieces. `unionFn` is `Polytope.try_union`. -/
def simplify (unionFn : List Mat → Py (Option Mat)) (maxGrouping : ℕ) (ps : List Affine2) : Py (List Affine2) := do
  let gs ← forLoop unionFn ((List.range (maxGrouping - 1)).map (· + 2)) (groups ps)
  return gs.flatMap (·.2)

end Piecewise
end Expdb
