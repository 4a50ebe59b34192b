import Verif.Model.Affine2

/-!
# Model of `Constraint`, `Hyperplane`, the equality of polytopes and `Piecewise.check`

(polytope.py:15-105, 145-175, 365-411; functions.py:380-383, 461-481.) The external engines of cdd are parameters as in
`Verif/Model/Polytope.lean`.
-/

namespace Expdb

/-- The constants of `class Constraint` (polytope.py:17-19). -/
inductive IneqType where
  | ge | gt | eq
  deriving DecidableEq, Repr

/-- The number of the constant (polytope.py:17-19). -/
def IneqType.num : IneqType → ℚ
  | .ge => 0
  | .gt => 1
  | .eq => 2

/-- A `Constraint` object (polytope.py:26-28). -/
structure Constraint where
  coefficients : List ℚ
  type : IneqType
  deriving DecidableEq, Repr

namespace Constraint

/-- `all(self.coefficients[i] == other.coefficients[i] for i in range(len(self.coefficients)))` (polytope.py:64-67): an index outside
the second list cannot occur here, because the lengths were compared before. -/
def sameCoefs : List ℚ → List ℚ → Bool
  | [], _ => true
  | a :: as, b :: bs => decide (a = b) && sameCoefs as bs
  | _ :: _, [] => false

/-- `__eq__` (polytope.py:58-67). -/
def eq (c d : Constraint) : Bool :=
  if c.coefficients.length ≠ d.coefficients.length ∨ c.type ≠ d.type then false else sameCoefs c.coefficients d.coefficients

/-- The tuple whose hash is taken (polytope.py:69-71). -/
def hashKey (c : Constraint) : List ℚ := c.coefficients ++ [c.type.num]

/-- `satisfies(x)` (polytope.py:74-89). With no coefficients `d` is `-1`, so that every `x` has the wrong length. -/
def satisfies (c : Constraint) (x : Pt) : Py Bool :=
  match c.coefficients with
  | [] => .error .valueError
  | c0 :: cs =>
    if x.length ≠ cs.length then .error .valueError
    else
      let q := dot cs x + c0
      .ok (match c.type with
        | .ge => decide (q ≥ 0)
        | .gt => decide (q > 0)
        | .eq => decide (q = 0))

end Constraint

/-- `Hyperplane(a)` (polytope.py:97-98). -/
def hyperplane (a : List ℚ) : Constraint := ⟨a, .eq⟩

/-- `Affine2.intersection(other)` (functions.py:380-383). -/
def Affine2.intersection (f g : Affine2) : Py Constraint :=
  if f.cs.length + 1 ≠ g.cs.length + 1 then .error .valueError
  else .ok (hyperplane (List.zipWith (· - ·) (f.c0 :: f.cs) (g.c0 :: g.cs)))

namespace Mat

/-- `get_constraints()` (polytope.py:408-411). -/
def getConstraints (m : Mat) : List Constraint :=
  (m.asList false).map (fun r => ⟨r.c0 :: r.cs, .ge⟩) ++ (m.asList true).map (fun r => ⟨r.c0 :: r.cs, .eq⟩)

/-- A row of the matrix that `polyhedron.get_generators()` returns: the first entry is 1 for a vertex, 0 for a ray. -/
abbrev Generator := ℚ × Pt

/-- `self.vertices` after `compute_V_rep()` (polytope.py:379-381). -/
def verticesOf (g : List Generator) : List Pt := (g.filter (fun r => decide (r.1 = 1))).map Prod.snd

/-- `self.rays` after `compute_V_rep()` (polytope.py:382). -/
def raysOf (g : List Generator) : List Pt := (g.filter (fun r => decide (r.1 = 0))).map Prod.snd

/-- `__eq__` (polytope.py:167-175): the sets of vertices are compared. `gens` is `polyhedron.get_generators()`. -/
def eq (gens : Mat → List Generator) (p q : Mat) : Bool :=
  (verticesOf (gens p)).all (fun v => decide (v ∈ verticesOf (gens q))) &&
    (verticesOf (gens q)).all (fun v => decide (v ∈ verticesOf (gens p)))

end Mat

namespace Piecewise

/-- The inner loop over `j` of the first part of `check` (functions.py:463-470) for the piece `p`: `false` if the domain of one of the
earlier pieces overlaps. -/
def checkWith (canon : Mat → Mat) (lp : Mat.LPSolver) (p : Affine2) : List Affine2 → Py Bool
  | [] => .ok true
  | q :: qs => do
    let d ← Mat.intersect canon p.dom q.dom
    if !Mat.isEmptyExcl lp d then return false else checkWith canon lp p qs

/-- The first part of `check` (functions.py:462-470); `prev` are the pieces before. -/
def checkOverlap (canon : Mat → Mat) (lp : Mat.LPSolver) (prev : List Affine2) : List Affine2 → Py Bool
  | [] => .ok true
  | p :: ps => do
    if (← checkWith canon lp p prev) then checkOverlap canon lp (prev ++ [p]) ps else return false

/-- `xlim[0] + (xlim[1] - xlim[0]) * i / N` (functions.py:473-477) with exact numbers. -/
def sample (lim : ℚ × ℚ) (i : ℕ) : ℚ := lim.1 + (lim.2 - lim.1) * i / 100

/-- `self.at([x, y]) is None` is false at all points of a list (functions.py:474-480). -/
def checkAt (ps : List Affine2) : List Pt → Py Bool
  | [] => .ok true
  | x :: xs => do
    let v ← Piecewise.at ps x
    if v.isNone then return false else checkAt ps xs

/-- The sample points in order (functions.py:473-477). -/
def samples (xlim ylim : ℚ × ℚ) : List Pt :=
  (List.range 100).flatMap (fun i => (List.range 100).map (fun j => [sample xlim i, sample ylim j]))

/-- `check(xlim, ylim)` (functions.py:461-481) without the printing. -/
def check (canon : Mat → Mat) (lp : Mat.LPSolver) (ps : List Affine2) (xlim ylim : ℚ × ℚ) : Py Bool := do
  if (← checkOverlap canon lp [] ps) then checkAt ps (samples xlim ylim) else return false

end Piecewise
end Expdb
