import Verif.Model.Basic
import Mathlib.Data.List.Dedup

/-!
# Model of `class Polytope` (polytope.py lines 110–795)

A `cdd.Matrix` is a list of rows with the same number `cols` of entries; the `lin_set` is stored as
a flag on each row.  A `Polytope` object is identified with its matrix `mat`; the cached fields
(`vertices`, `rays`, `is_canonical`, `_is_empty_incl_boundary`) only store values that are
recomputable from the matrix and are not represented.

External engines of cdd are parameters:
* `canon`   – `mat.canonicalize()`,
* `lp`      – `cdd.LinProg(mat).solve()`,
* `verts`   – `polyhedron.get_generators()` restricted to vertices.
-/

namespace Expdb

/-- A point, as passed to `contains` etc. -/
abbrev Pt := List ℚ

/-- `sum(a[i] * x[i] for i in range(len(x)))` (polytope.py:184, 502). -/
def dot : List ℚ → List ℚ → ℚ
  | a :: as, x :: xs => a * x + dot as xs
  | _, _ => 0

/-- A row `[c0, c1, ..., cd]` of a matrix with its membership in `lin_set`
(polytope.py:112-117, 182-185): `c0 + c·x ≥ 0`, or `= 0` if `lin`. -/
structure Row where
  lin : Bool
  c0 : ℚ
  cs : List ℚ
  deriving DecidableEq, Repr

namespace Row

/-- The value `r[0] + sum(r[i+1] * x[i])` (polytope.py:184, 502). -/
def val (r : Row) (x : Pt) : ℚ := r.c0 + dot r.cs x

/-- `_satisfies` (polytope.py:182-185). -/
def satisfies (r : Row) (x : Pt) : Bool :=
  if r.lin then decide (r.val x = 0) else decide (r.val x ≥ 0)

/-- `[-x for x in c]`, as an inequality (polytope.py:297, 554, 702). -/
def negIneq (r : Row) : Row := ⟨false, -r.c0, r.cs.map (fun a => -a)⟩

/-- The row read as an inequality (its coefficients without the flag). -/
def asIneq (r : Row) : Row := ⟨false, r.c0, r.cs⟩

/-- all coefficients zero (polytope.py:126). -/
def isZero (r : Row) : Bool := decide (r.c0 = 0) && r.cs.all (fun a => decide (a = 0))

end Row

/-- A matrix: column count and rows.  `cols = 0` when it was built from no rows
(`cdd.Matrix([])`). -/
structure Mat where
  cols : Nat
  rows : List Row
  deriving DecidableEq, Repr

namespace Mat

/-- `cdd.Matrix(rows, linear=...)`: no rows gives zero columns, rows of different length raise
`ValueError` (library behaviour, polytope.py:128). -/
def ofRows (rows : List Row) : Py Mat :=
  match rows with
  | [] => .ok ⟨0, []⟩
  | r :: _ =>
    if rows.all (fun s => decide (s.cs.length = r.cs.length)) then
      .ok ⟨r.cs.length + 1, rows⟩
    else .error .valueError

/-- `Polytope(constraints, linear)` without canonicalisation (polytope.py:121-143): rows that are
all zero are dropped first. -/
def ofConstraints (rows : List Row) : Py Mat := ofRows (rows.filter (fun r => !r.isZero))

/-- `mat.extend(rows, linear=...)` (library behaviour: `ValueError` when the column counts
differ); the flag is already stored on the rows. -/
def extend (m : Mat) (rows : List Row) : Py Mat :=
  if rows.all (fun s => decide (s.cs.length + 1 = m.cols)) then .ok ⟨m.cols, m.rows ++ rows⟩
  else .error .valueError

/-- `if len(rows) > 0: mat.extend(rows, ...)` (polytope.py:231-232, 456-457, 793-794). -/
def extendIf (m : Mat) (rows : List Row) : Py Mat :=
  if rows.length > 0 then m.extend rows else .ok m

/-- `_matrix_as_list(matrix, lin_set)` (polytope.py:199-204). -/
def asList (m : Mat) (lin : Bool) : List Row := m.rows.filter (fun r => r.lin == lin)

/-- `contains` (polytope.py:496-507). -/
def contains (m : Mat) (x : Pt) : Py Bool :=
  if x.length + 1 ≠ m.cols then .error .valueError
  else .ok (m.rows.all (fun r =>
    if r.lin then decide (¬ r.val x ≠ 0) else decide (¬ r.val x < 0)))

/-- `intersection(polys, canonicalize)` (polytope.py:211-239). -/
def intersection (canon : Mat → Mat) (canonicalize : Bool) : List Mat → Py Mat
  | [] => .error .valueError
  | [p] => .ok p
  | p :: q :: rest => do
    let ineqs := (q :: rest).flatMap (fun m => m.asList false)
    let eqs := (q :: rest).flatMap (fun m => m.asList true)
    let m ← p.extendIf ineqs
    let m ← m.extendIf eqs
    .ok (if canonicalize then canon m else m)

/-- `intersect(other)` (polytope.py:531-532). -/
def intersect (canon : Mat → Mat) (p q : Mat) : Py Mat := intersection canon true [p, q]

/-- The unit row `[c] + [0]*dim` with entry `s` at variable `i` (polytope.py:325-326, 781-782). -/
def unitRow (c : ℚ) (dim i : Nat) (s : ℚ) : Row := ⟨false, c, (List.replicate dim 0).set i s⟩

/-- The two rows of variable `i` with limits `lim` (polytope.py:322-331, 776-788). -/
def rangeRows (dim i : Nat) (lo hi : ℚ) : List Row :=
  [unitRow (-lo) dim i 1, unitRow hi dim i (-1)]

/-- `rect(*lims)` (polytope.py:319-333). -/
def rect (lims : List (ℚ × ℚ)) : Py Mat :=
  ofConstraints (lims.zipIdx.flatMap (fun t => rangeRows lims.length t.2 t.1.1 t.1.2))

/-- `[r[0]] + [r[i+1] / factors[i] ...]` (polytope.py:481). -/
def scaleRow (factors : List ℚ) (r : Row) : Row :=
  { r with cs := List.zipWith (· / ·) r.cs factors }

/-- `scale_all(factors)` (polytope.py:469-493). A zero factor raises `ZeroDivisionError` as soon
as there is a row; with no row at all `_from_mat(None)` raises `TypeError`. -/
def scaleAll (m : Mat) (factors : List ℚ) : Py Mat :=
  if factors.length + 1 ≠ m.cols then .error .valueError
  else if m.rows.length > 0 ∧ (0 : ℚ) ∈ factors then .error .zeroDivision
  else if m.rows.length = 0 then .error .typeError
  else .ok ⟨m.cols, (m.asList false ++ m.asList true).map (scaleRow factors)⟩

/-- `c[i] /= factor` on a row, `i` counted with the constant at position 0
(polytope.py:444-445). -/
def scaleRowAt (i : Nat) (f : ℚ) (r : Row) : Row :=
  match i with
  | 0 => { r with c0 := r.c0 / f }
  | j + 1 => { r with cs := r.cs.modify j (· / f) }

/-- `scale(i, factor, additional_constraints)` (polytope.py:441-466). With no rows at all the
variable `p` is unbound (`UnboundLocalError`, modelled as `typeError`). -/
def scale (canon : Mat → Mat) (m : Mat) (i : Nat) (f : ℚ) (additional : List Row) : Py Mat :=
  if m.rows.length > 0 ∧ i ≥ m.cols then .error .indexError
  else if m.rows.length > 0 ∧ f = 0 then .error .zeroDivision
  else do
    let ineqRows := (m.asList false).map (scaleRowAt i f) ++ additional
    let eqRows := (m.asList true).map (scaleRowAt i f)
    if ineqRows.length > 0 then do
      let p ← ofConstraints ineqRows
      let p ← p.extendIf eqRows
      .ok (canon p)
    else if eqRows.length > 0 then do
      let p ← ofConstraints eqRows
      .ok (canon p)
    else .error .typeError

/-- `substitute(values)` (polytope.py:715-727); `values` is a dict, given as an association list
with distinct keys. An index outside the row raises `IndexError`. -/
def substRow (values : List (Nat × ℚ)) (r : Row) : Row :=
  { r with
    c0 := r.c0 + (values.map (fun iv => (r.cs.getD iv.1 0) * iv.2)).sum
    cs := (r.cs.zipIdx.filter (fun t => !(values.any (fun iv => iv.1 == t.2)))).map (·.1) }

/-- `substitute(values)` (polytope.py:715-727). -/
def substitute (m : Mat) (values : List (Nat × ℚ)) : Py Mat :=
  if m.rows.length > 0 ∧ values.any (fun iv => decide (iv.1 + 1 ≥ m.cols)) then .error .indexError
  else ofRows (m.rows.map (substRow values))

/-- An entry of the argument of `lift` (polytope.py:749-753): an existing dimension, or a range
for a new dimension. (Negative ints, which python would read from the end, are excluded.) -/
inductive LiftVar
  | dim (i : Nat)
  | range (lo hi : ℚ)
  deriving DecidableEq, Repr

/-- Entry of the lifted row for one variable: `constraint[x + 1] if isinstance(x, int) else 0`
(polytope.py:770). -/
def liftCoef (cs : List ℚ) : LiftVar → ℚ
  | .dim i => cs.getD i 0
  | .range _ _ => 0

/-- `f(constraint)` (polytope.py:768-770). -/
def liftRow (vars : List LiftVar) (r : Row) : Row := { r with cs := vars.map (liftCoef r.cs) }

/-- rows for the new variables (polytope.py:776-788). -/
def liftRanges (vars : List LiftVar) : List Row :=
  vars.zipIdx.flatMap (fun t => match t.1 with
    | .dim _ => []
    | .range lo hi => rangeRows vars.length t.2 lo hi)

/-- `lift(var)` (polytope.py:754-795). `constraint[x + 1]` raises `IndexError` when there is a row
and a listed dimension does not exist. With equality rows but no inequality row the matrix has no
columns and `mat.extend` raises `ValueError`. -/
def lift (m : Mat) (vars : List LiftVar) : Py Mat :=
  if m.rows.length > 0 ∧ vars.any (fun v => match v with
      | .dim i => decide (i + 1 ≥ m.cols) | .range _ _ => false) then .error .indexError
  else do
    let ineq := (m.asList false).map (liftRow vars) ++ liftRanges vars
    let eq := (m.asList true).map (liftRow vars)
    let mat ← ofRows ineq
    mat.extendIf eq

/-! ### Linear programming -/

/-- Outcome of `lp.solve()`. `other v` is any status different from OPTIMAL together with the
(meaningless) number left in `lp.obj_value`. -/
inductive LPResult
  | optimal (x : Pt) (value : ℚ)
  | other (objValue : ℚ)
  deriving DecidableEq, Repr

/-- A linear program solver: maximise (`true`) or minimise (`false`) the objective row over the
points of the matrix. -/
abbrev LPSolver := Bool → Mat → Row → LPResult

/-- `is_empty(include_boundary=True)` (polytope.py:578-597). -/
def isEmptyIncl (lp : LPSolver) (m : Mat) : Bool :=
  match lp true m ⟨false, 0, List.replicate (m.cols - 1) 0⟩ with
  | .optimal _ _ => false
  | .other _ => true

/-- The matrix of the ε-program (polytope.py:618-623): every row gets the extra entry `-1`, then
`ε ≥ 0` and `ε ≤ 1`. -/
def epsMat (m : Mat) : Mat :=
  ⟨m.cols + 1,
    (m.asList false).map (fun r => ⟨false, r.c0, r.cs ++ [-1]⟩) ++
    [⟨false, 0, List.replicate (m.cols - 1) 0 ++ [1]⟩,
     ⟨false, 1, List.replicate (m.cols - 1) 0 ++ [-1]⟩]⟩

/-- `is_empty(include_boundary=False)` (polytope.py:599-637). -/
def isEmptyExcl (lp : LPSolver) (m : Mat) : Bool :=
  if (m.asList true).length > 0 then true
  else
    match lp true m.epsMat ⟨false, 0, List.replicate (m.cols - 1) 0 ++ [1]⟩ with
    | .other _ => true
    | .optimal x _ => decide (x.getLast? = some 0)

/-- `as_ineq` of `is_subset_of` (polytope.py:646-651). -/
def asIneqs (m : Mat) : List Row :=
  m.asList false ++ (m.asList true).map Row.asIneq ++ (m.asList true).map Row.negIneq

/-- `lp.obj_value`. -/
def LPResult.objValue : LPResult → ℚ
  | .optimal _ v => v
  | .other v => v

/-- `is_subset_of` (polytope.py:640-671). -/
def isSubsetOf (lp : LPSolver) (p q : Mat) : Bool :=
  q.asIneqs.all (fun ab => !decide ((lp false p ab).objValue < 0))

/-- constraints of `Q` as inequalities in the order of `is_covered_by` (polytope.py:693-696). -/
def coverCons (q : Mat) : List Row :=
  q.asList false ++ (q.asList true).flatMap (fun e => [e.asIneq, e.negIneq])

/-- `is_covered_by` (polytope.py:676-711); `emptyExcl` is `is_empty(include_boundary=False)`.
(`mat.extend` cannot fail for equal dimensions; dimension mismatch is not modelled here.) -/
def isCoveredBy (emptyExcl : Mat → Bool) (p : Mat) : List Mat → Bool
  | [] => false
  | q :: rest => q.coverCons.all (fun con =>
      let poly : Mat := ⟨p.cols, p.rows ++ [con.negIneq]⟩
      if !emptyExcl poly then
        if !isCoveredBy emptyExcl poly rest then false else true
      else true)

/-- `set_minus` loop (polytope.py:550-569): `A` is the running matrix. -/
def setMinusLoop (canon : Mat → Mat) (emptyExcl : Mat → Bool) (simplify : Bool) (A : Mat) :
    List Row → List Mat
  | [] => []
  | r :: rest =>
    if r.lin then setMinusLoop canon emptyExcl simplify A rest
    else
      let A1 : Mat := ⟨A.cols, A.rows ++ [r.negIneq]⟩
      let part := if simplify then canon A1 else A1
      let A' : Mat := if rest.length > 0 then ⟨A.cols, A.rows ++ [r]⟩ else A
      let tail := setMinusLoop canon emptyExcl simplify A' rest
      if simplify then
        if !emptyExcl part then part :: tail else tail
      else part :: tail

/-- `set_minus(other, simplify)` (polytope.py:539-571). -/
def setMinus (canon : Mat → Mat) (emptyExcl : Mat → Bool) (simplify : Bool) (A B : Mat) :
    List Mat :=
  setMinusLoop canon emptyExcl simplify A B.rows

/-- `intersects(plane)` (polytope.py:511-527): the loop over the vertices with the variable
`sign`. -/
def intersectsLoop (h : Row) (sign : ℚ) : List Pt → Bool
  | [] => false
  | v :: vs =>
    let newSign := h.val v
    if sign * newSign < 0 then true
    else intersectsLoop h (if newSign ≠ 0 then newSign else sign) vs

/-- `intersects(plane)` (polytope.py:511-527). -/
def intersects (verts : Mat → List Pt) (m : Mat) (h : Row) : Bool :=
  intersectsLoop h 0 (verts m)

/-- coordinatewise sum -/
def addPt (x y : Pt) : Pt := List.zipWith (· + ·) x y

/-- `get_centroid` (polytope.py:391-405); `ZeroDivisionError` when there is no vertex (and the
dimension is positive). -/
def centroid (verts : Mat → List Pt) (m : Mat) : Py Pt :=
  let vs := verts m
  let s := vs.foldl addPt (List.replicate (m.cols - 1) 0)
  if vs.length = 0 ∧ m.cols - 1 > 0 then .error .zeroDivision
  else .ok (s.map (fun a => a / (vs.length : ℚ)))

/-! ### `try_union` -/

/-- `satisfies(matrix, row_index, i)` (polytope.py:273-281): the row holds at all vertices of all
polytopes other than number `i`. -/
def rowIsEnv (verts : Mat → List Pt) (polys : List Mat) (i : Nat) (r : Row) : Bool :=
  polys.zipIdx.all (fun t => t.2 == i || (verts t.1).all (fun v => r.satisfies v))

/-- Contribution of polytope `i` to `env` (polytope.py:288-294). -/
def envRows (verts : Mat → List Pt) (polys : List Mat) (i : Nat) (p : Mat) : List Row :=
  (p.rows.filter (rowIsEnv verts polys i)).flatMap
    (fun r => if r.lin then [r.asIneq, r.negIneq] else [r.asIneq])

/-- `neg_p` of polytope `i` (polytope.py:295-299). -/
def negRows (verts : Mat → List Pt) (polys : List Mat) (i : Nat) (p : Mat) : List Row :=
  (p.rows.filter (fun r => !rowIsEnv verts polys i r)).flatMap
    (fun r => if r.lin then [r.negIneq, r.asIneq] else [r.negIneq])

/-- `itertools.product(*lists)` (python library). -/
def product {α : Type} : List (List α) → List (List α)
  | [] => [[]]
  | l :: ls => l.flatMap (fun a => (product ls).map (fun t => a :: t))

/-- The part of `try_union` after the early exits (polytope.py:268-315).  `env` is a python set;
its order is irrelevant here and it is kept as a list without duplicates. -/
def tryUnionCore (canon : Mat → Mat) (lp : LPSolver) (verts : Mat → List Pt) (polys : List Mat) :
    Py (Option Mat) := do
  let env := (polys.zipIdx.flatMap (fun t => envRows verts polys t.2 t.1)).dedup
  let neg := polys.zipIdx.map (fun t => negRows verts polys t.2 t.1)
  let bad ← (product neg).anyM (fun comb => do
    let p ← ofConstraints (env ++ comb)
    pure (!isEmptyExcl lp p))
  if bad then return none
  let m ← ofConstraints env
  return some (canon m)

/-- `try_union(polys)` (polytope.py:251-315): `none` is python's `None`; for two polytopes a
disjointness test comes first (lines 264-266). -/
def tryUnion (canon : Mat → Mat) (lp : LPSolver) (verts : Mat → List Pt) : List Mat →
    Py (Option Mat)
  | [] => .ok none
  | [p] => .ok (some p)
  | [p, q] => do
    let m ← intersection canon false [p, q]
    if isEmptyIncl lp m then return none
    tryUnionCore canon lp verts [p, q]
  | p :: q :: r :: rest => tryUnionCore canon lp verts (p :: q :: r :: rest)

end Mat
end Expdb
