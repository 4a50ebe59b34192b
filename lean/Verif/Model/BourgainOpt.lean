import Verif.Model.Polytope
import Verif.Model.Region
import Verif.Model.Affine2

/-!
# Model of the optimiser for Bourgain's large value theorem in `large_values.py`

sympy's exact `Matrix.rref` is modelled by Gauss-Jordan elimination over `ℚ` (the reduced row-echelon form of a matrix is unique).
-/

namespace Expdb
namespace BourgainOpt

/-- `eqns` (large_values.py:204-213): the coefficients of `a1, a2, sigma, tau, M` and `1`. -/
def eqns : List (List ℚ) :=
  [[0, 1, -2, 0, -1, 2],
   [1, 1 / 2, -2, 0, -1, 2],
   [0, -1, -8, 2, -1, 4],
   [-2, 0, -16, 1, -1, 12],
   [4, 0, -4, 0, -1, 3],
   [4, 0, -4, 2, -1, 0],
   [1, 0, 0, 0, 0, 0],
   [0, 1, 0, 0, 0, 0]]

/-- `row[i] - other[i] * f` for all `i` (large_values.py:250, 256; also the row operation inside `rref`, large_values.py:230). -/
def subRow (r other : List ℚ) (f : ℚ) : List ℚ := List.zipWith (fun a b => a - b * f) r other

/-- The first row with a non-zero entry in column `j`, and the other rows (sympy library, `rref`, large_values.py:230). -/
def splitPivot (j : ℕ) : List (List ℚ) → Option (List ℚ × List (List ℚ))
  | [] => none
  | r :: rs => if r.getD j 0 ≠ 0 then some (r, rs) else (splitPivot j rs).map (fun p => (p.1, r :: p.2))

/-- Gauss-Jordan elimination from column `j` on: `done` are the rows with a pivot (sympy library, `rref`, large_values.py:230). -/
def rrefLoop : ℕ → ℕ → List (List ℚ) → List (List ℚ) → List (List ℚ)
  | 0, _, done, todo => done ++ todo
  | n + 1, j, done, todo =>
    match splitPivot j todo with
    | none => rrefLoop n (j + 1) done todo
    | some (p, rest) =>
      let q := p.map (fun x => x / p.getD j 0)
      rrefLoop n (j + 1) (done.map (fun r => subRow r q (r.getD j 0)) ++ [q]) (rest.map (fun r => subRow r q (r.getD j 0)))

/-- `sympy.Matrix(c).rref()[0]` for a matrix with `cols` columns (large_values.py:228-231). -/
def rref (cols : ℕ) (m : List (List ℚ)) : List (List ℚ) := rrefLoop cols 0 [] m

/-- The scaling of a row whose pivot is not 1 (large_values.py:238-243). -/
def scaleRow (r : List ℚ) (j : ℕ) : List ℚ := if r.getD j 0 ≠ 1 then r.map (fun x => x / r.getD j 0) else r

/-- The elimination of `M` from one row with the help of the third one (large_values.py:246-257); `none` stands for `continue`. -/
def eliminateM (r r2 : List ℚ) : Option (List ℚ) :=
  if r.getD 4 0 ≠ 0 then
    if r2.getD 4 0 = 0 then none else some (subRow r r2 (r.getD 4 0 / r2.getD 4 0))
  else some r

/-- `[-mat[i][5], -mat[i][2], -mat[i][3]]` (large_values.py:261-262). -/
def defn (r : List ℚ) : List ℚ := [-r.getD 5 0, -r.getD 2 0, -r.getD 3 0]

/-- The body of the loop up to `a2_defn` (large_values.py:228-262); `none` stands for `continue`. -/
def step (c : List (List ℚ)) : Option (List ℚ × List ℚ) :=
  let mat := rref 6 c
  let r0 := mat.getD 0 []
  let r1 := mat.getD 1 []
  let r2 := mat.getD 2 []
  if r0.getD 0 0 = 0 ∨ r1.getD 1 0 = 0 then none
  else
    match eliminateM (scaleRow r0 0) r2, eliminateM (scaleRow r1 1) r2 with
    | some s0, some s1 => some (defn s0, defn s1)
    | _, _ => none

/-- `itertools.combinations(eqns, 3)` (large_values.py:227). -/
def triples : List (List (List ℚ)) := (Piecewise.combinations 3 (List.range 8)).map (fun c => c.map (fun i => eqns.getD i []))

/-- The function `fn` for one of the first six rows (large_values.py:274-275). -/
def fnOf (e a1 a2 : List ℚ) : List ℚ :=
  [e.getD 5 0 + e.getD 0 0 * a1.getD 0 0 + e.getD 1 0 * a2.getD 0 0, e.getD 2 0 + e.getD 0 0 * a1.getD 1 0 + e.getD 1 0 * a2.getD 1 0,
    e.getD 3 0 + e.getD 0 0 * a1.getD 2 0 + e.getD 1 0 * a2.getD 2 0]

/-- `fns` (large_values.py:272-276) as a list; repetitions do not matter for the union made from it. -/
def fns (a1 a2 : List ℚ) : List (List ℚ) := (eqns.take 6).map (fun e => fnOf e a1 a2)

/-- The call `p.lift(args)` with positional arguments (polytope.py:754-758): the method takes exactly one argument, which has to be
a list. -/
def callLift (m : Mat) : List (Mat.LiftVar ⊕ List Mat.LiftVar) → Py Mat
  | [.inr vs] => m.lift vs
  | [.inl _] => .error .valueError
  | _ => .error .typeError

/-- `Polytope([a1_defn, a2_defn]).lift(0, 1, (0, LV_DEFAULT_UPPER_BOUND))` (large_values.py:265-267). -/
def domainOf (a1 a2 : List ℚ) : Py Mat := do
  let p ← Mat.ofConstraints [⟨false, a1.headD 0, a1.tail⟩, ⟨false, a2.headD 0, a2.tail⟩]
  callLift p [.inl (.dim 0), .inl (.dim 1), .inl (.range 0 1000000)]

/-- The loop (large_values.py:227-295); `rest` is the remainder of its body after `domain` (large_values.py:269-295), which makes a
region from `a1_defn`, `a2_defn` and `domain`. -/
def loop {R : Type} (rest : List ℚ → List ℚ → Mat → Py R) : List (List (List ℚ)) → Py (List R)
  | [] => .ok []
  | c :: cs =>
    match step c with
    | none => loop rest cs
    | some a => do
      let d ← domainOf a.1 a.2
      let r ← rest a.1 a.2 d
      let rs ← loop rest cs
      return r :: rs

/-- `optimize_bourgain_large_value_estimate` (large_values.py:190-303); `finish` is the computation of the intersection after the loop
(large_values.py:298-303). -/
def optimize {R : Type} (rest : List ℚ → List ℚ → Mat → Py R) (finish : List R → Py R) : Py R := do
  let rs ← loop rest triples
  finish rs

/-- `prove_bourgain_large_values_theorem` (derived.py:220-232); `use` is everything after the call (derived.py:224-232). -/
def proveBourgain {R : Type} (rest : List ℚ → List ℚ → Mat → Py R) (finish : List R → Py R) (use : R → Py Unit) : Py Unit := do
  let r ← optimize rest finish
  use r

/-- `prove_all_large_value_estimates` (derived.py:270-272); `gm` is the call of `prove_guth_maynard_large_values_theorem`. -/
def proveAllLV {R : Type} (rest : List ℚ → List ℚ → Mat → Py R) (finish : List R → Py R) (use : R → Py Unit) (gm : Py Unit) : Py Unit := do
  proveBourgain rest finish use
  gm

/-- The attributes of a `Large_Value_Estimate` (large_values.py:43-44). -/
inductive Attr
  | region
  | repr
  | bound
  deriving DecidableEq

/-- Reading an attribute of a `Large_Value_Estimate` (large_values.py:17-55): only `region` and `repr` are set. -/
def getAttr {R : Type} (region : R) : Attr → Py R
  | .region => .ok region
  | .repr => .ok region
  | .bound => .error .attributeError

/-- The condition under which a grid point is skipped (large_values.py:326-327). -/
def skipped (σ τ : ℚ) : Bool := decide (max (2 - 2 * σ) (τ + 18 - 24 * σ) > min 1 (4 - 2 * τ))

/-- One grid point (large_values.py:321-364). `x` is `res.x` of scipy's `linprog`, which is `None` if it does not succeed. The
evaluation of `res.x[2]` comes before that of `hypothesis.data.bound`. -/
def checkPoint {R : Type} (region : R) (x : Option (List ℚ)) : Py Unit :=
  match x with
  | none => .error .typeError
  | some v =>
    match v[2]? with
    | none => .error .indexError
    | some _ => do
      let _ ← getAttr region .bound
      return ()

/-- `sigma` (large_values.py:317). -/
def gridσ (i : ℕ) : ℚ := 1 / 2 + (1 - 1 / 2) * i / 1000

/-- `tau` (large_values.py:322). -/
def gridτ (j : ℕ) : ℚ := 1001 / 1000 + (5 - 1001 / 1000) * j / 1000

/-- The grid in the order of the two loops (large_values.py:315-322). -/
def grid : List (ℕ × ℕ) := (List.range 1001).flatMap (fun i => (List.range 1001).map (fun j => (i, j)))

/-- `check_bourgain_large_value_estimate` (large_values.py:307-366), for a hypothesis whose data is a `Large_Value_Estimate`. -/
def check {R : Type} (linprog : ℚ → ℚ → Option (List ℚ)) (region : R) : Py Unit :=
  grid.forM (fun p => if skipped (gridσ p.1) (gridτ p.2) then .ok () else checkPoint region (linprog (gridσ p.1) (gridτ p.2)))

/-- `apply_huxley_subdivision` (large_values.py:375-383): `hypType` is `none` for an argument that is not a `Hypothesis`. -/
def applyHuxleySubdivision (hypType : Option String) : Py Unit :=
  match hypType with
  | none => .error .valueError
  | some t => if t ≠ "Large value estimate" then .error .valueError else .error .notImplemented

end BourgainOpt
end Expdb
