import Verif.Model.Polytope

/-!
# Model of `class Region` (region.py) and of `helpers/region_helper.py`
-/

namespace Expdb

/-- A region (region.py:8-47): a boolean combination of polytopes. `region_type` and `child` are
combined into constructors. A polytope carries its `label` attribute, if it was set
(region.py:142-147). `wrapped r` is a region of type POLYTOPE whose child is a `Region`, which
`lift` builds for complements (region.py:253-254). -/
inductive Region (L : Type) where
  | polytope (mat : Mat) (label : Option L)
  | wrapped (child : Region L)
  | complement (child : Region L)
  | union (children : List (Region L))
  | disjoint (children : List (Region L))
  | intersect (children : List (Region L))

/-- The external engines used by the polytope operations. `order` is the iteration order of a
python set of ints (given the order of insertion). -/
structure Engine where
  canon : Mat → Mat
  lp : Mat.LPSolver
  verts : Mat → List Pt
  order : List Nat → List Nat

/-- A polytope object with its `dependencies` attribute (empty when not tracked). -/
structure Piece (L : Type) where
  mat : Mat
  deps : List L

namespace Region

variable {L : Type}

mutual
/-- `contains(x)` (region.py:159-168). -/
def contains : Region L → Pt → Py Bool
  | .complement r, x => do return !(← r.contains x)
  | .wrapped r, x => r.contains x
  | .polytope m _, x => m.contains x
  | .union rs, x => containsAny rs x
  | .disjoint rs, x => containsAny rs x
  | .intersect rs, x => containsAll rs x
/-- `any(c.contains(x) for c in self.child)` (region.py:165). -/
def containsAny : List (Region L) → Pt → Py Bool
  | [], _ => .ok false
  | r :: rs, x => do if (← r.contains x) then return true else containsAny rs x
/-- `all(c.contains(x) for c in self.child)` (region.py:167). -/
def containsAll : List (Region L) → Pt → Py Bool
  | [], _ => .ok true
  | r :: rs, x => do if (← r.contains x) then containsAll rs x else return false
end

mutual
/-- A function applied to every polytope, keeping the region type: the common shape of
`substitute` (region.py:195-202) and `scale_all` (region.py:206-213). The result carries no
labels, since `Polytope.substitute`/`scale_all` build new objects. -/
def mapMat (f : Mat → Py Mat) : Region L → Py (Region L)
  | .polytope m _ => do return .polytope (← f m) none
  | .wrapped r => do return .wrapped (← r.mapMat f)
  | .complement r => do return .complement (← r.mapMat f)
  | .union rs => do return .union (← mapMatList f rs)
  | .disjoint rs => do return .disjoint (← mapMatList f rs)
  | .intersect rs => do return .intersect (← mapMatList f rs)
/-- `[f(c) for c in self.child]` (region.py:202, 213). -/
def mapMatList (f : Mat → Py Mat) : List (Region L) → Py (List (Region L))
  | [] => .ok []
  | r :: rs => do
    let r' ← r.mapMat f
    let rs' ← mapMatList f rs
    return r' :: rs'
end

/-- `substitute(values)` (region.py:195-202). -/
def substitute (r : Region L) (values : List (Nat × ℚ)) : Py (Region L) :=
  r.mapMat (fun m => m.substitute values)

/-- `scale_all(factors)` (region.py:206-213). -/
def scaleAll (r : Region L) (factors : List ℚ) : Py (Region L) :=
  r.mapMat (fun m => m.scaleAll factors)

mutual
/-- `lift(var)` (region.py:246-256): note that a COMPLEMENT becomes a POLYTOPE region. -/
def lift (vars : List Mat.LiftVar) : Region L → Py (Region L)
  | .polytope m _ => do return .polytope (← m.lift vars) none
  | .wrapped r => do return .wrapped (← r.lift vars)
  | .complement r => do return .wrapped (← r.lift vars)
  | .union rs => do return .union (← liftList vars rs)
  | .disjoint rs => do return .disjoint (← liftList vars rs)
  | .intersect rs => do return .intersect (← liftList vars rs)
/-- `[c.lift(var) for c in self.child]` (region.py:256). -/
def liftList (vars : List Mat.LiftVar) : List (Region L) → Py (List (Region L))
  | [] => .ok []
  | r :: rs => do
    let r' ← r.lift vars
    let rs' ← liftList vars rs
    return r' :: rs'
end

mutual
/-- `set_label(label)` (region.py:142-154). For the odd POLYTOPE region with a `Region` child the
attribute is set on that child only. -/
def setLabel (l : L) : Region L → Region L
  | .polytope m _ => .polytope m (some l)
  | .wrapped r => .wrapped r
  | .complement r => .complement (r.setLabel l)
  | .union rs => .union (setLabelList l rs)
  | .disjoint rs => .disjoint (setLabelList l rs)
  | .intersect rs => .intersect (setLabelList l rs)
/-- the loop `for r in self.child: r.set_label(label)` (region.py:153-154). -/
def setLabelList (l : L) : List (Region L) → List (Region L)
  | [] => []
  | r :: rs => r.setLabel l :: setLabelList l rs
end

/-- Loop of `from_union_of_halfplanes` (region.py:113-121) with the current `neg_ineq`. -/
def halfplaneLoop (canon : Mat → Mat) (box : List Row) : List Row → List Row →
    Py (List (Region L))
  | _, [] => .ok []
  | neg, hp :: hps => do
    let m ← Mat.ofConstraints (box ++ [hp] ++ neg)
    let rest ← halfplaneLoop canon box (neg ++ [hp.negIneq]) hps
    return .polytope (canon m) none :: rest

/-- `from_union_of_halfplanes(halfplanes, box)` (region.py:108-122). -/
def fromHalfplanes (canon : Mat → Mat) (halfplanes box : List Row) : Py (Region L) := do
  return .disjoint (← halfplaneLoop canon box [] halfplanes)

/-! ### `simplify_union_of_polys` -/

section Simplify

variable [DecidableEq L] (unionFn : List Mat → Py (Option Mat)) (order : List Nat → List Nat)
  (track : Bool)

/-- State of the loops (region_helper.py:15-20): the growing list, the set of live indexes (in
insertion order), the known non-unions and the flag `changed`. -/
structure SimpState (L : Type) where
  polys : List (Piece L)
  index : List Nat
  non : List (Nat × Nat)
  changed : Bool

/-- `itertools.combinations(l, 2)` (python library). -/
def combos2 : List Nat → List (Nat × Nat)
  | [] => []
  | a :: l => l.map (fun b => (a, b)) ++ combos2 l

/-- `union.dependencies = ...` if tracking (region_helper.py:38-39). -/
def mergeDeps (a b : List L) : List L := if track then a.union b else []

/-- Body of the `for` loop (region_helper.py:25-46). -/
def simpStep (st : SimpState L) (c : Nat × Nat) : Py (SimpState L) :=
  if c.1 ∉ st.index ∨ c.2 ∉ st.index then .ok st
  else if c ∈ st.non ∨ (c.2, c.1) ∈ st.non then .ok st
  else
    match st.polys[c.1]?, st.polys[c.2]? with
    | some p, some q => do
      match (← unionFn [p.mat, q.mat]) with
      | some u => .ok {
          polys := st.polys ++ [⟨u, mergeDeps track p.deps q.deps⟩]
          index := (st.index.erase c.1).erase c.2 ++ [st.polys.length]
          non := st.non
          changed := true }
      | none => .ok { st with non := c :: st.non }
    | _, _ => .error .indexError

/-- One pass of the `while` loop (region_helper.py:23-46). -/
def simpRound (st : SimpState L) : Py (SimpState L) :=
  (combos2 (order st.index)).foldlM (simpStep unionFn track) { st with changed := false }

/-- `while changed` (region_helper.py:21-46). The recursion is only taken when the number of live
indexes has decreased; otherwise the marker `diverged` is returned. -/
def simpLoop (st : SimpState L) : Py (SimpState L) :=
  match simpRound unionFn order track st with
  | .error e => .error e
  | .ok st' =>
    if st'.changed then
      if h : st'.index.length < st.index.length then simpLoop st' else .error .diverged
    else .ok st'
termination_by st.index.length

/-- `[polys[i] for i in index]` (region_helper.py:48). -/
def pick (polys : List (Piece L)) : List Nat → Py (List (Piece L))
  | [] => .ok []
  | i :: is =>
    match polys[i]? with
    | none => .error .indexError
    | some p => do return p :: (← pick polys is)

/-- `simplify_union_of_polys(polys, union_fn, track_dependencies)` (region_helper.py:10-48). -/
def simplifyUnion (polys : List (Piece L)) : Py (List (Piece L)) := do
  let st ← simpLoop unionFn order track ⟨polys, List.range polys.length, [], true⟩
  pick st.polys (order st.index)

end Simplify

/-! ### `_as_disjoint_union_poly` -/

section Disjoint

variable [DecidableEq L] (eng : Engine) (track : Bool)

/-- Intersection of one `p` with one `q` (region.py:353-363); `none` when nothing is appended. -/
def pieceInter (p q : Piece L) : Py (Option (Piece L)) :=
  if Mat.isSubsetOf eng.lp p.mat q.mat then .ok (some p)
  else if Mat.isSubsetOf eng.lp q.mat p.mat then .ok (some q)
  else do
    let i ← Mat.intersect eng.canon p.mat q.mat
    if Mat.isEmptyExcl eng.lp i then return none
    else return some ⟨i, mergeDeps track p.deps q.deps⟩

/-- The list `inters` (region.py:349-363). -/
def inters (p : Piece L) : List (Piece L) → Py (List (Piece L))
  | [] => .ok []
  | q :: qs => do
    let o ← pieceInter eng track p q
    let rest ← inters p qs
    return o.toList ++ rest

/-- Merging of at most `UNION_THRESHOLD = 5` pieces (region.py:367-379). -/
def mergeInters (ps : List (Piece L)) : Py (List (Piece L)) :=
  if 2 ≤ ps.length ∧ ps.length ≤ 5 then do
    match (← Mat.tryUnion eng.canon eng.lp eng.verts (ps.map (·.mat))) with
    | some u => return [⟨u, if track then ps.foldl (fun d a => d.union a.deps) [] else []⟩]
    | none => return ps
  else .ok ps

/-- The loop over `p in A` (region.py:347-379). -/
def distribute (B : List (Piece L)) : List (Piece L) → Py (List (Piece L))
  | [] => .ok []
  | p :: ps => do
    let is ← inters eng track p B
    let m ← mergeInters eng track is
    let rest ← distribute B ps
    return m ++ rest

/-- `if (i % SIMPLIFY_EVERY == 0 and len(new_A) >= 100)` (region.py:384-386). -/
def periodicSimplify (i : Nat) (A : List (Piece L)) : Py (List (Piece L)) :=
  if i % 20 = 0 ∧ A.length ≥ 100 then
    simplifyUnion (Mat.tryUnion eng.canon eng.lp eng.verts) eng.order track A
  else .ok A

/-- The loop over `child_sets[1:]` (region.py:336-393); `i` is the value before the increment. -/
def intersectLoop : Nat → List (Piece L) → List (List (Piece L)) → Py (List (Piece L))
  | _, A, [] => .ok A
  | i, A, B :: Bs => do
    let A' ← distribute eng track B A
    let A'' ← periodicSimplify eng track (i + 1) A'
    intersectLoop (i + 1) A'' Bs

/-- `A = child_sets[0]` and the loop (region.py:334-394). -/
def intersectSets : List (List (Piece L)) → Py (List (Piece L))
  | [] => .error .indexError
  | A :: Bs => intersectLoop eng track 0 A Bs

/-- POLYTOPE case (region.py:299-306). -/
def leafPieces (m : Mat) (label : Option L) : Py (List (Piece L)) :=
  if track then
    match label with
    | none => .error .attributeError
    | some l => .ok [⟨m, [l]⟩]
  else .ok [⟨m, []⟩]

mutual
/-- `_as_disjoint_union_poly` (region.py:282-407). For the odd POLYTOPE region with a `Region`
child the python code returns a list containing a `Region` (or raises when tracking); here this is
an error. -/
def asDisjoint : Region L → Py (List (Piece L))
  | .complement _ => .error .notImplemented
  | .wrapped _ => .error .attributeError
  | .polytope m l => leafPieces track m l
  | .intersect rs => do intersectSets eng track (← asDisjointList rs)
  | .union _ => .error .notImplemented
  | .disjoint rs => do return (← asDisjointList rs).flatten
/-- `[r._as_disjoint_union_poly(...) for r in self.child]` (region.py:327-333, 399-404). -/
def asDisjointList : List (Region L) → Py (List (List (Piece L)))
  | [] => .ok []
  | r :: rs => do
    let a ← asDisjoint r
    let b ← asDisjointList rs
    return a :: b
end

/-- `as_disjoint_union` (region.py:260-280). -/
def asDisjointUnion (r : Region L) : Py (Region L) := do
  return .disjoint ((← asDisjoint eng track r).map (fun p => .polytope p.mat none))

end Disjoint

/-! ### `is_subset_of` -/

mutual
/-- POLYTOPE source (region.py:177-187); the second argument is a `Region` here. For a UNION target
`Polytope.is_covered_by` receives a list of `Region` objects, which have no attribute `mat`: it
raises `AttributeError` unless the list is empty (polytope.py:676-699). A POLYTOPE region with a
`Region` child makes `Polytope.is_subset_of` raise `ValueError` (polytope.py:641-642). -/
def polySubset (lp : Mat.LPSolver) (m : Mat) : Region L → Py Bool
  | .polytope q _ => .ok (Mat.isSubsetOf lp m q)
  | .wrapped _ => .error .valueError
  | .union [] => .ok false
  | .union (_ :: _) => .error .attributeError
  | .disjoint [] => .ok false
  | .disjoint (_ :: _) => .error .attributeError
  | .intersect rs => polySubsetAll lp m rs
  | .complement _ => .error .notImplemented
/-- `all(self.is_subset_of(p) for p in region.child)` (region.py:187). -/
def polySubsetAll (lp : Mat.LPSolver) (m : Mat) : List (Region L) → Py Bool
  | [] => .ok true
  | r :: rs => do if (← polySubset lp m r) then polySubsetAll lp m rs else return false
end

mutual
/-- `is_subset_of(region)` (region.py:172-193). (A POLYTOPE region with a `Region` child as source
is not modelled further: it is an error here.) -/
def isSubsetOf (lp : Mat.LPSolver) (target : Region L) : Region L → Py Bool
  | .polytope m _ => polySubset lp m target
  | .wrapped _ => .error .notImplemented
  | .union rs => isSubsetOfAll lp target rs
  | .disjoint rs => isSubsetOfAll lp target rs
  | .intersect _ => .error .notImplemented
  | .complement _ => .error .notImplemented
/-- `all(r.is_subset_of(region) for r in self.child)` (region.py:190). -/
def isSubsetOfAll (lp : Mat.LPSolver) (target : Region L) : List (Region L) → Py Bool
  | [] => .ok true
  | r :: rs => do if (← isSubsetOf lp target r) then isSubsetOfAll lp target rs else return false
end

end Region
end Expdb
