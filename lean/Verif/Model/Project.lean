import Verif.Model.Region

/-!
# Projections of polytopes and regions (polytope.py:725-745, region.py:215-243)

`cdd.Polyhedron(V).get_inequalities()` (polytope.py:343-346) is external: it is the parameter `hrep`, from points to a matrix.
-/

namespace Expdb

/-- `[v[i] for i in range(len(v)) if i in dims]` with indices starting at `i` (polytope.py:743). -/
def pickFrom (dims : List ℕ) (i : ℕ) : Pt → Pt
  | [] => []
  | c :: v => if i ∈ dims then c :: pickFrom dims (i + 1) v else pickFrom dims (i + 1) v

/-- The coordinates of `v` with index in `dims` (polytope.py:743). -/
def pickDims (dims : List ℕ) (v : Pt) : Pt := pickFrom dims 0 v

namespace Mat

/-- `from_V_rep(verts)` (polytope.py:337-353); `none` for no points. -/
def fromVRep (hrep : List Pt → Mat) (verts : List Pt) : Option Mat :=
  if verts = [] then none else some (hrep verts)

/-- `project(dims)` (polytope.py:734-745). -/
def project (verts : Mat → List Pt) (hrep : List Pt → Mat) (m : Mat) (dims : List ℕ) : Option Mat :=
  fromVRep hrep ((verts m).map (pickDims dims))

end Mat

namespace Region

variable {L : Type}

mutual
/-- `project(dims)` (region.py:215-243). For an intersection with one projection which is not `None` the code takes `ps[1]`
of a list of length 1 (line 240): `IndexError`. A POLYTOPE region with a `Region` child calls `project` of the child. -/
def project (verts : Mat → List Pt) (hrep : List Pt → Mat) (dims : List ℕ) : Region L → Py (Option (Region L))
  | .polytope m _ => .ok ((Mat.project verts hrep m dims).map (fun p => .polytope p none))
  | .wrapped r =>
    match project verts hrep dims r with
    | .error e => .error e
    | .ok none => .ok none
    | .ok (some p) => .ok (some (.wrapped p))
  | .union rs =>
    match projectList verts hrep dims rs with
    | .error e => .error e
    | .ok [] => .ok none
    | .ok [p] => .ok (some p)
    | .ok (p :: q :: ps) => .ok (some (.union (p :: q :: ps)))
  | .disjoint rs =>
    match projectList verts hrep dims rs with
    | .error e => .error e
    | .ok [] => .ok none
    | .ok [p] => .ok (some p)
    | .ok (p :: q :: ps) => .ok (some (.union (p :: q :: ps)))
  | .intersect rs =>
    match projectList verts hrep dims rs with
    | .error e => .error e
    | .ok [] => .ok none
    | .ok [_] => .error .indexError
    | .ok (p :: q :: ps) => .ok (some (.intersect (p :: q :: ps)))
  | .complement _ => .error .notImplemented
/-- `ps = [c.project(dims) for c in self.child]` without the entries `None` (region.py:229-230, 236-237). -/
def projectList (verts : Mat → List Pt) (hrep : List Pt → Mat) (dims : List ℕ) : List (Region L) → Py (List (Region L))
  | [] => .ok []
  | r :: rs =>
    match project verts hrep dims r with
    | .error e => .error e
    | .ok o =>
      match projectList verts hrep dims rs with
      | .error e => .error e
      | .ok ps => .ok (o.toList ++ ps)
end

end Region
end Expdb
