import Verif.Model.Basic
import Mathlib.Data.List.Basic

/-!
# Planar convex hulls: the contract of `scipy.spatial.ConvexHull`

The code calls `ConvexHull(points).vertices` (exponent_pair.py:114, 150, 196, bound_mu.py:172) on lists of
points of the plane. The routine is a parameter of the model; this file states what is assumed of it.
scipy computes in floating point: the contract is that of exact computation.
-/

namespace Expdb
namespace Hull

/-- Twice the signed area of the triangle `a`, `b`, `c`: positive if they are in counterclockwise
order, zero if they are collinear. -/
def area (a b c : ℚ × ℚ) : ℚ := (b.1 - a.1) * (c.2 - a.2) - (b.2 - a.2) * (c.1 - a.1)

/-- `p` is a convex combination of the points of a list. -/
inductive InConv (ps : List (ℚ × ℚ)) : ℚ × ℚ → Prop
  | point (p : ℚ × ℚ) (h : p ∈ ps) : InConv ps p
  | mix (p q : ℚ × ℚ) (t : ℚ) (hp : InConv ps p) (hq : InConv ps q) (h0 : 0 ≤ t)
      (h1 : t ≤ 1) : InConv ps ((1 - t) * p.1 + t * q.1, (1 - t) * p.2 + t * q.2)

/-- All points lie on one line. -/
def Flat (ps : List (ℚ × ℚ)) : Prop := ∀ a ∈ ps, ∀ b ∈ ps, ∀ c ∈ ps, area a b c = 0

/-- The points are the vertices of a strictly convex polygon in counterclockwise order. -/
def Ccw (vs : List (ℚ × ℚ)) : Prop := ∀ a b c, [a, b, c].Sublist vs → 0 < area a b c

/-- `[points[v] for v in vertices]` (exponent_pair.py:115, bound_mu.py:173). -/
def pick {α : Type} (ps : List α) : List ℕ → Py (List α)
  | [] => .ok []
  | v :: vs => do
    match ps[v]? with
    | none => .error .indexError
    | some p =>
      let r ← pick ps vs
      return p :: r

/-- The pairs `verts[i]`, `verts[(i + 1) % len(verts)]` (bound_mu.py:204-206, 250-252,
exponent_pair.py:213-215). -/
def cyclic {α : Type} (vs : List α) : List (α × α) :=
  match vs with
  | [] => []
  | v :: vs => (v :: vs).zip (vs ++ [v])

/-- The contract of `ConvexHull(points).vertices`: an exception (`QhullError`) if all points lie on
one line; otherwise the indices of the vertices of the convex hull, in counterclockwise order. -/
structure HullSpec (hull : List (ℚ × ℚ) → Py (List ℕ)) : Prop where
  flat : ∀ ps, Flat ps → ∃ e, hull ps = .error e
  ok : ∀ ps, ¬ Flat ps → ∃ idx vs, hull ps = .ok idx ∧ pick ps idx = .ok vs ∧ Ccw vs ∧
    ∀ p ∈ ps, InConv vs p

end Hull
end Expdb
