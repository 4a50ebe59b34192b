import Verif.Model.Beta
import Verif.Model.ExponentPair

/-!
# Model of the conversions between exponent pairs and bounds on beta

`exponent_pairs_to_beta_bounds` (bound_beta.py 98–122), the Sargos D transform (literature.py 557–578) and
`beta_bounds_to_exponent_pairs` (exponent_pair.py 156–255). Names, proof texts and references are left out.
-/

namespace Expdb
namespace BetaPairs

open EP Hull

/-- `Interval(0, frac(1, 2), True, True)` (bound_beta.py:106, literature.py:564). -/
def half : Interval := ⟨0, 1 / 2, true, true⟩

/-- The bound made from an exponent pair (bound_beta.py:111-112). -/
def pairBound (k l : ℚ) : Affine (Option ℕ) := ⟨l - k, k, half, none⟩

/-- The pieces computed by `D_transform_function` (literature.py:562-569). -/
def transD (k l : ℚ) : Py (List (Affine (Option ℕ))) := do
  let m ← pyDiv (6 * k + 5 * l + 2) (2 * (5 * k + 3 * l + 2))
  let c ← pyDiv (5 * k + l + 2) (8 * (5 * k + 3 * l + 2))
  let r ← Affine.maxWith ⟨m, c, half, none⟩ [⟨2 / 3, 1 / 12, half, none⟩] none
  return r.2

/-- `for tr in transforms: hypotheses.extend(tr.data.transform(eph))` (bound_beta.py:118-120). -/
def applyAllTr (ts : List (ℚ → ℚ → Py (List (Affine (Option ℕ))))) (k l : ℚ) : Py (List (Affine (Option ℕ))) :=
  match ts with
  | [] => .ok []
  | t :: ts => do
    let a ← t k l
    let b ← applyAllTr ts k l
    return a ++ b

/-- `exponent_pairs_to_beta_bounds(hypothesis_set)` (bound_beta.py:98-122): the bounds, each with the exponent
pair it depends on. -/
def toBeta (ts : List (ℚ → ℚ → Py (List (Affine (Option ℕ))))) :
    List Ep → Py (List (Affine (Option ℕ) × Ep))
  | [] => .ok []
  | e :: es => do
    let extra ← applyAllTr ts e.k e.l
    let rest ← toBeta ts es
    return (pairBound e.k e.l, e) :: (extra.map (fun b => (b, e)) ++ rest)

/-- A hypothesis of type "Exponent pair" in the result of `beta_bounds_to_exponent_pairs`: one of the set, one
made by `derived_exp_pair` from the bounds with the given positions (exponent_pair.py:234-239), or the B
transform of one (exponent_pair.py:249). -/
inductive Out
  | known (e : Ep)
  | tangent (k l : ℚ) (deps : List ℕ)
  | viaB (o : Out)
  deriving DecidableEq

/-- `(h.data.k, h.data.l)`, for the B transform literature.py:524-531. -/
def Out.key : Out → ℚ × ℚ
  | .known e => e.key
  | .tangent k l _ => (k, l)
  | .viaB o => (o.key.2 - 1 / 2, o.key.1 + 1 / 2)

/-- The two end points of a piece with the values there (exponent_pair.py:196-198). -/
def ends (f : Affine (Option ℕ)) : List (ℚ × ℚ) := [(f.dom.x0, f.ev f.dom.x0), (f.dom.x1, f.ev f.dom.x1)]

/-- The critical points (exponent_pair.py:194-198). -/
def points (best : List (Affine (Option ℕ))) : List (ℚ × ℚ) :=
  [(0, 0), (1 / 2, 0)] ++ best.flatMap ends

/-- The condition on a piece and a point (exponent_pair.py:211-213). -/
def touches (f : Affine (Option ℕ)) (p : ℚ × ℚ) : Bool :=
  (decide (f.dom.x0 = p.1) && decide (f.ev p.1 = p.2)) || (decide (f.dom.x1 = p.1) && decide (f.ev p.1 = p.2))

/-- The positions of the bounds that become dependencies (exponent_pair.py:205-215). The python set is
represented by the list of its members in increasing order. -/
def depIndices (best : List (Affine (Option ℕ))) (vertices : List ℕ) : List ℕ :=
  (List.range best.length).filter (fun i =>
    vertices.any (fun v => decide (2 ≤ v) &&
      (match (points best)[v]?, best[i]? with
       | some p, some f => touches f p
       | _, _ => false)))

/-- The test for degenerate edges (exponent_pair.py:225-229). -/
def degenerate (e : (ℚ × ℚ) × (ℚ × ℚ)) : Bool :=
  (decide (e.1.2 = 0) && decide (e.2.2 = 0)) || (decide (e.1.1 = 0) && decide (e.2.1 = 0)) ||
    (decide (e.1.1 = 1 / 2) && decide (e.2.1 = 1 / 2))

/-- `key = (c, m + c)` of an edge (exponent_pair.py:232-234). -/
def edgeKey (e : (ℚ × ℚ) × (ℚ × ℚ)) : Py (ℚ × ℚ) := do
  let m ← pyDiv (e.2.2 - e.1.2) (e.2.1 - e.1.1)
  let c ← pyDiv (e.1.2 * e.2.1 - e.1.1 * e.2.2) (e.2.1 - e.1.1)
  return (c, m + c)

/-- `known_eps[key]` (exponent_pair.py:218, 236, 245): of several pairs with the same key the last one is
found. -/
def lookup (known : List Ep) (key : ℚ × ℚ) : Option Ep := known.reverse.find? (fun e => e.key = key)

/-- What is appended for one edge (exponent_pair.py:236-254); `hasB` tells whether the B transform is in the set. -/
def forKey (known : List Ep) (hasB : Bool) (deps : List ℕ) (key : ℚ × ℚ) : List Out :=
  let h := match lookup known key with
    | none => Out.tangent key.1 key.2 deps
    | some e => Out.known e
  (if (lookup known key).isNone then [h] else []) ++
    (if hasB && (lookup known (Out.viaB h).key).isNone then [.viaB h] else [])

/-- The loop over the edges (exponent_pair.py:221-254). -/
def edgeLoop (known : List Ep) (hasB : Bool) (deps : List ℕ) : List ((ℚ × ℚ) × (ℚ × ℚ)) → Py (List Out)
  | [] => .ok []
  | e :: es =>
    if degenerate e then edgeLoop known hasB deps es
    else do
      let key ← edgeKey e
      let rest ← edgeLoop known hasB deps es
      return forKey known hasB deps key ++ rest

/-- The part after the computation of the best bounds, which are given (exponent_pair.py:186-255). -/
def fromBest (hull : List (ℚ × ℚ) → Py (List ℕ)) (best : List (Affine (Option ℕ))) (known : List Ep) (hasB : Bool) :
    Py (List Out) :=
  match best.head?, best.getLast? with
  | some f, some g =>
    if f.dom.x0 > 0 ∨ g.dom.x1 < 1 / 2 then .ok []
    else do
      let vertices ← hull (points best)
      let verts ← pick (points best) vertices
      let new ← edgeLoop known hasB (depIndices best vertices) (cyclic verts)
      return known.map .known ++ new
  | _, _ => .ok []

/-- `beta_bounds_to_exponent_pairs(hypothesis_set)` (exponent_pair.py:156-255), given the bounds on beta and the
exponent pairs of the set. The argument `reduce_dependencies` is not used by the code. -/
def fromBeta (hull : List (ℚ × ℚ) → Py (List ℕ)) (bounds : List Beta.Hyp) (known : List Ep) (hasB : Bool) :
    Py (List Out) := do
  let best ← Beta.computeBest bounds half
  fromBest hull (best.map Beta.Best.bound) known hasB

end BetaPairs
end Expdb
