import Verif.Model.Hypotheses
import Verif.Model.Hull
import Mathlib.Data.List.Basic

/-!
# Model of `exponent_pair.py`, the exponent pair transforms of `literature.py` and
`van_der_corput_pair` of `derived.py`

Numbers are `Fraction`s. (If a pair is given by python ints, as in
`exponent_pair_conjecture`, the divisions of the transforms yield floats; this is not modelled.)
-/

namespace Expdb

/-- Division of `Fraction`s (python library): dividing by zero raises `ZeroDivisionError`. -/
def pyDiv (a b : ℚ) : Py ℚ := if b = 0 then .error .zeroDivision else .ok (a / b)

namespace EP

open Hull (pick)

/-- The pair computed by `A_transform_function` (literature.py:507-514). -/
def transA (k l : ℚ) : Py (ℚ × ℚ) := do
  let k' ← pyDiv k (2 * k + 2)
  let t ← pyDiv l (2 * k + 2)
  return (k', 1 / 2 + t)

/-- The pair computed by `B_transform_function` (literature.py:524-531). -/
def transB (k l : ℚ) : Py (ℚ × ℚ) := .ok (l - 1 / 2, k + 1 / 2)

/-- The pair computed by `C_transform_function` (literature.py:541-548). -/
def transC (k l : ℚ) : Py (ℚ × ℚ) := do
  let k' ← pyDiv k (12 * (1 + 4 * k))
  let l' ← pyDiv (11 * (1 + 4 * k) + l) (12 * (1 + 4 * k))
  return (k', l')

/-- A hypothesis of type "Exponent pair": a member of the hypothesis set (with its identity), or
an object made by `derived_exp_pair` in a transform, whose dependencies are the transformed
hypothesis and the transform (exponent_pair.py:41-51, literature.py:509-514). The name, proof text and
reference of the object are left out. -/
inductive Ep
  | known (id : ℕ) (k l : ℚ)
  | derived (transform : ℕ) (k l : ℚ) (parent : Ep)
  deriving DecidableEq

/-- `h.data.k` (exponent_pair.py:15-16). -/
def Ep.k : Ep → ℚ
  | .known _ k _ => k
  | .derived _ k _ _ => k

/-- `h.data.l` (exponent_pair.py:15-17). -/
def Ep.l : Ep → ℚ
  | .known _ _ l => l
  | .derived _ _ l _ => l

/-- The dictionary key `(p.data.k, p.data.l)` (exponent_pair.py:101). -/
def Ep.key (p : Ep) : ℚ × ℚ := (p.k, p.l)

/-- A hypothesis of type "Exponent pair transform": identity, and the map on pairs performed by its
`transform` function (transform.py:14-23). -/
structure Tr where
  id : ℕ
  f : ℚ → ℚ → Py (ℚ × ℚ)

/-- `h.data.transform(p)` (exponent_pair.py:105, literature.py:507-549). -/
def Tr.apply (t : Tr) (p : Ep) : Py Ep := do
  let q ← t.f p.k p.l
  return .derived t.id q.1 q.2 p

/-- `pairs[key] = tp` on a dictionary that remembers the order of insertion: an existing key keeps
its place and gets the new value (python library). -/
def dictSet (d : List Ep) (p : Ep) : List Ep :=
  match d with
  | [] => [p]
  | q :: d => if q.key = p.key then p :: d else q :: dictSet d p

/-- `{(p.data.k, p.data.l): p for p in pairs}` (exponent_pair.py:101, 116). The dictionary is
represented by its values; the key of a value `p` is `p.key`. -/
def dictOf (ps : List Ep) : List Ep := ps.foldl dictSet []

/-- `key in pairs` (exponent_pair.py:107). -/
def hasKey (d : List Ep) (key : ℚ × ℚ) : Bool := d.any (fun q => q.key = key)

/-- The loop `for p in list(pairs)` for one transform (exponent_pair.py:104-108): `todo` is the copy of
the values made at the start of the loop. (No value present at the start is replaced later.) -/
def applyAll (t : Tr) (todo : List Ep) (d : List Ep) : Py (List Ep) :=
  match todo with
  | [] => .ok d
  | p :: todo => do
    let tp ← t.apply p
    applyAll t todo (if hasKey d tp.key then d else dictSet d tp)

/-- The loop `for h in transforms` (exponent_pair.py:103-108). -/
def applyTransforms (ts : List Tr) (d : List Ep) : Py (List Ep) :=
  match ts with
  | [] => .ok d
  | t :: ts => do
    let d' ← applyAll t d d
    applyTransforms ts d'

/-- One pass of the main loop (exponent_pair.py:102-116). `hull` is scipy's `ConvexHull(…).vertices`. -/
def iterate (hull : List (ℚ × ℚ) → Py (List ℕ)) (prune : Bool) (ts : List Tr) (d : List Ep) : Py (List Ep) := do
  let d' ← applyTransforms ts d
  if prune then
    if d'.length < 3 then return d'
    else
      let vertices ← hull (d'.map Ep.key)
      let verts ← pick d' vertices
      return dictOf verts
  else return d'

/-- The loop `for i in range(search_depth)` (exponent_pair.py:102). -/
def iterateN (hull : List (ℚ × ℚ) → Py (List ℕ)) (prune : Bool) (ts : List Tr) : ℕ → List Ep → Py (List Ep)
  | 0, d => .ok d
  | n + 1, d => do
    let d' ← iterate hull prune ts d
    iterateN hull prune ts n d'

/-- `compute_exp_pairs(hypothesis_set, search_depth, prune)` (exponent_pair.py:72-118), given the
exponent pairs and the transforms of the set. -/
def computeExpPairs (hull : List (ℚ × ℚ) → Py (List ℕ)) (pairs : List Ep) (ts : List Tr) (depth : ℕ)
    (prune : Bool) : Py (List Ep) :=
  iterateN hull prune ts depth (dictOf pairs)

/-- The loop of `van_der_corput_pair` (derived.py:17-18). -/
def iterA (A : Tr) : ℕ → Ep → Py Ep
  | 0, p => .ok p
  | n + 1, p => do
    let p' ← A.apply p
    iterA A n p'

/-- The transform hypotheses A and B of literature.py:515-521, 532-538 (numbered 0 and 1). -/
def trA : Tr := ⟨0, transA⟩
/-- The B transform (literature.py:532-538). -/
def trB : Tr := ⟨1, transB⟩
/-- The C transform (literature.py:549-555). -/
def trC : Tr := ⟨2, transC⟩

/-- `trivial_exp_pair` (exponent_pair.py:54-60). -/
def trivialPair : Ep := .known 0 0 1

/-- `van_der_corput_pair(k)` (derived.py:11-20); the search for the two transforms in the literature
set is replaced by the transforms themselves. -/
def vanDerCorputPair (k : ℤ) : Py Ep := do
  if k < 2 then .error .valueError
  else
    let p ← trB.apply trivialPair
    iterA trA (k - 2).toNat p

/-- The pair added for `m` by `add_huxley_exponent_pairs` (literature.py:452-456). -/
def huxleyPair (m : ℕ) : Py (ℚ × ℚ) := do
  let q ← pyDiv 169 (1424 * 2 ^ m - 338)
  return (q, 1 - q * (m + 1577 / 712))

/-- The pair added for `m` by `add_heath_brown_exponent_pairs` (literature.py:480-484). -/
def heathBrownPair (m : ℕ) : Py (ℚ × ℚ) := do
  let m : ℚ := m
  let k ← pyDiv 2 ((m - 1) * (m - 1) * (m + 2))
  let q ← pyDiv (3 * m - 2) (m * (m - 1) * (m + 2))
  return (k, 1 - q)

/-- `in_triangle(a, b, c, p)` (exponent_pair.py:258-262). -/
def inTriangle (a b c p : ℚ × ℚ) : Bool :=
  let d := (b.2 - c.2) * (a.1 - c.1) + (c.1 - b.1) * (a.2 - c.2)
  let x := (b.2 - c.2) * (p.1 - c.1) + (c.1 - b.1) * (p.2 - c.2)
  let y := (c.2 - a.2) * (p.1 - c.1) + (a.1 - c.1) * (p.2 - c.2)
  decide (0 ≤ x) && decide (x ≤ d) && decide (0 ≤ y) && decide (y ≤ d) && decide (x + y ≤ d)

/-- The result of `construct_proof`: `None`, an exponent pair of the set, or a new pair with its
dependencies (exponent_pair.py:264-347). -/
inductive Proof
  | none
  | exact (h : Ep)
  | convex (k l : ℚ) (deps : List Ep)
  deriving DecidableEq

/-- `itertools.combinations(verts, 2)` (python library). -/
def pairsOf {α : Type} : List α → List (α × α)
  | [] => []
  | a :: as => as.map (fun b => (a, b)) ++ pairsOf as

/-- `itertools.combinations(verts, 3)` (python library). -/
def triples {α : Type} : List α → List (α × α × α)
  | [] => []
  | a :: as => (pairsOf as).map (fun b => (a, b.1, b.2)) ++ triples as

/-- `sum(v.proof_complexity() for v in tri)` (exponent_pair.py:338). -/
def triComplexity (cx : Ep → ℕ) (t : Ep × Ep × Ep) : ℕ := cx t.1 + cx t.2.1 + cx t.2.2

/-- The brute-force search (exponent_pair.py:333-341); the accumulator is `best_tri` with
`lowest_comp`, `none` standing for `None` and infinity. -/
def searchTri (cx : Ep → ℕ) (p : ℚ × ℚ) : List (Ep × Ep × Ep) → Option (Ep × Ep × Ep) → Option (Ep × Ep × Ep)
  | [], best => best
  | t :: ts, best =>
    if inTriangle t.1.key t.2.1.key t.2.2.key p then
      match best with
      | none => searchTri cx p ts (some t)
      | some b => searchTri cx p ts (if triComplexity cx t < triComplexity cx b then some t else some b)
    else searchTri cx p ts best

/-- `compute_convex_hull(hypothesis_set)` without the cache (exponent_pair.py:140-153). -/
def convexHull (hull : List (ℚ × ℚ) → Py (List ℕ)) (ephs : List Ep) : Py (List Ep) :=
  if ephs.length < 3 then .ok ephs
  else do
    let vertices ← hull (ephs.map Ep.key)
    pick ephs vertices

/-- `construct_proof(k, l, hypotheses, reduce_dependencies, deep_search)` (exponent_pair.py:264-347).
`ephs` are the exponent pairs of the set, `hull` is scipy's convex hull, `inHull` is
`Polytope.from_V_rep(…).contains`, `cx` is `proof_complexity`. -/
def constructProof (hull : List (ℚ × ℚ) → Py (List ℕ)) (inHull : List (ℚ × ℚ) → ℚ × ℚ → Bool)
    (cx : Ep → ℕ) (ephs : List Ep) (k l : ℚ) (reduceDeps deep : Bool) : Py Proof :=
  if ephs = [] then .ok .none
  else match ephs.find? (fun h => h.key = (k, l)) with
    | some h => .ok (.exact h)
    | none => do
      let verts ← convexHull hull ephs
      if inHull (verts.map Ep.key) (k, l) = false then return .none
      else if reduceDeps = false then return .convex k l verts
      else
        match searchTri cx (k, l) (triples (if deep then ephs else verts)) none with
        | none => .error .typeError
        | some t => return .convex k l [t.1, t.2.1, t.2.2]

/-- A hypothesis as far as `find_best_proof` looks at it: an exponent pair, a transform, or anything
else (numbered), e.g. a bound on beta (exponent_pair.py:350-460). -/
inductive Item
  | pair (e : Ep)
  | transform (t : Tr)
  | other (id : ℕ)

/-- A hypothesis with the year of its reference. -/
structure Dated where
  year : Year
  item : Item

/-- `list_hypotheses("Exponent pair")` (exponent_pair.py:98). -/
def pairsIn (hs : List Item) : List Ep := hs.filterMap (fun h => match h with | .pair e => some e | _ => none)

/-- `list_hypotheses("Exponent pair transform")` (exponent_pair.py:99). -/
def transformsIn (hs : List Item) : List Tr :=
  hs.filterMap (fun h => match h with | .transform t => some t | _ => none)

/-- `hyps.add_hypotheses(new)` on the exponent pairs of a set (exponent_pair.py:421-422). Simplified:
two derived pairs with the same pair, transform and parent count as the same object. -/
def addPairs (old new : List Ep) : List Ep := new.foldl (fun s e => if e ∈ s then s else s ++ [e]) old

/-- The body of the loop for one year (exponent_pair.py:420-423): beta bounds to exponent pairs
(`betaPairs`, a parameter), transforms, `construct_proof`. -/
def attempt (hull : List (ℚ × ℚ) → Py (List ℕ)) (inHull : List (ℚ × ℚ) → ℚ × ℚ → Bool) (cx : Ep → ℕ)
    (betaPairs : List Item → Py (List Ep)) (k l : ℚ) (hs : List Item) : Py Proof := do
  let b ← betaPairs hs
  let ephs := addPairs (pairsIn hs) b
  let c ← computeExpPairs hull ephs (transformsIn hs) 5 true
  constructProof hull inHull cx (addPairs ephs c) k l true false

/-- The hypotheses known in a year (exponent_pair.py:408-412). -/
def knownIn (hs : List Dated) (year : ℤ) : List Item :=
  (hs.filter (fun h => match h.year with | none => true | some y => decide (y ≤ (year : WithTop ℤ)))).map Dated.item

/-- The loop over the years (exponent_pair.py:406-425); `num` is `num_hypotheses`. -/
def dateLoop (att : List Item → Py Proof) (hs : List Dated) : List ℤ → ℕ → Py Proof
  | [], _ => .ok .none
  | y :: ys, num =>
    if (knownIn hs y).length = num then dateLoop att hs ys num
    else do
      let r ← att (knownIn hs y)
      if r = .none then dateLoop att hs ys (knownIn hs y).length else return r

/-- `min(…)` / `max(…)` of the known years (exponent_pair.py:395-404). -/
def yearsOf (hs : List Dated) : List (WithTop ℤ) := hs.filterMap Dated.year

/-- `range(from_year, to_year + 1)` (exponent_pair.py:407). -/
def yearRange (a b : ℤ) : List ℤ := (List.range (b + 1 - a).toNat).map (fun i : ℕ => a + (i : ℤ))

/-- `find_best_proof(k, l, hypotheses, Proof_Optimization_Method.DATE)` (exponent_pair.py:392-426):
`ValueError` from `min` of no years; `TypeError` from `range` if a year is infinite (a conjecture). -/
def findBestProofDate (att : List Item → Py Proof) (hs : List Dated) : Py Proof :=
  match yearsOf hs with
  | [] => .error .valueError
  | y :: ys =>
    match ys.foldl min y, ys.foldl max y with
    | some a, some b => dateLoop att hs (yearRange a b) 0
    | _, _ => .error .typeError

/-- One of the two loops of the complexity method (exponent_pair.py:440-444, 451-455): `n` rounds of
one application of the transforms without pruning, followed by a deep search. -/
def complexityLoop (hull : List (ℚ × ℚ) → Py (List ℕ)) (inHull : List (ℚ × ℚ) → ℚ × ℚ → Bool) (cx : Ep → ℕ)
    (ts : List Tr) (k l : ℚ) : ℕ → List Ep → Py Proof
  | 0, _ => .ok .none
  | n + 1, ephs => do
    let c ← computeExpPairs hull ephs ts 1 false
    let r ← constructProof hull inHull cx (addPairs ephs c) k l true true
    if r = .none then complexityLoop hull inHull cx ts k l n (addPairs ephs c) else return r

/-- `find_best_proof(k, l, hypotheses, Proof_Optimization_Method.COMPLEXITY)` (exponent_pair.py:430-456). -/
def findBestProofComplexity (hull : List (ℚ × ℚ) → Py (List ℕ)) (inHull : List (ℚ × ℚ) → ℚ × ℚ → Bool)
    (cx : Ep → ℕ) (betaPairs : List Item → Py (List Ep)) (k l : ℚ) (hs : List Item) : Py Proof := do
  let r ← complexityLoop hull inHull cx (transformsIn hs) k l 10 (pairsIn hs)
  if r = .none then do
    let b ← betaPairs hs
    complexityLoop hull inHull cx (transformsIn hs) k l 10 (addPairs (pairsIn hs) b)
  else return r

/-- `find_best_proof(k, l, hypotheses, Proof_Optimization_Method.NONE)` (exponent_pair.py:458-462): the
derived pairs are added to a copy, but the proof is sought from the original set. -/
def findBestProofNone (hull : List (ℚ × ℚ) → Py (List ℕ)) (inHull : List (ℚ × ℚ) → ℚ × ℚ → Bool)
    (cx : Ep → ℕ) (betaPairs : List Item → Py (List Ep)) (k l : ℚ) (hs : List Item) : Py Proof := do
  let b ← betaPairs hs
  let _ ← computeExpPairs hull (addPairs (pairsIn hs) b) (transformsIn hs) 5 true
  constructProof hull inHull cx (pairsIn hs) k l false false

end EP
end Expdb
