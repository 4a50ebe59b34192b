import Verif.Model.ExponentPair
import Verif.Model.Affine

/-!
# Model of `bound_mu.py`

Hypotheses of type "Upper bound on mu" are represented by the way they were made; names, proof texts and
references are left out. The cache of the hull is left out here (see `Verif/Model/Cache.lean`): the hull
is computed afresh.
-/

namespace Expdb
namespace EP

open Hull (pick cyclic)

/-- A hypothesis of type "Upper bound on mu". -/
inductive Mu
  /-- a member of the hypothesis set (bound_mu.py:36-67) -/
  | known (id : ℕ) (sigma mu : ℚ)
  /-- `bound_mu_trivial` (bound_mu.py:86) -/
  | classical
  /-- `obtain_mu_bound_from_exponent_pair` (bound_mu.py:142-148) -/
  | fromPair (e : Ep)
  /-- `apply_functional_equation` (bound_mu.py:115-123) -/
  | funcEq (b : Mu)
  /-- `apply_mu_convexity` (bound_mu.py:127-138) -/
  | convexity (b1 b2 : Mu) (theta : ℚ)
  /-- `apply_trivial_mu_bound` (bound_mu.py:105-111) -/
  | trivialAt (sigma : ℚ)
  /-- `conjecture_bound_mu(1 / 2, 10, "Placeholder")` (bound_mu.py:199) -/
  | placeholder
  deriving DecidableEq

/-- `trivial_mu_bound(sigma)` (bound_mu.py:97-102). -/
def trivialMuBound (sigma : ℚ) : ℚ :=
  if sigma ≤ 0 then 1 / 2 - sigma
  else if sigma ≥ 1 then 0
  else 1 / 2 - sigma / 2

/-- `b.data.sigma` (bound_mu.py:86, 116, 131, 144, 199). -/
def Mu.sigma : Mu → ℚ
  | .known _ s _ => s
  | .classical => 1
  | .fromPair e => e.l - e.k
  | .funcEq b => 1 - b.sigma
  | .convexity b1 b2 t => (1 - t) * b1.sigma + t * b2.sigma
  | .trivialAt s => s
  | .placeholder => 1 / 2

/-- `b.data.mu` (bound_mu.py:86, 108, 117, 130, 145, 199). -/
def Mu.mu : Mu → ℚ
  | .known _ _ m => m
  | .classical => 0
  | .fromPair e => e.k
  | .funcEq b => b.mu + b.sigma - 1 / 2
  | .convexity b1 b2 t => (1 - t) * b1.mu + t * b2.mu
  | .trivialAt s => trivialMuBound s
  | .placeholder => 10

/-- The point `[b.data.sigma, b.data.mu]` (bound_mu.py:172). -/
def Mu.pt (b : Mu) : ℚ × ℚ := (b.sigma, b.mu)

/-- The loop `for bound in bounds: if 2 * bound.data.sigma > 1: bounds.append(…)` over a list that grows
while it is traversed (bound_mu.py:163-167): `todo` is the part not yet visited. -/
def feLoop (todo bounds : List Mu) : List Mu :=
  match todo with
  | [] => bounds
  | b :: todo =>
    if 2 * b.sigma > 1 then feLoop (todo ++ [.funcEq b]) (bounds ++ [.funcEq b])
    else feLoop todo bounds
termination_by todo.length + (todo.filter (fun b => decide (2 * b.sigma > 1))).length
decreasing_by
  · rename_i h
    have h2 : ¬ (2 * (Mu.funcEq b).sigma > 1) := by
      simp only [Mu.sigma]
      intro hc
      have h3 : (2 : ℚ) * (1 - b.sigma) = 2 - 2 * b.sigma := by rw [mul_sub, mul_one]
      rw [h3] at hc
      have h4 : (2 : ℚ) - 2 * b.sigma < 2 - 1 := sub_lt_sub_left h 2
      have h5 : (2 : ℚ) - 1 = 1 := by decide +kernel
      rw [h5] at h4
      exact lt_asymm h4 hc
    simp [List.filter_append, h, h2]
  · rename_i h
    simp [h]

/-- `get_bounds(hypothesis_set)` (bound_mu.py:152-168), given the bounds on mu, the exponent pairs and
the transforms of the set. -/
def getBounds (hull : List (ℚ × ℚ) → Py (List ℕ)) (mus : List Mu) (pairs : List Ep) (ts : List Tr) :
    Py (List Mu) := do
  let expPairs ← computeExpPairs hull pairs ts 5 true
  let bounds := mus ++ [.classical] ++ expPairs.map .fromPair
  return feLoop bounds bounds

/-- `compute_convex_hull(bounds, hypothesis_set)` (bound_mu.py:171-175). -/
def muHull (hull : List (ℚ × ℚ) → Py (List ℕ)) (bounds : List Mu) : Py (List Mu) := do
  let vertices ← hull (bounds.map Mu.pt)
  pick bounds vertices

/-- The bound at `sigma` given by an edge above it (bound_mu.py:208-217). The placeholder has the float
`0.5` as its sigma, for which `frac(…, …)` raises `TypeError`. -/
def edgeBound (sigma : ℚ) (e : Mu × Mu) : Py Mu :=
  if e.1.sigma = e.2.sigma then
    if e.1.mu < e.2.mu then .ok e.1 else .ok e.2
  else if e.1 = .placeholder ∨ e.2 = .placeholder then .error .typeError
  else .ok (.convexity e.1 e.2 ((sigma - e.1.sigma) / (e.2.sigma - e.1.sigma)))

/-- The body of the loop (bound_mu.py:207-219). -/
def tryEdge (sigma : ℚ) (ans : Mu) (e : Mu × Mu) : Py Mu :=
  if e.1.sigma ≤ sigma ∧ sigma ≤ e.2.sigma then do
    let bound ← edgeBound sigma e
    if bound.mu < ans.mu then return bound else return ans
  else return ans

/-- The loop over the vertices (bound_mu.py:204-219). -/
def bestLoop (sigma : ℚ) : List (Mu × Mu) → Mu → Py Mu
  | [], ans => .ok ans
  | e :: es, ans => do
    let ans' ← tryEdge sigma ans e
    bestLoop sigma es ans'

/-- `best_mu_bound(sigma, hypothesis_set)` (bound_mu.py:180-220). -/
def bestMuBound (hull : List (ℚ × ℚ) → Py (List ℕ)) (mus : List Mu) (pairs : List Ep) (ts : List Tr)
    (sigma : ℚ) : Py Mu :=
  if sigma ≤ 0 ∨ sigma ≥ 1 then .ok (.trivialAt sigma)
  else do
    let bounds ← getBounds hull mus pairs ts
    let verts ← muHull hull (bounds ++ [.placeholder])
    bestLoop sigma (cyclic verts) (.trivialAt sigma)

/-- The body of the loop of `best_mu_bound_piecewise` (bound_mu.py:250-265): the piece for one edge.
The division is not reached for a vertical edge. -/
def edgePiece (s0 s1 : ℚ) (e : Mu × Mu) : Py (Option (Affine Unit)) :=
  if e.2.sigma < s0 ∨ e.1.sigma > s1 then .ok none
  else do
    let interval ← Interval.make (max s0 e.1.sigma) (min s1 e.2.sigma) true false
    if e.1.sigma < e.2.sigma ∧ interval.isEmpty = false then
      return some ⟨(e.2.mu - e.1.mu) / (e.2.sigma - e.1.sigma),
        (e.2.sigma * e.1.mu - e.1.sigma * e.2.mu) / (e.2.sigma - e.1.sigma), interval, ()⟩
    else return none

/-- The loop of `best_mu_bound_piecewise` (bound_mu.py:249-265). -/
def pieces (s0 s1 : ℚ) : List (Mu × Mu) → Py (List (Affine Unit))
  | [] => .ok []
  | e :: es => do
    let p ← edgePiece s0 s1 e
    let ps ← pieces s0 s1 es
    return p.toList ++ ps

/-- `best_mu_bound_piecewise(sigma_interval, hypothesis_set)` (bound_mu.py:225-266) for an interval inside
[0, 1]; `sigma0 > sigma1` cannot happen for an `Interval`. -/
def bestMuBoundPiecewise (hull : List (ℚ × ℚ) → Py (List ℕ)) (mus : List Mu) (pairs : List Ep) (ts : List Tr)
    (s0 s1 : ℚ) : Py (List (Affine Unit)) := do
  let bounds ← getBounds hull mus pairs ts
  let verts ← muHull hull bounds
  pieces s0 s1 (cyclic verts)

/-- `prove_mu_bound(sigma, mu, hypothesis_list)` (bound_mu.py:271-285): the bound found, and the bounds on
mu of the set afterwards; `none` is python's `False`. -/
def proveMuBound (hull : List (ℚ × ℚ) → Py (List ℕ)) (mus : List Mu) (pairs : List Ep) (ts : List Tr)
    (sigma mu : ℚ) : Py (Option Mu × List Mu) := do
  let bound ← bestMuBound hull mus pairs ts sigma
  if bound.mu ≤ mu then return (some bound, mus ++ [bound]) else return (none, mus)

end EP
end Expdb
