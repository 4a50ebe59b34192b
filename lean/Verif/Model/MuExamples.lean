import Verif.Model.LiteratureMu
import Verif.Model.LiteraturePairs
import Verif.Model.Cache

/-!
# Model of `mu_bound_examples` (examples.py:14-80)

The hypothesis set of the example with its cached hull. Texts are left out; printing is replaced by returning what is printed. The two
searches are represented by what they find (`Lookup.C92`): the bound of Hardy and Littlewood, and one of the three transforms.
-/

namespace Expdb
namespace MuExamples

open EP
open Hull (cyclic)

/-- The hypothesis set of the example (hypotheses.py:130-135): bounds on mu, exponent pairs, transforms, and the entry `"convex_hull"` of
`data` if `data_valid` (bound_mu.py:190). -/
structure State where
  mus : List Mu
  pairs : List Ep
  ts : List Tr
  cache : Option (List Mu)

/-- `Hypothesis_Set()` (hypotheses.py:131-135). -/
def State.empty : State := ⟨[], [], [], none⟩

/-- `add_hypothesis` and `add_hypotheses` with bounds on mu; the cache becomes invalid (hypotheses.py:170-186). -/
def State.addMus (s : State) (l : List Mu) : State := { s with mus := Cache.union s.mus l, cache := none }

/-- `add_hypotheses` with exponent pairs (hypotheses.py:176-186). -/
def State.addPairs (s : State) (l : List Ep) : State := { s with pairs := Cache.union s.pairs l, cache := none }

/-- `add_hypotheses` with one transform (hypotheses.py:177-178). -/
def State.addTransform (s : State) (t : Tr) : State := { s with ts := s.ts ++ [t], cache := none }

section

variable (hull : List (ℚ × ℚ) → Py (List ℕ)) (orderM : List Mu → List Mu) (orderP : List Ep → List Ep)

/-- `best_mu_bound(sigma, hypothesis_set)` with the cached hull (bound_mu.py:180-216). The sets are iterated in the orders `orderM`,
`orderP`. -/
def best (s : State) (sigma : ℚ) : Py (Mu × State) :=
  if sigma ≤ 0 ∨ sigma ≥ 1 then .ok (.trivialAt sigma, s)
  else match s.cache with
    | some verts => do
      let r ← bestLoop sigma (cyclic verts) (.trivialAt sigma)
      return (r, s)
    | none => do
      let bounds ← getBounds hull (orderM s.mus) (orderP s.pairs) s.ts
      let verts ← muHull hull (bounds ++ [.placeholder])
      let r ← bestLoop sigma (cyclic verts) (.trivialAt sigma)
      return (r, { s with cache := some verts })

/-- `prove_mu_bound(sigma, mu, hypothesis_list)` (bound_mu.py:269-281): the new bound is added without making the cache invalid. -/
def prove (s : State) (sigma mu : ℚ) : Py (Option Mu × State) := do
  let (b, s) ← best hull orderM orderP s sigma
  if b.mu ≤ mu then return (some b, { s with mus := Cache.union s.mus [b] }) else return (none, s)

/-- `best_mu_bound_piecewise(Interval(s0, s1), hypothesis_set)` with the cached hull (bound_mu.py:224-264), for an interval inside [0, 1]. -/
def piecewise (s : State) (s0 s1 : ℚ) : Py (List (Affine Unit) × State) :=
  match s.cache with
  | some verts => do
    let ps ← pieces s0 s1 (cyclic verts)
    return (ps, s)
  | none => do
    let bounds ← getBounds hull (orderM s.mus) (orderP s.pairs) s.ts
    let verts ← muHull hull bounds
    let ps ← pieces s0 s1 (cyclic verts)
    return (ps, { s with cache := some verts })

/-- The bounds on mu of the literature up to a year, `literature.list_hypotheses("Upper bound on mu", year)` (examples.py:36,
hypotheses.py:93-108, 189-194): `l` are all bounds with their years. -/
def upTo (l : List (Mu × Year)) (y : ℤ) : List Mu :=
  (l.filter (fun b => match b.2 with | some z => decide (z ≤ (y : WithTop ℤ)) | none => false)).map Prod.fst

/-- The bounds on mu of the literature with their years (literature.py:601-690), truncated at `N`. -/
def literatureMu (N : ℕ) : Py (List (Mu × Year)) := do
  let es ← LitMu.entries N
  return (LitMu.number 0 es).zip (es.map LitMu.Entry.year)

/-- The bound of Hardy and Littlewood found by examples.py:22 (literature.py:605-607). -/
def hardyLittlewood : Mu := .known 0 (1 / 2) (1 / 6)

/-- `Lindelof_hypothesis` (bound_mu.py:86); its number is not one of the literature. -/
def lindelofHyp (N : ℕ) : Mu := .known (100 + 2 * N) (1 / 2) 0

/-- What the example prints (examples.py:19-80). -/
structure Output where
  /-- examples.py:19 -/
  trivial : Mu
  /-- examples.py:32 -/
  hardyLittlewood : Mu
  /-- examples.py:37 -/
  upTo1985 : Mu
  /-- examples.py:43 -/
  first : Option Mu
  /-- examples.py:50 -/
  second : Option Mu
  /-- examples.py:59 -/
  third : Option Mu
  /-- examples.py:67 -/
  pieces : List (Affine Unit)
  /-- examples.py:74 -/
  lindelof : Mu
  /-- examples.py:76 -/
  at0 : Mu
  /-- examples.py:78 -/
  at2 : Mu
  /-- examples.py:80 -/
  last : Option Mu

/-- `mu_bound_examples()` (examples.py:14-80); `t` is the transform found by examples.py:58. -/
def muBoundExamples (N M : ℕ) (t : Tr) : Py Output := do
  let lit ← literatureMu N
  let prs ← LitPairs.allPairs M
  let (r1, s) ← best hull orderM orderP .empty (3 / 4)
  let (r2, s) ← best hull orderM orderP (s.addMus [hardyLittlewood]) (3 / 4)
  let (r3, s) ← best hull orderM orderP (s.addMus (upTo lit 1985)) (3 / 4)
  let (p1, s) ← prove hull orderM orderP (s.addMus (lit.map Prod.fst)) (3 / 4) (13 / 168)
  let (p2, s) ← prove hull orderM orderP s (4 / 7) (8 / 63)
  let (p3, s) ← prove hull orderM orderP ((s.addPairs prs).addTransform t) (3 / 4) (8 / 63)
  let (ps, s) ← piecewise hull orderM orderP s (1 / 3) (9 / 10)
  let (r4, s) ← best hull orderM orderP (s.addMus [lindelofHyp N]) (3 / 4)
  let (r5, s) ← best hull orderM orderP s 0
  let (r6, s) ← best hull orderM orderP s 2
  let (p4, _) ← prove hull orderM orderP s (1 / 4) (1 / 4)
  return ⟨r1, r2, r3, p1, p2, p3, ps, r4, r5, r6, p4⟩

end

end MuExamples
end Expdb
