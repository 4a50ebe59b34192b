import Verif.Model.BetaPairs
import Verif.Model.LiteratureBeta
import Verif.Model.LiteraturePairs

/-!
# Model of the derivation of exponent pairs (derived.py 36–128, 201–206)

`prove_exponent_pair_with_hypotheses`, `prove_exponent_pair` and `prove_exponent_pairs`. Names, proof texts and the
printed proofs are left out.
-/

namespace Expdb
namespace DerivedPairs

open EP BetaPairs

/-- The members of a hypothesis set that are used: bounds on beta, exponent pairs and exponent pair transforms
(derived.py:103-105). -/
structure HSet where
  bounds : List Beta.Hyp
  pairs : List Ep
  trs : List Tr

/-- The order in which `list_hypotheses` (hypotheses.py:189-194) lists the members of a python set; the number counts
the calls. -/
structure Orders where
  bounds : ℕ → List Beta.Hyp → List Beta.Hyp
  pairs : ℕ → List Ep → List Ep
  trs : List Tr → List Tr

/-- New hypotheses of type "Upper bound on beta", numbered from `n` on (bound_beta.py:54-64). (Identities of the objects.) -/
def newHyps (n : ℕ) (bs : List (Affine (Option ℕ))) : List Beta.Hyp := (bs.zipIdx n).map (fun e => ⟨e.2, e.1⟩)

/-- The hypotheses returned by `compute_best_beta_bounds` that are not in the set already (bound_beta.py:154-161). -/
def newBounds (best : List Beta.Best) : List (Affine (Option ℕ)) :=
  best.filterMap (fun b => match b with | .existing _ => none | .derived f _ => some f)

/-- `prove_exponent_pair_with_hypotheses(hypotheses, k, l)` (derived.py:36-64). The set contains no hypothesis of type
"Exponent pair to beta bound transform". -/
def proveWith (hull : List (ℚ × ℚ) → Py (List ℕ)) (o : Orders) (s : HSet) (k l : ℚ) : Py (Option Out) := do
  let r ← computeExpPairs hull (o.pairs 0 s.pairs) (o.trs s.trs) 1 true
  let pairs := addPairs s.pairs r
  let tb ← toBeta [] (o.pairs 1 pairs)
  let b1 := s.bounds ++ newHyps s.bounds.length (tb.map Prod.fst)
  let best ← Beta.computeBest (o.bounds 0 b1) half
  let b2 := b1 ++ newHyps b1.length (newBounds best)
  let new ← fromBeta hull (o.bounds 1 b2) (o.pairs 2 pairs) (s.trs.any (fun t => t.id == trB.id))
  return new.find? (fun h => h.key = (k, l))

/-- The set of hypotheses of the literature (derived.py:99-105): the trivial pair, and the bounds on beta, the exponent
pairs and the exponent pair transforms of the literature. `K` and `M` are the constants `BETA_TRUNCATION` and
`EXP_PAIR_TRUNCATION` (constants.py:5-9). -/
def literatureSet (K M : ℕ) : Py HSet := do
  let bs ← LitBeta.all K
  let ps ← LitPairs.allPairs M
  return ⟨newHyps 0 bs, ps, [trA, trB, trC]⟩

/-- The loop that removes dependencies (derived.py:110-119); `pop` removes an arbitrary member (`set.pop`, which raises
`KeyError` for an empty set). -/
def simplifyLoop (prove : HSet → Py (Option Out)) (pop : ℕ → HSet → Py HSet) : ℕ → HSet → Option Out → Py (HSet × Option Out)
  | 0, s, eph => .ok (s, eph)
  | n + 1, s, eph => do
    let cpy ← pop n s
    let eph1 ← prove cpy
    match eph1 with
    | none => simplifyLoop prove pop n s eph
    | some h => simplifyLoop prove pop n cpy (some h)

/-- `prove_exponent_pair(k, l, simplify_deps)` (derived.py:66-128). -/
def proveExponentPair (hull : List (ℚ × ℚ) → Py (List ℕ)) (o : Orders) (K M : ℕ) (pop : ℕ → HSet → Py HSet)
    (k l : ℚ) (simplify : Bool) : Py (Option Out) := do
  let s ← literatureSet K M
  let eph ← proveWith hull o s k l
  if simplify then
    let r ← simplifyLoop (fun s => proveWith hull o s k l) pop 100 s eph
    return r.2
  else return eph

/-- `prove_exponent_pairs()` (derived.py:201-206): the results of the four calls, in order, each with its own order of
the hypotheses. -/
def proveExponentPairs (hull : List (ℚ × ℚ) → Py (List ℕ)) (o : ℚ × ℚ → Orders) (K M : ℕ) (pop : ℕ → HSet → Py HSet) :
    Py (List (Option Out)) :=
  [((89 : ℚ) / 1282, (997 : ℚ) / 1282), (652397 / 9713986, 7599781 / 9713986), (10769 / 351096, 609317 / 702192),
    (89 / 3478, 15327 / 17390)].mapM (fun p => proveExponentPair hull (o p) K M pop p.1 p.2 false)

end DerivedPairs
end Expdb
