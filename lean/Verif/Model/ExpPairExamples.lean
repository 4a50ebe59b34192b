import Verif.Model.BestProof

/-!
# Model of `exp_pair_examples` (examples.py:88-132)

The set of hypotheses of the example and the search for the earliest proof of `(3/40, 31/40)`. The computation of the convex hull of the set
(examples.py:106-112), the search for the shortest proof (examples.py:124-132) and the printed text are left out.
-/

namespace Expdb
namespace BestProof
namespace Example

open EP

/-- The year of the reference of the transforms A, B (literature.py:515-521, 532-538) and C (literature.py:549-555), by their number. -/
def trYear : ℕ → Year
  | 0 => LitMu.yr 1920
  | 1 => LitMu.yr 1920
  | _ => (Lookup.bib.find? (fun e => e.label = "sargos_analog_2003")).bind (fun e => LitMu.yr e.year)

/-- The year of the reference of an exponent pair: of the trivial pair (exponent_pair.py:54-60, reference.py:56-57), of a pair of the literature
(`known (i + 1)` is the node `i`), and of a derived pair, whose dependencies are the transform and the pair it is applied to (exponent_pair.py:41-51,
literature.py:507-549; see `C44_order` for the order of the two). -/
def yearOf (nodes : List (Node Lookup.Data)) : Ep → Year
  | .known 0 _ _ => Reference.trivial.year
  | .known (i + 1) _ _ => (nodes[i]?).bind (fun n => n.ref.year)
  | .derived t _ _ p => (Reference.derived (Reference.maxYear [⟨"", yearOf nodes p⟩, ⟨"", trYear t⟩])).year

/-- The types of hypotheses that the example takes from the literature (examples.py:95-103). -/
def wanted (n : Node Lookup.Data) : Bool :=
  n.htype = "Exponent pair" || n.htype = "Exponent pair transform" || n.htype = "Exponent pair to beta bound transform"

/-- The set before the call of `compute_exp_pairs` (examples.py:89-103). -/
def assumed (nodes : List (Node Lookup.Data)) : List Dated :=
  (nodes.zipIdx.filter (fun e => wanted e.1)).map (fun e => ⟨e.1.ref.year, itemOf e.1 e.2⟩) ++ [⟨Reference.trivial.year, .pair trivialPair⟩]

/-- `ep.compute_exp_pairs(hypotheses, search_depth=5, prune=True)` (examples.py:105); `hs` is the set in the order in which python iterates over it. -/
def computed (hull : List (ℚ × ℚ) → Py (List ℕ)) (hs : List Dated) : Py (List Ep) :=
  computeExpPairs hull (pairsIn (hs.map Dated.item)) (transformsIn (hs.map Dated.item)) 5 true

/-- `hypotheses.add_hypotheses(...)` (examples.py:104-106): the pairs that are not yet in the set are added. -/
def withComputed (nodes : List (Node Lookup.Data)) (hs : List Dated) (d : List Ep) : List Dated :=
  hs ++ (d.filter (fun e => e ∉ pairsIn (hs.map Dated.item))).map (fun e => ⟨yearOf nodes e, .pair e⟩)

/-- `ep.find_best_proof(frac(3, 40), frac(31, 40), hypotheses, Proof_Optimization_Method.DATE)` (examples.py:118-120). -/
def earliest (hull : List (ℚ × ℚ) → Py (List ℕ)) (inHull : List (ℚ × ℚ) → ℚ × ℚ → Bool) (cx : Ep → ℕ)
    (betaPairs : List Item → Py (List Ep)) (hs : List Dated) : Py Proof :=
  findBestProofDate (attempt hull inHull cx betaPairs (3 / 40) (31 / 40)) hs

end Example
end BestProof
end Expdb
