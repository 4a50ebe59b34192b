import Verif.Model.ExponentPair
import Verif.Model.Lookup

/-!
# Model of `best_proof_of_exponent_pair` (derived.py:153-215)

The set `literature` (`Model/Lookup.lean`) as `find_best_proof` sees it.
-/

namespace Expdb
namespace BestProof

open EP

/-- A member of the literature as `find_best_proof` sees it (exponent_pair.py:98-99, 392-462): an exponent pair, one of the transforms A, B, C
(literature.py:507-555), or something else; `i` is the position in the list `Lookup.literature`. -/
def itemOf (n : Node Lookup.Data) (i : ℕ) : Item :=
  match n.data with
  | .pair k l => if n.htype = "Exponent pair" then .pair (.known (i + 1) k l) else .other i
  | .transform name =>
    if n.htype = "Exponent pair transform" then
      if name = "van der Corput A transform".toList then .transform trA
      else if name = "van der Corput B transform".toList then .transform trB
      else .transform trC
    else .other i
  | _ => .other i

/-- `hypothesis = copy.copy(literature); hypothesis.add_hypothesis(ep.trivial_exp_pair)` (derived.py:186-187). The reference of the trivial pair
has the year -1 (exponent_pair.py:54-60, reference.py:57-58). -/
def hypotheses (nodes : List (Node Lookup.Data)) : List Dated :=
  nodes.zipIdx.map (fun e => ⟨e.1.ref.year, itemOf e.1 e.2⟩) ++ [⟨LitMu.yr (-1), .pair trivialPair⟩]

/-- `best_proof_of_exponent_pair(k, l)` with the default method `Proof_Optimization_Method.DATE` (derived.py:153-199); `hs` are the members of
the set in the order in which python iterates over it. The printed text is left out. -/
def bestProof (hull : List (ℚ × ℚ) → Py (List ℕ)) (inHull : List (ℚ × ℚ) → ℚ × ℚ → Bool) (cx : Ep → ℕ)
    (betaPairs : List Item → Py (List Ep)) (hs : List Dated) (k l : ℚ) : Py Proof :=
  findBestProofDate (attempt hull inHull cx betaPairs k l) hs

/-- The arguments of the first six calls in `prove_exponent_pairs` (derived.py:208-213). -/
def calls : List (ℚ × ℚ) := [(1 / 6, 2 / 3), (13 / 31, 16 / 31), (4 / 11, 6 / 11), (2 / 7, 4 / 7), (5 / 24, 15 / 24), (4 / 18, 11 / 18)]

/-- The arguments of the seventh call in `prove_exponent_pairs` (derived.py:214). -/
def lastCall : ℚ × ℚ := (3 / 40, 31 / 40)

end BestProof
end Expdb
