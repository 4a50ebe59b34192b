import Verif.Model.BestProof
import Verif.Model.DerivedPairs

/-!
# Model of `prove_all` (derived.py:1032-1035)
-/

namespace Expdb
namespace ProveAll

open EP BestProof DerivedPairs

/-- `best_proof_of_exponent_pair(k, l)` for the seven pairs of `prove_exponent_pairs` (derived.py:208-214). Each call makes its own copy of the literature
(derived.py:186) and so may iterate in its own order; `order i` is that of the call with number `i`. The method is `DATE` in all of them, by default
(derived.py:156) or by the argument (derived.py:214). The complexity of proofs `cx` and the conversion of bounds on beta are parameters. -/
def bestProofs (hull : List (ℚ × ℚ) → Py (List ℕ)) (inHull : List (ℚ × ℚ) → ℚ × ℚ → Bool) (cx : Ep → ℕ) (betaPairs : List Item → Py (List Ep))
    (order : ℕ → List Dated) : Py (List Proof) :=
  (calls ++ [lastCall]).zipIdx.mapM (fun c => bestProof hull inHull cx betaPairs (order c.2) c.1.1 c.1.2)

/-- `prove_all()` (derived.py:1032-1035), which calls `prove_exponent_pairs` (derived.py:201-215) only: the results of the eleven calls there. The first
four are `prove_exponent_pair` (`DerivedPairs.proveExponentPairs`). The printing is left out. -/
def proveAll (hull : List (ℚ × ℚ) → Py (List ℕ)) (inHull : List (ℚ × ℚ) → ℚ × ℚ → Bool) (cx : Ep → ℕ) (betaPairs : List Item → Py (List Ep))
    (o : ℚ × ℚ → Orders) (K M : ℕ) (pop : ℕ → HSet → Py HSet) (order : ℕ → List Dated) : Py (List (Option BetaPairs.Out) × List Proof) := do
  let new ← proveExponentPairs hull o K M pop
  let best ← bestProofs hull inHull cx betaPairs order
  return (new, best)

end ProveAll
end Expdb
