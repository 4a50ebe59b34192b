import Verif.Model.DerivedPairs
import Verif.Model.Lookup

/-!
# Model of `prove_heathbrown_exponent_pairs` (derived.py 131–151)

The exponent pairs computed from the bounds on beta of Heath-Brown. The printed texts are left out: the pairs that are printed by
the last loop are returned.
-/

namespace Expdb
namespace HBPairs

open EP BetaPairs DerivedPairs

/-- The bounds on beta of the literature whose reference has the given author (derived.py:135-139). -/
def byAuthor (author : Printing.Str) : List (String × Py (List LitBeta.Bd)) → Py (List LitBeta.Bd)
  | [] => .ok []
  | c :: cs => do
    let bs ← c.2
    let s ← Lookup.source (.bib c.1)
    let rest ← byAuthor author cs
    return (if s.1 = author then bs else []) ++ rest

/-- `prove_heathbrown_exponent_pairs()` (derived.py:131-151): the pairs of `new_exp_pairs`. `K` is the constant `BETA_TRUNCATION`
(constants.py:5-9). The set contains no transform. -/
def proveHeathBrown (hull : List (ℚ × ℚ) → Py (List ℕ)) (o : Orders) (K : ℕ) : Py (List Out) := do
  let bs ← byAuthor "Heath-Brown".toList (Lookup.betaCalls K)
  let b1 := newHyps 0 bs
  let best ← Beta.computeBest (o.bounds 0 b1) half
  let b2 := b1 ++ newHyps b1.length (newBounds best)
  fromBeta hull (o.bounds 1 b2) [trivialPair] false

end HBPairs
end Expdb
