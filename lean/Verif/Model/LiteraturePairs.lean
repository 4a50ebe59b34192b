import Verif.Model.ExponentPair

/-!
# Model of the exponent pairs of `literature.py`

The pairs listed by `add_literature_exponent_pairs`, the two families added with a truncation, and the
set assembled by `add_exp_pairs_all`. Names, proof texts and the objects made of the references are
left out; the key under which the reference is looked up is kept.
-/

namespace Expdb
namespace LitPairs

open EP

/-- The arguments of one call of `literature_exp_pair` (exponent_pair.py:31-38): `k`, `l` and the key of the reference. -/
structure Entry where
  k : ℚ
  l : ℚ
  ref : List Char
  deriving DecidableEq

/-- The hypotheses added by `add_literature_exponent_pairs` (literature.py:361-446), in order. -/
def literaturePairs : List Entry :=
  [⟨9 / 56, 37 / 56, "huxley_exponential_1988".toList⟩,
   ⟨89 / 560, 369 / 560, "watt_exponential_1989".toList⟩,
   ⟨17 / 108, 71 / 108, "huxley_exponential_1991".toList⟩,
   ⟨89 / 570, 187 / 285, "huxley_exponential_1993".toList⟩,
   ⟨32 / 205, 269 / 410, "huxley_exponential_2005".toList⟩,
   ⟨13 / 84, 55 / 84, "bourgain_decoupling_2017".toList⟩,
   ⟨2 / 13, 35 / 52, "huxley_watt_exponential_1990".toList⟩,
   ⟨6299 / 43860, 29507 / 43860, "huxley_area_1996".toList⟩,
   ⟨771 / 8116, 1499 / 2029, "sargos_points_1995".toList⟩,
   ⟨21 / 232, 173 / 232, "sargos_points_1995".toList⟩,
   ⟨1959 / 21656, 16135 / 21656, "sargos_points_1995".toList⟩,
   ⟨516247 / 6629696, 5080955 / 6629696, "huxley_exponential_2001".toList⟩,
   ⟨1 / 13, 1 - 3 / 13, "robert_fourth_2002".toList⟩,
   ⟨1 / 204, 1 - 7 / 204, "sargos_analog_2003".toList⟩,
   ⟨1 / 360, 1 - 8 / 360, "robert_2002".toList⟩,
   ⟨7 / 2640, 1 - 56 / 2640, "sargos_analog_2003".toList⟩,
   ⟨1 / 716, 1 - 9 / 716, "sargos_analog_2003".toList⟩,
   ⟨1 / 649, 1 - 9 / 649, "Robert_Sargos_2001".toList⟩,
   ⟨7 / 4540, 1 - 63 / 4540, "robert_2002".toList⟩,
   ⟨1 / 615, 1 - 9 / 615, "robert_2002b".toList⟩,
   ⟨1 / 915, 1 - 10 / 915, "robert_2002b".toList⟩,
   ⟨4742 / 38463, 35731 / 51284, "trudgian-yang".toList⟩,
   ⟨18 / 199, 593 / 796, "trudgian-yang".toList⟩,
   ⟨2779 / 38033, 58699 / 76066, "trudgian-yang".toList⟩,
   ⟨715 / 10238, 7955 / 10238, "trudgian-yang".toList⟩]

/-- `range(a, b)` of naturals (python library). -/
def natRange (a b : ℕ) : List ℕ := (List.range (b - a)).map (fun i => a + i)

/-- The pairs added by `add_huxley_exponent_pairs(M)` (literature.py:453-461). -/
def huxleyPairs (M : ℕ) : Py (List (ℚ × ℚ)) := (natRange 1 M).mapM huxleyPair

/-- The pairs added by `add_heath_brown_exponent_pairs(M)` (literature.py:478-486). -/
def heathBrownPairs (M : ℕ) : Py (List (ℚ × ℚ)) := (natRange 3 M).mapM heathBrownPair

/-- Number the members of a list of pairs as hypotheses, starting with `n`. (Identities of the objects.) -/
def number (n : ℕ) : List (ℚ × ℚ) → List Ep
  | [] => []
  | p :: ps => .known n p.1 p.2 :: number (n + 1) ps

/-- The exponent pairs of a set filled by `add_exp_pairs_all` (literature.py:492-494): the trivial pair and
the pairs of the literature, where both families are truncated at `M`; in the code `M` is
`EXP_PAIR_TRUNCATION = 20` (constants.py:10, literature.py:464, 489). -/
def allPairs (M : ℕ) : Py (List Ep) := do
  let hux ← huxleyPairs M
  let hb ← heathBrownPairs M
  return trivialPair :: number 1 (literaturePairs.map (fun e => (e.k, e.l)) ++ hux ++ hb)

end LitPairs
end Expdb
