import Verif.Model.Mu

/-!
# Model of the bounds on mu of `literature.py`

The bounds listed by `add_literature_bounds_mu`, the two sequences added with a truncation, and the sets
assembled by `add_bounds_mu_all` and `add_bounds_mu_as_of`. Names and proof texts are left out. The years are
those of the entries of `references.bib`.
-/

namespace Expdb
namespace LitMu

open EP

/-- The arguments of one call of `literature_bound_mu` (bound_mu.py:48-55): `sigma`, `mu`, and the year of the
reference. -/
structure Entry where
  sigma : ℚ
  mu : ℚ
  year : Year
  deriving DecidableEq

/-- A year that is an integer (reference.py:148-149). -/
def yr (y : ℤ) : Year := some ((y : ℤ) : WithTop ℤ)

/-- The hypotheses added by `add_literature_bounds_mu` (literature.py:601-667), in order. -/
def listed : List Entry :=
  [⟨1 / 2, 1 / 6, yr 1923⟩, ⟨1 / 2, 193 / 988, yr 1924⟩, ⟨1 / 2, 27 / 164, yr 1931⟩, ⟨1 / 2, 229 / 1392, yr 1933⟩,
   ⟨1 / 2, 19 / 116, yr 1942⟩, ⟨1 / 2, 15 / 92, yr 1949⟩, ⟨1 / 2, 6 / 37, yr 1963⟩, ⟨1 / 2, 173 / 1067, yr 1973⟩,
   ⟨1 / 2, 35 / 216, yr 1982⟩, ⟨1 / 2, 139 / 858, yr 1985⟩, ⟨1 / 2, 9 / 56, yr 1986⟩, ⟨1 / 2, 89 / 560, yr 1989⟩,
   ⟨1 / 2, 17 / 108, yr 1991⟩, ⟨1 / 2, 89 / 570, yr 1993⟩, ⟨1 / 2, 32 / 205, yr 2005⟩, ⟨1 / 2, 13 / 84, yr 2017⟩,
   ⟨1934 / 3655, 6299 / 43860, yr 1996⟩, ⟨49 / 51, 1 / 204, yr 2003⟩, ⟨361 / 370, 1 / 370, yr 2003⟩,
   ⟨3 / 5, 1409 / 12170, yr 2014⟩, ⟨4 / 5, 3 / 71, yr 2014⟩, ⟨11 / 15, 1 / 15, yr 2020⟩]

/-- The bound of van der Corput with number `n` (literature.py:673-677). -/
def vdcEntry (n : ℕ) : Py Entry := do
  let q ← pyDiv n (2 ^ n - 2)
  let m ← pyDiv 1 (2 ^ n - 2)
  return ⟨1 - q, m, yr 1920⟩

/-- The bound of Hardy and Littlewood with number `n ≥ 1` (literature.py:683-687); the year of the reference
is the string "Unknown date". -/
def hlEntry (n : ℕ) : Py Entry := do
  let q ← pyDiv 1 (2 ^ (n - 1))
  let m ← pyDiv 1 ((n + 1) * 2 ^ (n - 1))
  return ⟨1 - q, m, none⟩

/-- `range(a, b)` of naturals (python library). -/
def natRange (a b : ℕ) : List ℕ := (List.range (b - a)).map (fun i => a + i)

/-- All bounds on mu of the literature (literature.py:601-690), where both sequences are truncated at `N`; in
the code `N` is `EXP_PAIR_TRUNCATION = 20` (constants.py:10). -/
def entries (N : ℕ) : Py (List Entry) := do
  let vdc ← (natRange 4 N).mapM vdcEntry
  let hl ← (natRange 4 N).mapM hlEntry
  return listed ++ vdc ++ hl

/-- The entries as hypotheses with numbers starting with `n`. (Identities of the objects.) -/
def number (n : ℕ) : List Entry → List Mu
  | [] => []
  | e :: es => .known n e.sigma e.mu :: number (n + 1) es

/-- The bounds on mu of a set filled by `add_bounds_mu_all` (literature.py:704-705). -/
def allMu (N : ℕ) : Py (List Mu) := do
  let es ← entries N
  return number 0 es

/-- The entries added by `add_bounds_mu_as_of(hypothesis_set, year)` (literature.py:709-710): those that
match the year (hypotheses.py:93-108); an unknown date matches no year. -/
def asOf (es : List Entry) (y : ℤ) : List Entry :=
  es.filter (fun e => match e.year with | some z => decide (z ≤ (y : WithTop ℤ)) | none => false)

/-- `prove_hardy_littlewood_mu_bound()` (derived.py:23-34); the search for the two transforms in the
literature set is replaced by the transforms themselves, printing is left out. -/
def proveHardyLittlewood : Py Mu := do
  let b ← trB.apply trivialPair
  let ab ← trA.apply b
  return .fromPair ab

end LitMu
end Expdb
