import Verif.Model.Text
import Mathlib.Order.WithBot
import Mathlib.Algebra.Order.Ring.Int

/-!
# Model of `hypotheses.py` and of `Reference` (reference.py lines 4–67)

A hypothesis is an object of a heap, identified by a number; python sets of hypotheses (which compare
by identity) are lists of such numbers without repetition, in the (arbitrary) order of iteration.
-/

namespace Expdb

/-- A year as returned by `Reference.year()` (reference.py:17-18): `none` is `"Unknown date"`,
`⊤` is `float("inf")` (reference.py:54). -/
abbrev Year := Option (WithTop ℤ)

/-- A `Reference` (reference.py:4-8), restricted to its label and year. -/
structure Reference where
  label : String
  year : Year
  deriving DecidableEq

namespace Reference

/-- `Reference.classical()` (reference.py:45-46). -/
def classical : Reference := ⟨"Classical", some ((-1 : ℤ) : WithTop ℤ)⟩
/-- `Reference.derived(year)` (reference.py:49-50). -/
def derived (y : Year) : Reference := ⟨"Derived", y⟩
/-- `Reference.conjectured()` (reference.py:53-54). -/
def conjectured : Reference := ⟨"Conjectured", some ⊤⟩
/-- `Reference.trivial()` (reference.py:56-57). -/
def trivial : Reference := ⟨"Trivial", some ((-1 : ℤ) : WithTop ℤ)⟩

/-- The largest of a year and the years of a list (`max` of a non-empty sequence; unknown dates do
not occur where it is called). -/
def maxFrom (y : WithTop ℤ) : List Reference → WithTop ℤ
  | [] => y
  | r :: rs => maxFrom (match r.year with | some z => max y z | none => y) rs

/-- `Reference.max_year(refs)` (reference.py:61-66). -/
def maxYear (refs : List Reference) : Year :=
  match refs with
  | [] => some ((-1 : ℤ) : WithTop ℤ)
  | r :: rs =>
    if (r :: rs).any (fun r => r.year.isNone) then none
    else match r.year with
      | some y => some (maxFrom y rs)
      | none => none   -- not reached

end Reference

/-- A `Hypothesis` object (hypotheses.py:44-52): name, type, data, reference and dependencies. -/
structure Node (D : Type) where
  name : List Char
  htype : String
  data : D
  ref : Reference
  deps : List ℕ

/-- All hypothesis objects. -/
abbrev Heap (D : Type) := ℕ → Node D

namespace Hyp

variable {D : Type}

/-- `set.add` (python library). -/
def setAdd (S : List ℕ) (h : ℕ) : List ℕ := if h ∈ S then S else S ++ [h]

/-- `set.update` (python library), used by `add_hypotheses` (hypotheses.py:184). -/
def setUpdate (S : List ℕ) (hs : List ℕ) : List ℕ := hs.foldl setAdd S

mutual
/-- `add_recursive_dependencies(dependency_set)` (hypotheses.py:70-73). `none` means that the depth of
the recursion exceeds the fuel. -/
def addRec (H : Heap D) (fuel : ℕ) (h : ℕ) (S : List ℕ) : Option (List ℕ) :=
  match fuel with
  | 0 => none
  | n + 1 => addRecList H n (H h).deps (setUpdate S (H h).deps)

/-- The loop over `list(self.dependencies)` (hypotheses.py:72-73). -/
def addRecList (H : Heap D) (fuel : ℕ) (ds : List ℕ) (S : List ℕ) : Option (List ℕ) :=
  match ds with
  | [] => some S
  | d :: ds => do
    let S' ← addRec H fuel d S
    addRecList H fuel ds S'
end

/-- `recursive_dependencies()` (hypotheses.py:76-79). -/
def recursiveDependencies (H : Heap D) (fuel : ℕ) (h : ℕ) : Option (List ℕ) := addRec H fuel h []

mutual
/-- `proof_complexity()` (hypotheses.py:111-112). -/
def complexity (H : Heap D) (fuel : ℕ) (h : ℕ) : Option ℕ :=
  match fuel with
  | 0 => none
  | n + 1 => do return (← complexityList H n (H h).deps) + 1

/-- The sum over the dependencies (hypotheses.py:112). -/
def complexityList (H : Heap D) (fuel : ℕ) (ds : List ℕ) : Option ℕ :=
  match ds with
  | [] => some 0
  | d :: ds => do return (← complexity H fuel d) + (← complexityList H fuel ds)
end

/-- `year = -1` if the date is unknown (hypotheses.py:116-118). -/
def ownYear (H : Heap D) (h : ℕ) : WithTop ℤ :=
  match (H h).ref.year with
  | some y => y
  | none => ((-1 : ℤ) : WithTop ℤ)

mutual
/-- `proof_date()` (hypotheses.py:115-119). -/
def proofDate (H : Heap D) (fuel : ℕ) (h : ℕ) : Option (WithTop ℤ) :=
  match fuel with
  | 0 => none
  | n + 1 => proofDateList H n (ownYear H h) (H h).deps

/-- `max([year] + [h.proof_date() for h in self.dependencies])` (hypotheses.py:119). -/
def proofDateList (H : Heap D) (fuel : ℕ) (y : WithTop ℤ) (ds : List ℕ) : Option (WithTop ℤ) :=
  match ds with
  | [] => some y
  | d :: ds => do
    let z ← proofDate H fuel d
    proofDateList H fuel (max y z) ds
end

/-- `is_match(hypothesis_type, year)` (hypotheses.py:93-108); `none` is the argument `"Any"`. -/
def isMatch (n : Node D) (ty : Option String) (year : Option (WithTop ℤ)) : Bool :=
  if ty.all (fun t => t == n.htype) then
    match year with
    | none => true
    | some Y =>
      if n.ref.label == "Derived" || n.ref.label == "Classical" then true
      else if n.ref.label == "Conjectured" then false
      else match n.ref.year with
        | some y => decide (y ≤ Y)
        | none => false
  else false

/-- `list_hypotheses(hypothesis_type, year)` (hypotheses.py:189-194). -/
def listHypotheses (H : Heap D) (S : List ℕ) (ty : Option String) (year : Option (WithTop ℤ)) : List ℕ :=
  S.filter (fun h => isMatch (H h) ty year)

/-- `k in name` for strings (python library). -/
def substr (k name : List Char) : Bool := name.tails.any (fun t => k.isPrefixOf t)

/-- The test of `find_hypothesis` for one hypothesis (hypotheses.py:201-210). `beq` is the `==` of
the data objects; `none` is the argument `"Any"`. -/
def findTest (beq : D → D → Bool) (n : Node D) (ty : Option String) (data : Option D)
    (keywords : Option (List Char)) (year : Option Year) : Bool :=
  ty.all (fun t => n.htype == t) && data.all (fun d => beq n.data d) &&
    keywords.all (fun ks => (splitOn ',' ks).all (fun k => substr (strip k) n.name)) &&
    year.all (fun y => n.ref.year == y)

/-- `find_hypothesis` (hypotheses.py:197-213). -/
def findHypothesis (beq : D → D → Bool) (H : Heap D) (S : List ℕ) (ty : Option String)
    (data : Option D) (keywords : Option (List Char)) (year : Option Year) : Option ℕ :=
  S.find? (fun h => findTest beq (H h) ty data keywords year)

/-- The node made by `derived_exp_pair` / `derived_bound_beta` / … : reference
`Reference.derived(max_year(d.reference for d in dependencies))` and the given dependencies
(exponent_pair.py:41-51, bound_beta.py:54-64). -/
def derivedNode (H : Heap D) (name : List Char) (htype : String) (data : D) (deps : List ℕ) : Node D :=
  ⟨name, htype, data, Reference.derived (Reference.maxYear (deps.map (fun d => (H d).ref))), deps⟩

end Hyp
end Expdb
