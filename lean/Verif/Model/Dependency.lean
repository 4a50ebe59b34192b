import Verif.Model.Hypotheses

/-!
# The sets of dependencies as objects

Model/Hypotheses.lean gives each hypothesis its own list of dependencies. In python the attribute `dependencies` is a reference to a set
object, which several hypotheses can share. Here the set objects are explicit (hypotheses.py:43-51, 66-67 and the `derived_…` constructors).
Simplified: names, types, data and proofs of hypotheses are left out, and so is the empty set that a `derived_…` constructor makes and drops.
-/

namespace Expdb
namespace Depend

/-- A `Hypothesis` (hypotheses.py:43-51), restricted to its reference and the address of the set object `dependencies`. -/
structure Obj where
  ref : Reference
  set : ℕ
  deriving DecidableEq

/-- All hypotheses and all set objects, numbered in the order of their construction. -/
structure State where
  objs : List Obj
  sets : List (List ℕ)

/-- A statement of a program that makes or changes hypotheses. -/
inductive Step where
  /-- `Hypothesis(name, type, data, proof, ref)` (hypotheses.py:44-51) -/
  | new (ref : Reference)
  /-- `derived_…(data, proof, {…})`, the set made for this call (zero_density_estimate.py:381-386, exponent_pair.py:236-241) -/
  | derive (hs : List ℕ)
  /-- `[derived_…(…, deps) for s in sup]`, one set for `n` calls (zero_density_estimate.py:520-528, zero_density_energy_estimate.py:243-252) -/
  | deriveAll (n : ℕ) (hs : List ℕ)
  /-- `derived_…(data, proof, hyp.dependencies)` (additive_energy.py:471, 481-486) -/
  | deriveOf (h : ℕ)
  /-- `h.add_dependency(f)` (hypotheses.py:66-67) -/
  | add (h f : ℕ)

/-- The attribute `reference` of hypothesis `h` (hypotheses.py:50). -/
def refOf (s : State) (h : ℕ) : Reference := ((s.objs[h]?).map Obj.ref).getD Reference.trivial

/-- The contents of the attribute `dependencies` of hypothesis `h` (hypotheses.py:51). -/
def deps (s : State) (h : ℕ) : List ℕ :=
  match s.objs[h]? with
  | some o => s.sets.getD o.set []
  | none => []

/-- The reference made by a `derived_…` constructor: `Reference.derived(Reference.max_year(tuple(d.reference for d in deps)))`
(zero_density_estimate.py:103-110, additive_energy.py:115-122). -/
def derivedRef (s : State) (hs : List ℕ) : Reference := Reference.derived (Reference.maxYear (hs.map (refOf s)))

/-- One statement (places as in `Step`). A hypothesis that does not exist cannot be referred to; the state is then left as it is. -/
def step (s : State) : Step → State
  | .new ref => ⟨s.objs ++ [⟨ref, s.sets.length⟩], s.sets ++ [[]]⟩
  | .derive hs => ⟨s.objs ++ [⟨derivedRef s hs, s.sets.length⟩], s.sets ++ [hs]⟩
  | .deriveAll n hs => ⟨s.objs ++ List.replicate n ⟨derivedRef s hs, s.sets.length⟩, s.sets ++ [hs]⟩
  | .deriveOf h =>
    match s.objs[h]? with
    | some o => ⟨s.objs ++ [⟨derivedRef s (deps s h), o.set⟩], s.sets⟩
    | none => s
  | .add h f =>
    match s.objs[h]? with
    | some o => ⟨s.objs, s.sets.set o.set (Hyp.setAdd (s.sets.getD o.set []) f)⟩
    | none => s

/-- A program: the statements in turn (hypotheses.py:43-51, 66-67). -/
def run (steps : List Step) : State := steps.foldl step ⟨[], []⟩

/-- The hypotheses as in Model/Hypotheses.lean, where the functions of hypotheses.py:70-119 are modelled. -/
def heap (s : State) : Heap Unit := fun h => ⟨[], "", (), refOf s h, deps s h⟩

end Depend
end Expdb
