import Verif.Model.Basic
import Mathlib.Data.List.Basic

/-!
# Model of the cached data of `Hypothesis_Set`

Covers hypotheses.py:128-187 (constructor, copy, additions) and the two users of the cache,
bound_mu.py:171-175, 191-203, 237-239 and exponent_pair.py:140-154. All of them use the single key
`"convex_hull"` of the dictionary `data`. Dictionaries are objects with an identity, since
`__copy__` makes two sets share one.
-/

namespace Expdb
namespace Cache

/-- Which quantity is asked for: the hull of the bounds on mu (bound_mu.py:171) or of the exponent pairs
(exponent_pair.py:120). -/
inductive Kind
  | mu
  | ep
  deriving DecidableEq

/-- A `Hypothesis_Set` (hypotheses.py:128-133): hypotheses, identity of the dictionary `data`,
and `data_valid`. -/
structure SetObj (H : Type) where
  hyps : List H
  dict : ℕ
  valid : Bool

/-- All sets and dictionaries; a dictionary is its value for the key `"convex_hull"`, if present. -/
structure World (H V : Type) where
  sets : List (SetObj H)
  dicts : List (Option V)

/-- The operations of a client; sets are numbered in the order of their creation. -/
inductive Op (H : Type)
  /-- `Hypothesis_Set(hs)` (hypotheses.py:129-133) -/
  | new (hs : List H)
  /-- `add_hypotheses(hs)` with `invalidate_data=True` (hypotheses.py:169-187) -/
  | add (i : ℕ) (hs : List H)
  /-- `copy.copy(…)` (hypotheses.py:139-143) -/
  | copy (i : ℕ)
  /-- a call that returns the cached hull -/
  | query (k : Kind) (i : ℕ)

/-- How a hull is computed: the result for given contents, and whether `data_valid` is set after
computing (always for bounds on mu, bound_mu.py:175; for exponent pairs only if there are at least three,
exponent_pair.py:146-152). -/
structure Engine (H V : Type) where
  fresh : Kind → List H → Py V
  marks : Kind → List H → Bool

variable {H V : Type} [DecidableEq H]

/-- `set.update` (python library; hypotheses.py:184). -/
def union (s hs : List H) : List H := hs.foldl (fun s h => if h ∈ s then s else s ++ [h]) s

/-- `if not data_valid or "convex_hull" not in data: …; return data["convex_hull"]`
(bound_mu.py:191-203, exponent_pair.py:144-154). Returns the new state and the value. -/
def query (E : Engine H V) (w : World H V) (k : Kind) (i : ℕ) (s : SetObj H) : World H V × Py V :=
  match s.valid, (w.dicts[s.dict]?).join with
  | true, some v => (w, .ok v)
  | _, _ =>
    match E.fresh k s.hyps with
    | .error e => (w, .error e)
    | .ok v => (⟨w.sets.set i { s with valid := s.valid || E.marks k s.hyps }, w.dicts.set s.dict (some v)⟩, .ok v)

/-- One operation (an operation on a set that does not exist does nothing). -/
def step (E : Engine H V) (w : World H V) : Op H → World H V
  | .new hs => ⟨w.sets ++ [⟨union [] hs, w.dicts.length, false⟩], w.dicts ++ [none]⟩
  | .add i hs =>
    match w.sets[i]? with
    | none => w
    | some s => { w with sets := w.sets.set i ⟨union s.hyps hs, s.dict, false⟩ }
  | .copy i =>
    match w.sets[i]? with
    | none => w
    | some s => { w with sets := w.sets ++ [⟨union [] s.hyps, s.dict, s.valid⟩] }
  | .query k i =>
    match w.sets[i]? with
    | none => w
    | some s => (query E w k i s).1

/-- The state after a history. -/
def run (E : Engine H V) : List (Op H) → World H V := fun ops => ops.foldl (step E) ⟨[], []⟩

/-- The value returned by a query of set `i` after a history. -/
def answer (E : Engine H V) (ops : List (Op H)) (k : Kind) (i : ℕ) : Option (Py V) :=
  ((run E ops).sets[i]?).map (fun s => (query E (run E ops) k i s).2)

end Cache
end Expdb
