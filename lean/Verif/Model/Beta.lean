import Verif.Model.Affine

/-!
# Model of `compute_best_beta_bounds` (bound_beta.py lines 128–162)
-/

namespace Expdb
namespace Beta

open Affine

/-- A hypothesis of type "Upper bound on beta": its identity and `data.bound`
(bound_beta.py:16-21). Labels are python ints or `None`. -/
structure Hyp where
  id : ℕ
  bound : Affine (Option ℕ)
  deriving DecidableEq

/-- An element of the returned list: an existing hypothesis, or the object made by
`derived_bound_beta(b, …, {depend})` (bound_beta.py:54-64, 156-161). -/
inductive Best
  | existing (h : Hyp)
  | derived (b : Affine (Option ℕ)) (depend : Hyp)
  deriving DecidableEq

/-- The bound of a returned hypothesis. -/
def Best.bound : Best → Affine (Option ℕ)
  | .existing h => h.bound
  | .derived b _ => b

/-- The hypothesis a returned bound is attributed to. -/
def Best.source : Best → Hyp
  | .existing h => h
  | .derived _ h => h

/-- The working copies with their ids (bound_beta.py:139-143); `deep_copy` is functions.py:163-164. -/
def copies (bounds : List Hyp) : List (Affine (Option ℕ)) :=
  (bounds.zipIdx).map (fun e => { e.1.bound with label := some e.2 })

/-- The loop `best_bounds = bds[i].min_with(best_bounds, domain)` (bound_beta.py:146-148). The state
is the receiver of the last call and the list it returned; initially `[bds[0]]`. -/
def loop (domain : Interval) : Affine (Option ℕ) × List (Ref (Option ℕ)) → List (Affine (Option ℕ)) →
    Py (Affine (Option ℕ) × List (Ref (Option ℕ)))
  | st, [] => .ok st
  | st, b :: bs => do
    let st' ← compareRefs (fun x y => decide (x < y)) b (st.2.map (Ref.deref st.1)) (some domain)
    loop domain st' bs

/-- The loop that forms the result (bound_beta.py:151-161). `b.label = None` changes the object, so
when the object `self` occurs again its label is `None` and `bounds[None]` raises `TypeError`. -/
def finish (bounds : List Hyp) (self : Affine (Option ℕ)) : Bool → List (Ref (Option ℕ)) → Py (List Best)
  | _, [] => .ok []
  | cleared, r :: rest => do
    let b := r.deref self
    let isSelf := match r with | .self => true | .new _ => false
    if isSelf && cleared then .error .typeError
    else
      match b.label with
      | none => .error .typeError
      | some i =>
        match bounds[i]? with
        | none => .error .indexError
        | some depend =>
          let b' := { b with label := none }
          let o := if b'.pyEq depend.bound then Best.existing depend else Best.derived b' depend
          let os ← finish bounds self (cleared || isSelf) rest
          return o :: os

/-- `compute_best_beta_bounds(hypothesis_set, domain)` (bound_beta.py:128-162), given the list of
beta bounds of the hypothesis set and the domain (the default is `Interval(0, 1/2)`). -/
def computeBest (bounds : List Hyp) (domain : Interval) : Py (List Best) :=
  match copies bounds with
  | [] => .ok []
  | [_] => .ok (bounds.map Best.existing)
  | b :: bs => do
    let st ← loop domain (b, [Ref.self]) bs
    finish bounds st.1 false st.2

end Beta
end Expdb
