import Verif.Props.BestProofWatt
import Verif.Props.DerivedPairsNew
import Verif.Model.ProveAll

/-!
# Property C113: `prove_all` (derived.py:1032-1035) proves everything it announces
-/

namespace Expdb
namespace ProveAll

open EP Hull BestProof BestProof.Watt DerivedPairs

/-- A loop whose calls all succeed returns the list of their results. -/
theorem mapM_forall {α β : Type} (f : α → Py β) (P : α → β → Prop) : ∀ l : List α, (∀ a ∈ l, ∃ b, f a = .ok b ∧ P a b) →
    ∃ r, l.mapM f = .ok r ∧ List.Forall₂ P l r
  | [], _ => ⟨[], rfl, .nil⟩
  | a :: l, h => by
    obtain ⟨b, h1, h2⟩ := h a (List.mem_cons_self ..)
    obtain ⟨r, h3, h4⟩ := mapM_forall f P l (fun x hx => h x (List.mem_cons_of_mem _ hx))
    refine ⟨b :: r, ?_, .cons h2 h4⟩
    rw [List.mapM_cons, h1, h3]
    rfl

/-- The seven pairs that `prove_exponent_pairs` asks the best proof of (derived.py:208-214). -/
def asked : List (ℚ × ℚ) :=
  [(1 / 6, 2 / 3), (13 / 31, 16 / 31), (4 / 11, 6 / 11), (2 / 7, 4 / 7), (5 / 24, 5 / 8), (2 / 9, 11 / 18), (3 / 40, 31 / 40)]

/-- What is wanted of the proof of a pair: the last one rests on the trivial pair, two pairs of 1988 and 1989, A and B, all others on the trivial pair, A
and B. -/
def Wanted (q : ℚ × ℚ) (r : Proof) : Prop := if q = (3 / 40, 31 / 40) then Rests base89 q.1 q.2 r else Classical q.1 q.2 r

/-- **C113.** `prove_all` raises no exception; its first four calls find the four pairs of the theorem on new exponent pairs, and the seven calls after them
find a proof of the pair asked for. -/
theorem C113_all : ∃ nodes, Lookup.literature = .ok nodes ∧
    ∀ (hull : List (ℚ × ℚ) → Py (List ℕ)) (inHull : List (ℚ × ℚ) → ℚ × ℚ → Bool) (cx : Ep → ℕ) (betaPairs : List Item → Py (List Ep))
      (o : ℚ × ℚ → Orders) (K M : ℕ) (pop : ℕ → HSet → Py HSet) (order : ℕ → List Dated), HullSpec hull → InHullSpec inHull → BetaSpec nodes betaPairs →
      (∀ p, (o p).Ok) → 6 ≤ K → 7 ≤ M → (∀ i, (order i).Perm (hypotheses nodes)) →
        ∃ (new : List BetaPairs.Out) (best : List Proof), proveAll hull inHull cx betaPairs o K M pop order = .ok (new.map some, best) ∧ new.map BetaPairs.Out.key = newPairs ∧
          List.Forall₂ Wanted asked best := by
  obtain ⟨nodes, hl, h7⟩ := C107_classical
  obtain ⟨nodes', hl', h10⟩ := C110_watt
  obtain rfl : nodes = nodes' := Except.ok.inj (hl.symm.trans hl')
  refine ⟨nodes, hl, fun hull inHull cx betaPairs o K M pop order hh hin hb ho hK hM hp => ?_⟩
  have hnb : NoBeta nodes betaPairs := by
    intro hs h
    have : betasOf nodes hs = [] := by
      unfold betasOf
      rw [List.filterMap_eq_nil_iff]
      intro x hx
      cases x with
      | other i =>
        cases hn : nodes[i]? with
        | none => simp only [hn]
        | some n => simp only [hn]; rw [if_neg (h i n hx hn)]
      | _ => rfl
    exact hb hs [] (by rw [this]; rfl) (.inl rfl)
  obtain ⟨a, b, c, d, h4, hkeys⟩ := C89_all_four hull hh o ho K M hK hM pop
  have hbest : ∀ q ∈ (calls ++ [lastCall]).zipIdx, ∃ r, bestProof hull inHull cx betaPairs (order q.2) q.1.1 q.1.2 = .ok r ∧ Wanted q.1 r := by
    intro q hq
    have hm := List.fst_mem_of_mem_zipIdx hq
    rcases List.mem_append.mp hm with hm | hm
    · obtain ⟨r, h1, h2⟩ := h7 hull inHull cx betaPairs hh hin hnb (order q.2) (hp _) q.1 hm
      refine ⟨r, h1, ?_⟩
      have hne : ∀ c ∈ calls, c ≠ ((3 : ℚ) / 40, (31 : ℚ) / 40) := by decide +kernel
      unfold Wanted
      rw [if_neg (hne _ hm)]
      exact h2
    · obtain ⟨r, h1, h2, _⟩ := h10 hull inHull cx betaPairs hh hin hb (order q.2) (hp _)
      rw [List.mem_singleton.mp hm]
      refine ⟨r, h1, ?_⟩
      unfold Wanted
      rw [if_pos (show lastCall = (3 / 40, 31 / 40) from rfl)]
      exact h2
  obtain ⟨best, h5, h6⟩ := mapM_forall _ _ _ hbest
  refine ⟨[a, b, c, d], best, ?_, hkeys, ?_⟩
  · unfold proveAll bestProofs
    rw [h4]
    simp only [bind, Except.bind, pure, Except.pure]
    rw [h5]
    rfl
  · have e : ((calls ++ [lastCall]).zipIdx).map Prod.fst = asked := by decide +kernel
    rw [← e, List.forall₂_map_left_iff]
    exact h6

/-- C113 applies with the constants of the code (constants.py:5-9), with the model of the conversion of bounds on beta, and with orders that change from call
to call. -/
example : ∃ nodes hull inHull betaPairs new best, Lookup.literature = .ok nodes ∧ HullSpec hull ∧ InHullSpec inHull ∧
    proveAll hull inHull (fun _ => 1) betaPairs (fun _ => ⟨fun _ l => l, fun _ l => l.reverse, fun l => l.rotate 1⟩) 20 20 (fun _ s => .ok s)
      (fun i => (hypotheses nodes).rotate i) = .ok (new, best) ∧ best.length = 7 := by
  classical
  obtain ⟨nodes, h1, h2⟩ := C113_all
  obtain ⟨hull, hs⟩ := hullSpec_satisfiable
  have hin : InHullSpec (fun ps p => decide (InConv ps p)) := by intro ps p; simp
  obtain ⟨new, best, h3, _, h4⟩ := h2 hull _ (fun _ => 1) _ (fun _ => ⟨fun _ l => l, fun _ l => l.reverse, fun l => l.rotate 1⟩) 20 20 (fun _ s => .ok s)
    (fun i => (hypotheses nodes).rotate i) hs hin (betaSpec_model nodes hull (fun o => Ep.known 0 o.key.1 o.key.2) (fun _ => true))
    (fun _ => ⟨fun _ _ => List.Perm.refl _, fun _ l => l.reverse_perm, fun l => l.rotate_perm 1⟩) (by norm_num) (by norm_num)
    (fun i => List.rotate_perm _ i)
  exact ⟨nodes, hull, _, _, _, best, h1, hs, hin, h3, h4.length_eq.symm⟩

end ProveAll
end Expdb
