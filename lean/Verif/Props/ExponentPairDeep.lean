import Verif.Props.ExponentPairProof

/-!
# Property C33: when the deep search of `construct_proof` raises an exception
-/

namespace Expdb
namespace EP

open Hull

/-- **C33** (deep search; partial: the full statement is that a proof is found for every pair in the convex hull of the set, see
`C33_clockwise_counterexample`) If the set lists three pairs counterclockwise whose triangle contains the pair, a proof is found. -/
theorem C33_deep_total_partial (hull : List (ℚ × ℚ) → Py (List ℕ)) (hs : HullSpec hull) (inHull : List (ℚ × ℚ) → ℚ × ℚ → Bool)
    (hin : InHullSpec inHull) (cx : Ep → ℕ) (ephs : List Ep) (k l : ℚ) (a b c : Ep) (hsub : [a, b, c].Sublist ephs)
    (harea : 0 < area (a.k, a.l) (b.k, b.l) (c.k, c.l)) (htri : InTri (a.k, a.l) (b.k, b.l) (c.k, c.l) (k, l)) :
    ∃ r, constructProof hull inHull cx ephs k l true true = .ok r ∧ r ≠ .none := by
  have ha : a ∈ ephs := hsub.subset (by simp)
  have hb : b ∈ ephs := hsub.subset (by simp)
  have hc : c ∈ ephs := hsub.subset (by simp)
  have hlen : 3 ≤ ephs.length := hsub.length_le
  have hflat : ¬ Flat (ephs.map Ep.key) := by
    intro hf
    have : area (a.k, a.l) (b.k, b.l) (c.k, c.l) = 0 := hf _ (List.mem_map_of_mem ha) _ (List.mem_map_of_mem hb) _ (List.mem_map_of_mem hc)
    linarith
  have hcon : InConv (ephs.map Ep.key) (k, l) := by
    refine (InTri.inConv _ _ _ _ htri).mono ?_
    intro p hp
    simp only [List.mem_cons, List.not_mem_nil, or_false] at hp
    rcases hp with rfl | rfl | rfl
    · exact List.mem_map.mpr ⟨a, ha, rfl⟩
    · exact List.mem_map.mpr ⟨b, hb, rfl⟩
    · exact List.mem_map.mpr ⟨c, hc, rfl⟩
  unfold constructProof
  rw [if_neg (List.ne_nil_of_mem ha)]
  cases hf : ephs.find? (fun h => h.key = (k, l)) with
  | some e => exact ⟨_, rfl, by simp⟩
  | none =>
    obtain ⟨idx, vs, h1, h2, h3, h4⟩ := hs.ok _ hflat
    obtain ⟨es, h5, h6⟩ := pick_map Ep.key ephs idx vs h2
    have hv : convexHull hull ephs = .ok es := by
      unfold convexHull
      rw [if_neg (by omega), h1]; exact h5
    have hi : inHull (es.map Ep.key) (k, l) = true := by
      rw [hin, h6]; exact hcon.trans h4
    rw [hv]
    simp only [bind, Except.bind, hi, Bool.true_eq_false, if_false, if_true]
    cases hx : searchTri cx (k, l) (triples ephs) none with
    | some t => exact ⟨_, rfl, by simp⟩
    | none =>
      have := ((searchTri_spec cx (k, l) (triples ephs) none).2.mp hx).2 (a, b, c) ((triples_iff _ a b c).mpr hsub)
      have h : inTriangle a.key b.key c.key (k, l) = true := (C32_in_triangle_partial _ _ _ _ harea).mpr htri
      exact absurd (h.symm.trans this) (by decide)

/-- The pairs of the examples, listed counterclockwise. -/
def ccwSet : List Ep := [.known 0 0 1, .known 1 (1 / 6) (2 / 3), .known 2 (1 / 2) (1 / 2)]

/-- Non-vacuity: the same three pairs in a good order. -/
example (hull : List (ℚ × ℚ) → Py (List ℕ)) (hs : HullSpec hull) (inHull : List (ℚ × ℚ) → ℚ × ℚ → Bool) (hin : InHullSpec inHull) (cx : Ep → ℕ) :
    ∃ r, constructProof hull inHull cx ccwSet (2 / 9) (13 / 18) true true = .ok r ∧ r ≠ .none :=
  C33_deep_total_partial hull hs inHull hin cx ccwSet _ _ (.known 0 0 1) (.known 1 (1 / 6) (2 / 3)) (.known 2 (1 / 2) (1 / 2))
    (List.Sublist.refl _) (by decide +kernel) ((C32_in_triangle_partial _ _ _ _ (by decide +kernel)).mp (by decide +kernel))

/-- The pair `(1/2, 1/2) = B(0, 1)`. -/
def half : Ep := .derived 1 (1 / 2) (1 / 2) trivialPair

/-- The pair `(1/6, 2/3) = A B(0, 1)`. -/
def sixth : Ep := .derived 0 (1 / 6) (2 / 3) half

/-- Finding: in a deep search (exponent_pair.py:333-347) `best_tri` stays `None` if the set lists the pairs clockwise, because `in_triangle` never accepts a
clockwise triangle, and the loop over `best_tri` raises `TypeError`. So `find_best_proof` with the method COMPLEXITY, given the trivial pair, A and B, fails for
`(2/9, 13/18)`, which is in the triangle of `(0, 1)`, `B(0, 1)` and `A B(0, 1)`; the order is that of a python set, so the failure comes and goes from run to run. -/
theorem C33_clockwise_counterexample (hull : List (ℚ × ℚ) → Py (List ℕ)) (hs : HullSpec hull) (inHull : List (ℚ × ℚ) → ℚ × ℚ → Bool)
    (hin : InHullSpec inHull) (cx : Ep → ℕ) (betaPairs : List Item → Py (List Ep)) :
    findBestProofComplexity hull inHull cx betaPairs (2 / 9) (13 / 18) [.pair trivialPair, .transform trA, .transform trB] = .error .typeError ∧
    InTri (trivialPair.k, trivialPair.l) (half.k, half.l) (sixth.k, sixth.l) (2 / 9, 13 / 18) ∧
    Derivable [trivialPair] [trA, trB] half ∧ Derivable [trivialPair] [trA, trB] sixth := by
  have dh : Derivable [trivialPair] [trA, trB] half := .step trB (by simp) _ (.input _ (by simp)) _ _ (by decide +kernel)
  refine ⟨?_, ⟨1 / 3, 1 / 3, 1 / 3, by norm_num, by norm_num, by norm_num, by norm_num, by decide +kernel, by decide +kernel⟩, dh,
    .step trA (by simp) _ dh _ _ (by decide +kernel)⟩
  have c1 : computeExpPairs hull [trivialPair] [trA, trB] 1 false = .ok [trivialPair, half] := by
    have h : applyTransforms [trA, trB] [trivialPair] = .ok [trivialPair, half] := by decide +kernel
    unfold computeExpPairs iterateN iterateN iterate
    rw [show dictOf [trivialPair] = [trivialPair] from rfl, h]; rfl
  have c2 : computeExpPairs hull [trivialPair, half] [trA, trB] 1 false = .ok [trivialPair, half, sixth] := by
    have h : applyTransforms [trA, trB] [trivialPair, half] = .ok [trivialPair, half, sixth] := by decide +kernel
    unfold computeExpPairs iterateN iterateN iterate
    rw [show dictOf [trivialPair, half] = [trivialPair, half] by decide +kernel, h]; rfl
  have a1 : addPairs [trivialPair] [trivialPair, half] = [trivialPair, half] := by decide +kernel
  have a2 : addPairs [trivialPair, half] [trivialPair, half, sixth] = [trivialPair, half, sixth] := by decide +kernel
  have p1 : constructProof hull inHull cx [trivialPair, half] (2 / 9) (13 / 18) true true = .ok .none := by
    have hi : inHull [((0 : ℚ), (1 : ℚ)), (1 / 2, 1 / 2)] (2 / 9, 13 / 18) = false := by
      rw [Bool.eq_false_iff]
      intro h
      rw [hin] at h
      have : ∀ q, InConv [((0 : ℚ), (1 : ℚ)), (1 / 2, 1 / 2)] q → q.1 + q.2 = 1 := by
        intro q hq
        induction hq with
        | point p hp =>
          simp only [List.mem_cons, List.not_mem_nil, or_false] at hp
          rcases hp with rfl | rfl <;> norm_num
        | mix p q t _ _ _ _ ih1 ih2 =>
          simp only
          linear_combination (1 - t) * ih1 + t * ih2
      have := this _ h
      norm_num at this
    unfold constructProof
    rw [if_neg (by simp)]
    rw [show [trivialPair, half].find? (fun h => h.key = (2 / 9, 13 / 18)) = none by decide +kernel,
      show convexHull hull [trivialPair, half] = .ok [trivialPair, half] from rfl]
    simp only [bind, Except.bind]
    rw [if_pos (show inHull ([trivialPair, half].map Ep.key) (2 / 9, 13 / 18) = false from hi)]
    rfl
  have p2 : constructProof hull inHull cx [trivialPair, half, sixth] (2 / 9) (13 / 18) true true = .error .typeError := by
    have hflat : ¬ Flat ([trivialPair, half, sixth].map Ep.key) := by
      intro hf
      have := hf (0, 1) (by decide +kernel) (1 / 2, 1 / 2) (by decide +kernel) (1 / 6, 2 / 3) (by decide +kernel)
      revert this; decide +kernel
    obtain ⟨idx, vs, h1, h2, h3, h4⟩ := hs.ok _ hflat
    obtain ⟨es, h5, h6⟩ := pick_map Ep.key [trivialPair, half, sixth] idx vs h2
    have hv : convexHull hull [trivialPair, half, sixth] = .ok es := by
      unfold convexHull
      rw [if_neg (by decide), h1]; exact h5
    have hi : inHull (es.map Ep.key) (2 / 9, 13 / 18) = true := by
      rw [hin, h6]
      refine InConv.trans (InTri.inConv (0, 1) (1 / 6, 2 / 3) (1 / 2, 1 / 2) _ ?_) (fun p hp => h4 p ?_)
      · exact (C32_in_triangle_partial _ _ _ _ (by decide +kernel)).mp (by decide +kernel)
      · revert hp p; decide +kernel
    unfold constructProof
    rw [if_neg (by simp), show [trivialPair, half, sixth].find? (fun h => h.key = (2 / 9, 13 / 18)) = none by decide +kernel, hv]
    simp only [bind, Except.bind, hi, Bool.true_eq_false, if_false, if_true]
    have hx : searchTri cx (2 / 9, 13 / 18) (triples [trivialPair, half, sixth]) none = none :=
      ((searchTri_spec cx _ _ none).2).mpr ⟨rfl, by decide +kernel⟩
    rw [hx]
  have e1 : pairsIn [.pair trivialPair, .transform trA, .transform trB] = [trivialPair] := rfl
  have e2 : transformsIn [.pair trivialPair, .transform trA, .transform trB] = [trA, trB] := rfl
  unfold findBestProofComplexity
  rw [e1, e2]
  simp only [complexityLoop, c1, a1, p1, c2, a2, p2, bind, Except.bind, if_true]

end EP
end Expdb
