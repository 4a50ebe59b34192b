import Verif.Model.DerivedPairs
import Verif.Props.BetaPairsOrder
import Verif.Props.Prune

/-!
# Property C89: finding exponent pairs from bounds on beta

The general part: which pairs `prove_exponent_pair_with_hypotheses` finds.
-/

namespace Expdb
namespace DerivedPairs

open EP BetaPairs Hull Affine Expdb.Interval

/-- Every listing is a permutation of the members of the set. -/
structure Orders.Ok (o : Orders) : Prop where
  bounds : ∀ n l, (o.bounds n l).Perm l
  pairs : ∀ n l, (o.pairs n l).Perm l
  trs : ∀ l, (o.trs l).Perm l

/-- The values at `x` of the bounds on beta and of the bounds `k + (l - k) x` of exponent pairs. -/
def Bound (bs : List (Affine (Option ℕ))) (ps : List Ep) (x v : ℚ) : Prop :=
  HasValue bs x v ∨ ∃ e ∈ ps, v = e.k + (e.l - e.k) * x

theorem mem_addPairs (old new : List Ep) (e : Ep) : e ∈ addPairs old new ↔ e ∈ old ∨ e ∈ new := by
  unfold addPairs
  induction new generalizing old with
  | nil => simp
  | cons a new ih =>
    simp only [List.foldl_cons, List.mem_cons]
    rw [ih]
    by_cases ha : a ∈ old
    · rw [if_pos ha]
      constructor
      · rintro (h | h)
        · exact Or.inl h
        · exact Or.inr (Or.inr h)
      · rintro (h | rfl | h)
        · exact Or.inl h
        · exact Or.inl ha
        · exact Or.inr h
    · rw [if_neg ha, List.mem_append, List.mem_singleton, or_assoc]

theorem toBeta_nil (ps : List Ep) : toBeta [] ps = .ok (ps.map (fun e => (pairBound e.k e.l, e))) := by
  induction ps with
  | nil => rfl
  | cons e ps ih =>
    simp only [toBeta, applyAllTr, ih, bind, Except.bind, pure, Except.pure, List.map_nil, List.nil_append, List.map_cons]

theorem newHyps_bound (n : ℕ) (bs : List (Affine (Option ℕ))) : (newHyps n bs).map Beta.Hyp.bound = bs := by
  unfold newHyps
  rw [List.map_map]
  induction bs generalizing n with
  | nil => rfl
  | cons b bs ih =>
    simp only [List.zipIdx_cons, List.map_cons, Function.comp, List.cons.injEq, true_and]
    exact ih (n + 1)

theorem hasValue_perm {bs cs : List (Affine (Option ℕ))} (h : bs.Perm cs) (x v : ℚ) : HasValue bs x v ↔ HasValue cs x v := by
  unfold HasValue
  constructor
  · rintro ⟨f, hf, r⟩; exact ⟨f, h.mem_iff.mp hf, r⟩
  · rintro ⟨f, hf, r⟩; exact ⟨f, h.mem_iff.mpr hf, r⟩

theorem hasValue_append' (ps qs : List (Affine (Option ℕ))) (x v : ℚ) :
    HasValue (ps ++ qs) x v ↔ HasValue ps x v ∨ HasValue qs x v := by
  unfold HasValue
  simp only [List.mem_append, or_and_right, exists_or]

theorem pairBound_value (e : Ep) (x v : ℚ) : HasValue [pairBound e.k e.l] x v ↔ (0 ≤ x ∧ x ≤ 1 / 2) ∧ v = e.k + (e.l - e.k) * x := by
  unfold HasValue
  simp only [List.mem_singleton, exists_eq_left, pairBound]
  have hm : Mem half.x0 half.x1 half.incL half.incU x ↔ 0 ≤ x ∧ x ≤ 1 / 2 := by
    rw [← inDomain_half]
    unfold InDomain
    constructor
    · rintro h D hD; cases hD; exact h
    · intro h; exact h half rfl
  rw [hm]
  constructor
  · rintro ⟨h, rfl⟩; exact ⟨h, by ring⟩
  · rintro ⟨h, rfl⟩; exact ⟨h, by ring⟩

theorem pairs_value (ps : List Ep) (x v : ℚ) : HasValue (ps.map (fun e => pairBound e.k e.l)) x v ↔
    (0 ≤ x ∧ x ≤ 1 / 2) ∧ ∃ e ∈ ps, v = e.k + (e.l - e.k) * x := by
  constructor
  · rintro ⟨f, hf, r⟩
    obtain ⟨e, he, rfl⟩ := List.mem_map.mp hf
    obtain ⟨h1, h2⟩ := (pairBound_value e x v).mp ⟨_, by simp, r⟩
    exact ⟨h1, e, he, h2⟩
  · rintro ⟨h1, e, he, h2⟩
    obtain ⟨f, hf, r⟩ := (pairBound_value e x v).mpr ⟨h1, h2⟩
    rw [List.mem_singleton] at hf
    subst hf
    exact ⟨_, List.mem_map.mpr ⟨e, he, rfl⟩, r⟩

/-- Of two different members of a list one is not the last. -/
theorem split_last {α : Type} (l : List α) (a b : α) (hab : a ≠ b) (ha : a ∈ l) (hb : b ∈ l) :
    ∃ init last, l = init ++ [last] ∧ (a ∈ init ∨ b ∈ init) := by
  rcases List.eq_nil_or_concat' l with rfl | ⟨init, last, rfl⟩
  · simp at ha
  · refine ⟨init, last, rfl, ?_⟩
    rcases List.mem_append.mp ha with h | h
    · exact Or.inl h
    · rcases List.mem_append.mp hb with h' | h'
      · exact Or.inr h'
      · rw [List.mem_singleton] at h h'
        exact absurd (h.trans h'.symm) hab

/-- **C89** (which pairs are found) Let the set contain two different exponent pairs, let no bound or exponent pair of it
be negative, and let `r` be the pairs computed by the transforms. If the line `k + (l - k) α` is above the minimum of all
bounds (those of the set, and those of the pairs of the set and of `r`) on [0, 1/2], and not above any of them at two
points `a < b`, then `prove_exponent_pair_with_hypotheses` finds the pair `(k, l)`, whatever the orders in which the
hypotheses are listed. -/
theorem C89_found (hull : List (ℚ × ℚ) → Py (List ℕ)) (hs : HullSpec hull) (o : Orders) (ho : o.Ok) (s : HSet) (r : List Ep)
    (hr : computeExpPairs hull (o.pairs 0 s.pairs) (o.trs s.trs) 1 true = .ok r)
    (hb : ∀ h ∈ s.bounds, h.bound.dom.Constructible)
    (hnn : ∀ x v, 0 ≤ x → x ≤ 1 / 2 → Bound (s.bounds.map Beta.Hyp.bound) (s.pairs ++ r) x v → 0 ≤ v)
    (e f : Ep) (he : e ∈ s.pairs) (hf : f ∈ s.pairs) (hef : e.key ≠ f.key)
    (k l a b : ℚ) (ha : 0 ≤ a) (hab : a < b) (hb1 : b ≤ 1 / 2)
    (hup : ∀ x, 0 ≤ x → x ≤ 1 / 2 → ∃ v, Bound (s.bounds.map Beta.Hyp.bound) (s.pairs ++ r) x v ∧ v ≤ k + (l - k) * x)
    (hta : ∀ v, Bound (s.bounds.map Beta.Hyp.bound) (s.pairs ++ r) a v → k + (l - k) * a ≤ v)
    (htb : ∀ v, Bound (s.bounds.map Beta.Hyp.bound) (s.pairs ++ r) b v → k + (l - k) * b ≤ v)
    (hpos : 0 < k + (l - k) * a) :
    ∃ p, proveWith hull o s k l = .ok (some p) ∧ p.key = (k, l) := by
  have hps : ∀ p, p ∈ addPairs s.pairs r ↔ p ∈ s.pairs ++ r := fun p => by rw [mem_addPairs, List.mem_append]
  -- the bounds before and after adding the best ones
  set qs := (o.pairs 1 (addPairs s.pairs r)).map (fun e => pairBound e.k e.l) with hqs
  set b1 := s.bounds ++ newHyps s.bounds.length qs with hb1d
  have hv1 : ∀ x v, 0 ≤ x → x ≤ 1 / 2 → (HasValue (b1.map Beta.Hyp.bound) x v ↔
      Bound (s.bounds.map Beta.Hyp.bound) (s.pairs ++ r) x v) := by
    intro x v h0 h1
    rw [hb1d, List.map_append, newHyps_bound, hasValue_append', hqs, pairs_value]
    unfold Bound
    constructor
    · rintro (h | ⟨_, p, hp, h⟩)
      · exact Or.inl h
      · exact Or.inr ⟨p, (hps p).mp ((ho.pairs 1 _).mem_iff.mp hp), h⟩
    · rintro (h | ⟨p, hp, h⟩)
      · exact Or.inl h
      · exact Or.inr ⟨⟨h0, h1⟩, p, (ho.pairs 1 _).mem_iff.mpr ((hps p).mpr hp), h⟩
  have hc1 : ∀ h ∈ b1, h.bound.dom.Constructible := by
    intro h hh
    rcases List.mem_append.mp hh with hh | hh
    · exact hb h hh
    · have : h.bound ∈ qs := by
        rw [← newHyps_bound s.bounds.length qs]; exact List.mem_map.mpr ⟨h, hh, rfl⟩
      obtain ⟨p, _, hp⟩ := List.mem_map.mp this
      rw [← hp]
      exact (constructible_iff _).mpr (by simp only [pairBound, half]; norm_num)
  -- the hypotheses of two pairs
  have hex : ∀ p ∈ s.pairs, ∃ h ∈ b1, h.bound = pairBound p.k p.l := by
    intro p hp
    have : pairBound p.k p.l ∈ qs := List.mem_map.mpr ⟨p, (ho.pairs 1 _).mem_iff.mpr ((hps p).mpr (List.mem_append_left _ hp)), rfl⟩
    rw [← newHyps_bound s.bounds.length qs] at this
    obtain ⟨h, hh, e⟩ := List.mem_map.mp this
    exact ⟨h, List.mem_append_right _ hh, e⟩
  obtain ⟨he', hem, heb⟩ := hex e he
  obtain ⟨hf', hfm, hfb⟩ := hex f hf
  have hne : he' ≠ hf' := by
    rintro rfl
    rw [heb] at hfb
    simp only [pairBound, Affine.mk.injEq] at hfb
    exact hef (Prod.ext hfb.2.1 (by simp only [Ep.key]; linarith [hfb.1, hfb.2.1]))
  have hcov : ∀ (l : List Beta.Hyp), he' ∈ l → hf' ∈ l → ∃ init last, l = init ++ [last] ∧
      ∀ x, 0 ≤ x → x ≤ 1 / 2 → ∃ v, HasValue (init.map Beta.Hyp.bound) x v := by
    intro l h1 h2
    obtain ⟨init, last, e1, e2⟩ := split_last l he' hf' hne h1 h2
    refine ⟨init, last, e1, fun x x0 x1 => ?_⟩
    rcases e2 with h | h
    · obtain ⟨g, hg, q⟩ := (pairBound_value e x _).mpr ⟨⟨x0, x1⟩, rfl⟩
      rw [List.mem_singleton] at hg
      exact ⟨_, g, List.mem_map.mpr ⟨he', h, by rw [heb, hg]⟩, q⟩
    · obtain ⟨g, hg, q⟩ := (pairBound_value f x _).mpr ⟨⟨x0, x1⟩, rfl⟩
      rw [List.mem_singleton] at hg
      exact ⟨_, g, List.mem_map.mpr ⟨hf', h, by rw [hfb, hg]⟩, q⟩
  -- the best bounds
  have hp1 := ho.bounds 0 b1
  obtain ⟨init1, last1, e1, cov1⟩ := hcov _ (hp1.mem_iff.mpr hem) (hp1.mem_iff.mpr hfm)
  obtain ⟨best, k1, _, _, k4⟩ := Beta.C51_any_order_partial init1 last1 half ⟨0, (inDomain_half 0).mpr (by norm_num)⟩
    ((constructible_iff _).mpr (by simp only [half]; norm_num))
    (fun h hh => hc1 h (hp1.mem_iff.mp (by rw [e1]; exact hh)))
    (fun x hx => cov1 x ((inDomain_half x).mp hx).1 ((inDomain_half x).mp hx).2)
  rw [← e1] at k1 k4
  set b2 := b1 ++ newHyps b1.length (newBounds best) with hb2d
  have hnew : ∀ g ∈ newBounds best, ∃ c ∈ best, c.bound = g := by
    intro g hg
    obtain ⟨c, hc, h⟩ := List.mem_filterMap.mp hg
    refine ⟨c, hc, ?_⟩
    cases c with
    | existing _ => cases h
    | derived f' _ => simpa [Beta.Best.bound] using h
  have hc2 : ∀ h ∈ b2, h.bound.dom.Constructible := by
    intro h hh
    rcases List.mem_append.mp hh with hh | hh
    · exact hc1 h hh
    · have : h.bound ∈ newBounds best := by
        rw [← newHyps_bound b1.length (newBounds best)]; exact List.mem_map.mpr ⟨h, hh, rfl⟩
      obtain ⟨c, hc, hcb⟩ := hnew _ this
      rw [← hcb]
      exact (k4 c hc).1
  have hp2 := ho.bounds 1 b2
  have hv2 : ∀ x v, 0 ≤ x → x ≤ 1 / 2 → (HasValue ((o.bounds 1 b2).map Beta.Hyp.bound) x v ↔
      Bound (s.bounds.map Beta.Hyp.bound) (s.pairs ++ r) x v) := by
    intro x v h0 h1
    rw [hasValue_perm (hp2.map _), hb2d, List.map_append, newHyps_bound, hasValue_append', hv1 x v h0 h1]
    constructor
    · rintro (h | ⟨g, hg, q⟩)
      · exact h
      · obtain ⟨c, hc, hcb⟩ := hnew g hg
        obtain ⟨_, _, hsrc, hval⟩ := k4 c hc
        obtain ⟨g', hg', q'⟩ := hval x v ⟨g, by rw [hcb]; simp, q⟩
        rw [List.mem_singleton] at hg'
        exact (hv1 x v h0 h1).mp ⟨g', by rw [hg']; exact List.mem_map.mpr ⟨_, hp1.mem_iff.mp hsrc, rfl⟩, q'⟩
    · exact Or.inl
  obtain ⟨init2, last2, e2, cov2⟩ := hcov (o.bounds 1 b2) (hp2.mem_iff.mpr (List.mem_append_left _ hem))
    (hp2.mem_iff.mpr (List.mem_append_left _ hfm))
  rw [e2] at hv2
  have touch : ∀ c, 0 ≤ c → c ≤ 1 / 2 → (∀ v, Bound (s.bounds.map Beta.Hyp.bound) (s.pairs ++ r) c v → k + (l - k) * c ≤ v) →
      Least ((init2 ++ [last2]).map Beta.Hyp.bound) c (k + (l - k) * c) := by
    intro c c0 c1 hc
    obtain ⟨v, hv, hvl⟩ := hup c c0 c1
    have hv' : v = k + (l - k) * c := le_antisymm hvl (hc v hv)
    rw [hv'] at hv
    exact ⟨(hv2 c _ c0 c1).mpr hv, fun w hw => hc w ((hv2 c w c0 c1).mp hw)⟩
  have ta := touch a ha (by linarith) hta
  have tb := touch b (by linarith) hb1 htb
  obtain ⟨out, o1, p, o2, o3⟩ := C37_touched_partial hull hs init2 last2
    (fun h hh => hc2 h (hp2.mem_iff.mp (by rw [e2]; exact hh))) cov2
    (fun x v h0 h1 hv => hnn x v h0 h1 ((hv2 x v h0 h1).mp hv))
    ⟨a, _, ha, by linarith, ta, hpos⟩ (o.pairs 2 (addPairs s.pairs r)) (s.trs.any (fun t => t.id == trB.id))
    k l a b ha hab hb1 (by
      intro y v y0 y1 hv
      obtain ⟨w, hw, hwl⟩ := hup y y0 y1
      exact le_trans (hv.2 w ((hv2 y w y0 y1).mpr hw)) hwl) ta tb
  have hrun : proveWith hull o s k l = .ok (out.find? (fun h => h.key = (k, l))) := by
    unfold proveWith
    rw [hr]
    simp only [bind, Except.bind, toBeta_nil, List.map_map]
    rw [show ((fun p : Affine (Option ℕ) × Ep => p.1) ∘ fun e : Ep => (pairBound e.k e.l, e)) = fun e => pairBound e.k e.l from rfl,
      ← hqs, ← hb1d, k1]
    simp only
    rw [← hb2d, e2, o1]
    rfl
  cases hfd : out.find? (fun h => decide (h.key = (k, l))) with
  | none =>
    have := List.find?_eq_none.mp hfd p o2
    simp [o3] at this
  | some q =>
    refine ⟨q, by rw [hrun, hfd], ?_⟩
    simpa using List.find?_some hfd

end DerivedPairs
end Expdb
