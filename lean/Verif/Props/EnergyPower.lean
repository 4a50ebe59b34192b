import Verif.Props.LiteratureEnergy

/-!
# Property C116: which large value energy regions may be raised to a power

`get_raise_to_power_hypothesis` (additive_energy.py:167-187) raises any region to a power. The lemma behind it (additive_energy.tex:260-268) needs a region with
a monotonicity property.
-/

namespace Expdb
namespace Literature

open LargeValues

variable {L : Type}

/-! ### Specification -/

/-- The conclusion of the monotonicity criterion (additive_energy.tex:247-255), for a region. -/
def Mono (r : Region L) : Prop :=
  ∀ σ τ ρ ρs s, (∃ ρs' s', ρs' ≤ ρs ∧ s' ≤ s ∧ r.Contains [σ, τ, ρ, ρs', s']) → (∃ ρ' s', ρ' ≤ ρ ∧ s' ≤ s ∧ r.Contains [σ, τ, ρ', ρs, s']) →
    (∃ ρ' ρs', ρ' ≤ ρ ∧ ρs' ≤ ρs ∧ r.Contains [σ, τ, ρ', ρs', s]) → r.Contains [σ, τ, ρ, ρs, s]

/-- Raising to a power (additive_energy.tex:235): what is known of the set of tuples of all large value patterns. -/
def PowerLemma (G : ℚ → ℚ → ℚ → ℚ → ℚ → Prop) : Prop :=
  ∀ k : ℕ, 1 ≤ k → ∀ σ τ ρ ρs s, G σ τ ρ ρs s →
    (∃ ρs' s', ρs' ≤ ρs / k ∧ s' ≤ s / k ∧ G σ (τ / k) (ρ / k) ρs' s') ∧ (∃ ρ' s', ρ' ≤ ρ / k ∧ s' ≤ s / k ∧ G σ (τ / k) ρ' (ρs / k) s') ∧
      ∃ ρ' ρs', ρ' ≤ ρ / k ∧ ρs' ≤ ρs / k ∧ G σ (τ / k) ρ' ρs' (s / k)

/-! ### Raising to a power -/

/-- **C116** (the transform) A region with the monotonicity property that contains the tuples of all patterns still does so after it has been raised to a
power by the code. -/
theorem C116_raise {G : ℚ → ℚ → ℚ → ℚ → ℚ → Prop} (hG : PowerLemma G) (r : Region L) (hr : Shaped 5 r) (hm : Mono r)
    (h : ∀ σ τ ρ ρs s, G σ τ ρ ρs s → r.Contains [σ, τ, ρ, ρs, s]) (k : ℕ) (hk : 1 ≤ k) :
    ∃ r', raiseToPowerEnergy (k : ℚ) r = .ok r' ∧ ∀ σ τ ρ ρs s, G σ τ ρ ρs s → r'.Contains [σ, τ, ρ, ρs, s] := by
  obtain ⟨r', h1, h2⟩ := C39_raiseToPowerEnergy r hr k (by positivity)
  refine ⟨r', h1, fun σ τ ρ ρs s hx => (h2 σ τ ρ ρs s).mpr ?_⟩
  obtain ⟨⟨a, b, a1, a2, a3⟩, ⟨c, d, c1, c2, c3⟩, ⟨e, f, e1, e2, e3⟩⟩ := hG k hk σ τ ρ ρs s hx
  exact hm _ _ _ _ _ ⟨a, b, a1, a2, h _ _ _ _ _ a3⟩ ⟨c, d, c1, c2, h _ _ _ _ _ c3⟩ ⟨e, f, e1, e2, h _ _ _ _ _ e3⟩

/-- **C116** (all powers) If all regions of a set are monotone and contain the tuples of all patterns, then the loop of `compute_best_lver` and `expand_lver`
(additive_energy.py:189-201, 333-338) does not raise, makes one region for each region and power, and all of them contain the tuples of all patterns. -/
theorem C116_powers {G : ℚ → ℚ → ℚ → ℚ → ℚ → Prop} (hG : PowerLemma G) (lvers : List (Region L)) (hr : ∀ r ∈ lvers, Shaped 5 r ∧ Mono r)
    (h : ∀ r ∈ lvers, ∀ σ τ ρ ρs s, G σ τ ρ ρs s → r.Contains [σ, τ, ρ, ρs, s]) (ks : List ℕ) (hk : ∀ k ∈ ks, 1 ≤ k) :
    ∃ tl, applyTransforms lvers (ks.map fun k : ℕ => raiseToPowerEnergy (k : ℚ)) = .ok tl ∧ tl.length = ks.length * lvers.length ∧
      ∀ r ∈ tl, ∀ σ τ ρ ρs s, G σ τ ρ ρs s → r.Contains [σ, τ, ρ, ρs, s] := by
  induction ks with
  | nil => exact ⟨[], rfl, by simp, by simp⟩
  | cons k ks ih =>
    obtain ⟨b, hb, lb, cb⟩ := ih fun q hq => hk q (List.mem_cons_of_mem _ hq)
    have key : ∀ l : List (Region L), (∀ r ∈ l, r ∈ lvers) → ∃ a, applyAll (raiseToPowerEnergy (k : ℚ)) l = .ok a ∧ a.length = l.length ∧
        ∀ r ∈ a, ∀ σ τ ρ ρs s, G σ τ ρ ρs s → r.Contains [σ, τ, ρ, ρs, s] := by
      intro l hl
      induction l with
      | nil => exact ⟨[], rfl, rfl, by simp⟩
      | cons r l ihl =>
        obtain ⟨a, ha, la, ca⟩ := ihl fun q hq => hl q (List.mem_cons_of_mem _ hq)
        have hm := hl r List.mem_cons_self
        obtain ⟨r', h1, h2⟩ := C116_raise hG r (hr r hm).1 (hr r hm).2 (h r hm) k (hk k List.mem_cons_self)
        refine ⟨r' :: a, ?_, by simp [la], ?_⟩
        · simp only [applyAll, h1, ha, bind, Except.bind, pure, Except.pure]
        · intro q hq
          rcases List.mem_cons.mp hq with rfl | hq
          · exact h2
          · exact ca q hq
    obtain ⟨a, ha, la, ca⟩ := key lvers fun _ hq => hq
    refine ⟨a ++ b, ?_, ?_, ?_⟩
    · simp only [List.map_cons, applyTransforms, ha, hb, bind, Except.bind, pure, Except.pure]
    · simp only [List.length_append, la, lb, List.length_cons]
      ring
    · intro q hq
      rcases List.mem_append.mp hq with hq | hq
      · exact ca q hq
      · exact cb q hq

/-- **C116** (what is kept) Raising to a power and intersecting keep the monotonicity property, so their results may be raised to a power again. (A union of
regions need not have it.) -/
theorem C116_kept (r : Region L) (hr : Shaped 5 r) (hm : Mono r) (k : ℕ) (hk : 1 ≤ k) (rs : List (Region L)) (hrs : ∀ q ∈ rs, Shaped 5 q ∧ Mono q) :
    (∃ r', raiseToPowerEnergy (k : ℚ) r = .ok r' ∧ Mono r') ∧ Mono (Region.intersect rs) := by
  have hk0 : (0 : ℚ) < k := by exact_mod_cast hk
  constructor
  · obtain ⟨r', h1, h2⟩ := C39_raiseToPowerEnergy r hr k hk0.ne'
    refine ⟨r', h1, ?_⟩
    rintro σ τ ρ ρs s ⟨a, b, a1, a2, a3⟩ ⟨c, d, c1, c2, c3⟩ ⟨e, f, e1, e2, e3⟩
    rw [h2] at a3 c3 e3 ⊢
    have dv : ∀ {x y : ℚ}, x ≤ y → x / k ≤ y / k := fun h => div_le_div_of_nonneg_right h hk0.le
    exact hm _ _ _ _ _ ⟨_, _, dv a1, dv a2, a3⟩ ⟨_, _, dv c1, dv c2, c3⟩ ⟨_, _, dv e1, dv e2, e3⟩
  · have hc : ∀ σ τ ρ ρs s : ℚ, (Region.intersect rs).Contains [σ, τ, ρ, ρs, s] ↔ ∀ q ∈ rs, q.Contains [σ, τ, ρ, ρs, s] := by
      intro σ τ ρ ρs s
      have hq : ∀ q ∈ rs, q.AllMat (fun m => [σ, τ, ρ, ρs, s].length + 1 = m.cols) := fun q hq => Region.allMat_imp (fun m h => h.2.1) q (hrs q hq).1
      rw [Region.contains_iff_mem _ _ (by rw [Region.AllMat]; exact (Region.allMatList_iff _ _).mpr hq), Region.Mem, Region.memAll_iff]
      exact forall₂_congr fun q h => (Region.contains_iff_mem _ _ (hq q h)).symm
    rintro σ τ ρ ρs s ⟨a, b, a1, a2, a3⟩ ⟨c, d, c1, c2, c3⟩ ⟨e, f, e1, e2, e3⟩
    rw [hc] at a3 c3 e3 ⊢
    intro q hq
    exact (hrs q hq).2 _ _ _ _ _ ⟨a, b, a1, a2, a3 q hq⟩ ⟨c, d, c1, c2, c3 q hq⟩ ⟨e, f, e1, e2, e3 q hq⟩

/-- A region in the box is monotone if its relation bounds one of `ρ`, `ρ*`, `s` by a function that grows with the others. -/
theorem mono_of {r : Region L} {Q : ℚ → ℚ → ℚ → ℚ → ℚ → Prop}
    (hr : ∀ σ τ ρ ρs s, r.Contains [σ, τ, ρ, ρs, s] ↔ InEnergyBox σ τ ρ ρs s ∧ Q σ τ ρ ρs s)
    (hQ : (∀ σ τ ρ ρs s ρs' s', ρs' ≤ ρs → s' ≤ s → Q σ τ ρ ρs' s' → Q σ τ ρ ρs s) ∨
      (∀ σ τ ρ ρs s ρ' s', ρ' ≤ ρ → s' ≤ s → Q σ τ ρ' ρs s' → Q σ τ ρ ρs s) ∨
      ∀ σ τ ρ ρs s ρ' ρs', ρ' ≤ ρ → ρs' ≤ ρs → Q σ τ ρ' ρs' s → Q σ τ ρ ρs s) : Mono r := by
  rintro σ τ ρ ρs s ⟨a, b, a1, a2, a3⟩ ⟨c, d, c1, c2, c3⟩ ⟨e, f, e1, e2, e3⟩
  rw [hr] at a3 c3 e3 ⊢
  refine ⟨?_, ?_⟩
  · obtain ⟨⟨h1, _⟩, _⟩ := a3
    obtain ⟨⟨_, h2, h3, _⟩, _⟩ := c3
    obtain ⟨⟨_, _, _, h4⟩, _⟩ := e3
    exact ⟨h1, h2, h3, h4⟩
  · rcases hQ with h | h | h
    · exact h σ τ ρ ρs s a b a1 a2 a3.2
    · exact h σ τ ρ ρs s c d c1 c2 c3.2
    · exact h σ τ ρ ρs s e f e1 e2 e3.2

theorem half_max {a b c a' b' c' : ℚ} (h1 : a ≤ a') (h2 : b ≤ b') (h3 : c ≤ c') : max a (max b c) ≤ max a' (max b' c') :=
  max_le_max h1 (max_le_max h2 h3)

/-- **C116** (literature, partial: all regions but the first Guth–Maynard relation, see `C116_gm1_counterexample`) The large value energy regions of the literature
have the monotonicity property. -/
theorem C116_literature_partial (canon : Mat → Mat) (hc : Mat.CanonSpec canon) :
    (∃ r : Region L, lverHB1 canon = .ok r ∧ Mono r) ∧ (∃ r : Region L, lverIvic canon = .ok r ∧ Mono r) ∧
    (∃ r : Region L, lverHB2a canon = .ok r ∧ Mono r) ∧ (∃ r : Region L, lverHB2b canon = .ok r ∧ Mono r) ∧
    (∀ k, ∃ r : Region L, lverHB3 canon k = .ok r ∧ Mono r) ∧ (∃ r : Region L, lverGM2 canon = .ok r ∧ Mono r) ∧
    ∃ r : Region L, lverGM3 canon = .ok r ∧ Mono r := by
  refine ⟨?_, ?_, ?_, ?_, fun k => ?_, ?_, ?_⟩
  · obtain ⟨r, h1, h2⟩ := C73_hb1 (L := L) canon hc
    refine ⟨r, h1, mono_of (Q := fun _ τ ρ _ s => DoubleZeta τ ρ s) h2 (.inr (.inr ?_))⟩
    intro σ τ ρ ρs s ρ' ρs' h _ hQ
    exact hQ.trans (add_le_add_left (half_max (by linarith) (by linarith) (by linarith)) 1)
  · obtain ⟨r, h1, h2⟩ := C73_ivic (L := L) canon hc
    refine ⟨r, h1, mono_of (Q := fun _ τ ρ _ s => τ < 1 → s ≤ max (ρ + 1) (2 * ρ) + 1) h2 (.inr (.inr ?_))⟩
    intro σ τ ρ ρs s ρ' ρs' h _ hQ ht
    exact (hQ ht).trans (add_le_add_left (max_le_max (by linarith) (by linarith)) 1)
  · obtain ⟨r, h1, h2⟩ := C73_hb2a (L := L) canon hc
    refine ⟨r, h1, mono_of (Q := fun σ τ ρ ρs _ => HBRelation σ τ ρ ρs) h2 (.inr (.inl ?_))⟩
    intro σ τ ρ ρs s ρ' s' h _ hQ
    unfold HBRelation at hQ ⊢
    have a := half_max (a := ρ' + 1) (b := 2 * ρ') (c := 5 / 4 * ρ' + τ / 2) (a' := ρ + 1) (b' := 2 * ρ) (c' := 5 / 4 * ρ + τ / 2)
      (by linarith) (by linarith) (by linarith)
    have b := half_max (a := ρs + 1) (b := 4 * ρ') (c := 3 / 4 * ρs + ρ' + τ / 2) (a' := ρs + 1) (b' := 4 * ρ) (c' := 3 / 4 * ρs + ρ + τ / 2)
      le_rfl (by linarith) (by linarith)
    linarith
  · obtain ⟨r, h1, h2⟩ := C73_hb2b (L := L) canon hc
    refine ⟨r, h1, mono_of (Q := fun σ τ ρ ρs _ => τ < 3 / 2 → ρs ≤ max (3 * ρ + 1 - 2 * σ) (max (ρ + 4 - 4 * σ) (5 * ρ / 2 + (3 - 4 * σ) / 2))) h2
      (.inr (.inl ?_))⟩
    intro σ τ ρ ρs s ρ' s' h _ hQ ht
    exact (hQ ht).trans (half_max (by linarith) (by linarith) (by linarith))
  · obtain ⟨r, h1, h2⟩ := C73_hb3 (L := L) canon hc k
    refine ⟨r, h1, mono_of (Q := fun σ τ ρ ρs _ =>
      ρ ≤ max (2 - 2 * σ) (ρs / 4 + max (τ / 4 + k * (3 - 4 * σ) / 4) (k * τ / 4 + k * (1 - 2 * σ) / 2))) h2 (.inl ?_)⟩
    intro σ τ ρ ρs s ρs' s' h _ hQ
    exact hQ.trans (max_le_max le_rfl (by linarith))
  · obtain ⟨r, h1, h2⟩ := C73_gm2 (L := L) canon hc
    refine ⟨r, h1, mono_of (Q := fun σ τ ρ ρs _ => τ < 3 / 2 → ρs ≤ max (3 * ρ + 1 - 2 * σ) (2 * ρ + 2 - 2 * σ)) h2 (.inr (.inl ?_))⟩
    intro σ τ ρ ρs s ρ' s' h _ hQ ht
    exact (hQ ht).trans (max_le_max (by linarith) (by linarith))
  · obtain ⟨r, h1, h2⟩ := C73_gm3 (L := L) canon hc
    refine ⟨r, h1, mono_of (Q := fun σ τ ρ ρs _ => 1 < τ → τ < 4 / 3 →
      ρs ≤ max (ρ + 4 - 4 * σ) (max (21 * ρ / 8 + τ / 4 + 1 - 2 * σ) (3 * ρ + 1 - 2 * σ))) h2 (.inr (.inl ?_))⟩
    intro σ τ ρ ρs s ρ' s' h _ hQ ht ht'
    exact (hQ ht ht').trans (half_max (by linarith) (by linarith) (by linarith))

/-- **C116** (exponent pairs) The region that `ep_to_lver` makes of an exponent pair has the monotonicity property. -/
theorem C116_pair (canon : Mat → Mat) (hc : Mat.CanonSpec canon) (k l : ℚ) (hk : 0 ≤ k) (hl : 0 ≤ l) :
    ∃ r : Region L, epToLver canon k l = .ok r ∧ Mono r := by
  obtain ⟨r, h1, h2⟩ := C50_pair (L := L) canon hc k l (by positivity)
  refine ⟨r, h1, mono_of (Q := fun σ τ ρ ρs _ => PairBound k l σ τ ρ ρs) h2 (.inr (.inl ?_))⟩
  intro σ τ ρ ρs s ρ' s' h _ hQ
  unfold PairBound at hQ ⊢
  have hd : ((2 + 3 * k + 4 * l) * ρ' + (k + l) * τ) / (1 + 2 * k + 2 * l) ≤ ((2 + 3 * k + 4 * l) * ρ + (k + l) * τ) / (1 + 2 * k + 2 * l) := by
    have hp : 0 ≤ 2 + 3 * k + 4 * l := by positivity
    exact div_le_div_of_nonneg_right (by nlinarith) (by positivity)
  have a := half_max (a := ρ' + 1) (b := 5 / 3 * ρ' + τ / 3) (a' := ρ + 1) (b' := 5 / 3 * ρ + τ / 3) (by linarith) (by linarith) hd
  have b := half_max (a := ρs + 1) (b := 4 * ρ') (c := 3 / 4 * ρs + ρ' + τ / 2) (a' := ρs + 1) (b' := 4 * ρ) (c' := 3 / 4 * ρs + ρ + τ / 2)
    le_rfl (by linarith) (by linarith)
  linarith

/-- **C116** (large value estimates) The region that `lv_to_lver` makes of a large value estimate has the monotonicity property. -/
theorem C116_lv (r : Region L) (hl : r.liftable) (hr : r.AllMat (fun m => m.WF ∧ m.cols = 4)) : ∃ r', lvToLver r = .ok r' ∧ Mono r' := by
  obtain ⟨r', h1, h2⟩ := C50_lv_partial r hl hr
  refine ⟨r', h1, ?_⟩
  rintro σ τ ρ ρs s ⟨a, b, a1, a2, a3⟩ ⟨c, d, c1, c2, c3⟩ ⟨e, f, e1, e2, e3⟩
  rw [h2] at a3 c3 e3 ⊢
  exact ⟨a3.1, c3.2.1, c3.2.2.1, e3.2.2.2⟩

/-- The first relation of Guth and Maynard as it is in the paper has the monotonicity property. -/
theorem gm_mono (k : ℕ) {r : Region L} (hr : ∀ σ τ ρ ρs s, r.Contains [σ, τ, ρ, ρs, s] ↔ InEnergyBox σ τ ρ ρs s ∧
    GMRelation (2 * τ + ρ / 2 + ρs / 2) k σ τ ρ ρs) : Mono r := by
  refine mono_of (Q := fun σ τ ρ ρs _ => GMRelation (2 * τ + ρ / 2 + ρs / 2) k σ τ ρ ρs) hr (.inl ?_)
  rintro σ τ ρ ρs s ρs' s' h _ ⟨S1, S2, S3, k1, k2, k3, k4, k5⟩
  exact ⟨S1, S2, S3, k1, k2, by linarith, k4.trans (max_le_max le_rfl (by linarith)), k5⟩

/-- (literature.py:1017) With the interchanged coefficients (see `C73_gm1_counterexample`) the first Guth–Maynard region bounds neither `ρ` by a growing function of
`ρ*` nor the other way round, and the monotonicity property fails: at `σ = 3/4`, `τ = 3` it contains tuples with `(ρ, ρ*) = (2, 11/5)` and `(1, 3)` but none with
`(2, 3)`. So the lemma that would allow raising this region to a power does not apply to it; it does to the relation as it is in the paper (`gm_mono`). -/
theorem C116_gm1_counterexample (canon : Mat → Mat) (hc : Mat.CanonSpec canon) : ∃ r : Region L, lverGM1 canon 1 = .ok r ∧ ¬ Mono r := by
  obtain ⟨r, h1, h2, _⟩ := C73_gm1_partial (L := L) canon hc 1 le_rfl
  refine ⟨r, h1, fun hm => ?_⟩
  have := hm (3 / 4) 3 2 3 0 ⟨11 / 5, 0, by norm_num, le_rfl, ?_⟩ ⟨1, 0, by norm_num, le_rfl, ?_⟩ ⟨1, 0, by norm_num, by norm_num, ?_⟩
  · rw [h2, gm_iff] at this
    norm_num at this
  · rw [h2, gm_iff]
    refine ⟨by unfold InEnergyBox InBox; norm_num, ?_⟩
    norm_num
  · rw [h2, gm_iff]
    refine ⟨by unfold InEnergyBox InBox; norm_num, ?_⟩
    norm_num
  · rw [h2, gm_iff]
    refine ⟨by unfold InEnergyBox InBox; norm_num, ?_⟩
    norm_num

/-- A set of tuples for the examples, and a region that contains it. -/
def exTuples (σ _τ ρ ρs _s : ℚ) : Prop := σ = 1 ∧ 0 ≤ ρ ∧ ρ ≤ ρs

def exRegion : Region ℕ := .polytope ⟨6, [rowOf [0, 0, 0, -1, 1, 0]]⟩ none

theorem exTuples_power : PowerLemma exTuples := by
  rintro k hk σ τ ρ ρs s ⟨h0, h1, h2⟩
  have hk : (0 : ℚ) < k := by exact_mod_cast hk
  have h3 : ρ / k ≤ ρs / k := div_le_div_of_nonneg_right h2 hk.le
  have h4 : 0 ≤ ρ / k := div_nonneg h1 hk.le
  exact ⟨⟨_, _, le_rfl, le_rfl, h0, h4, h3⟩, ⟨_, _, le_rfl, le_rfl, h0, h4, h3⟩, _, _, le_rfl, le_rfl, h0, h4, h3⟩

theorem exRegion_contains (σ τ ρ ρs s : ℚ) : exRegion.Contains [σ, τ, ρ, ρs, s] ↔ ρ ≤ ρs := by
  unfold exRegion
  rw [Region.contains_iff_mem _ _ (by unfold Region.AllMat; rfl)]
  unfold Region.Mem
  rw [Mat.contains_iff_holds _ _ rfl]
  unfold Mat.Holds
  simp only [List.mem_singleton, forall_eq, rowOf_holds6]
  constructor <;> intro h <;> linarith

theorem exRegion_shaped : Shaped 5 exRegion := by
  unfold exRegion Shaped Region.AllMat
  refine ⟨?_, rfl, by simp⟩
  intro r hr
  rw [List.mem_singleton.mp hr]
  rfl

theorem exRegion_mono : Mono exRegion := by
  rintro σ τ ρ ρs s ⟨a, b, a1, a2, a3⟩ _ _
  rw [exRegion_contains] at a3 ⊢
  exact a3.trans a1

/-- C116 applies: the regions of the literature and of the trivial pair are monotone; the example region is raised to the second power, and to two powers. -/
example : (∃ r : Region ℕ, lverHB2a id = .ok r ∧ Mono r) ∧ (∃ r : Region ℕ, epToLver id 0 1 = .ok r ∧ Mono r) ∧
    (∃ r' : Region ℕ, raiseToPowerEnergy ((2 : ℕ) : ℚ) exRegion = .ok r' ∧ r'.Contains [1, 3, 1, 2, 0]) ∧
    ∃ tl, applyTransforms [exRegion] ([2, 3].map fun k : ℕ => raiseToPowerEnergy (k : ℚ)) = .ok tl ∧ tl.length = 2 ∧ ∀ r ∈ tl, r.Contains [1, 3, 1, 2, 0] := by
  have hx : exTuples 1 3 1 2 0 := ⟨rfl, by norm_num, by norm_num⟩
  have hc : ∀ σ τ ρ ρs s, exTuples σ τ ρ ρs s → exRegion.Contains [σ, τ, ρ, ρs, s] := fun σ τ ρ ρs s h => (exRegion_contains _ _ _ _ _).mpr h.2.2
  refine ⟨(C116_literature_partial id canon_id).2.2.1, C116_pair id canon_id 0 1 le_rfl zero_le_one, ?_, ?_⟩
  · obtain ⟨r', h1, h2⟩ := C116_raise exTuples_power exRegion exRegion_shaped exRegion_mono hc 2 (by norm_num)
    exact ⟨r', h1, h2 1 3 1 2 0 hx⟩
  · obtain ⟨tl, h1, h2, h3⟩ := C116_powers exTuples_power [exRegion]
      (fun r hr => by rw [List.mem_singleton.mp hr]; exact ⟨exRegion_shaped, exRegion_mono⟩)
      (fun r hr => by rw [List.mem_singleton.mp hr]; exact hc) [2, 3] (by simp)
    exact ⟨tl, h1, h2, fun r hr => h3 r hr 1 3 1 2 0 hx⟩

/-- The power and the intersection of the example region are monotone. -/
example : (∃ r', raiseToPowerEnergy ((2 : ℕ) : ℚ) exRegion = .ok r' ∧ Mono r') ∧ Mono (Region.intersect [exRegion, exRegion]) :=
  C116_kept exRegion exRegion_shaped exRegion_mono 2 (by norm_num) _ (by simp [exRegion_shaped, exRegion_mono])

/-- The hypotheses of C116 for large value estimates hold for `ρ ≤ τ`. -/
example : ∃ r', lvToLver (.polytope ⟨4, [rowOf [0, 0, 1, -1]]⟩ none : Region ℕ) = .ok r' ∧ Mono r' :=
  C116_lv _ (by simp [Region.liftable]) (by
    unfold Region.AllMat
    refine ⟨?_, rfl⟩
    intro r hr
    rw [List.mem_singleton.mp hr]
    rfl)

end Literature
end Expdb
