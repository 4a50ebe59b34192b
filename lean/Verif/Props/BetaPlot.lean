import Verif.Model.BetaPlot
import Verif.Props.Plots
import Verif.Props.LiteratureBeta

/-!
# Property C105: the plots of bounds on beta

The curve of the best bounds on beta is compared with the bound of van der Corput in the same picture.
-/

namespace Expdb
namespace BetaPlot

open Affine Expdb.Interval LitBeta Plots

/-! ### Points of the curves -/

/-- Both are the same list of equidistant points with the values of `f`. -/
theorem curve_get (f : ℚ → ℚ) (a b : ℚ) (n i : ℕ) (h : i < n) :
    (curve f (linspace a b n))[i]? = some (a + i * ((b - a) / (n - 1)), f (a + i * ((b - a) / (n - 1)))) := by
  simp [curve, linspace, h]

theorem curve_length (f : ℚ → ℚ) (a b : ℚ) (n : ℕ) : (curve f (linspace a b n)).length = n := by
  simp [curve, linspace]

theorem pyMin_mem : ∀ l : List ℚ, l ≠ [] → ∃ v, pyMin l = .ok v ∧ v ∈ l ∧ ∀ u ∈ l, v ≤ u := by
  have key : ∀ (l : List ℚ) (a : ℚ), (l.foldl min a ∈ a :: l) ∧ ∀ u ∈ a :: l, l.foldl min a ≤ u := by
    intro l
    induction l with
    | nil => intro a; simp
    | cons b l ih =>
      intro a
      obtain ⟨h1, h2⟩ := ih (min a b)
      rw [List.foldl_cons]
      refine ⟨?_, fun u hu => ?_⟩
      · rcases List.mem_cons.mp h1 with h | h
        · rw [h]
          rcases min_choice a b with e | e <;> rw [e] <;> simp
        · simp [h]
      · have h0 := h2 (min a b) List.mem_cons_self
        simp only [List.mem_cons] at hu
        rcases hu with rfl | rfl | hu
        · exact h0.trans (min_le_left _ _)
        · exact h0.trans (min_le_right _ _)
        · exact h2 u (List.mem_cons_of_mem _ hu)
  intro l hl
  cases l with
  | nil => exact absurd rfl hl
  | cons a l => exact ⟨_, rfl, key l a⟩

theorem minAt_eq (best : List Beta.Best) (x v : ℚ) (h : HasValue (best.map Beta.Best.bound) x v)
    (hu : ∀ w, HasValue (best.map Beta.Best.bound) x w → w = v) : minAt best x = .ok v := by
  have hm : ∀ l : List Beta.Best, (∀ b ∈ l, b.bound.dom.contains x = true) →
      l.mapM (fun b => valueAt b x) = .ok (l.map (fun b => b.bound.ev x)) := by
    intro l hl
    induction l with
    | nil => rfl
    | cons b l ih =>
      rw [List.mapM_cons, ih (fun c hc => hl c (List.mem_cons_of_mem _ hc))]
      simp only [valueAt, Affine.at, hl b List.mem_cons_self, if_true, bind, Except.bind, pure, Except.pure, List.map_cons]
  unfold minAt
  rw [hm _ (fun b hb => (List.mem_filter.mp hb).2)]
  simp only [bind, Except.bind]
  set l := (best.filter (fun b => b.bound.dom.contains x)).map (fun b => b.bound.ev x) with hl
  have hmem : ∀ w, w ∈ l ↔ HasValue (best.map Beta.Best.bound) x w := by
    intro w
    rw [hasValue_iff]
    simp only [hl, List.mem_map, List.mem_filter]
    constructor
    · rintro ⟨b, ⟨h1, h2⟩, h3⟩; exact ⟨b.bound, ⟨b, h1, rfl⟩, h2, h3⟩
    · rintro ⟨_, ⟨b, h1, rfl⟩, h2, h3⟩; exact ⟨b, ⟨h1, h2⟩, h3⟩
  obtain ⟨w, e, hw, _⟩ := pyMin_mem l (List.ne_nil_of_mem ((hmem v).mpr h))
  rw [e, hu w ((hmem w).mp hw)]

/-! ### Comparison with the bound of van der Corput -/

/-- The point above which the bound of Heath-Brown with `k = 19` is below that of van der Corput. -/
def cross : ℚ := 524116 / 9958033

/-- A line below all first terms at both ends of an interval is below the optimized bound on the interval. -/
theorem le_opt_of_ends (m c a b x : ℚ) (hx : a ≤ x) (hx' : x ≤ b) (hb : b ≤ 1)
    (h : ∀ k ∈ List.range' 2 28, m * a + c ≤ line k a ∧ m * b + c ≤ line k b) : m * x + c ≤ optimized x := by
  obtain ⟨⟨k, k1, k2, e⟩, _⟩ := C94_optimized x (by linarith)
  rw [e]
  obtain ⟨ha, hb'⟩ := h k (by rw [List.mem_range'_1]; omega)
  unfold line at *
  set d : ℚ := 2 ^ k - 2
  have e1 : ∀ y : ℚ, y + (1 - k * y) / d = (1 - k / d) * y + 1 / d := fun y => by ring
  rw [e1] at *
  set p := 1 - (k : ℚ) / d
  set q := 1 / d
  rcases le_total m p with h | h
  · nlinarith
  · nlinarith

/-- The three lines of Heath-Brown's bound. -/
def hbLines (k : ℚ) : List (ℚ × ℚ) := [((k - 2) / (k - 1), 1 / (k * (k - 1))), (1 - 1 / (k * (k - 1)), 0), (1, -2 / (k * k * (k - 1)))]

theorem hb_le (k : ℕ) (hk : 3 ≤ k) (a b x : ℚ) (ha : 0 ≤ a) (hx : a ≤ x) (hx' : x ≤ b) (hb : b ≤ 1)
    (h : ∀ j ∈ List.range' 2 28, ∀ g ∈ hbLines k,
      g.1 * a + g.2 ≤ line j a ∧ g.1 * b + g.2 ≤ line j b) :
    ∃ ps v, hb2017 k = .ok ps ∧ HasValue ps x v ∧ v ≤ optimized x := by
  have hk' : (3 : ℚ) ≤ k := by exact_mod_cast hk
  have k0 : (k : ℚ) ≠ 0 := by intro h; linarith
  have k1 : (k : ℚ) - 1 ≠ 0 := by intro h; linarith
  obtain ⟨ps, h1, _, _, h4⟩ := C74_hb2017 k hk'
  refine ⟨ps, _, h1, (h4 x _).mpr ⟨by linarith, by linarith, rfl⟩, ?_⟩
  have key : ∀ g ∈ hbLines k, g.1 * x + g.2 ≤ optimized x := fun g hg => le_opt_of_ends g.1 g.2 a b x hx hx' hb (fun j hj => h j hj g hg)
  have l1 := key (((k : ℚ) - 2) / (k - 1), 1 / ((k : ℚ) * (k - 1))) (by simp [hbLines])
  have l2 := key (1 - 1 / (k * (k - 1)), 0) (by simp [hbLines])
  have l3 := key ((1 : ℚ), -2 / (k * k * (k - 1))) (by simp [hbLines])
  have e1 : ((k : ℚ) - 2) / (k - 1) * x + 1 / (k * (k - 1)) = x + (1 - k * x) / (k * (k - 1)) := by field_simp; ring
  have e2 : (1 - 1 / ((k : ℚ) * (k - 1))) * x + 0 = x + -x / (k * (k - 1)) := by ring
  have e3 : (1 : ℚ) * x + -2 / (k * k * (k - 1)) = x + (-(2 * x) / (k * (k - 1)) - 2 * (1 - k * x) / (k ^ 2 * (k - 1))) := by
    field_simp; ring
  simp only at l1 l2 l3
  rw [e1] at l1
  rw [e2] at l2
  rw [e3] at l3
  simp only []
  rw [← max_add_add_left, ← max_add_add_left]
  exact max_le l1 (max_le l2 l3)

theorem mem_all {K : ℕ} {bs : List Bd} (h : all K = .ok bs) : ∀ b, b ∈ bs ↔ ∃ ps, Except.ok ps ∈ [.ok watt, hk1991, huxley1993a,
      .ok huxley1993b, .ok huxley1993c, .ok table17, sargos1995a, sargos1995b,
      .ok table19, hk2001, rs2002, sargos2003a, sargos2003b, huxley2005, robert2016] ++
    (List.range' 4 (K - 4)).map (fun k : ℕ => robert2 k) ++ (List.range' 3 (K - 3)).map (fun k : ℕ => hb2017 k) ++
    [.ok bourgain2017, .ok ty2024] ∧ b ∈ ps := by
  obtain ⟨bs', h1, h2⟩ := collect_ok _ (fun e he => ((sane_all K) e he).imp fun ps h => h.1)
  have h3 := h
  unfold all at h3
  rw [h1] at h3
  cases h3
  exact h2

/-- From `cross` on the literature is at least as good as the optimized bound of van der Corput. -/
theorem literature_le {bs : List Bd} (h : all 20 = .ok bs) (x : ℚ) (hx : cross ≤ x) (hx' : x ≤ 1 / 2) :
    ∃ v, HasValue bs x v ∧ v ≤ optimized x := by
  have hhb : ∀ k : ℕ, 3 ≤ k → k < 20 → ∀ ps v, hb2017 k = .ok ps → HasValue ps x v → HasValue bs x v := by
    rintro k hk hk' ps v e ⟨f, hf, hm, hv⟩
    refine ⟨f, (mem_all h f).mpr ⟨ps, ?_, hf⟩, hm, hv⟩
    rw [← e]
    simp only [List.mem_append, List.mem_map]
    exact Or.inl (Or.inr ⟨k, by rw [List.mem_range'_1]; omega, rfl⟩)
  rcases le_total x (128 / 1000) with c1 | c1
  · obtain ⟨ps, v, e, hv, hle⟩ := hb_le 19 (by norm_num) cross (128 / 1000) x (by norm_num [cross]) hx c1 (by norm_num) (by decide +kernel)
    exact ⟨v, hhb 19 (by norm_num) (by norm_num) ps v e hv, hle⟩
  rcases le_total x (1 / 5) with c2 | c2
  · obtain ⟨ps, v, e, hv, hle⟩ := hb_le 8 (by norm_num) (128 / 1000) (1 / 5) x (by norm_num) c1 c2 (by norm_num) (by decide +kernel)
    exact ⟨v, hhb 8 (by norm_num) (by norm_num) ps v e hv, hle⟩
  rcases le_or_gt x (2848 / 12173) with c3 | c3
  · obtain ⟨ps, v, e, hv, hle⟩ := hb_le 6 (by norm_num) (1 / 5) (2848 / 12173) x (by norm_num) c2 c3 (by norm_num) (by decide +kernel)
    exact ⟨v, hhb 6 (by norm_num) (by norm_num) ps v e hv, hle⟩
  · obtain ⟨r, hr, hr1, hr2⟩ := combined_cover x (by linarith) hx'
    obtain ⟨bs', a1, a2⟩ := C75_combined 20
    rw [h] at a1
    cases a1
    obtain ⟨v, hv, hle⟩ := a2 r hr x hr1 hr2
    have hends : ∀ r ∈ combined.drop 1, ∀ k ∈ List.range' 2 28, r.2.1 * r.2.2.1 + r.1 ≤ line k r.2.2.1 ∧
        r.2.1 * r.2.2.2 + r.1 ≤ line k r.2.2.2 := by decide +kernel
    have hone : ∀ r ∈ combined, r.2.2.2 ≤ 1 := by decide +kernel
    have hdrop : r ∈ combined.drop 1 := by
      have : combined = (13 / 414, 359 / 414, 0, 2848 / 12173) :: combined.drop 1 := rfl
      rw [this] at hr
      rcases List.mem_cons.mp hr with rfl | hr
      · exact absurd hr2 (not_le.mpr c3)
      · exact hr
    refine ⟨v, hv, hle.trans ?_⟩
    rw [add_comm]
    exact le_opt_of_ends _ _ _ _ x hr1 hr2 (hone r hr) (hends r hdrop)

/-- Below `1/18` no bound of the family is below both the trivial one and the first term of Heath-Brown's with `k = 19`. -/
def Above (E : Py (List Bd)) : Prop :=
  ∀ ps, E = .ok ps → ∀ x v, 0 ≤ x → x ≤ 1 / 18 → HasValue ps x v → x ≤ v ∨ x + (1 - 19 * x) / 342 ≤ v

theorem above_of_graph {E : Py (List Bd)} {a b : ℚ} {f : ℚ → ℚ} (h : Graph E a b f)
    (hf : ∀ x, a ≤ x → x ≤ b → 0 ≤ x → x ≤ 1 / 18 → x ≤ f x ∨ x + (1 - 19 * x) / 342 ≤ f x) : Above E := by
  obtain ⟨ps, h1, _, _, h4⟩ := h
  intro qs e x v hx hx' hv
  rw [h1] at e
  cases e
  obtain ⟨k1, k2, rfl⟩ := (h4 x v).mp hv
  exact hf x k1 k2 hx hx'

theorem above_of_table {ps : List Bd} (h : ∀ p ∈ ps, 1 / 18 < p.dom.x0 ∨ (0 ≤ p.c ∧ 1 / 18 ≤ p.m * (1 / 18) + p.c)) :
    Above (.ok ps) := by
  intro qs e x v hx hx' hv
  cases e
  obtain ⟨f, hf, hm, rfl⟩ := hv
  rcases h f hf with h | ⟨h1, h2⟩
  · unfold Mem at hm
    rcases hm.1 with h3 | ⟨_, h3⟩ <;> linarith
  · left
    rcases le_total f.m 1 with h | h
    · nlinarith
    · nlinarith

theorem above_all : ∀ e ∈ [.ok watt, hk1991, huxley1993a, .ok huxley1993b, .ok huxley1993c, .ok table17, sargos1995a, sargos1995b,
      .ok table19, hk2001, rs2002, sargos2003a, sargos2003b, huxley2005, robert2016] ++
    (List.range' 4 (20 - 4)).map (fun k : ℕ => robert2 k) ++ (List.range' 3 (20 - 3)).map (fun k : ℕ => hb2017 k) ++
    [.ok bourgain2017, .ok ty2024], Above e := by
  have hl : ∀ {a b x : ℚ} {P : Prop}, x ≤ a → x ≤ max a b ∨ P := fun h => Or.inl (h.trans (le_max_left _ _))
  intro e he
  simp only [List.mem_append, List.mem_map, List.mem_range', List.mem_cons, List.not_mem_nil, or_false] at he
  rcases he with (((rfl | rfl | rfl | rfl | rfl | rfl | rfl | rfl | rfl | rfl | rfl | rfl | rfl | rfl | rfl) | ⟨k, ⟨i, hi, rfl⟩, rfl⟩) |
    ⟨k, ⟨i, hi, rfl⟩, rfl⟩) | rfl | rfl
  · exact above_of_table (by decide +kernel)
  · exact above_of_graph C74_hk1991 fun x h _ _ h' => by linarith
  · exact above_of_graph (graph2 (fun α => 13 / 60 + 7 / 20 * α) (fun α => 11 / 120 + 13 / 20 * α) (by norm_num) (fun x => by ring)
      (fun x => by ring)) fun x _ _ _ h => hl (by linarith)
  · exact above_of_table (by decide +kernel)
  · exact above_of_table (by decide +kernel)
  · exact above_of_table (by decide +kernel)
  · exact above_of_graph C74_sargos1995a fun x _ _ _ h => hl (by linarith)
  · exact above_of_graph C74_sargos1995b fun x _ _ _ h => hl (by linarith)
  · exact above_of_table (by decide +kernel)
  · exact above_of_graph C74_hk2001 fun x h _ _ h' => by linarith
  · exact above_of_graph C74_rs2002 fun x _ _ _ h => hl (by linarith)
  · exact above_of_graph C74_sargos2003a fun x _ _ _ h => hl (by linarith)
  · exact above_of_graph C74_sargos2003b fun x _ _ _ h => hl (by linarith)
  · exact above_of_graph C74_huxley2005 fun x h _ _ h' => by linarith
  · exact above_of_graph C74_robert2016 fun x _ _ _ h => hl (by linarith)
  · obtain ⟨b, hg, _⟩ := C74_robert2 ((4 + 1 * i : ℕ) : ℚ) (by push_cast; nlinarith [Nat.cast_nonneg (α := ℚ) i])
    refine above_of_graph hg fun x _ _ h0 h => ?_
    have hm := le_max_left ((1 - ((4 + 1 * i : ℕ) : ℚ) * x) / (2 * (((4 + 1 * i : ℕ) : ℚ) - 1) * (((4 + 1 * i : ℕ) : ℚ) - 2)))
      (-x / (2 * (((4 + 1 * i : ℕ) : ℚ) - 1) * (((4 + 1 * i : ℕ) : ℚ) - 2)))
    set k : ℚ := ((4 + 1 * i : ℕ) : ℚ) with hk
    have k4 : 4 ≤ k := by rw [hk]; push_cast; nlinarith [Nat.cast_nonneg (α := ℚ) i]
    have hd : 0 < 2 * (k - 1) * (k - 2) := by nlinarith
    rcases Nat.lt_or_ge i 15 with h15 | h15
    · left
      have k18 : k ≤ 18 := by
        have : (i : ℚ) ≤ 14 := by exact_mod_cast Nat.le_of_lt_succ h15
        rw [hk]; push_cast; linarith
      have : 0 ≤ (1 - k * x) / (2 * (k - 1) * (k - 2)) := div_nonneg (by nlinarith) hd.le
      linarith
    · have : i = 15 := by omega
      have k19 : k = 19 := by rw [hk, this]; norm_num
      rw [k19] at hm ⊢
      have e : (2 * ((19 : ℚ) - 1) * (19 - 2)) = 612 := by norm_num
      rw [e] at hm ⊢
      rcases le_total (19 * x) 1 with hc | hc
      · left; linarith
      · right; linarith
  · have h3 : (3 : ℚ) ≤ ((3 + 1 * i : ℕ) : ℚ) := by push_cast; nlinarith [Nat.cast_nonneg (α := ℚ) i]
    refine above_of_graph (C74_hb2017 ((3 + 1 * i : ℕ) : ℚ) h3) fun x _ _ h0 h => ?_
    set k : ℚ := ((3 + 1 * i : ℕ) : ℚ) with hk
    have hm := le_max_left ((1 - k * x) / (k * (k - 1))) (max (-x / (k * (k - 1)))
      (-(2 * x) / (k * (k - 1)) - 2 * (1 - k * x) / (k ^ 2 * (k - 1))))
    have hd : 0 < k * (k - 1) := by nlinarith
    rcases Nat.lt_or_ge i 16 with h15 | h15
    · left
      have k18 : k ≤ 18 := by
        have : (i : ℚ) ≤ 15 := by exact_mod_cast Nat.le_of_lt_succ h15
        rw [hk]; push_cast; linarith
      have : 0 ≤ (1 - k * x) / (k * (k - 1)) := div_nonneg (by nlinarith) hd.le
      linarith
    · have : i = 16 := by omega
      have k19 : k = 19 := by rw [hk, this]; norm_num
      rw [k19] at hm ⊢
      have e : ((19 : ℚ) * (19 - 1)) = 342 := by norm_num
      rw [e] at hm ⊢
      right; linarith
  · exact above_of_table (by decide +kernel)
  · exact above_of_table (by decide +kernel)

/-- The hypotheses of the set built by `beta_bound_plot` (visualizations.py:100-104) in some order: the first trivial bound and those of the
literature. -/
def Plotted (hyps : List Beta.Hyp) : Prop :=
  ∃ bs, all 20 = .ok bs ∧ ∀ b, b ∈ hyps.map Beta.Hyp.bound ↔ b = trivial1 ∨ b ∈ bs

/-- **C105** (comparison; partial: the full statement is that the best bounds are at most the optimized bound of van der Corput on
`[0, 1/2]`, which fails between `1/29` and `524116/9958033`, see `C105_counterexample`) The least bound at `x` is at most the optimized bound
of van der Corput exactly outside of that interval. -/
theorem C105_compare_partial (hyps : List Beta.Hyp) (hp : Plotted hyps) (x v : ℚ) (hx : 0 ≤ x) (hx' : x ≤ 1 / 2)
    (hv : HasValue (hyps.map Beta.Hyp.bound) x v) (hmin : ∀ w, HasValue (hyps.map Beta.Hyp.bound) x w → v ≤ w) :
    v ≤ optimized x ↔ x ≤ 1 / 29 ∨ 524116 / 9958033 ≤ x := by
  obtain ⟨bs, h1, h2⟩ := hp
  constructor
  · intro hle
    by_contra hcon
    push Not at hcon
    obtain ⟨c1, c2⟩ := hcon
    have l29 : optimized x ≤ line 29 x := (C94_optimized x (by linarith)).2.1 29 (by norm_num) (by norm_num)
    have l20 : optimized x ≤ line 20 x := (C94_optimized x (by linarith)).2.1 20 (by norm_num) (by norm_num)
    unfold line at l29 l20
    norm_num at l29 l20
    have key : x ≤ v ∨ x + (1 - 19 * x) / 342 ≤ v := by
      obtain ⟨f, hf, hm, hev⟩ := hv
      rcases (h2 f).mp hf with rfl | hb
      · left
        simp only [trivial1, af] at hev
        linarith
      · obtain ⟨ps, hps, hfp⟩ := (mem_all h1 f).mp hb
        exact above_all _ hps ps rfl x v hx (by linarith) ⟨f, hfp, hm, hev⟩
    rcases key with h | h <;> linarith
  · rintro (h | h)
    · have ht : HasValue (hyps.map Beta.Hyp.bound) x x :=
        ⟨trivial1, (h2 _).mpr (Or.inl rfl), (mem_cc 0 1 x).mpr ⟨hx, by linarith⟩, by simp only [trivial1, af]; ring⟩
      refine (hmin x ht).trans ?_
      obtain ⟨⟨k, k1, k2, e⟩, _⟩ := C94_optimized x (by linarith)
      rw [e]
      unfold line
      have hk : (k : ℚ) ≤ 29 := by exact_mod_cast Nat.le_of_lt_succ k2
      have : 0 ≤ (1 - k * x) / (2 ^ k - 2) := div_nonneg (by nlinarith) (by linarith [two_pow_big k k1])
      linarith
    · obtain ⟨w, ⟨f, hf, hm, hw⟩, hle⟩ := literature_le h1 x h hx'
      exact (hmin w ⟨f, (h2 f).mpr (Or.inr hf), hm, hw⟩).trans hle

theorem mapM_curve (best : List Beta.Best) (f : ℚ → ℚ) (xs : List ℚ) (h : ∀ x ∈ xs, minAt best x = .ok (f x)) :
    xs.mapM (fun alpha => do
      let v ← minAt best alpha
      return (alpha, v)) = .ok (curve f xs) := by
  induction xs with
  | nil => rfl
  | cons x xs ih =>
    rw [List.mapM_cons, ih (fun y hy => h y (List.mem_cons_of_mem _ hy)), h x List.mem_cons_self]
    simp only [bind, Except.bind, pure, Except.pure, curve, List.map_cons]

/-- **C105** (the picture) In whatever order the set is listed, `beta_bound_plot` draws two curves of 500 points with the abscissas `i/998`.
The first has as ordinate the least value of the bounds of the set, which is at least `α/2`, the second the optimized bound of van der Corput.
The number that is printed last is 0. -/
theorem C105_beta_plot (hyps : List Beta.Hyp) (hp : Plotted hyps) : ∃ c d, betaBoundPlot hyps = .ok (c, d, 0) ∧
    c.length = 500 ∧ d.length = 500 ∧ ∀ i : ℕ, i < 500 → d[i]? = some ((i : ℚ) / 998, optimized (i / 998)) ∧
      ∃ v, c[i]? = some ((i : ℚ) / 998, v) ∧ (i : ℚ) / 1996 ≤ v ∧ HasValue (hyps.map Beta.Hyp.bound) (i / 998) v ∧
        ∀ w, HasValue (hyps.map Beta.Hyp.bound) (i / 998) w → v ≤ w := by
  obtain ⟨bs, h1, h2⟩ := hp
  obtain ⟨bs', s1, s2⟩ := C75_sane 20
  rw [h1] at s1
  cases s1
  have hall : ∀ h ∈ hyps, h.bound = trivial1 ∨ h.bound ∈ bs := fun h hh => (h2 _).mp (List.mem_map_of_mem hh)
  obtain ⟨out, e1, e2, e3, e4⟩ := C75_best 20 hyps (by
      intro h hh
      rcases hall h hh with e | e
      · rw [e]; exact (constructible_iff _).mpr (by simp only [trivial1, af, cc]; norm_num)
      · exact (s2 _ e).1) (by
      intro bs' e b hb
      rw [h1] at e
      cases e
      exact (h2 b).mpr (Or.inr hb))
  replace e4 := e4 (fun h hh => (hall h hh).imp id (fun h => ⟨bs, h1, h⟩))
  choose! f hf hf' using e2
  have hmin : ∀ x, 0 ≤ x → x ≤ 1 / 2 → minAt out x = .ok (f x) := fun x hx hx' =>
    minAt_eq out x (f x) (hf x hx hx') (hf' x hx hx')
  have hxs : ∀ x ∈ linspace 0 (1 / 2) 500, 0 ≤ x ∧ x ≤ 1 / 2 := by
    intro x hx
    simp only [linspace, List.mem_map, List.mem_range] at hx
    obtain ⟨i, hi, rfl⟩ := hx
    have h1 : (i : ℚ) ≤ 499 := by exact_mod_cast Nat.le_of_lt_succ hi
    have h0 : (0 : ℚ) ≤ i := Nat.cast_nonneg i
    norm_num
    linarith
  have h0 : f 0 = 0 := by
    obtain ⟨_, _, k1, k2, _⟩ := e3 0 (f 0) (hf 0 le_rfl (by norm_num))
    have ht : HasValue (hyps.map Beta.Hyp.bound) 0 0 :=
      ⟨trivial1, (h2 _).mpr (Or.inl rfl), (mem_cc 0 1 0).mpr ⟨le_rfl, by norm_num⟩, by simp only [trivial1, af]; ring⟩
    have := e4 0 (f 0) (hf 0 le_rfl (by norm_num))
    have := k2 0 ht
    linarith
  refine ⟨curve f (linspace 0 (1 / 2) 500), curve optimized (linspace 0 (1 / 2) 500), ?_, curve_length _ _ _ _, curve_length _ _ _ _,
    fun i hi => ?_⟩
  · unfold betaBoundPlot
    rw [show (⟨0, 1 / 2, true, true⟩ : Interval) = cc 0 (1 / 2) from rfl, e1]
    simp only [bind, Except.bind]
    have hm := mapM_curve out f (linspace 0 (1 / 2) 500) (fun x hx => hmin x (hxs x hx).1 (hxs x hx).2)
    simp only [bind, Except.bind] at hm
    rw [hm]
    simp only [hmin 0 le_rfl (by norm_num), h0]
    rfl
  · have ei : (0 : ℚ) + i * ((1 / 2 - 0) / ((500 : ℕ) - 1)) = i / 998 := by push_cast; ring
    have hi' : (i : ℚ) ≤ 499 := by exact_mod_cast Nat.le_of_lt_succ hi
    have hi0 : (0 : ℚ) ≤ i := Nat.cast_nonneg i
    have b0 : (0 : ℚ) ≤ i / 998 := by positivity
    have b1 : (i : ℚ) / 998 ≤ 1 / 2 := by linarith
    rw [curve_get _ _ _ _ _ hi, curve_get _ _ _ _ _ hi, ei]
    have hv := hf _ b0 b1
    refine ⟨rfl, f (i / 998), rfl, ?_, (e3 _ _ hv).2.2.1, (e3 _ _ hv).2.2.2.1⟩
    have := e4 _ _ hv
    linarith

/-- **C105** The curve labelled as the best upper bound is not the lower one everywhere: at the 18 points with `35 ≤ i ≤ 52`, and only there,
the bound of van der Corput drawn in the same picture is smaller. The set contains no bound of van der Corput, and those of Heath-Brown
and of Robert are added only for `k < 20`. The differences are too small to be seen. -/
theorem C105_counterexample (hyps : List Beta.Hyp) (hp : Plotted hyps) (c d : List (ℚ × ℚ)) (z : ℚ) (h : betaBoundPlot hyps = .ok (c, d, z)) :
    ∀ i p q, c[i]? = some p → d[i]? = some q → (q.2 < p.2 ↔ 35 ≤ i ∧ i ≤ 52) := by
  obtain ⟨c', d', e1, e2, e3, e4⟩ := C105_beta_plot hyps hp
  rw [h] at e1
  cases e1
  intro i p q hpi hqi
  have hi : i < 500 := by
    rw [← e2]
    exact (List.getElem?_eq_some_iff.mp hpi).1
  obtain ⟨f1, v, f2, _, f3, f4⟩ := e4 i hi
  rw [hpi] at f2
  rw [hqi] at f1
  cases f1
  cases f2
  have hi' : (i : ℚ) ≤ 499 := by exact_mod_cast Nat.le_of_lt_succ hi
  have b0 : (0 : ℚ) ≤ i / 998 := by positivity
  have hc := C105_compare_partial hyps hp _ v b0 (by linarith) f3 f4
  rw [← not_le]
  show ¬ v ≤ optimized (i / 998) ↔ _
  rw [hc]
  push Not
  constructor
  · rintro ⟨g1, g2⟩
    constructor
    · by_contra hlt
      have : (i : ℚ) ≤ 34 := by exact_mod_cast (by omega : i ≤ 34)
      linarith
    · by_contra hlt
      have : (53 : ℚ) ≤ i := by exact_mod_cast (by omega : 53 ≤ i)
      linarith
  · rintro ⟨g1, g2⟩
    have k1 : (35 : ℚ) ≤ i := by exact_mod_cast g1
    have k2 : (i : ℚ) ≤ 52 := by exact_mod_cast g2
    constructor <;> linarith

/-- Non-vacuity: the trivial bound after the literature. -/
example : ∃ hyps c d p q, Plotted hyps ∧ betaBoundPlot hyps = .ok (c, d, 0) ∧ c[40]? = some p ∧ d[40]? = some q ∧ q.2 < p.2 := by
  obtain ⟨bs, h1, _⟩ := C75_sane 20
  have hp : Plotted (bs.map (fun b => ⟨1, b⟩) ++ [⟨0, trivial1⟩]) := ⟨bs, h1, fun b => by simp [List.mem_map, or_comm]⟩
  obtain ⟨c, d, e1, e2, e3, e4⟩ := C105_beta_plot _ hp
  obtain ⟨f1, v, f2, _⟩ := e4 40 (by norm_num)
  exact ⟨_, c, d, _, _, hp, e1, f2, f1, (C105_counterexample _ hp c d 0 e1 40 _ _ f2 f1).mpr (by norm_num)⟩

/-! ### The pictures of van der Corput's bound -/

/-- **C105** (the first picture of van der Corput's bound) There are six curves of 500 points with the abscissas `i/499`: the bounds for
`k` from 2 to 5, the optimized bound, which is nowhere above them, and the conjecture, which is nowhere above that. -/
theorem C105_van_der_corput (i : ℕ) (hi : i < 500) : ∃ c2 c3 c4 c5 co cc, vanDerCorputPlot = [c2, c3, c4, c5, co, cc] ∧
    (∀ c ∈ vanDerCorputPlot, c.length = 500) ∧ ∃ v2 v3 v4 v5 vo vc : ℚ,
      c2[i]? = some ((i : ℚ) / 499, v2) ∧ c3[i]? = some ((i : ℚ) / 499, v3) ∧ c4[i]? = some ((i : ℚ) / 499, v4) ∧
      c5[i]? = some ((i : ℚ) / 499, v5) ∧ co[i]? = some ((i : ℚ) / 499, vo) ∧ cc[i]? = some ((i : ℚ) / 499, vc) ∧
      vc = i / 998 ∧ vc ≤ vo ∧ (∀ v ∈ [v2, v3, v4, v5], vo ≤ v) ∧
      ∀ k ∈ [2, 3, 4, 5], line k (i / 499) ≤ [v2, v3, v4, v5].getD (k - 2) 0 := by
  refine ⟨_, _, _, _, _, _, rfl, ?_, ?_⟩
  · simp only [vanDerCorputPlot, List.mem_cons, List.not_mem_nil, or_false, forall_eq_or_imp, forall_eq, curve_length, and_self]
  · have ei : (0 : ℚ) + i * ((1 - 0) / ((500 : ℕ) - 1)) = i / 499 := by push_cast; ring
    have hi' : (i : ℚ) ≤ 499 := by exact_mod_cast Nat.le_of_lt_succ hi
    have b0 : (0 : ℚ) ≤ i / 499 := by positivity
    have b1 : (i : ℚ) / 499 ≤ 1 := by linarith
    simp only [curve_get _ _ _ _ _ hi, ei]
    refine ⟨_, _, _, _, _, _, rfl, rfl, rfl, rfl, rfl, rfl, by ring, ?_, ?_, ?_⟩
    · have := C94_above_conjectured (i / 499) b0 (by linarith)
      rwa [conjectured, if_pos b1] at this
    · intro v hv
      simp only [List.mem_cons, List.not_mem_nil, or_false] at hv
      rcases hv with rfl | rfl | rfl | rfl <;> exact optimized_le _ _ (by norm_num) (by norm_num)
    · intro k hk
      simp only [List.mem_cons, List.not_mem_nil, or_false] at hk
      rcases hk with rfl | rfl | rfl | rfl <;> exact line_le_vdc _ _

example : (250 : ℕ) < 500 := by norm_num

/-- **C105** (the second picture) The optimized bound and the conjecture have 1000 points with the abscissas `2i/999`, and the conjecture is
nowhere above the bound; the trivial bound has 500 points on the diagonal. -/
theorem C105_van_der_corput2 : ∃ co ct cc, vanDerCorputPlot2 = [co, ct, cc] ∧ co.length = 1000 ∧ ct.length = 500 ∧ cc.length = 1000 ∧
    (∀ i : ℕ, i < 1000 → co[i]? = some (2 * (i : ℚ) / 999, optimized (2 * i / 999)) ∧
      cc[i]? = some (2 * (i : ℚ) / 999, conjectured (2 * i / 999)) ∧ conjectured (2 * i / 999) ≤ optimized (2 * i / 999)) ∧
    ∀ i : ℕ, i < 500 → ct[i]? = some ((i : ℚ) / 499, (i : ℚ) / 499) := by
  refine ⟨_, _, _, rfl, curve_length _ _ _ _, curve_length _ _ _ _, curve_length _ _ _ _, fun i hi => ?_, fun i hi => ?_⟩
  · have ei : (0 : ℚ) + i * ((2 - 0) / ((1000 : ℕ) - 1)) = 2 * i / 999 := by push_cast; ring
    have hi' : (i : ℚ) ≤ 999 := by exact_mod_cast Nat.le_of_lt_succ hi
    rw [curve_get _ _ _ _ _ hi, curve_get _ _ _ _ _ hi, ei]
    exact ⟨rfl, rfl, C94_above_conjectured _ (by positivity) (by linarith)⟩
  · have ei : (0 : ℚ) + i * ((1 - 0) / ((500 : ℕ) - 1)) = i / 499 := by push_cast; ring
    rw [curve_get _ _ _ _ _ hi, ei]

/-! ### The picture of the best bounds -/

/-- **C105** (the picture of the best bounds) `display_beta_bounds` draws one segment for every bound. Its points are those of the graph of
the bound over the closure of the domain; so every value of one of the bounds is on a segment. -/
theorem C105_display (hyps : List Beta.Best) (hc : ∀ h ∈ hyps, h.bound.dom.Constructible) :
    (displaySegments hyps).length = hyps.length ∧
    (∀ s ∈ displaySegments hyps, ∃ h ∈ hyps, ∀ x y : ℚ, (∃ t : ℚ, 0 ≤ t ∧ t ≤ 1 ∧ x = (1 - t) * s.1.1 + t * s.2.1 ∧
        y = (1 - t) * s.1.2 + t * s.2.2) ↔ h.bound.dom.x0 ≤ x ∧ x ≤ h.bound.dom.x1 ∧ y = h.bound.m * x + h.bound.c) ∧
    ∀ x v, HasValue (hyps.map Beta.Best.bound) x v → ∃ s ∈ displaySegments hyps, ∃ t : ℚ, 0 ≤ t ∧ t ≤ 1 ∧
      x = (1 - t) * s.1.1 + t * s.2.1 ∧ v = (1 - t) * s.1.2 + t * s.2.2 := by
  have key : ∀ h ∈ hyps, ∀ x y : ℚ, (∃ t : ℚ, 0 ≤ t ∧ t ≤ 1 ∧ x = (1 - t) * h.bound.dom.x0 + t * h.bound.dom.x1 ∧
        y = (1 - t) * h.bound.ev h.bound.dom.x0 + t * h.bound.ev h.bound.dom.x1) ↔
      h.bound.dom.x0 ≤ x ∧ x ≤ h.bound.dom.x1 ∧ y = h.bound.m * x + h.bound.c := by
    intro h hh x y
    have hle := (constructible_iff _).mp (hc h hh)
    unfold ev
    constructor
    · rintro ⟨t, t0, t1, rfl, rfl⟩
      refine ⟨by nlinarith, by nlinarith, by ring⟩
    · rintro ⟨h1, h2, rfl⟩
      rcases eq_or_lt_of_le hle with he | hlt
      · refine ⟨0, le_rfl, by norm_num, by linarith, ?_⟩
        have : x = h.bound.dom.x0 := by linarith
        rw [this]; ring
      · have hd : 0 < h.bound.dom.x1 - h.bound.dom.x0 := by linarith
        have ex : x = (1 - (x - h.bound.dom.x0) / (h.bound.dom.x1 - h.bound.dom.x0)) * h.bound.dom.x0 +
            (x - h.bound.dom.x0) / (h.bound.dom.x1 - h.bound.dom.x0) * h.bound.dom.x1 := by
          field_simp; ring
        refine ⟨(x - h.bound.dom.x0) / (h.bound.dom.x1 - h.bound.dom.x0), div_nonneg (by linarith) hd.le,
          (div_le_one hd).mpr (by linarith), ex, ?_⟩
        linear_combination h.bound.m * ex
  refine ⟨by simp [displaySegments], fun s hs => ?_, fun x v hv => ?_⟩
  · simp only [displaySegments, List.mem_map] at hs
    obtain ⟨h, hh, rfl⟩ := hs
    exact ⟨h, hh, key h hh⟩
  · obtain ⟨f, hf, hm, hv⟩ := hv
    obtain ⟨h, hh, rfl⟩ := List.mem_map.mp hf
    refine ⟨_, List.mem_map.mpr ⟨h, hh, rfl⟩, (key h hh x v).mpr ⟨?_, ?_, hv.symm⟩⟩
    · unfold Mem at hm
      rcases hm.1 with h | ⟨_, h⟩ <;> linarith
    · unfold Mem at hm
      rcases hm.2 with h | ⟨_, h⟩ <;> linarith

example : displaySegments [.existing ⟨0, af (1 / 2) (13 / 84) (cc (3 / 7) (1 / 2))⟩] = [((3 / 7, 31 / 84), (1 / 2, 17 / 42))] := by
  decide +kernel

end BetaPlot
end Expdb
