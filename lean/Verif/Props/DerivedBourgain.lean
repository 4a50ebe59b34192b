import Verif.Props.ZeroDensitySets
import Verif.Props.DerivedZDCases
import Mathlib.Topology.Instances.Rat

/-!
# C96: `prove_zero_density_bourgain_improved`
-/

namespace Expdb
namespace DerivedZD

open Rational SupRatio Mat Region ZeroDensity RegionUnb
open Literature (InRow rowBound bourgainMax C71_table C71_cover inRow_box)

variable {eng : Engine} {edges : Mat → List (Pt × Pt)} {solve : RF ℝ → RF ℝ → List ℝ} {isZero : Expr ℝ → Bool}
  {orderR : List (Region ℕ) → List (Region ℕ)} {orderK : List ℚ → List ℚ}

/-! ### The estimates -/

theorem bset_rising : RisingS BSet := by
  rintro s s' u p p' l1 l2 h k1 k2 k3
  rcases h with ⟨⟨b1, b2⟩, b3, b4, b5⟩ | ⟨h0, i, hi, hb⟩
  · exact .inl ⟨⟨l1, by linarith⟩, b3, by linarith, k3⟩
  · obtain ⟨c1, c2, c3, c4⟩ := inRow_box i s' u hi
    refine .inr ⟨by linarith, ?_⟩
    rcases hb with rfl | hb
    · obtain ⟨p1, p2, p3, p4, p5⟩ := hi
      exact ⟨5, ⟨l1, by linarith, by linarith, p4, by linarith⟩, .inl rfl⟩
    · obtain ⟨j, hj⟩ := C71_cover s u l1 (by linarith) c3 c4
      refine ⟨j, hj, .inr ((C71_table j s u p' hj).mp fun a1 a2 q1 q2 => ?_)⟩
      have h1 := (C71_table i s' u p hi).mpr hb a1 a2 q1 q2
      by_contra hlt
      obtain ⟨g1, g2, g3, g4, g5, g6⟩ := Literature.bourgain_lt (not_le.mp hlt)
      have : bourgainMax s' u a1 a2 < p := by
        have hle : bourgainMax s' u a1 a2 ≤ p' - 2 * (s' - s) :=
          Literature.bourgain_le (by linarith) (by linarith) (by linarith) (by linarith) (by linarith) (by linarith)
        linarith
      linarith

theorem bset_small : Small BSet := by
  intro s u p h1 h2 h3 h4 h5 h6
  rcases le_total u 1 with h | h
  · exact .inl ⟨⟨h1, h2⟩, ⟨h3, h⟩, h5, by linarith⟩
  · obtain ⟨j, hj⟩ := C71_cover s u h1 h2 h h4
    refine .inr ⟨h5, j, hj, .inr ((C71_table j s u p hj).mp fun a1 a2 q1 q2 => ?_)⟩
    refine le_trans ?_ (le_max_left _ _)
    linarith

theorem bounds_rising {bs : List (ℚ × ℚ × ℚ)} (h : ∀ b ∈ bs, b.2.1 ≤ -1) : RisingS (boundSet bs) := by
  rintro s s' u p p' l1 l2 ⟨⟨b1, b2, b3, b4, b5, b6⟩, b, hb, hle⟩ k1 k2 k3
  refine ⟨⟨l1, by linarith, b3, b4, by linarith, k3⟩, b, hb, ?_⟩
  have hc := h b hb
  unfold bval at hle ⊢
  nlinarith [mul_le_mul_of_nonneg_right hc (show 0 ≤ s' - s by linarith)]

theorem bounds_small {bs : List (ℚ × ℚ × ℚ)} (h : (2, -2, 0) ∈ bs) : Small (boundSet bs) := by
  intro s u p h1 h2 h3 h4 h5 h6
  refine ⟨⟨h1, h2, h3, h4, h5, by linarith⟩, (2, -2, 0), h, ?_⟩
  unfold bval
  simp only
  linarith

theorem tw_small : SmallZ (boundSet tw) := by
  intro s t r h1 h2 h3 h4 h5 h6
  refine ⟨⟨h1, h2, by linarith, by linarith, h5, by linarith⟩, (6, -12, 2), by simp [tw], ?_⟩
  unfold bval
  simp only
  linarith

/-- The large value estimates used: mean value theorem, Bourgain (as in the code), Jutila. -/
def bEst : List Est := [boundSet l2, BSet, boundSet jut]

/-- The triples of the large value stage. -/
def Stage1 (x0 x1 : ℚ) : Pt → Prop := Within bEst [] x0 x1 3 6

/-- The triples of the zeta large value stage. -/
def Stage2 (x0 x1 : ℚ) : Pt → Prop := Within bEst [boundSet tw] x0 x1 2 3

/-- The returned pieces are defined on the interval `[x0, x1)`, and at each rational number exactly one of them gives a value,
which is the largest ratio of a triple that can be approached from the right by interior points of the two sets of triples allowed by the
estimates. -/
def IsValue (x0 x1 : ℚ) (out : List (Rational.Piece ℝ)) : Prop :=
  Pieces x0 x1 out ∧ ∀ s : ℚ, x0 ≤ s → s < x1 → ∃ q ∈ out, q.dom.x0 ≤ s ∧ s < q.dom.x1 ∧
    (∀ q' ∈ out, q'.dom.x0 ≤ s → s < q'.dom.x1 → q' = q) ∧
    IsGreatest (LimitRatios (Stage1 x0 x1) (Stage2 x0 x1) s) (q.fn.at s)

/-- **C96** (value) `prove_zero_density_bourgain_improved` does not raise, although one polytope of Bourgain's estimate is unbounded. The
two lists of pieces give, on `[3/4, 4/5)` and `[4/5, 1)`, the largest `rho / tau` over the limits from the right of interior points of the
sets of triples allowed by the estimates and their powers up to 5. -/
theorem C96_value (C : Contracts eng edges solve isZero orderR orderK) :
    ∃ p q, proveBourgainImproved eng edges solve isZero orderR orderK = .ok (p, q) ∧ IsValue (3 / 4) (4 / 5) p ∧ IsValue (4 / 5) 1 q := by
  obtain ⟨B, e1, hB⟩ := raisable_bourgain C.engine C.neg
  obtain ⟨J, e2, hJ⟩ := raisable_bounds C.engine C.neg jut (by simp [jut]) jut_staggered
  obtain ⟨Z, e3, hZ⟩ := raisable_bounds C.engine C.neg tw (by simp [tw]) tw_staggered
  have e2' : LargeValues.convertBounds eng.canon (Literature.jutila 3) = .ok J := by
    rw [← e2]
    congr 1
    simp only [Literature.jutila, jut, List.map_cons, List.map_nil]
    norm_num
  replace e3 : LargeValues.convertBounds eng.canon Literature.heathBrownTwelfth = .ok Z := e3
  have go : ∀ x0 x1 : ℚ, x0 < x1 → 1 / 2 ≤ x0 → x1 ≤ 1 →
      ∃ out, proveZeroDensity eng edges solve isZero orderR orderK [B, J] [Z] x0 x1 3 = .ok out ∧ IsValue x0 x1 out := by
    intro x0 x1 hx hx0 hx1
    refine zd_sets C.engine C.neg C.edge C.solves C.zero C.permR C.permK [BSet, boundSet jut] [boundSet tw] [B, J] [Z]
      (.cons hB (.cons hJ .nil)) (.cons hZ .nil) ?_ ?_ ?_ ?_ x0 x1 hx hx0 hx1
    · intro S hS
      simp only [List.mem_cons, List.not_mem_nil, or_false] at hS
      rcases hS with rfl | rfl
      · exact bset_rising
      · exact bounds_rising (by decide +kernel)
    · intro S hS
      obtain rfl := List.mem_singleton.mp hS
      exact bounds_rising (by decide +kernel)
    · intro S hS
      simp only [List.mem_cons, List.not_mem_nil, or_false] at hS
      rcases hS with rfl | rfl
      · exact bset_small
      · exact bounds_small (by simp [jut])
    · intro S hS
      obtain rfl := List.mem_singleton.mp hS
      exact tw_small
  obtain ⟨p, p1, p2⟩ := go (3 / 4) (4 / 5) (by norm_num) (by norm_num) (by norm_num)
  obtain ⟨q, q1, q2⟩ := go (4 / 5) 1 (by norm_num) (by norm_num) le_rfl
  refine ⟨p, q, ?_, p2, q2⟩
  unfold proveBourgainImproved
  rw [e1, e2', e3]
  simp only [bind, Except.bind]
  rw [p1]
  simp only
  rw [q1]
  rfl

/-- The hypotheses can be met, and both lists of pieces are nonempty. -/
example : ∃ eng edges solve isZero orderR orderK p q, proveBourgainImproved eng edges solve isZero orderR orderK = .ok (p, q) ∧
    (∃ a ∈ p, a.dom.x0 ≤ ((39 / 50 : ℚ) : ℝ)) ∧ ∃ a ∈ q, a.dom.x0 ≤ ((9 / 10 : ℚ) : ℝ) := by
  obtain ⟨eng, edges, solve, isZero, orderR, orderK, C⟩ := contracts_satisfiable
  obtain ⟨p, q, h1, h2, h3⟩ := C96_value C
  obtain ⟨a, a1, a2, _⟩ := h2.2 (39 / 50) (by norm_num) (by norm_num)
  obtain ⟨b, b1, b2, _⟩ := h3.2 (9 / 10) (by norm_num) (by norm_num)
  exact ⟨eng, edges, solve, isZero, orderR, orderK, p, q, h1, ⟨a, a1, a2⟩, b, b1, b2⟩

/-! ### Limits from the right -/

theorem limit_le {A : Pt → Prop} {s t r : ℚ} (h : RightLimit A s t r) (f : ℚ × ℚ × ℚ → ℚ) (hf : Continuous f)
    (hA : ∀ s' t' r', s < s' → (∃ δ : ℚ, 0 < δ ∧ ∀ z, Near δ [s', t', r'] z → A z) → f (s', t', r') ≤ 0) : f (s, t, r) ≤ 0 := by
  by_contra hlt
  push Not at hlt
  have hev : ∀ᶠ p in nhds (s, t, r), 0 < f p := hf.continuousAt.eventually (lt_mem_nhds hlt)
  obtain ⟨ε, e1, e2⟩ := Metric.eventually_nhds_iff.mp hev
  obtain ⟨ε', e3, e4⟩ := exists_rat_btwn e1
  obtain ⟨s', t', r', h1, h2, h3⟩ := h ε' (by exact_mod_cast e3)
  have h4 := hA s' t' r' h2 h3
  obtain ⟨b, hb, n1, n2, n3⟩ := (near3 ε' (s, t, r) _).mp h1
  simp only [pt, List.cons.injEq, and_true] at hb
  obtain ⟨rfl, rfl, rfl⟩ := hb
  have hd : ∀ x y : ℚ, |x - y| < ε' → dist x y < ε := by
    intro x y hxy
    rw [Rat.dist_eq]
    have : ((|x - y| : ℚ) : ℝ) < (ε' : ℝ) := by exact_mod_cast hxy
    push_cast at this
    linarith
  have := e2 (y := (b.1, b.2.1, b.2.2)) (by
    rw [Prod.dist_eq, Prod.dist_eq]
    exact max_lt (hd _ _ n1) (max_lt (hd _ _ n2) (hd _ _ n3)))
  linarith

theorem cone_limit {A : Pt → Prop} {s t r : ℚ} (c K η0 : ℚ) (h0 : 0 < η0)
    (h : ∀ η, 0 < η → η ≤ η0 → ∀ s' t' r', |s' - (s + η)| < η / 2 → |t' - (t + c * η)| < η / 2 → |r' - (r - K * η)| < η / 2 → A [s', t', r']) :
    RightLimit A s t r := by
  intro ε hε
  have hM : 0 < 2 * (|c| + |K| + 1) := by positivity
  have hη : 0 < min η0 (ε / (2 * (|c| + |K| + 1))) := lt_min h0 (div_pos hε hM)
  set η := min η0 (ε / (2 * (|c| + |K| + 1))) with hηd
  have e2 : η * (2 * (|c| + |K| + 1)) ≤ ε := by
    rw [← le_div_iff₀ hM]
    exact min_le_right _ _
  have p1 := mul_nonneg hη.le (abs_nonneg c)
  have p2 := mul_nonneg hη.le (abs_nonneg K)
  refine ⟨s + η, t + c * η, r - K * η, .cons ?_ (.cons ?_ (.cons ?_ .nil)), by linarith, η / 2, by linarith, fun z hz => ?_⟩
  · rw [add_sub_cancel_left, abs_of_pos hη]; linarith
  · rw [add_sub_cancel_left, abs_mul, abs_of_pos hη]; linarith
  · rw [sub_sub_cancel_left, abs_neg, abs_mul, abs_of_pos hη]; linarith
  · obtain ⟨b, rfl, n1, n2, n3⟩ := (near3 _ (s + η, t + c * η, r - K * η) _).mp hz
    exact h η hη (min_le_left _ _) _ _ _ n1 n2 n3

/-- Interior points of the two sets. -/
theorem stage_interior {LS ZS : List Est} {x0 x1 a b s t r : ℚ} (h : ∃ δ : ℚ, 0 < δ ∧ ∀ z, Near δ [s, t, r] z → Within LS ZS x0 x1 a b z) :
    s < x1 ∧ a < t ∧ t < b ∧ Within LS ZS x0 x1 a b [s, t, r] := by
  obtain ⟨δ, h1, h2⟩ := h
  have g : ∀ u v : ℚ, |u| < δ → |v| < δ → Within LS ZS x0 x1 a b [s + u, t + v, r] := by
    intro u v hu hv
    exact h2 _ (.cons (by simpa using hu) (.cons (by simpa using hv) (.cons (by simpa using h1) .nil)))
  have hp : |δ / 2| < δ := by rw [abs_of_pos (by linarith)]; linarith
  have hm : |-(δ / 2)| < δ := by rw [abs_neg]; exact hp
  have h3 := (within_iff _ _ _ _ _ _ _ _ _).mp (g (δ / 2) (δ / 2) hp hp)
  have h4 := (within_iff _ _ _ _ _ _ _ _ _).mp (g (δ / 2) (-(δ / 2)) hp hm)
  refine ⟨by linarith [h3.1.2], by linarith [h4.2.1.1], by linarith [h3.2.1.2], ?_⟩
  exact h2 _ (.cons (by simpa using h1) (.cons (by simpa using h1) (.cons (by simpa using h1) .nil)))

/-! ### Cases -/

theorem jutS_cases {s t r k : ℚ} (hk : 0 < k) (h : boundSet jut s (t / k) (r / k)) :
    r ≤ k * (2 - 2 * s) ∨ r ≤ k * (10 / 3 - 16 / 3 * s) + t ∨ r ≤ k * (18 - 24 * s) + t := by
  obtain ⟨_, b, hb, hle⟩ := h
  rw [div_le_iff₀' hk] at hle
  simp only [jut, List.mem_cons, List.not_mem_nil, or_false] at hb
  rcases hb with rfl | rfl | rfl
  · left; unfold bval at hle; linarith
  · right; left
    have e : k * bval (10 / 3, -(16 / 3), 1) s (t / k) = k * (10 / 3 - 16 / 3 * s) + t := by unfold bval; field_simp; ring
    linarith
  · right; right
    have e : k * bval (18, -24, 1) s (t / k) = k * (18 - 24 * s) + t := by unfold bval; field_simp; ring
    linarith

/-- The rows for the second and third power. -/
theorem bset_cases {s t r k : ℚ} (hk : 0 < k) (hu : k < t) (h : BSet s (t / k) (r / k)) :
    ∃ u p i, t = k * u ∧ r = k * p ∧ 1 < u ∧ InRow i s u ∧ (i = 5 ∨ p ≤ rowBound i s u) := by
  have h1 : 1 < t / k := by rw [lt_div_iff₀ hk]; linarith
  rcases h with ⟨_, ⟨_, h⟩, _⟩ | ⟨_, i, hi, hb⟩
  · linarith
  · exact ⟨t / k, r / k, i, by field_simp, by field_simp, h1, hi, hb⟩

theorem twS_case {s t r : ℚ} (h : boundSet tw s t r) : r ≤ 6 - 12 * s + 2 * t := by
  obtain ⟨_, b, hb, hle⟩ := h
  simp only [tw, List.mem_cons, List.not_mem_nil, or_false] at hb
  subst hb
  unfold bval at hle
  linarith

/-- The upper bound on `[4/5, 1)`. -/
theorem upper2 {s t r : ℚ} (l1 : 4 / 5 ≤ s) (l2 : s < 1)
    (h : 3 < t ∧ t < 6 ∧ Within bEst [] (4 / 5) 1 3 6 [s, t, r] ∨ 2 < t ∧ t < 3 ∧ Within bEst [boundSet tw] (4 / 5) 1 2 3 [s, t, r]) :
    r * (2 * s) ≤ 3 * (1 - s) * t := by
  have hjut : ∀ k ∈ [(1 : ℚ), 2, 3, 4, 5], r ≤ k * (2 - 2 * s) ∨ r ≤ k * (10 / 3 - 16 / 3 * s) + t ∨ r ≤ k * (18 - 24 * s) + t := by
    intro k hk
    have hk0 : 0 < k := by linarith [(five hk).1]
    rcases h with ⟨_, _, h⟩ | ⟨_, _, h⟩ <;> exact jutS_cases hk0 (((within_iff _ _ _ _ _ _ _ _ _).mp h).2.2.2.1 _ (by simp [bEst]) k hk)
  have hb2 : BSet s (t / 2) (r / 2) := by
    rcases h with ⟨_, _, h⟩ | ⟨_, _, h⟩ <;> exact ((within_iff _ _ _ _ _ _ _ _ _).mp h).2.2.2.1 _ (by simp [bEst]) 2 (by simp)
  have ht2 : 2 < t := by rcases h with h | h <;> linarith [h.1]
  have two : 8 * s ≤ 3 * t → t ≤ 4 * s → r * (2 * s) ≤ 3 * (1 - s) * t := by
    intro c1 c2
    obtain ⟨u, p, i, rfl, rfl, hu, hi, hb⟩ := bset_cases (by norm_num) ht2 hb2
    match i, hi, hb with
    | 1, ⟨p1, p2, p3, p4⟩, Or.inr hb =>
      have hb : p ≤ 16 / 3 - 20 / 3 * s + u / 3 := hb
      have h9 : s ≤ 9 / 11 := by linarith
      nlinarith [mul_le_mul_of_nonneg_right hb (show 0 ≤ s by linarith), mul_nonneg (show 0 ≤ 9 - 11 * s by linarith) (show 0 ≤ u by linarith),
        mul_nonneg (show 0 ≤ s by linarith) (show 0 ≤ 5 * s - 4 by linarith)]
    | 2, ⟨p1, p2, p3, p4⟩, Or.inr hb =>
      have hb : p ≤ 5 - 7 * s + 3 / 4 * u := hb
      nlinarith [mul_le_mul_of_nonneg_right hb (show 0 ≤ s by linarith), mul_le_mul_of_nonneg_left c2 (show 0 ≤ 3 * s - 2 by linarith),
        mul_nonneg (show 0 ≤ s by linarith) (show 0 ≤ 5 * s - 4 by linarith)]
    | 3, ⟨p1, p2, p3, p4⟩, Or.inr hb =>
      have hb : p ≤ 3 - 5 * s + u := hb
      nlinarith [mul_le_mul_of_nonneg_right hb (show 0 ≤ s by linarith), mul_le_mul_of_nonneg_left c2 (show 0 ≤ 5 * s - 3 by linarith)]
    | 4, ⟨p1, p2, p3, p4, p5⟩, _ => linarith
    | 5, ⟨p1, p2, p3, p4, p5⟩, _ => linarith
    | 6, ⟨p1, p2, p3, p4, p5, p6⟩, Or.inr hb =>
      have hb : p ≤ 2 - 2 * s := hb
      nlinarith [mul_le_mul_of_nonneg_right hb (show 0 ≤ s by linarith), mul_le_mul_of_nonneg_left c1 (show 0 ≤ 1 - s by linarith)]
    | 7, ⟨p1, p2, p3, p4, p5⟩, _ => linarith
    | 0, hi, _ => exact hi.elim
    | _ + 8, hi, _ => exact hi.elim
  have jut' : ∀ k ∈ [(1 : ℚ), 2, 3, 4, 5], 3 ≤ k → 4 * k * s ≤ 3 * t → 3 * t ≤ 4 * (k + 1) * s → r * (2 * s) ≤ 3 * (1 - s) * t := by
    intro k hk h3 c1 c2
    have e1 := mul_nonneg (show 0 ≤ k - 3 by linarith) (show 0 ≤ 3 * s - 2 by linarith)
    have e2 : 8 * k + 20 * s - 12 ≤ 12 * s * k := by nlinarith
    have e3 : (5 * s - 3) * t ≤ 2 * s * k * (16 * s - 10) / 3 := by
      have := mul_le_mul_of_nonneg_left c2 (show 0 ≤ 5 * s - 3 by linarith)
      have := mul_le_mul_of_nonneg_left e2 (show 0 ≤ s by linarith)
      nlinarith
    have e4 : k * (18 - 24 * s) ≤ k * (10 / 3 - 16 / 3 * s) := mul_le_mul_of_nonneg_left (by linarith) (by linarith)
    have hcase : r ≤ k * (2 - 2 * s) ∨ r ≤ k * (10 / 3 - 16 / 3 * s) + t := by
      rcases hjut k hk with h | h | h
      · exact .inl h
      · exact .inr h
      · exact .inr (by linarith)
    rcases hcase with h | h
    · nlinarith [mul_le_mul_of_nonneg_right h (show 0 ≤ s by linarith), mul_le_mul_of_nonneg_left c1 (show 0 ≤ 1 - s by linarith)]
    · nlinarith [mul_le_mul_of_nonneg_right h (show 0 ≤ s by linarith)]
  rcases h with ⟨h1, h2, h⟩ | ⟨h1, h2, h⟩
  · by_cases c1 : t ≤ 4 * s
    · exact two (by linarith) c1
    by_cases c2 : 3 * t ≤ 16 * s
    · exact jut' 3 (by simp) (by norm_num) (by linarith) (by linarith)
    by_cases c3 : 3 * t ≤ 20 * s
    · exact jut' 4 (by simp) (by norm_num) (by linarith) (by linarith)
    · exact jut' 5 (by simp) (by norm_num) (by linarith) (by linarith)
  · by_cases c1 : 3 * t ≤ 8 * s
    · have hz := twS_case (((within_iff _ _ _ _ _ _ _ _ _).mp h).2.2.2.2 _ (by simp))
      nlinarith [mul_le_mul_of_nonneg_right hz (show 0 ≤ s by linarith), mul_le_mul_of_nonneg_left c1 (show 0 ≤ 7 * s - 3 by linarith),
        mul_nonneg (show 0 ≤ s by linarith) (show 0 ≤ 4 * s - 3 by linarith)]
    · exact two (by linarith) (by linarith)

/-- The upper bound on `[779/1000, 4/5)`. -/
theorem upper1 {s t r : ℚ} (l1 : 779 / 1000 ≤ s) (l2 : s < 4 / 5)
    (h : 3 < t ∧ t < 6 ∧ Within bEst [] (3 / 4) (4 / 5) 3 6 [s, t, r] ∨
      2 < t ∧ t < 3 ∧ Within bEst [boundSet tw] (3 / 4) (4 / 5) 2 3 [s, t, r]) :
    r * (8 * (2 * s - 1)) ≤ 9 * (1 - s) * t := by
  have hr0 : 0 ≤ r := by rcases h with ⟨_, _, h⟩ | ⟨_, _, h⟩ <;> exact ((within_iff _ _ _ _ _ _ _ _ _).mp h).2.2.1.1
  have hjut : ∀ k ∈ [(1 : ℚ), 2, 3, 4, 5], r ≤ k * (2 - 2 * s) ∨ r ≤ k * (10 / 3 - 16 / 3 * s) + t ∨ r ≤ k * (18 - 24 * s) + t := by
    intro k hk
    have hk0 : 0 < k := by linarith [(five hk).1]
    rcases h with ⟨_, _, h⟩ | ⟨_, _, h⟩ <;> exact jutS_cases hk0 (((within_iff _ _ _ _ _ _ _ _ _).mp h).2.2.2.1 _ (by simp [bEst]) k hk)
  have hbk : ∀ k ∈ [(1 : ℚ), 2, 3, 4, 5], BSet s (t / k) (r / k) := by
    intro k hk
    rcases h with ⟨_, _, h⟩ | ⟨_, _, h⟩ <;> exact ((within_iff _ _ _ _ _ _ _ _ _).mp h).2.2.2.1 _ (by simp [bEst]) k hk
  have ht2 : 2 < t := by rcases h with h | h <;> linarith [h.1]
  have u0 : 0 ≤ 2 * s - 1 := by linarith
  -- the quadratic polynomial at which the estimates of Bourgain and Jutila give the published bound
  have Q : 266 * s ^ 2 - 437 * s + 179 ≤ 0 := by nlinarith
  -- bounds of the form `k (2 - 2 sigma)`
  have mont : ∀ k : ℚ, r ≤ k * (2 - 2 * s) → 16 * k * (2 * s - 1) ≤ 9 * t → r * (8 * (2 * s - 1)) ≤ 9 * (1 - s) * t := by
    intro k h c
    nlinarith [mul_le_mul_of_nonneg_right h u0, mul_le_mul_of_nonneg_left c (show 0 ≤ 1 - s by linarith)]
  -- bounds of the form `c + tau`
  have slope : ∀ c : ℚ, r ≤ c + t → (25 * s - 17) * t ≤ -c * (8 * (2 * s - 1)) → r * (8 * (2 * s - 1)) ≤ 9 * (1 - s) * t := by
    intro c h k
    nlinarith [mul_le_mul_of_nonneg_right h u0]
  -- Jutila and row 1 of Bourgain
  have both : ∀ k : ℚ, 0 < k → r ≤ k * (18 - 24 * s) + t → r ≤ k * (16 / 3 - 20 / 3 * s) + t / 3 → r * (8 * (2 * s - 1)) ≤ 9 * (1 - s) * t := by
    intro k hk h1 h2
    have g1 := mul_le_mul_of_nonneg_left h1 (show 0 ≤ 35 - 43 * s by linarith)
    have g2 := mul_le_mul_of_nonneg_left h2 (show 0 ≤ 75 * s - 51 by linarith)
    have g3 := mul_le_mul_of_nonneg_left Q hk.le
    nlinarith
  rcases h with ⟨h1, h2, h⟩ | ⟨h1, h2, h⟩
  · by_cases c3 : 9 * t ≤ 48 * (2 * s - 1)
    · -- `t ≤ 3 T`
      obtain ⟨u, p, i, rfl, rfl, hu, hi, hb⟩ := bset_cases (by norm_num) ht2 (hbk 2 (by simp))
      match i, hi, hb with
      | 1, ⟨p1, p2, p3, p4⟩, _ => linarith
      | 2, ⟨p1, p2, p3, p4⟩, Or.inr hb =>
        have hb : p ≤ 5 - 7 * s + 3 / 4 * u := hb
        nlinarith [mul_le_mul_of_nonneg_right hb u0, mul_le_mul_of_nonneg_left c3 (show 0 ≤ 7 * s - 5 by linarith)]
      | 3, ⟨p1, p2, p3, p4⟩, _ => linarith
      | 4, ⟨p1, p2, p3, p4, p5⟩, _ => linarith
      | 5, ⟨p1, p2, p3, p4, p5⟩, _ => linarith
      | 6, ⟨p1, p2, p3, p4, p5, p6⟩, _ => linarith
      | 7, ⟨p1, p2, p3, p4, p5⟩, _ => linarith
      | 0, hi, _ => exact hi.elim
      | _ + 8, hi, _ => exact hi.elim
    by_cases c4 : 9 * t ≤ 64 * (2 * s - 1)
    · rcases hjut 3 (by simp) with h | h | h
      · exact mont 3 h (by linarith)
      · exact slope (3 * (10 / 3 - 16 / 3 * s)) (by linarith)
          (by nlinarith [mul_le_mul_of_nonneg_left c4 (show 0 ≤ 25 * s - 17 by linarith), mul_nonneg u0 (show 0 ≤ 11 * s - 7 by linarith)])
      · obtain ⟨u, p, i, e1, e2, hu, hi, hb⟩ := bset_cases (by norm_num) h1 (hbk 3 (by simp))
        match i, hi, hb with
        | 1, ⟨p1, p2, p3, p4⟩, Or.inr hb =>
          have hb : p ≤ 16 / 3 - 20 / 3 * s + u / 3 := hb
          exact both 3 (by norm_num) (by linarith) (by linarith)
        | 2, ⟨p1, p2, p3, p4⟩, _ => linarith
        | 3, ⟨p1, p2, p3, p4⟩, _ => linarith
        | 4, ⟨p1, p2, p3, p4, p5⟩, _ => linarith
        | 5, ⟨p1, p2, p3, p4, p5⟩, _ => linarith
        | 6, ⟨p1, p2, p3, p4, p5, p6⟩, Or.inr hb =>
          have hb : p ≤ 2 - 2 * s := hb
          exact mont 3 (by linarith) (by linarith)
        | 7, ⟨p1, p2, p3, p4, p5⟩, _ => linarith
        | 0, hi, _ => exact hi.elim
        | _ + 8, hi, _ => exact hi.elim
    by_cases c5 : 9 * t ≤ 80 * (2 * s - 1)
    · rcases hjut 4 (by simp) with h | h | h
      · exact mont 4 h (by linarith)
      · exact slope (4 * (10 / 3 - 16 / 3 * s)) (by linarith)
          (by nlinarith [mul_le_mul_of_nonneg_left c5 (show 0 ≤ 25 * s - 17 by linarith), mul_nonneg u0 (show 0 ≤ 1000 * s - 778 by linarith)])
      · exact slope (4 * (18 - 24 * s)) (by linarith)
          (by nlinarith [mul_le_mul_of_nonneg_left c5 (show 0 ≤ 25 * s - 17 by linarith), mul_nonneg u0 (show 0 ≤ 614 * s - 478 by linarith)])
    · have c6 : 9 * t ≤ 98 * (2 * s - 1) := by linarith
      rcases hjut 5 (by simp) with h | h | h
      · exact mont 5 h (by linarith)
      · exact slope (5 * (10 / 3 - 16 / 3 * s)) (by linarith)
          (by nlinarith [mul_le_mul_of_nonneg_left c6 (show 0 ≤ 25 * s - 17 by linarith), mul_nonneg u0 (show 0 ≤ 1000 * s - 778 by linarith)])
      · exact slope (5 * (18 - 24 * s)) (by linarith)
          (by nlinarith [mul_le_mul_of_nonneg_left c6 (show 0 ≤ 25 * s - 17 by linarith), mul_nonneg u0 (show 0 ≤ 1000 * s - 778 by linarith)])
  · by_cases c2 : 9 * t ≤ 32 * (2 * s - 1)
    · have hz := twS_case (((within_iff _ _ _ _ _ _ _ _ _).mp h).2.2.2.2 _ (by simp))
      nlinarith [mul_le_mul_of_nonneg_right hz u0, mul_le_mul_of_nonneg_left c2 (show 0 ≤ 41 * s - 25 by linarith),
        mul_nonneg u0 (show 0 ≤ 46 - 56 * s by linarith)]
    by_cases c3 : 9 * t ≤ 48 * (2 * s - 1)
    · rcases hjut 2 (by simp) with hj | hj
      · exact mont 2 hj (by linarith)
      obtain ⟨u, p, i, e1, e2, hu, hi, hb⟩ := bset_cases (by norm_num) ht2 (hbk 2 (by simp))
      match i, hi, hb with
      | 1, ⟨p1, p2, p3, p4⟩, Or.inr hb =>
        have hb : p ≤ 16 / 3 - 20 / 3 * s + u / 3 := hb
        rcases hj with hj | hj
        · by_cases c : t ≤ 5 / 2
          · exact slope (2 * (10 / 3 - 16 / 3 * s)) (by linarith)
              (by nlinarith [mul_le_mul_of_nonneg_left c (show 0 ≤ 25 * s - 17 by linarith)])
          · have hb' : r ≤ 2 * (16 / 3 - 20 / 3 * s) + t / 3 := by linarith
            have := mul_le_mul_of_nonneg_left (not_le.mp c).le (show 0 ≤ 35 - 43 * s by linarith)
            nlinarith [mul_le_mul_of_nonneg_right hb' u0]
        · exact both 2 (by norm_num) (by linarith) (by linarith)
      | 2, ⟨p1, p2, p3, p4⟩, Or.inr hb =>
        have hb : p ≤ 5 - 7 * s + 3 / 4 * u := hb
        subst e1 e2
        nlinarith [mul_le_mul_of_nonneg_right hb u0, mul_le_mul_of_nonneg_left c3 (show 0 ≤ 7 * s - 5 by linarith)]
      | 3, ⟨p1, p2, p3, p4⟩, _ => linarith
      | 4, ⟨p1, p2, p3, p4, p5⟩, _ => linarith
      | 5, ⟨p1, p2, p3, p4, p5⟩, _ => linarith
      | 6, ⟨p1, p2, p3, p4, p5, p6⟩, Or.inr hb =>
        have hb : p ≤ 2 - 2 * s := hb
        exact mont 2 (by linarith) (by linarith)
      | 7, ⟨p1, p2, p3, p4, p5⟩, _ => linarith
      | 0, hi, _ => exact hi.elim
      | _ + 8, hi, _ => exact hi.elim
    · rcases hjut 3 (by simp) with hj | hj | hj
      · exact mont 3 hj (by linarith)
      · exact slope (3 * (10 / 3 - 16 / 3 * s)) (by linarith)
          (by nlinarith [mul_le_mul_of_nonneg_left h2.le (show 0 ≤ 25 * s - 17 by linarith)])
      · exact slope (3 * (18 - 24 * s)) (by linarith)
          (by nlinarith [mul_le_mul_of_nonneg_left h2.le (show 0 ≤ 25 * s - 17 by linarith)])

/-! ### Triples that are allowed -/

theorem small_power {S : Est} (hS : Small S) {s t r k : ℚ} (hk : k ∈ [(1 : ℚ), 2, 3, 4, 5]) (h1 : 1 / 2 ≤ s) (h2 : s ≤ 1) (h3 : 0 ≤ t)
    (h4 : t ≤ 6) (h5 : 0 ≤ r) (h6 : r ≤ k * (2 - 2 * s)) : S s (t / k) (r / k) := by
  obtain ⟨k1, k2⟩ := five hk
  have hk0 : 0 < k := by linarith
  refine hS _ _ _ h1 h2 (by positivity) ?_ (by positivity) ?_
  · rw [div_le_iff₀ hk0]; linarith
  · rw [div_le_iff₀' hk0]; linarith

theorem bound_power {bs : List (ℚ × ℚ × ℚ)} {s t r k : ℚ} (b0 b1 : ℚ) (hb : (b0, b1, 1) ∈ bs) (hk : k ∈ [(1 : ℚ), 2, 3, 4, 5])
    (h1 : 1 / 2 ≤ s) (h2 : s ≤ 1) (h3 : 0 ≤ t) (h4 : t ≤ 6) (h5 : 0 ≤ r) (h5' : r ≤ 100) (h6 : r ≤ k * (b0 + b1 * s) + t) :
    boundSet bs s (t / k) (r / k) := by
  obtain ⟨k1, k2⟩ := five hk
  have hk0 : 0 < k := by linarith
  refine ⟨⟨h1, h2, by positivity, ?_, by positivity, ?_⟩, _, hb, ?_⟩
  · rw [div_le_iff₀ hk0]; linarith
  · rw [div_le_iff₀ hk0]; linarith
  · rw [div_le_iff₀' hk0]
    have e : k * bval (b0, b1, 1) s (t / k) = k * (b0 + b1 * s) + t := by unfold bval; field_simp
    linarith

theorem row_power {s t r k : ℚ} (i : ℕ) (hk : k ∈ [(1 : ℚ), 2, 3, 4, 5]) (h5 : 0 ≤ r) (hi : InRow i s (t / k))
    (h : i = 5 ∨ r ≤ k * rowBound i s (t / k)) : BSet s (t / k) (r / k) := by
  obtain ⟨k1, k2⟩ := five hk
  have hk0 : 0 < k := by linarith
  refine .inr ⟨by positivity, i, hi, h.imp_right fun h => ?_⟩
  rw [div_le_iff₀' hk0]
  exact h

/-- The powers from `m` on are automatic if `r ≤ m (2 - 2 sigma)`. -/
theorem est_powers {s t r : ℚ} (m : ℚ) (h1 : 1 / 2 ≤ s) (h2 : s ≤ 1) (h3 : 0 ≤ t) (h4 : t ≤ 6) (h5 : 0 ≤ r) (hm : r ≤ m * (2 - 2 * s))
    (h : ∀ k ∈ [(1 : ℚ), 2, 3, 4, 5], k < m → boundSet l2 s (t / k) (r / k) ∧ BSet s (t / k) (r / k) ∧ boundSet jut s (t / k) (r / k)) :
    ∀ S ∈ bEst, ∀ k ∈ [(1 : ℚ), 2, 3, 4, 5], S s (t / k) (r / k) := by
  intro S hS k hk
  simp only [bEst, List.mem_cons, List.not_mem_nil, or_false] at hS
  by_cases hkm : k < m
  · obtain ⟨g1, g2, g3⟩ := h k hk hkm
    rcases hS with rfl | rfl | rfl
    exacts [g1, g2, g3]
  · have hr : r ≤ k * (2 - 2 * s) := by
      have := mul_le_mul_of_nonneg_right (not_lt.mp hkm) (show 0 ≤ 2 - 2 * s by linarith)
      linarith
    have hsm : Small S := by
      rcases hS with rfl | rfl | rfl
      · exact bounds_small (by simp [l2])
      · exact bset_small
      · exact bounds_small (by simp [jut])
    exact small_power hsm hk h1 h2 h3 h4 h5 hr

theorem below3 {k : ℚ} (hk : k ∈ [(1 : ℚ), 2, 3, 4, 5]) (h : k < 3) : k = 1 ∨ k = 2 := by
  simp only [List.mem_cons, List.not_mem_nil, or_false] at hk
  rcases hk with rfl | rfl | rfl | rfl | rfl
  · exact .inl rfl
  · exact .inr rfl
  all_goals norm_num at h

theorem below4 {k : ℚ} (hk : k ∈ [(1 : ℚ), 2, 3, 4, 5]) (h : k < 4) : k = 1 ∨ k = 2 ∨ k = 3 := by
  simp only [List.mem_cons, List.not_mem_nil, or_false] at hk
  rcases hk with rfl | rfl | rfl | rfl | rfl
  · exact .inl rfl
  · exact .inr (.inl rfl)
  · exact .inr (.inr rfl)
  all_goals norm_num at h

/-- The triple at which the bound on `[4/5, 1)` is attained. -/
theorem attained2 {s : ℚ} (l1 : 4 / 5 ≤ s) (l2 : s < 1) : RightLimit (Stage1 (4 / 5) 1) s (4 * s) (6 * (1 - s)) := by
  refine cone_limit 1 100 ((1 - s) / 100) (by linarith) ?_
  intro η h0 h1 s' t' r' n1 n2 n3
  rw [abs_lt] at n1 n2 n3
  obtain ⟨a1, a2⟩ := n1
  obtain ⟨b1, b2⟩ := n2
  obtain ⟨c1, c2⟩ := n3
  have hr : 0 ≤ r' := by linarith
  refine (within_iff _ _ _ _ _ _ _ _ _).mpr ⟨⟨by linarith, by linarith⟩, ⟨by linarith, by linarith⟩, ⟨hr, by linarith⟩, ?_, by simp⟩
  refine est_powers 3 (by linarith) (by linarith) (by linarith) (by linarith) hr (by linarith) ?_
  intro k hk hlt
  refine ⟨bound_power 1 (-2) (by simp [DerivedZD.l2]) hk (by linarith) (by linarith) (by linarith) (by linarith) hr (by linarith) ?_, ?_,
    bound_power (10 / 3) (-(16 / 3)) (by simp [jut]) hk (by linarith) (by linarith) (by linarith) (by linarith) hr (by linarith) ?_⟩
  · rcases below3 hk hlt with rfl | rfl <;> linarith
  · rcases below3 hk hlt with rfl | rfl
    · refine row_power 4 hk hr ⟨by linarith, by linarith, by linarith, by linarith, by linarith⟩ (.inr ?_)
      show r' ≤ 1 * (-4 * s' + 2 * (t' / 1))
      linarith
    · refine row_power 3 hk hr ⟨by linarith, by linarith, by linarith, by linarith⟩ (.inr ?_)
      show r' ≤ 2 * (3 - 5 * s' + t' / 2)
      linarith
  · rcases below3 hk hlt with rfl | rfl <;> linarith

/-- The triple at which the bound on `[779/1000, 4/5)` is attained. -/
theorem attained1 {s : ℚ} (l1 : 779 / 1000 ≤ s) (l2 : s < 4 / 5) :
    RightLimit (Stage1 (3 / 4) (4 / 5)) s (16 * (2 * s - 1) / 3) (6 * (1 - s)) ∨
      RightLimit (Stage2 (3 / 4) (4 / 5)) s (16 * (2 * s - 1) / 3) (6 * (1 - s)) := by
  have key : ∀ (c : ℚ), -1 ≤ c → c ≤ 1 → ∀ η, 0 < η → η ≤ (4 - 5 * s) / 1000 → ∀ s' t' r' : ℚ, |s' - (s + η)| < η / 2 →
      |t' - (16 * (2 * s - 1) / 3 + c * η)| < η / 2 → |r' - (6 * (1 - s) - 100 * η)| < η / 2 →
      (3 / 4 ≤ s' ∧ s' ≤ 4 / 5) ∧ (0 ≤ r' ∧ r' ≤ 1000000) ∧ (∀ S ∈ bEst, ∀ k ∈ [(1 : ℚ), 2, 3, 4, 5], S s' (t' / k) (r' / k)) ∧
      boundSet tw s' t' r' := by
    intro c k1 k2 η h0 h1 s' t' r' n1 n2 n3
    have m1 : -η ≤ c * η := by nlinarith
    have m2 : c * η ≤ η := by nlinarith
    rw [abs_lt] at n1 n2 n3
    obtain ⟨a1, a2⟩ := n1
    obtain ⟨b1, b2⟩ := n2
    obtain ⟨c1, c2⟩ := n3
    have hr : 0 ≤ r' := by linarith
    refine ⟨⟨by linarith, by linarith⟩, ⟨hr, by linarith⟩, ?_, ?_⟩
    · refine est_powers 3 (by linarith) (by linarith) (by linarith) (by linarith) hr (by linarith) ?_
      intro k hk hlt
      refine ⟨bound_power 1 (-2) (by simp [DerivedZD.l2]) hk (by linarith) (by linarith) (by linarith) (by linarith) hr (by linarith) ?_, ?_,
        bound_power (10 / 3) (-(16 / 3)) (by simp [jut]) hk (by linarith) (by linarith) (by linarith) (by linarith) hr (by linarith) ?_⟩
      · rcases below3 hk hlt with rfl | rfl <;> linarith
      · rcases below3 hk hlt with rfl | rfl
        · refine row_power 4 hk hr ⟨by linarith, by linarith, by linarith, by linarith, by linarith⟩ (.inr ?_)
          show r' ≤ 1 * (-4 * s' + 2 * (t' / 1))
          linarith
        · refine row_power 2 hk hr ⟨by linarith, by linarith, by linarith, by linarith⟩ (.inr ?_)
          show r' ≤ 2 * (5 - 7 * s' + 3 / 4 * (t' / 2))
          linarith
      · rcases below3 hk hlt with rfl | rfl <;> linarith
    · refine ⟨⟨by linarith, by linarith, by linarith, by linarith, hr, by linarith⟩, (6, -12, 2), by simp [tw], ?_⟩
      unfold bval
      simp only
      linarith
  rcases le_total 3 (16 * (2 * s - 1) / 3) with h | h
  · left
    refine cone_limit 1 100 ((4 - 5 * s) / 1000) (by linarith) ?_
    intro η h0 h1 s' t' r' n1 n2 n3
    obtain ⟨g1, g2, g3, g4⟩ := key 1 (by norm_num) (by norm_num) η h0 h1 s' t' r' n1 n2 n3
    rw [abs_lt] at n2
    exact (within_iff _ _ _ _ _ _ _ _ _).mpr ⟨g1, ⟨by linarith [n2.1], by linarith [n2.2]⟩, g2, g3, by simp⟩
  · right
    refine cone_limit (-1) 100 ((4 - 5 * s) / 1000) (by linarith) ?_
    intro η h0 h1 s' t' r' n1 n2 n3
    obtain ⟨g1, g2, g3, g4⟩ := key (-1) (by norm_num) (by norm_num) η h0 h1 s' t' r' n1 n2 n3
    rw [abs_lt] at n2
    exact (within_iff _ _ _ _ _ _ _ _ _).mpr ⟨g1, ⟨by linarith [n2.1], by linarith [n2.2]⟩, g2, g3, by simpa using g4⟩

/-- The triple that rules out the published bound. -/
theorem extra {s : ℚ} (l1 : 17 / 22 ≤ s) (l2 : s ≤ 1947 / 2500) : RightLimit (Stage1 (3 / 4) (4 / 5)) s (78 * s - 57) (6 * s - 3) := by
  refine cone_limit 0 500 (1 / 100000) (by norm_num) ?_
  intro η h0 h1 s' t' r' n1 n2 n3
  rw [abs_lt] at n1 n2 n3
  obtain ⟨a1, a2⟩ := n1
  obtain ⟨b1, b2⟩ := n2
  obtain ⟨c1, c2⟩ := n3
  have hr : 0 ≤ r' := by linarith
  refine (within_iff _ _ _ _ _ _ _ _ _).mpr ⟨⟨by linarith, by linarith⟩, ⟨by linarith, by linarith⟩, ⟨hr, by linarith⟩, ?_, by simp⟩
  refine est_powers 4 (by linarith) (by linarith) (by linarith) (by linarith) hr (by linarith) ?_
  intro k hk hlt
  refine ⟨bound_power 1 (-2) (by simp [DerivedZD.l2]) hk (by linarith) (by linarith) (by linarith) (by linarith) hr (by linarith) ?_, ?_,
    bound_power 18 (-24) (by simp [jut]) hk (by linarith) (by linarith) (by linarith) (by linarith) hr (by linarith) ?_⟩
  · rcases below4 hk hlt with rfl | rfl | rfl <;> linarith
  · rcases below4 hk hlt with rfl | rfl | rfl
    · refine row_power 4 hk hr ⟨by linarith, by linarith, by linarith, by linarith, by linarith⟩ (.inr ?_)
      show r' ≤ 1 * (-4 * s' + 2 * (t' / 1))
      linarith
    · exact row_power 5 hk hr ⟨by linarith, by linarith, by linarith, by linarith, by linarith⟩ (.inl rfl)
    · refine row_power 1 hk hr ⟨by linarith, by linarith, by linarith, by linarith⟩ (.inr ?_)
      show r' ≤ 3 * (16 / 3 - 20 / 3 * s' + t' / 3 / 3)
      linarith
  · rcases below4 hk hlt with rfl | rfl | rfl <;> linarith

/-! ### The bounds -/

theorem _root_.Expdb.DerivedZD.Pieces.within {x0 x1 y0 y1 : ℚ} {out : List (Rational.Piece ℝ)} (hp : Pieces x0 x1 out) (h0 : x0 ≤ y0)
    (h1 : y1 ≤ x1) {w : ℝ → ℝ} (hw : ∀ x : ℝ, y0 ≤ x → x < y1 → ContinuousAt w x)
    (h : ∀ s : ℚ, y0 ≤ s → s < y1 → ∃ q ∈ out, q.dom.x0 ≤ s ∧ s < q.dom.x1 ∧ q.fn.at s = w s) : IsBound y0 y1 out w := by
  have h0' : (x0 : ℝ) ≤ y0 := by exact_mod_cast h0
  have h1' : (y1 : ℝ) ≤ x1 := by exact_mod_cast h1
  intro x l1 l2
  obtain ⟨q, q1, q2, q3, q4⟩ := hp.1.exists_unique x (by linarith) (by linarith)
  refine ⟨q, q1, q2, q3, q4, ?_⟩
  have hc : ContinuousAt q.fn.at x := by
    unfold RF.at
    exact (Expr.continuous _).continuousAt.div (Expr.continuous _).continuousAt (hp.2 q q1 x q2 q3)
  by_contra hne
  have hev : ∀ᶠ y in nhds x, q.fn.at y - w y ≠ 0 := (hc.sub (hw x l1 l2)).eventually_ne (sub_ne_zero.mpr hne)
  obtain ⟨ε, e1, e2⟩ := Metric.eventually_nhds_iff.mp hev
  obtain ⟨s, s1, s2⟩ := exists_rat_btwn (show x < min (min (x + ε) q.dom.x1) y1 from lt_min (lt_min (by linarith) q3) l2)
  have s3 := (s2.trans_le (min_le_left _ _)).trans_le (min_le_left _ _)
  have s4 := (s2.trans_le (min_le_left _ _)).trans_le (min_le_right _ _)
  have s5 := s2.trans_le (min_le_right _ _)
  obtain ⟨q', k1, k2, k3, k4⟩ := h s (by exact_mod_cast l1.trans s1.le) (by exact_mod_cast s5)
  obtain ⟨p, _, _, _, hu⟩ := hp.1.exists_unique (s : ℝ) (by linarith) (by linarith)
  rw [hu q' k1 k2 k3, ← hu q q1 (q2.trans s1.le) s4] at k4
  exact e2 (by rw [Real.dist_eq, abs_lt]; constructor <;> linarith) (sub_eq_zero.mpr k4)

theorem stage_pos {LS ZS : List Est} {x0 x1 a b s t r : ℚ} (ha : 1 ≤ a) (h : RightLimit (Within LS ZS x0 x1 a b) s t r) : 0 < t := by
  have := limit_le h (fun p => 1 - p.2.1) (by fun_prop) (fun s' t' r' _ h' => by
    have := (stage_interior h').2.1
    simp only
    linarith)
  simp only at this
  linarith

theorem greatest_of {A1 A2 : Pt → Prop} {s n u : ℚ} (hu : 0 < u) (h1 : ∀ t r, RightLimit A1 s t r ∨ RightLimit A2 s t r → 0 < t ∧ r * u ≤ n * t)
    {t r : ℚ} (h2 : RightLimit A1 s t r ∨ RightLimit A2 s t r) (h3 : r * u = n * t) {v : ℝ} (hv : IsGreatest (LimitRatios A1 A2 s) v) :
    v = ((n / u : ℚ) : ℝ) := by
  refine hv.unique ⟨⟨t, r, h2, ?_⟩, ?_⟩
  · have : n / u = r / t := by rw [div_eq_div_iff hu.ne' (h1 t r h2).1.ne', h3]
    rw [this]
  · rintro w ⟨t', r', h', rfl⟩
    obtain ⟨g1, g2⟩ := h1 t' r' h'
    have : r' / t' ≤ n / u := by
      rw [div_le_div_iff₀ g1 hu]
      exact g2
    exact_mod_cast this

/-- **C96** (the bounds that are found) The function finds `A(sigma) ≤ 3 / (2 sigma)` on `[4/5, 1)` and, on `[779/1000, 4/5)`, the second
of the two bounds `2 / (9 sigma - 6)`, `9 / (8 (2 sigma - 1))` of the published theorem, which is the larger one there. Both are found
exactly (the pieces give `A(sigma) (1 - sigma)`).

Missing for the full statement: the published theorem is stated from `17/22` on, see `C96_published_counterexample`. -/
theorem C96_bounds_partial (C : Contracts eng edges solve isZero orderR orderK) :
    ∃ p q, proveBourgainImproved eng edges solve isZero orderR orderK = .ok (p, q) ∧
      IsBound (779 / 1000) (4 / 5) p (fun x => 9 * (1 - x) / (8 * (2 * x - 1))) ∧
      IsBound (4 / 5) 1 q (fun x => 3 * (1 - x) / (2 * x)) := by
  obtain ⟨p, q, e, hp, hq⟩ := C96_value C
  refine ⟨p, q, e, ?_, ?_⟩
  · refine hp.1.within (by norm_num) le_rfl (fun x l1 _ => ?_) fun s l1 l2 => ?_
    · push_cast at l1
      refine ContinuousAt.div (by fun_prop) (by fun_prop) ?_
      intro h0
      linarith
    · obtain ⟨a, a1, a2, a3, _, a5⟩ := hp.2 s (by linarith) l2
      refine ⟨a, a1, a2, a3, ?_⟩
      have := greatest_of (n := 9 * (1 - s)) (u := 8 * (2 * s - 1)) (by linarith) ?_ (attained1 l1 l2) (by ring) a5
      · rw [this]; push_cast; rfl
      · rintro t r (h | h)
        · refine ⟨stage_pos (by norm_num) h, ?_⟩
          have := limit_le h (fun p => p.2.2 * (8 * (2 * p.1 - 1)) - 9 * (1 - p.1) * p.2.1) (by fun_prop) (fun s' t' r' l' h' => by
            obtain ⟨i1, i2, i3, i4⟩ := stage_interior h'
            have := upper1 (by linarith) i1 (.inl ⟨i2, i3, i4⟩)
            simp only
            linarith)
          simp only at this
          linarith
        · refine ⟨stage_pos (by norm_num) h, ?_⟩
          have := limit_le h (fun p => p.2.2 * (8 * (2 * p.1 - 1)) - 9 * (1 - p.1) * p.2.1) (by fun_prop) (fun s' t' r' l' h' => by
            obtain ⟨i1, i2, i3, i4⟩ := stage_interior h'
            have := upper1 (by linarith) i1 (.inr ⟨i2, i3, i4⟩)
            simp only
            linarith)
          simp only at this
          linarith
  · refine hq.1.within le_rfl le_rfl (fun x l1 _ => ?_) fun s l1 l2 => ?_
    · push_cast at l1
      refine ContinuousAt.div (by fun_prop) (by fun_prop) ?_
      intro h0
      linarith
    · obtain ⟨a, a1, a2, a3, _, a5⟩ := hq.2 s (by linarith) l2
      refine ⟨a, a1, a2, a3, ?_⟩
      have := greatest_of (n := 3 * (1 - s)) (u := 2 * s) (by linarith) ?_ (.inl (attained2 l1 l2)) (by ring) a5
      · rw [this]; push_cast; rfl
      · rintro t r (h | h)
        · refine ⟨stage_pos (by norm_num) h, ?_⟩
          have := limit_le h (fun p => p.2.2 * (2 * p.1) - 3 * (1 - p.1) * p.2.1) (by fun_prop) (fun s' t' r' l' h' => by
            obtain ⟨i1, i2, i3, i4⟩ := stage_interior h'
            have := upper2 (by linarith) i1 (.inl ⟨i2, i3, i4⟩)
            simp only
            linarith)
          simp only at this
          linarith
        · refine ⟨stage_pos (by norm_num) h, ?_⟩
          have := limit_le h (fun p => p.2.2 * (2 * p.1) - 3 * (1 - p.1) * p.2.1) (by fun_prop) (fun s' t' r' l' h' => by
            obtain ⟨i1, i2, i3, i4⟩ := stage_interior h'
            have := upper2 (by linarith) i1 (.inr ⟨i2, i3, i4⟩)
            simp only
            linarith)
          simp only at this
          linarith

/-- Two values: at `79/100` the bound is `189/464`, at `9/10` it is `1/6`. -/
example : ∃ eng edges solve isZero orderR orderK p q, proveBourgainImproved eng edges solve isZero orderR orderK = .ok (p, q) ∧
    (∃ a ∈ p, a.fn.at (79 / 100 : ℝ) = 189 / 464) ∧ ∃ a ∈ q, a.fn.at (9 / 10 : ℝ) = 1 / 6 := by
  obtain ⟨eng, edges, solve, isZero, orderR, orderK, C⟩ := contracts_satisfiable
  obtain ⟨p, q, h1, h2, h3⟩ := C96_bounds_partial C
  obtain ⟨a, a1, _, _, _, a5⟩ := h2 (79 / 100) (by norm_num) (by norm_num)
  obtain ⟨b, b1, _, _, _, b5⟩ := h3 (9 / 10) (by norm_num) (by norm_num)
  refine ⟨eng, edges, solve, isZero, orderR, orderK, p, q, h1, ⟨a, a1, ?_⟩, b, b1, ?_⟩
  · rw [a5]; norm_num
  · rw [b5]; norm_num

/-- **C96** (finding) The published theorem for which this function is cited as the proof is
`A(sigma) ≤ max(2 / (9 sigma - 6), 9 / (8 (2 sigma - 1)))` for `17/22 ≤ sigma ≤ 4/5`. The function does not derive it: at every rational
`sigma` from `17/22` to `0.7788` the value of its output is at least `(2 sigma - 1) / (26 sigma - 19)`, which is larger than the published
bound times `1 - sigma`. The triple `tau = 78 sigma - 57`, `rho = 6 sigma - 3` is allowed by all estimates used (Jutila's estimate with
`k = 3`, Bourgain's estimate with the best parameters and the mean value theorem, and their powers up to 5). The case distinction in the
proof in the blueprint has the same triple (divided by 3) at the place where Bourgain's estimate is applied. -/
theorem C96_published_counterexample (C : Contracts eng edges solve isZero orderR orderK) :
    ∃ p q, proveBourgainImproved eng edges solve isZero orderR orderK = .ok (p, q) ∧
      ∀ s : ℚ, 17 / 22 ≤ s → s ≤ 1947 / 2500 → ∃ a ∈ p, a.dom.x0 ≤ s ∧ s < a.dom.x1 ∧
        (∀ b ∈ p, b.dom.x0 ≤ s → s < b.dom.x1 → b = a) ∧
        max (2 / (9 * (s : ℝ) - 6)) (9 / (8 * (2 * s - 1))) * (1 - s) < a.fn.at s := by
  obtain ⟨p, q, e, hp, hq⟩ := C96_value C
  refine ⟨p, q, e, fun s l1 l2 => ?_⟩
  obtain ⟨a, a1, a2, a3, a4, a5⟩ := hp.2 s (by linarith) (by linarith)
  refine ⟨a, a1, a2, a3, a4, lt_of_lt_of_le ?_ (a5.2 ⟨_, _, .inl (extra l1 l2), rfl⟩)⟩
  have key : max (2 / (9 * s - 6)) (9 / (8 * (2 * s - 1))) * (1 - s) < (6 * s - 3) / (78 * s - 57) := by
    rw [max_mul_of_nonneg _ _ (by linarith)]
    refine max_lt ?_ ?_
    · rw [div_mul_eq_mul_div, div_lt_div_iff₀ (by linarith) (by linarith)]
      nlinarith
    · rw [div_mul_eq_mul_div, div_lt_div_iff₀ (by linarith) (by linarith)]
      nlinarith
  have key' := (Rat.cast_lt (K := ℝ)).mpr key
  push_cast at key' ⊢
  exact key'

/-- At `31/40` the published bound gives `6/13`, the output at least `11/23`. -/
example : ∃ eng edges solve isZero orderR orderK p q, proveBourgainImproved eng edges solve isZero orderR orderK = .ok (p, q) ∧
    ∃ a ∈ p, a.dom.x0 ≤ ((31 / 40 : ℚ) : ℝ) ∧ 6 / 13 < a.fn.at ((31 / 40 : ℚ) : ℝ) := by
  obtain ⟨eng, edges, solve, isZero, orderR, orderK, C⟩ := contracts_satisfiable
  obtain ⟨p, q, h1, h2⟩ := C96_published_counterexample C
  obtain ⟨a, a1, a2, _, _, a5⟩ := h2 (31 / 40) (by norm_num) (by norm_num)
  refine ⟨eng, edges, solve, isZero, orderR, orderK, p, q, h1, a, a1, a2, lt_of_le_of_lt ?_ a5⟩
  have h := mul_le_mul_of_nonneg_right (le_max_left (2 / (9 * ((31 / 40 : ℚ) : ℝ) - 6)) (9 / (8 * (2 * ((31 / 40 : ℚ) : ℝ) - 1))))
    (show 0 ≤ 1 - ((31 / 40 : ℚ) : ℝ) by norm_num)
  refine le_trans ?_ h
  norm_num

end DerivedZD
end Expdb
