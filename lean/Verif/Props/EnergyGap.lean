import Verif.Props.EnergyPlot
import Verif.Props.PrimeGapInput
import Mathlib.NumberTheory.Real.Irrational

/-!
# C102: the energy estimates that `prove_prime_gap2` uses follow from the derived ones
-/

namespace Expdb
namespace EnergyGap

open Rational SupRatio Mat Region ZeroDensity DerivedZD DerivedEnergy RegionUnb Literature EnergyUnb EnergyPlot PrimeGap

/-- The fourth function of the list in `prove_prime_gap2`. -/
noncomputable def r4 (x : ℝ) : ℝ := (3 * (29 - 30 * x)) / ((5 * (5 * x - 1)) * (1 - x))

theorem g1_le_g3 {x : ℝ} (h1 : 25 / 33 ≤ x) (h2 : x < 289 / 380) : g1 x ≤ g3 x := by
  unfold g1 g3
  refine le_of_cross (by linarith) (by linarith) (by linarith) ?_
  nlinarith [mul_nonneg (sub_nonneg.mpr h1) (sub_nonneg.mpr h2.le)]

theorem g1_le_r4 {x : ℝ} (h1 : 289 / 380 ≤ x) (h2 : x < 42 / 55) : g1 x ≤ r4 x := by
  unfold g1 r4
  refine le_of_cross (by linarith) (by linarith) (by linarith) ?_
  nlinarith [mul_nonneg (sub_nonneg.mpr h1) (sub_nonneg.mpr h2.le)]

theorem g8_le_r4 {x : ℝ} (h1 : 42 / 55 ≤ x) (h2 : x < 97 / 127) : g8 x ≤ r4 x := by
  unfold g8 r4
  refine le_of_cross (by linarith) (by linarith) (by linarith) ?_
  nlinarith [mul_nonneg (sub_nonneg.mpr h1) (sub_nonneg.mpr h2.le)]

theorem g9_le_r4 {x : ℝ} (h1 : 97 / 127 ≤ x) (h2 : x < 79 / 103) : g9 x ≤ r4 x := by
  unfold g9 r4
  refine le_of_cross (by linarith) (by linarith) (by linarith) ?_
  nlinarith [mul_nonneg (sub_nonneg.mpr h1) (sub_nonneg.mpr h2.le)]

theorem g10_le_r4 {x : ℝ} (h1 : 79 / 103 ≤ x) (h2 : x < 33 / 43) : g10 x ≤ r4 x := by
  unfold g10 r4
  refine le_of_cross (by linarith) (by linarith) (by linarith) ?_
  nlinarith [mul_nonneg (sub_nonneg.mpr h1) (sub_nonneg.mpr h2.le)]

theorem g11_le_r4 {x : ℝ} (h1 : 33 / 43 ≤ x) (h2 : x < 84 / 109) : g11 x ≤ r4 x := by
  unfold g11 r4
  refine le_of_cross (by linarith) (by linarith) (by linarith) ?_
  nlinarith [mul_nonneg (sub_nonneg.mpr h1) (sub_nonneg.mpr h2.le)]

theorem g12_le_r4 {x : ℝ} (h1 : 84 / 109 ≤ x) (h2 : x < 793 / 1000) : g12 x ≤ r4 x := by
  unfold g12 r4
  refine le_of_cross (by linarith) (by linarith) (by linarith) ?_
  nlinarith [mul_nonneg (sub_nonneg.mpr h1) (sub_nonneg.mpr h2.le)]

theorem dec1_lt : (dec1 : ℝ) < (539 - √42121) / 460 := by
  have : √42121 < 539 - 460 * dec1 := by
    rw [Real.sqrt_lt' (by norm_num [dec1])]
    norm_num [dec1]
  rw [lt_div_iff₀ (by norm_num)]
  linarith

theorem dec2_lt : (dec2 : ℝ) < (101 + √1741) / 180 := by
  have : (180 * dec2 - 101 : ℝ) < √1741 := by
    refine Real.lt_sqrt_of_sq_lt ?_
    norm_num [dec2]
  rw [lt_div_iff₀ (by norm_num)]
  linarith

theorem g13_le_r4 {x : ℝ} (h1 : 84 / 109 ≤ x) (h2 : x < dec2) : g13 x ≤ r4 x := by
  have d := dec_bounds
  unfold g13 r4
  refine le_of_cross (by linarith) (by linarith) (by linarith) ?_
  have h3 := h2.trans dec2_lt
  have h4 := Real.sq_sqrt (show (0 : ℝ) ≤ 1741 by norm_num)
  have h5 := Real.sqrt_nonneg 1741
  have h6 : 180 * x - 101 < √1741 := by
    rw [lt_div_iff₀ (by norm_num)] at h3
    linarith
  have h7 : 0 ≤ (√1741 - (180 * x - 101)) * (√1741 + (180 * x - 101)) := mul_nonneg (by linarith) (by linarith)
  nlinarith

variable {eng : Engine} {hrep : List Pt → Mat} {edges : Mat → List (Pt × Pt)} {solve : RF ℝ → RF ℝ → List ℝ} {isZero : Expr ℝ → Bool}
  {orderR : List (Region ℕ) → List (Region ℕ)} {orderK : List ℚ → List ℚ}

/-- **C102** (the energy estimates of `prove_prime_gap2`) The five new energy estimates that `prove_prime_gap2` adds to those of the literature are
consequences of what the functions `prove_zero_density_energy_2` to `_10` derive: at every point of their intervals one of the derived bounds is
at most the estimate. The full claim has no exception; here the points between the decimal number `0.72557…0455` and the true point
`(539 - √42121)/460` are left out, where it fails (see the counterexample). -/
theorem C102_implied_partial (C : Contracts eng edges solve isZero orderR orderK) (hh : HRepSpec hrep) (hhz : HRepNoZero hrep) :
    ∃ o2 o3 o8 o9 o10 o4 o5 o6 o7,
    proveEnergy2 eng hrep edges solve isZero orderR orderK = .ok o2 ∧ proveEnergy3 eng hrep edges solve isZero orderR orderK = .ok o3 ∧
    proveEnergy8 eng hrep edges solve isZero orderR orderK = .ok o8 ∧ proveEnergy9 eng hrep edges solve isZero orderR orderK = .ok o9 ∧
    proveEnergy10 eng hrep edges solve isZero orderR orderK = .ok o10 ∧ proveEnergy4 eng hrep edges solve isZero orderR orderK = .ok o4 ∧
    proveEnergy5 eng hrep edges solve isZero orderR orderK = .ok o5 ∧ proveEnergy6 eng hrep edges solve isZero orderR orderK = .ok o6 ∧
    proveEnergy7 eng hrep edges solve isZero orderR orderK = .ok o7 ∧
    ∃ fs, gapEnergy = .ok fs ∧ fs.length = 8 ∧ ∀ q ∈ fs.drop 3, ∀ x, q.dom.x0 ≤ x → x < q.dom.x1 → ¬ (dec1 ≤ x ∧ x < (539 - √42121) / 460) →
      ∃ w, Derived [o2, o3, o8, o9, o10, o4, o5, o6, o7] x w ∧ w ≤ q.fn x := by
  obtain ⟨o2, o3, o8, o9, o10, o4, o5, o6, e2, e3, e8, e9, e10, e4, e5, e6, t1, t2, t3, t4, t5, t6, t7, t8, t9, t10, t11, t12, t13, t14, t15, t16, t17⟩ :=
    C85_table C hh hhz
  obtain ⟨o7, e7, t18⟩ := C97_energy_7 C hh hhz
  refine ⟨o2, o3, o8, o9, o10, o4, o5, o6, o7, e2, e3, e8, e9, e10, e4, e5, e6, e7, _, gapEnergy_eq, rfl, ?_⟩
  obtain ⟨d1, d2, d3, d4⟩ := dec_bounds
  have r1 : (5935 / 10 : ℝ) ≤ √352321 := Real.le_sqrt_of_sq_le (by norm_num)
  have r2 : √352321 ≤ 5936 / 10 := Real.sqrt_le_iff.mpr ⟨by norm_num, by norm_num⟩
  have r3 : (6038 - 2 * √352321) / 6405 ≤ 7574 / 10000 := by rw [div_le_iff₀ (by norm_num)]; linarith
  have r5 : 7573 / 10000 ≤ (6038 - 2 * √352321) / 6405 := by rw [le_div_iff₀ (by norm_num)]; linarith
  intro q hq x l u hx
  simp only [energyFns, List.drop_succ_cons, List.drop_zero, List.mem_cons, List.not_mem_nil, or_false] at hq
  rcases hq with rfl | rfl | rfl | rfl | rfl <;> simp only at l u ⊢
  · exact ⟨_, ⟨o2, by simp, t1 x l (u.trans dec1_lt)⟩, le_rfl⟩
  · exact ⟨_, ⟨o2, by simp, t2 x (by by_contra hc; exact hx ⟨l, not_le.mp hc⟩) u⟩, le_rfl⟩
  · by_cases q0 : x < 37 / 49
    · exact ⟨_, ⟨o3, by simp, t3 x l q0⟩, le_rfl⟩
    push Not at q0
    by_cases q1 : x < 4359 / 5770
    · refine ⟨_, ⟨o8, by simp, t4 x q0 q1⟩, ?_⟩
      rcases q0.eq_or_lt with rfl | q0
      · norm_num
      · exact (old0 q0 q1).le
    push Not at q1
    by_cases q2 : x < 241 / 319
    · exact ⟨_, ⟨o8, by simp, t5 x q1 q2⟩, (old1 q1 q2).le⟩
    push Not at q2
    by_cases q3 : x < 443 / 586
    · exact ⟨_, ⟨o8, by simp, t6 x q2 q3⟩, (old2 q2 q3).le⟩
    push Not at q3
    by_cases q4 : x < 409 / 541
    · exact ⟨_, ⟨o9, by simp, t7 x q3 q4⟩, (old3 q3 q4).le⟩
    push Not at q4
    by_cases q5 : x < 373 / 493
    · exact ⟨_, ⟨o9, by simp, t8 x q4 q5⟩, (old4 q4 q5).le⟩
    push Not at q5
    by_cases q6 : x < 314 / 415
    · exact ⟨_, ⟨o10, by simp, t9 x q5 q6⟩, (old5 q5 q6).le⟩
    push Not at q6
    by_cases q7 : x < 171 / 226
    · exact ⟨_, ⟨o10, by simp, t10 x q6 q7⟩, (old6 q6 q7).le⟩
    push Not at q7
    by_cases q8 : x < 103 / 136
    · exact ⟨_, ⟨o10, by simp, t11 x q7 q8⟩, (old7 q7 q8).le⟩
    push Not at q8
    by_cases q9 : x < (6038 - 2 * √352321) / 6405
    · exact ⟨_, ⟨o4, by simp, t12 x q8 q9⟩, (old8 q8 (q9.trans_le r3)).le⟩
    push Not at q9
    refine ⟨_, ⟨o4, by simp, t13 x q9 (by linarith)⟩, ?_⟩
    by_cases q10 : x < 25 / 33
    · exact (old9 (r5.trans q9) q10).le
    · exact g1_le_g3 (not_lt.mp q10) u
  · by_cases q1 : x < 42 / 55
    · exact ⟨_, ⟨o4, by simp, t13 x (by linarith) q1⟩, g1_le_r4 l q1⟩
    push Not at q1
    by_cases q2 : x < 97 / 127
    · exact ⟨_, ⟨o5, by simp, t14 x q1 q2⟩, g8_le_r4 q1 q2⟩
    push Not at q2
    by_cases q3 : x < 79 / 103
    · exact ⟨_, ⟨o5, by simp, t15 x q2 q3⟩, g9_le_r4 q2 q3⟩
    push Not at q3
    by_cases q4 : x < 33 / 43
    · exact ⟨_, ⟨o6, by simp, t16 x q3 q4⟩, g10_le_r4 q3 q4⟩
    push Not at q4
    by_cases q5 : x < 84 / 109
    · exact ⟨_, ⟨o6, by simp, t17 x q4 q5⟩, g11_le_r4 q4 q5⟩
    push Not at q5
    refine ⟨max (g12 x) (g13 x), ⟨o7, by simp, gives_of t18 (by push_cast; exact q5) (by push_cast; linarith) (max7 x (by linarith) (by linarith))⟩, ?_⟩
    exact max_le (g12_le_r4 q5 (by linarith)) (g13_le_r4 q5 u)
  · have : (358 : ℝ) ≤ √128689 := Real.le_sqrt_of_sq_le (by norm_num)
    have hc : (1273 - √128689) / 1184 ≤ x := by
      refine le_trans ?_ (d3.le.trans l)
      rw [div_le_iff₀ (by norm_num)]
      linarith
    refine ⟨max (g12 x) (g13 x), ⟨o7, by simp, gives_of t18 (by push_cast; linarith) (by push_cast; exact u) (max7 x (by linarith) u)⟩, ?_⟩
    rw [max_eq_right (above2 hc u)]
    unfold g13
    refine le_of_eq ?_
    rw [show 4 * (10 - 9 * x) = 40 - 36 * x by ring, show 5 * (4 * x - 1) = 20 * x - 5 by ring]

/-- **C102 (counterexample).** The point where the first new energy estimate of `prove_prime_gap2` gives way to the second is written as a decimal number
(derived.py:1020-1021), but the true point `(539 - √42121)/460` is irrational. Whatever rational number `d` is written there, one of the two estimates
is smaller than the derived bound at some point of its interval: after the true point if `d` is too large (as is the nearest float), and
before it if `d` is too small (as is the number that is written). -/
theorem C102_decimal_counterexample (C : Contracts eng edges solve isZero orderR orderK) (hh : HRepSpec hrep) (hhz : HRepNoZero hrep) : ∃ o2,
    proveEnergy2 eng hrep edges solve isZero orderR orderK = .ok o2 ∧ ∀ d : ℚ, 1451 / 2000 ≤ d → d < 3 / 4 → ∃ x w, Gives o2 x w ∧
      ((7 / 10 ≤ x ∧ x < d ∧ 5 * (18 - 19 * x) / (2 * (5 * x + 3) * (1 - x)) < w) ∨
        (d ≤ x ∧ x < 3 / 4 ∧ 2 * (45 - 44 * x) / ((2 * x + 15) * (1 - x)) < w)) := by
  obtain ⟨o2, o3, o8, o9, o10, o4, o5, o6, e2, -, -, -, -, -, -, -, t1, t2, -⟩ := C85_table C hh hhz
  refine ⟨o2, e2, fun d l u => ?_⟩
  have v1 : ((1451 / 2000 : ℚ) : ℝ) ≤ d := by exact_mod_cast l
  have v2 : (d : ℝ) < ((3 / 4 : ℚ) : ℝ) := by exact_mod_cast u
  push_cast at v1 v2
  have hirr : Irrational √42121 := by
    have : ¬ IsSquare (42121 : ℕ) := by
      rintro ⟨n, hn⟩
      have h1 : n < 206 := by nlinarith
      have h2 : 205 < n := by nlinarith
      omega
    exact_mod_cast irrational_sqrt_natCast_iff.mpr this
  have hne : (d : ℝ) ≠ (539 - √42121) / 460 := by
    intro h
    refine hirr ⟨539 - 460 * d, ?_⟩
    push_cast
    rw [h]
    ring
  rcases lt_or_gt_of_ne hne with h | h
  · exact ⟨d, _, t1 d (by linarith) h, Or.inr ⟨le_rfl, v2, below1 v1 h⟩⟩
  · have b1 : (205 : ℝ) ≤ √42121 := Real.le_sqrt_of_sq_le (by norm_num)
    have b2 : √42121 ≤ 20524 / 100 := Real.sqrt_le_iff.mpr ⟨by norm_num, by norm_num⟩
    obtain ⟨x, x1, x2⟩ := exists_between h
    have x3 : (1451 / 2000 : ℝ) ≤ x := by
      refine le_trans ?_ x1.le
      rw [le_div_iff₀ (by norm_num)]
      linarith
    refine ⟨x, _, t2 x x1.le (by linarith), Or.inl ⟨by linarith, x2, ?_⟩⟩
    refine lt_of_cross (by linarith) (by linarith) (by linarith) ?_
    have h4 := Real.sq_sqrt (show (0 : ℝ) ≤ 42121 by norm_num)
    rw [div_lt_iff₀ (by norm_num)] at x1
    have h7 : 0 < (√42121 - (539 - 460 * x)) * (√42121 + (539 - 460 * x)) := mul_pos (by linarith) (by linarith)
    nlinarith

/-- The contracts can be met, and there are points between the decimal number and the true point. -/
example : ∃ eng hrep edges solve isZero orderR orderK, Contracts eng edges solve isZero orderR orderK ∧ HRepSpec hrep ∧ HRepNoZero hrep := by
  obtain ⟨eng, edges, solve, isZero, orderR, orderK, C⟩ := contracts_satisfiable
  obtain ⟨hrep, hh, hhz⟩ := hRepNoZero_satisfiable
  exact ⟨eng, hrep, edges, solve, isZero, orderR, orderK, C, hh, hhz⟩

/-- The fourth estimate at `39/50` is more than the derived bound there. -/
example : max (g12 (39 / 50)) (g13 (39 / 50)) < r4 (39 / 50) := by
  unfold g12 g13 r4
  norm_num

end EnergyGap
end Expdb
