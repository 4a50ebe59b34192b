import Verif.Tactics
import Mathlib.Analysis.Real.Sqrt
import Verif.Props.DerivedEnergyCase2
import Verif.Props.DerivedEnergyCase3
import Verif.Props.DerivedEnergyCase4
import Verif.Props.DerivedEnergyCase5
import Verif.Props.DerivedEnergyCase6
import Verif.Props.DerivedEnergyCase8
import Verif.Props.DerivedEnergyCase9
import Verif.Props.DerivedEnergyCase10

/-!
# C85: the table of zero density energy estimates

The rows of the blueprint's table of bounds on `A*(sigma)` (zero_density_energy.tex, "Current best upper bound") for `7/10 ≤ sigma < 84/109` are
what the functions `prove_zero_density_energy_*` return.
-/

namespace Expdb
namespace DerivedEnergy

open Rational SupRatio Mat Region ZeroDensity DerivedZD

/-- The returned pieces give the value `v` at `x`. -/
def Gives (out : List (RF ℝ × Ival ℝ)) (x v : ℝ) : Prop := ∃ q ∈ out, q.2.x0 ≤ x ∧ x < q.2.x1 ∧ q.1.at x = v

theorem gives_of {x0 x1 : ℚ} {out : List (RF ℝ × Ival ℝ)} {w : ℝ → ℝ} (h : IsBoundE x0 x1 out w) {x v : ℝ} (l1 : x0 ≤ x) (l2 : x < x1)
    (e : w x = v) : Gives out x v := by
  obtain ⟨q, q1, q2, q3, _, q5⟩ := h x l1 l2
  exact ⟨q, q1, q2, q3, q5.trans e⟩

theorem low_root {x a k d e : ℝ} (hk : 0 < k) (he : 0 < e) (h : x < (a - k * √d) / e) (hd : 0 ≤ d) : k * √d < a - e * x ∧ k * k * d ≤ (a - e * x) * (a - e * x) := by
  rw [lt_div_iff₀ he] at h
  have h1 : k * √d < a - e * x := by linarith
  have h0 : 0 ≤ k * √d := by positivity
  refine ⟨h1, ?_⟩
  have := mul_le_mul h1.le h1.le h0 (by linarith)
  calc k * k * d = k * √d * (k * √d) := by rw [show k * √d * (k * √d) = k * k * (√d * √d) by ring, Real.mul_self_sqrt hd]
    _ ≤ _ := this

theorem high_root {x a k d e : ℝ} (hk : 0 < k) (he : 0 < e) (h : (a - k * √d) / e ≤ x) (hd : 0 ≤ d) (hp : 0 ≤ a - e * x) :
    (a - e * x) * (a - e * x) ≤ k * k * d := by
  rw [div_le_iff₀ he] at h
  have h1 : a - e * x ≤ k * √d := by linarith
  have h0 : 0 ≤ k * √d := by positivity
  have := mul_le_mul h1 h1 hp h0
  calc _ ≤ _ := this
    _ = k * k * d := by rw [show k * √d * (k * √d) = k * k * (√d * √d) by ring, Real.mul_self_sqrt hd]

theorem row_2_0 {x : ℝ} (l1 : 7 / 10 ≤ x) (l2 : x < ((539 - √42121) / 460)) : (7 / 10 ≤ x ∧ x < 3 / 4) ∧
    (max ((90 - 95 * x) / (10 * x + 6)) ((90 - 88 * x) / (2 * x + 15))) / (1 - x) = 5 * (18 - 19 * x) / (2 * (5 * x + 3) * (1 - x)) := by
  obtain ⟨j1, j2⟩ := low_root (x := x) (a := 539) (k := 1) (d := 42121) (e := 460) (by norm_num) (by norm_num) (by simpa using l2) (by norm_num)
  have j3 : (205 : ℝ) < √42121 := Real.lt_sqrt_of_sq_lt (by norm_num)
  have l2 : x < 3 / 4 := by linarith
  have h0 : 0 ≤ x - 7 / 10 := by linarith
  have h1 : 0 ≤ 3 / 4 - x := by linarith
  have u0 : 0 < 10 * x + 6 := by linarith
  have u1 : 0 < 2 * x + 15 := by linarith
  have c10 : (90 - 88 * x) / (2 * x + 15) ≤ (90 - 95 * x) / (10 * x + 6) := by
    rw [div_le_div_iff₀ u1 u0]
    nlinarith [mul_nonneg h0 h1, mul_nonneg h0 h0, mul_nonneg h1 h1, j2]
  have e : max ((90 - 95 * x) / (10 * x + 6)) ((90 - 88 * x) / (2 * x + 15)) = (90 - 95 * x) / (10 * x + 6) := le_antisymm (max_le (le_rfl) (c10)) (le_max_of_le_left (le_rfl))
  have v : 0 < 1 - x := by linarith
  refine ⟨⟨by linarith, by linarith⟩, ?_⟩
  rw [e, div_div]
  have ne : 10 * x + 6 ≠ 0 := u0.ne'
  refine (div_eq_div_iff (mul_ne_zero ne v.ne') (by
    refine mul_ne_zero ?_ v.ne'
    intro h
    apply ne
    linarith)).mpr ?_
  ring

theorem row_2_1 {x : ℝ} (l1 : ((539 - √42121) / 460) ≤ x) (l2 : x < 3 / 4) : (7 / 10 ≤ x ∧ x < 3 / 4) ∧
    (max ((90 - 95 * x) / (10 * x + 6)) ((90 - 88 * x) / (2 * x + 15))) / (1 - x) = 2 * (45 - 44 * x) / ((2 * x + 15) * (1 - x)) := by
  have j3 : √42121 < (206 : ℝ) := (Real.sqrt_lt' (by norm_num)).mpr (by norm_num)
  have j0 : 7 / 10 ≤ x := by
    rw [div_le_iff₀ (by norm_num)] at l1
    linarith
  have j2 := high_root (x := x) (a := 539) (k := 1) (d := 42121) (e := 460) (by norm_num) (by norm_num) (by simpa using l1) (by norm_num) (by linarith)
  have l1 := j0
  have h0 : 0 ≤ x - 7 / 10 := by linarith
  have h1 : 0 ≤ 3 / 4 - x := by linarith
  have u0 : 0 < 10 * x + 6 := by linarith
  have u1 : 0 < 2 * x + 15 := by linarith
  have c01 : (90 - 95 * x) / (10 * x + 6) ≤ (90 - 88 * x) / (2 * x + 15) := by
    rw [div_le_div_iff₀ u0 u1]
    nlinarith [mul_nonneg h0 h1, mul_nonneg h0 h0, mul_nonneg h1 h1, j2]
  have e : max ((90 - 95 * x) / (10 * x + 6)) ((90 - 88 * x) / (2 * x + 15)) = (90 - 88 * x) / (2 * x + 15) := le_antisymm (max_le (c01) (le_rfl)) (le_max_of_le_right (le_rfl))
  have v : 0 < 1 - x := by linarith
  refine ⟨⟨by linarith, by linarith⟩, ?_⟩
  rw [e, div_div]
  have ne : 2 * x + 15 ≠ 0 := u1.ne'
  refine (div_eq_div_iff (mul_ne_zero ne v.ne') (by
    refine mul_ne_zero ?_ v.ne'
    intro h
    apply ne
    linarith)).mpr ?_
  ring

theorem row_3_0 {x : ℝ} (l1 : 3 / 4 ≤ x) (l2 : x < 37 / 49) : (3 / 4 ≤ x ∧ x < 4 / 5) ∧
    (max ((197 - 220 * x) / (40 * x - 8)) (max ((87 - 90 * x) / (25 * x - 5)) ((40 - 36 * x) / (20 * x - 5)))) / (1 - x) = (197 - 220 * x) / (8 * (5 * x - 1) * (1 - x)) := by
  have h0 : 0 ≤ x - 3 / 4 := by linarith
  have h1 : 0 ≤ 37 / 49 - x := by linarith
  have u0 : 0 < 40 * x - 8 := by linarith
  have u1 : 0 < 25 * x - 5 := by linarith
  have u2 : 0 < 20 * x - 5 := by linarith
  have c10 : (87 - 90 * x) / (25 * x - 5) ≤ (197 - 220 * x) / (40 * x - 8) := by
    rw [div_le_div_iff₀ u1 u0]
    nlinarith [mul_nonneg h0 h1, mul_nonneg h0 h0, mul_nonneg h1 h1]
  have c20 : (40 - 36 * x) / (20 * x - 5) ≤ (197 - 220 * x) / (40 * x - 8) := by
    rw [div_le_div_iff₀ u2 u0]
    nlinarith [mul_nonneg h0 h1, mul_nonneg h0 h0, mul_nonneg h1 h1]
  have e : max ((197 - 220 * x) / (40 * x - 8)) (max ((87 - 90 * x) / (25 * x - 5)) ((40 - 36 * x) / (20 * x - 5))) = (197 - 220 * x) / (40 * x - 8) := le_antisymm (max_le (le_rfl) (max_le (c10) (c20))) (le_max_of_le_left (le_rfl))
  have v : 0 < 1 - x := by linarith
  refine ⟨⟨by linarith, by linarith⟩, ?_⟩
  rw [e, div_div]
  have ne : 40 * x - 8 ≠ 0 := u0.ne'
  refine (div_eq_div_iff (mul_ne_zero ne v.ne') (by
    refine mul_ne_zero ?_ v.ne'
    intro h
    apply ne
    linarith)).mpr ?_
  ring

theorem row_8_0 {x : ℝ} (l1 : 37 / 49 ≤ x) (l2 : x < 4359 / 5770) : (37 / 49 ≤ x ∧ x < 443 / 586) ∧
    (max ((270 * x - 173) / (2000 * x - 1488)) (max ((890 * x - 653) / (1250 * x - 930)) ((1151 - 1190 * x) / (300 * x - 40)))) / (1 - x) = (173 - 270 * x) / (16 * (93 - 125 * x) * (1 - x)) := by
  have h0 : 0 ≤ x - 37 / 49 := by linarith
  have h1 : 0 ≤ 4359 / 5770 - x := by linarith
  have u0 : 0 < 2000 * x - 1488 := by linarith
  have u1 : 0 < 1250 * x - 930 := by linarith
  have u2 : 0 < 300 * x - 40 := by linarith
  have c10 : (890 * x - 653) / (1250 * x - 930) ≤ (270 * x - 173) / (2000 * x - 1488) := by
    rw [div_le_div_iff₀ u1 u0]
    nlinarith [mul_nonneg h0 h1, mul_nonneg h0 h0, mul_nonneg h1 h1]
  have c20 : (1151 - 1190 * x) / (300 * x - 40) ≤ (270 * x - 173) / (2000 * x - 1488) := by
    rw [div_le_div_iff₀ u2 u0]
    nlinarith [mul_nonneg h0 h1, mul_nonneg h0 h0, mul_nonneg h1 h1]
  have e : max ((270 * x - 173) / (2000 * x - 1488)) (max ((890 * x - 653) / (1250 * x - 930)) ((1151 - 1190 * x) / (300 * x - 40))) = (270 * x - 173) / (2000 * x - 1488) := le_antisymm (max_le (le_rfl) (max_le (c10) (c20))) (le_max_of_le_left (le_rfl))
  have v : 0 < 1 - x := by linarith
  refine ⟨⟨by linarith, by linarith⟩, ?_⟩
  rw [e, div_div]
  have ne : 2000 * x - 1488 ≠ 0 := u0.ne'
  refine (div_eq_div_iff (mul_ne_zero ne v.ne') (by
    refine mul_ne_zero ?_ v.ne'
    intro h
    apply ne
    linarith)).mpr ?_
  ring

theorem row_8_1 {x : ℝ} (l1 : 4359 / 5770 ≤ x) (l2 : x < 241 / 319) : (37 / 49 ≤ x ∧ x < 443 / 586) ∧
    (max ((270 * x - 173) / (2000 * x - 1488)) (max ((890 * x - 653) / (1250 * x - 930)) ((1151 - 1190 * x) / (300 * x - 40)))) / (1 - x) = (653 - 890 * x) / (10 * (93 - 125 * x) * (1 - x)) := by
  have h0 : 0 ≤ x - 4359 / 5770 := by linarith
  have h1 : 0 ≤ 241 / 319 - x := by linarith
  have u0 : 0 < 2000 * x - 1488 := by linarith
  have u1 : 0 < 1250 * x - 930 := by linarith
  have u2 : 0 < 300 * x - 40 := by linarith
  have c01 : (270 * x - 173) / (2000 * x - 1488) ≤ (890 * x - 653) / (1250 * x - 930) := by
    rw [div_le_div_iff₀ u0 u1]
    nlinarith [mul_nonneg h0 h1, mul_nonneg h0 h0, mul_nonneg h1 h1]
  have c21 : (1151 - 1190 * x) / (300 * x - 40) ≤ (890 * x - 653) / (1250 * x - 930) := by
    rw [div_le_div_iff₀ u2 u1]
    nlinarith [mul_nonneg h0 h1, mul_nonneg h0 h0, mul_nonneg h1 h1]
  have e : max ((270 * x - 173) / (2000 * x - 1488)) (max ((890 * x - 653) / (1250 * x - 930)) ((1151 - 1190 * x) / (300 * x - 40))) = (890 * x - 653) / (1250 * x - 930) := le_antisymm (max_le (c01) (max_le (le_rfl) (c21))) (le_max_of_le_right (le_max_of_le_left (le_rfl)))
  have v : 0 < 1 - x := by linarith
  refine ⟨⟨by linarith, by linarith⟩, ?_⟩
  rw [e, div_div]
  have ne : 1250 * x - 930 ≠ 0 := u1.ne'
  refine (div_eq_div_iff (mul_ne_zero ne v.ne') (by
    refine mul_ne_zero ?_ v.ne'
    intro h
    apply ne
    linarith)).mpr ?_
  ring

theorem row_8_2 {x : ℝ} (l1 : 241 / 319 ≤ x) (l2 : x < 443 / 586) : (37 / 49 ≤ x ∧ x < 443 / 586) ∧
    (max ((270 * x - 173) / (2000 * x - 1488)) (max ((890 * x - 653) / (1250 * x - 930)) ((1151 - 1190 * x) / (300 * x - 40)))) / (1 - x) = (1151 - 1190 * x) / (20 * (15 * x - 2) * (1 - x)) := by
  have h0 : 0 ≤ x - 241 / 319 := by linarith
  have h1 : 0 ≤ 443 / 586 - x := by linarith
  have u0 : 0 < 2000 * x - 1488 := by linarith
  have u1 : 0 < 1250 * x - 930 := by linarith
  have u2 : 0 < 300 * x - 40 := by linarith
  have c02 : (270 * x - 173) / (2000 * x - 1488) ≤ (1151 - 1190 * x) / (300 * x - 40) := by
    rw [div_le_div_iff₀ u0 u2]
    nlinarith [mul_nonneg h0 h1, mul_nonneg h0 h0, mul_nonneg h1 h1]
  have c12 : (890 * x - 653) / (1250 * x - 930) ≤ (1151 - 1190 * x) / (300 * x - 40) := by
    rw [div_le_div_iff₀ u1 u2]
    nlinarith [mul_nonneg h0 h1, mul_nonneg h0 h0, mul_nonneg h1 h1]
  have e : max ((270 * x - 173) / (2000 * x - 1488)) (max ((890 * x - 653) / (1250 * x - 930)) ((1151 - 1190 * x) / (300 * x - 40))) = (1151 - 1190 * x) / (300 * x - 40) := le_antisymm (max_le (c02) (max_le (c12) (le_rfl))) (le_max_of_le_right (le_max_of_le_right (le_rfl)))
  have v : 0 < 1 - x := by linarith
  refine ⟨⟨by linarith, by linarith⟩, ?_⟩
  rw [e, div_div]
  have ne : 300 * x - 40 ≠ 0 := u2.ne'
  refine (div_eq_div_iff (mul_ne_zero ne v.ne') (by
    refine mul_ne_zero ?_ v.ne'
    intro h
    apply ne
    linarith)).mpr ?_
  ring

theorem row_9_0 {x : ℝ} (l1 : 443 / 586 ≤ x) (l2 : x < 409 / 541) : (443 / 586 ≤ x ∧ x < 373 / 493) ∧
    (max ((810 * x - 593) / (1150 * x - 855)) ((1064 - 1100 * x) / (275 * x - 35))) / (1 - x) = (593 - 810 * x) / (5 * (171 - 230 * x) * (1 - x)) := by
  have h0 : 0 ≤ x - 443 / 586 := by linarith
  have h1 : 0 ≤ 409 / 541 - x := by linarith
  have u0 : 0 < 1150 * x - 855 := by linarith
  have u1 : 0 < 275 * x - 35 := by linarith
  have c10 : (1064 - 1100 * x) / (275 * x - 35) ≤ (810 * x - 593) / (1150 * x - 855) := by
    rw [div_le_div_iff₀ u1 u0]
    nlinarith [mul_nonneg h0 h1, mul_nonneg h0 h0, mul_nonneg h1 h1]
  have e : max ((810 * x - 593) / (1150 * x - 855)) ((1064 - 1100 * x) / (275 * x - 35)) = (810 * x - 593) / (1150 * x - 855) := le_antisymm (max_le (le_rfl) (c10)) (le_max_of_le_left (le_rfl))
  have v : 0 < 1 - x := by linarith
  refine ⟨⟨by linarith, by linarith⟩, ?_⟩
  rw [e, div_div]
  have ne : 1150 * x - 855 ≠ 0 := u0.ne'
  refine (div_eq_div_iff (mul_ne_zero ne v.ne') (by
    refine mul_ne_zero ?_ v.ne'
    intro h
    apply ne
    linarith)).mpr ?_
  ring

theorem row_9_1 {x : ℝ} (l1 : 409 / 541 ≤ x) (l2 : x < 373 / 493) : (443 / 586 ≤ x ∧ x < 373 / 493) ∧
    (max ((810 * x - 593) / (1150 * x - 855)) ((1064 - 1100 * x) / (275 * x - 35))) / (1 - x) = 4 * (266 - 275 * x) / (5 * (55 * x - 7) * (1 - x)) := by
  have h0 : 0 ≤ x - 409 / 541 := by linarith
  have h1 : 0 ≤ 373 / 493 - x := by linarith
  have u0 : 0 < 1150 * x - 855 := by linarith
  have u1 : 0 < 275 * x - 35 := by linarith
  have c01 : (810 * x - 593) / (1150 * x - 855) ≤ (1064 - 1100 * x) / (275 * x - 35) := by
    rw [div_le_div_iff₀ u0 u1]
    nlinarith [mul_nonneg h0 h1, mul_nonneg h0 h0, mul_nonneg h1 h1]
  have e : max ((810 * x - 593) / (1150 * x - 855)) ((1064 - 1100 * x) / (275 * x - 35)) = (1064 - 1100 * x) / (275 * x - 35) := le_antisymm (max_le (c01) (le_rfl)) (le_max_of_le_right (le_rfl))
  have v : 0 < 1 - x := by linarith
  refine ⟨⟨by linarith, by linarith⟩, ?_⟩
  rw [e, div_div]
  have ne : 275 * x - 35 ≠ 0 := u1.ne'
  refine (div_eq_div_iff (mul_ne_zero ne v.ne') (by
    refine mul_ne_zero ?_ v.ne'
    intro h
    apply ne
    linarith)).mpr ?_
  ring

theorem row_10_0 {x : ℝ} (l1 : 373 / 493 ≤ x) (l2 : x < 314 / 415) : (373 / 493 ≤ x ∧ x < 103 / 136) ∧
    (max (min ((730 * x - 533) / (1050 * x - 780)) ((78 - 99 * x) / (85 * x - 62))) ((174 - 185 * x) / (31 * x + 2))) / (1 - x) = (533 - 730 * x) / (30 * (26 - 35 * x) * (1 - x)) := by
  have h0 : 0 ≤ x - 373 / 493 := by linarith
  have h1 : 0 ≤ 314 / 415 - x := by linarith
  have u0 : 0 < 1050 * x - 780 := by linarith
  have u1 : 0 < 85 * x - 62 := by linarith
  have u2 : 0 < 31 * x + 2 := by linarith
  have c20 : (174 - 185 * x) / (31 * x + 2) ≤ (730 * x - 533) / (1050 * x - 780) := by
    rw [div_le_div_iff₀ u2 u0]
    nlinarith [mul_nonneg h0 h1, mul_nonneg h0 h0, mul_nonneg h1 h1]
  have c01 : (730 * x - 533) / (1050 * x - 780) ≤ (78 - 99 * x) / (85 * x - 62) := by
    rw [div_le_div_iff₀ u0 u1]
    nlinarith [mul_nonneg h0 h1, mul_nonneg h0 h0, mul_nonneg h1 h1]
  have e : max (min ((730 * x - 533) / (1050 * x - 780)) ((78 - 99 * x) / (85 * x - 62))) ((174 - 185 * x) / (31 * x + 2)) = (730 * x - 533) / (1050 * x - 780) := le_antisymm (max_le (min_le_of_left_le (le_rfl)) (c20)) (le_max_of_le_left (le_min (le_rfl) (c01)))
  have v : 0 < 1 - x := by linarith
  refine ⟨⟨by linarith, by linarith⟩, ?_⟩
  rw [e, div_div]
  have ne : 1050 * x - 780 ≠ 0 := u0.ne'
  refine (div_eq_div_iff (mul_ne_zero ne v.ne') (by
    refine mul_ne_zero ?_ v.ne'
    intro h
    apply ne
    linarith)).mpr ?_
  ring

theorem row_10_1 {x : ℝ} (l1 : 314 / 415 ≤ x) (l2 : x < 171 / 226) : (373 / 493 ≤ x ∧ x < 103 / 136) ∧
    (max (min ((730 * x - 533) / (1050 * x - 780)) ((78 - 99 * x) / (85 * x - 62))) ((174 - 185 * x) / (31 * x + 2))) / (1 - x) = 3 * (26 - 33 * x) / ((85 * x - 62) * (1 - x)) := by
  have h0 : 0 ≤ x - 314 / 415 := by linarith
  have h1 : 0 ≤ 171 / 226 - x := by linarith
  have u0 : 0 < 1050 * x - 780 := by linarith
  have u1 : 0 < 85 * x - 62 := by linarith
  have u2 : 0 < 31 * x + 2 := by linarith
  have c21 : (174 - 185 * x) / (31 * x + 2) ≤ (78 - 99 * x) / (85 * x - 62) := by
    rw [div_le_div_iff₀ u2 u1]
    nlinarith [mul_nonneg h0 h1, mul_nonneg h0 h0, mul_nonneg h1 h1]
  have c10 : (78 - 99 * x) / (85 * x - 62) ≤ (730 * x - 533) / (1050 * x - 780) := by
    rw [div_le_div_iff₀ u1 u0]
    nlinarith [mul_nonneg h0 h1, mul_nonneg h0 h0, mul_nonneg h1 h1]
  have e : max (min ((730 * x - 533) / (1050 * x - 780)) ((78 - 99 * x) / (85 * x - 62))) ((174 - 185 * x) / (31 * x + 2)) = (78 - 99 * x) / (85 * x - 62) := le_antisymm (max_le (min_le_of_right_le (le_rfl)) (c21)) (le_max_of_le_left (le_min (c10) (le_rfl)))
  have v : 0 < 1 - x := by linarith
  refine ⟨⟨by linarith, by linarith⟩, ?_⟩
  rw [e, div_div]
  have ne : 85 * x - 62 ≠ 0 := u1.ne'
  refine (div_eq_div_iff (mul_ne_zero ne v.ne') (by
    refine mul_ne_zero ?_ v.ne'
    intro h
    apply ne
    linarith)).mpr ?_
  ring

theorem row_10_2 {x : ℝ} (l1 : 171 / 226 ≤ x) (l2 : x < 103 / 136) : (373 / 493 ≤ x ∧ x < 103 / 136) ∧
    (max (min ((730 * x - 533) / (1050 * x - 780)) ((78 - 99 * x) / (85 * x - 62))) ((174 - 185 * x) / (31 * x + 2))) / (1 - x) = (174 - 185 * x) / ((31 * x + 2) * (1 - x)) := by
  have h0 : 0 ≤ x - 171 / 226 := by linarith
  have h1 : 0 ≤ 103 / 136 - x := by linarith
  have u0 : 0 < 1050 * x - 780 := by linarith
  have u1 : 0 < 85 * x - 62 := by linarith
  have u2 : 0 < 31 * x + 2 := by linarith
  have c12 : (78 - 99 * x) / (85 * x - 62) ≤ (174 - 185 * x) / (31 * x + 2) := by
    rw [div_le_div_iff₀ u1 u2]
    nlinarith [mul_nonneg h0 h1, mul_nonneg h0 h0, mul_nonneg h1 h1]
  have e : max (min ((730 * x - 533) / (1050 * x - 780)) ((78 - 99 * x) / (85 * x - 62))) ((174 - 185 * x) / (31 * x + 2)) = (174 - 185 * x) / (31 * x + 2) := le_antisymm (max_le (min_le_of_right_le (c12)) (le_rfl)) (le_max_of_le_right (le_rfl))
  have v : 0 < 1 - x := by linarith
  refine ⟨⟨by linarith, by linarith⟩, ?_⟩
  rw [e, div_div]

theorem row_4_1 {x : ℝ} (l1 : 103 / 136 ≤ x) (l2 : x < ((6038 - 2 * √352321) / 6405)) : (664 / 877 ≤ x ∧ x < 31 / 40) ∧
    (max (min ((650 * x - 473) / (950 * x - 705)) ((72 - 91 * x) / (77 * x - 56))) ((90 - 95 * x) / (10 * x + 6))) / (1 - x) = (72 - 91 * x) / (7 * (11 * x - 8) * (1 - x)) := by
  obtain ⟨j1, j2⟩ := low_root (x := x) (a := 6038) (k := 2) (d := 352321) (e := 6405) (by norm_num) (by norm_num) (by simpa using l2) (by norm_num)
  have j3 : (593 : ℝ) < √352321 := Real.lt_sqrt_of_sq_lt (by norm_num)
  have l2 : x < 31 / 40 := by linarith
  have h0 : 0 ≤ x - 103 / 136 := by linarith
  have h1 : 0 ≤ 31 / 40 - x := by linarith
  have u0 : 0 < 950 * x - 705 := by linarith
  have u1 : 0 < 77 * x - 56 := by linarith
  have u2 : 0 < 10 * x + 6 := by linarith
  have c21 : (90 - 95 * x) / (10 * x + 6) ≤ (72 - 91 * x) / (77 * x - 56) := by
    rw [div_le_div_iff₀ u2 u1]
    nlinarith [mul_nonneg h0 h1, mul_nonneg h0 h0, mul_nonneg h1 h1, j2]
  have c10 : (72 - 91 * x) / (77 * x - 56) ≤ (650 * x - 473) / (950 * x - 705) := by
    rw [div_le_div_iff₀ u1 u0]
    nlinarith [mul_nonneg h0 h1, mul_nonneg h0 h0, mul_nonneg h1 h1, j2]
  have e : max (min ((650 * x - 473) / (950 * x - 705)) ((72 - 91 * x) / (77 * x - 56))) ((90 - 95 * x) / (10 * x + 6)) = (72 - 91 * x) / (77 * x - 56) := le_antisymm (max_le (min_le_of_right_le (le_rfl)) (c21)) (le_max_of_le_left (le_min (c10) (le_rfl)))
  have v : 0 < 1 - x := by linarith
  refine ⟨⟨by linarith, by linarith⟩, ?_⟩
  rw [e, div_div]
  have ne : 77 * x - 56 ≠ 0 := u1.ne'
  refine (div_eq_div_iff (mul_ne_zero ne v.ne') (by
    refine mul_ne_zero ?_ v.ne'
    intro h
    apply ne
    linarith)).mpr ?_
  ring

theorem row_4_2 {x : ℝ} (l1 : ((6038 - 2 * √352321) / 6405) ≤ x) (l2 : x < 42 / 55) : (664 / 877 ≤ x ∧ x < 31 / 40) ∧
    (max (min ((650 * x - 473) / (950 * x - 705)) ((72 - 91 * x) / (77 * x - 56))) ((90 - 95 * x) / (10 * x + 6))) / (1 - x) = 5 * (18 - 19 * x) / (2 * (5 * x + 3) * (1 - x)) := by
  have j3 : √352321 < (594 : ℝ) := (Real.sqrt_lt' (by norm_num)).mpr (by norm_num)
  have j0 : 664 / 877 ≤ x := by
    rw [div_le_iff₀ (by norm_num)] at l1
    linarith
  have j2 := high_root (x := x) (a := 6038) (k := 2) (d := 352321) (e := 6405) (by norm_num) (by norm_num) (by simpa using l1) (by norm_num) (by linarith)
  have l1 := j0
  have h0 : 0 ≤ x - 664 / 877 := by linarith
  have h1 : 0 ≤ 42 / 55 - x := by linarith
  have u0 : 0 < 950 * x - 705 := by linarith
  have u1 : 0 < 77 * x - 56 := by linarith
  have u2 : 0 < 10 * x + 6 := by linarith
  have c12 : (72 - 91 * x) / (77 * x - 56) ≤ (90 - 95 * x) / (10 * x + 6) := by
    rw [div_le_div_iff₀ u1 u2]
    nlinarith [mul_nonneg h0 h1, mul_nonneg h0 h0, mul_nonneg h1 h1, j2]
  have e : max (min ((650 * x - 473) / (950 * x - 705)) ((72 - 91 * x) / (77 * x - 56))) ((90 - 95 * x) / (10 * x + 6)) = (90 - 95 * x) / (10 * x + 6) := le_antisymm (max_le (min_le_of_right_le (c12)) (le_rfl)) (le_max_of_le_right (le_rfl))
  have v : 0 < 1 - x := by linarith
  refine ⟨⟨by linarith, by linarith⟩, ?_⟩
  rw [e, div_div]
  have ne : 10 * x + 6 ≠ 0 := u2.ne'
  refine (div_eq_div_iff (mul_ne_zero ne v.ne') (by
    refine mul_ne_zero ?_ v.ne'
    intro h
    apply ne
    linarith)).mpr ?_
  ring

theorem row_5_0 {x : ℝ} (l1 : 42 / 55 ≤ x) (l2 : x < 97 / 127) : (42 / 55 ≤ x ∧ x < 79 / 103) ∧
    (max ((18 - 19 * x) / (90 * x - 66)) ((54 - 57 * x) / (16 * x - 4))) / (1 - x) = (18 - 19 * x) / (6 * (15 * x - 11) * (1 - x)) := by
  have h0 : 0 ≤ x - 42 / 55 := by linarith
  have h1 : 0 ≤ 97 / 127 - x := by linarith
  have u0 : 0 < 90 * x - 66 := by linarith
  have u1 : 0 < 16 * x - 4 := by linarith
  have c10 : (54 - 57 * x) / (16 * x - 4) ≤ (18 - 19 * x) / (90 * x - 66) := by
    rw [div_le_div_iff₀ u1 u0]
    nlinarith [mul_nonneg h0 h1, mul_nonneg h0 h0, mul_nonneg h1 h1]
  have e : max ((18 - 19 * x) / (90 * x - 66)) ((54 - 57 * x) / (16 * x - 4)) = (18 - 19 * x) / (90 * x - 66) := le_antisymm (max_le (le_rfl) (c10)) (le_max_of_le_left (le_rfl))
  have v : 0 < 1 - x := by linarith
  refine ⟨⟨by linarith, by linarith⟩, ?_⟩
  rw [e, div_div]
  have ne : 90 * x - 66 ≠ 0 := u0.ne'
  refine (div_eq_div_iff (mul_ne_zero ne v.ne') (by
    refine mul_ne_zero ?_ v.ne'
    intro h
    apply ne
    linarith)).mpr ?_
  ring

theorem row_5_1 {x : ℝ} (l1 : 97 / 127 ≤ x) (l2 : x < 79 / 103) : (42 / 55 ≤ x ∧ x < 79 / 103) ∧
    (max ((18 - 19 * x) / (90 * x - 66)) ((54 - 57 * x) / (16 * x - 4))) / (1 - x) = 3 * (18 - 19 * x) / (4 * (4 * x - 1) * (1 - x)) := by
  have h0 : 0 ≤ x - 97 / 127 := by linarith
  have h1 : 0 ≤ 79 / 103 - x := by linarith
  have u0 : 0 < 90 * x - 66 := by linarith
  have u1 : 0 < 16 * x - 4 := by linarith
  have c01 : (18 - 19 * x) / (90 * x - 66) ≤ (54 - 57 * x) / (16 * x - 4) := by
    rw [div_le_div_iff₀ u0 u1]
    nlinarith [mul_nonneg h0 h1, mul_nonneg h0 h0, mul_nonneg h1 h1]
  have e : max ((18 - 19 * x) / (90 * x - 66)) ((54 - 57 * x) / (16 * x - 4)) = (54 - 57 * x) / (16 * x - 4) := le_antisymm (max_le (c01) (le_rfl)) (le_max_of_le_right (le_rfl))
  have v : 0 < 1 - x := by linarith
  refine ⟨⟨by linarith, by linarith⟩, ?_⟩
  rw [e, div_div]
  have ne : 16 * x - 4 ≠ 0 := u1.ne'
  refine (div_eq_div_iff (mul_ne_zero ne v.ne') (by
    refine mul_ne_zero ?_ v.ne'
    intro h
    apply ne
    linarith)).mpr ?_
  ring

theorem row_6_0 {x : ℝ} (l1 : 79 / 103 ≤ x) (l2 : x < 33 / 43) : (79 / 103 ≤ x ∧ x < 84 / 109) ∧
    (max ((18 - 19 * x) / (74 * x - 54)) ((90 - 95 * x) / (26 * x - 6))) / (1 - x) = (18 - 19 * x) / (2 * (37 * x - 27) * (1 - x)) := by
  have h0 : 0 ≤ x - 79 / 103 := by linarith
  have h1 : 0 ≤ 33 / 43 - x := by linarith
  have u0 : 0 < 74 * x - 54 := by linarith
  have u1 : 0 < 26 * x - 6 := by linarith
  have c10 : (90 - 95 * x) / (26 * x - 6) ≤ (18 - 19 * x) / (74 * x - 54) := by
    rw [div_le_div_iff₀ u1 u0]
    nlinarith [mul_nonneg h0 h1, mul_nonneg h0 h0, mul_nonneg h1 h1]
  have e : max ((18 - 19 * x) / (74 * x - 54)) ((90 - 95 * x) / (26 * x - 6)) = (18 - 19 * x) / (74 * x - 54) := le_antisymm (max_le (le_rfl) (c10)) (le_max_of_le_left (le_rfl))
  have v : 0 < 1 - x := by linarith
  refine ⟨⟨by linarith, by linarith⟩, ?_⟩
  rw [e, div_div]
  have ne : 74 * x - 54 ≠ 0 := u0.ne'
  refine (div_eq_div_iff (mul_ne_zero ne v.ne') (by
    refine mul_ne_zero ?_ v.ne'
    intro h
    apply ne
    linarith)).mpr ?_
  ring

theorem row_6_1 {x : ℝ} (l1 : 33 / 43 ≤ x) (l2 : x < 84 / 109) : (79 / 103 ≤ x ∧ x < 84 / 109) ∧
    (max ((18 - 19 * x) / (74 * x - 54)) ((90 - 95 * x) / (26 * x - 6))) / (1 - x) = 5 * (18 - 19 * x) / (2 * (13 * x - 3) * (1 - x)) := by
  have h0 : 0 ≤ x - 33 / 43 := by linarith
  have h1 : 0 ≤ 84 / 109 - x := by linarith
  have u0 : 0 < 74 * x - 54 := by linarith
  have u1 : 0 < 26 * x - 6 := by linarith
  have c01 : (18 - 19 * x) / (74 * x - 54) ≤ (90 - 95 * x) / (26 * x - 6) := by
    rw [div_le_div_iff₀ u0 u1]
    nlinarith [mul_nonneg h0 h1, mul_nonneg h0 h0, mul_nonneg h1 h1]
  have e : max ((18 - 19 * x) / (74 * x - 54)) ((90 - 95 * x) / (26 * x - 6)) = (90 - 95 * x) / (26 * x - 6) := le_antisymm (max_le (c01) (le_rfl)) (le_max_of_le_right (le_rfl))
  have v : 0 < 1 - x := by linarith
  refine ⟨⟨by linarith, by linarith⟩, ?_⟩
  rw [e, div_div]
  have ne : 26 * x - 6 ≠ 0 := u1.ne'
  refine (div_eq_div_iff (mul_ne_zero ne v.ne') (by
    refine mul_ne_zero ?_ v.ne'
    intro h
    apply ne
    linarith)).mpr ?_
  ring

variable {eng : Engine} {hrep : List Pt → Mat} {edges : Mat → List (Pt × Pt)} {solve : RF ℝ → RF ℝ → List ℝ} {isZero : Expr ℝ → Bool}
  {orderR : List (Region ℕ) → List (Region ℕ)} {orderK : List ℚ → List ℚ}

/-- **C85** (table) The rows of the blueprint's table of bounds on `A*` between `7/10` and `84/109`: the function for each row returns exactly the
formula of the row, at every real `sigma` of the row's range. -/
theorem C85_table (C : Contracts eng edges solve isZero orderR orderK) (hh : HRepSpec hrep) (hhz : HRepNoZero hrep) : ∃ o2 o3 o8 o9 o10 o4 o5 o6,
    proveEnergy2 eng hrep edges solve isZero orderR orderK = .ok o2 ∧
    proveEnergy3 eng hrep edges solve isZero orderR orderK = .ok o3 ∧
    proveEnergy8 eng hrep edges solve isZero orderR orderK = .ok o8 ∧
    proveEnergy9 eng hrep edges solve isZero orderR orderK = .ok o9 ∧
    proveEnergy10 eng hrep edges solve isZero orderR orderK = .ok o10 ∧
    proveEnergy4 eng hrep edges solve isZero orderR orderK = .ok o4 ∧
    proveEnergy5 eng hrep edges solve isZero orderR orderK = .ok o5 ∧
    proveEnergy6 eng hrep edges solve isZero orderR orderK = .ok o6 ∧
    (∀ x : ℝ, 7 / 10 ≤ x → x < ((539 - √42121) / 460) → Gives o2 x (5 * (18 - 19 * x) / (2 * (5 * x + 3) * (1 - x)))) ∧
    (∀ x : ℝ, ((539 - √42121) / 460) ≤ x → x < 3 / 4 → Gives o2 x (2 * (45 - 44 * x) / ((2 * x + 15) * (1 - x)))) ∧
    (∀ x : ℝ, 3 / 4 ≤ x → x < 37 / 49 → Gives o3 x ((197 - 220 * x) / (8 * (5 * x - 1) * (1 - x)))) ∧
    (∀ x : ℝ, 37 / 49 ≤ x → x < 4359 / 5770 → Gives o8 x ((173 - 270 * x) / (16 * (93 - 125 * x) * (1 - x)))) ∧
    (∀ x : ℝ, 4359 / 5770 ≤ x → x < 241 / 319 → Gives o8 x ((653 - 890 * x) / (10 * (93 - 125 * x) * (1 - x)))) ∧
    (∀ x : ℝ, 241 / 319 ≤ x → x < 443 / 586 → Gives o8 x ((1151 - 1190 * x) / (20 * (15 * x - 2) * (1 - x)))) ∧
    (∀ x : ℝ, 443 / 586 ≤ x → x < 409 / 541 → Gives o9 x ((593 - 810 * x) / (5 * (171 - 230 * x) * (1 - x)))) ∧
    (∀ x : ℝ, 409 / 541 ≤ x → x < 373 / 493 → Gives o9 x (4 * (266 - 275 * x) / (5 * (55 * x - 7) * (1 - x)))) ∧
    (∀ x : ℝ, 373 / 493 ≤ x → x < 314 / 415 → Gives o10 x ((533 - 730 * x) / (30 * (26 - 35 * x) * (1 - x)))) ∧
    (∀ x : ℝ, 314 / 415 ≤ x → x < 171 / 226 → Gives o10 x (3 * (26 - 33 * x) / ((85 * x - 62) * (1 - x)))) ∧
    (∀ x : ℝ, 171 / 226 ≤ x → x < 103 / 136 → Gives o10 x ((174 - 185 * x) / ((31 * x + 2) * (1 - x)))) ∧
    (∀ x : ℝ, 103 / 136 ≤ x → x < ((6038 - 2 * √352321) / 6405) → Gives o4 x ((72 - 91 * x) / (7 * (11 * x - 8) * (1 - x)))) ∧
    (∀ x : ℝ, ((6038 - 2 * √352321) / 6405) ≤ x → x < 42 / 55 → Gives o4 x (5 * (18 - 19 * x) / (2 * (5 * x + 3) * (1 - x)))) ∧
    (∀ x : ℝ, 42 / 55 ≤ x → x < 97 / 127 → Gives o5 x ((18 - 19 * x) / (6 * (15 * x - 11) * (1 - x)))) ∧
    (∀ x : ℝ, 97 / 127 ≤ x → x < 79 / 103 → Gives o5 x (3 * (18 - 19 * x) / (4 * (4 * x - 1) * (1 - x)))) ∧
    (∀ x : ℝ, 79 / 103 ≤ x → x < 33 / 43 → Gives o6 x ((18 - 19 * x) / (2 * (37 * x - 27) * (1 - x)))) ∧
    (∀ x : ℝ, 33 / 43 ≤ x → x < 84 / 109 → Gives o6 x (5 * (18 - 19 * x) / (2 * (13 * x - 3) * (1 - x)))) := by
  obtain ⟨o2, e2, b2⟩ := C85_energy_2 C hh hhz
  obtain ⟨o3, e3, b3⟩ := C85_energy_3 C hh hhz
  obtain ⟨o8, e8, b8⟩ := C85_energy_8 C hh hhz
  obtain ⟨o9, e9, b9⟩ := C85_energy_9 C hh hhz
  obtain ⟨o10, e10, b10⟩ := C85_energy_10 C hh hhz
  obtain ⟨o4, e4, b4⟩ := C85_energy_4 C hh hhz
  obtain ⟨o5, e5, b5⟩ := C85_energy_5 C hh hhz
  obtain ⟨o6, e6, b6⟩ := C85_energy_6 C hh hhz
  refine ⟨o2, o3, o8, o9, o10, o4, o5, o6, e2, e3, e8, e9, e10, e4, e5, e6, ?_, ?_, ?_, ?_, ?_, ?_, ?_, ?_, ?_, ?_, ?_, ?_, ?_, ?_, ?_, ?_, ?_⟩
  · intro x l1 l2
    obtain ⟨⟨i1, i2⟩, e⟩ := row_2_0 l1 l2
    exact gives_of b2 (by push_cast; exact i1) (by push_cast; exact i2) e
  · intro x l1 l2
    obtain ⟨⟨i1, i2⟩, e⟩ := row_2_1 l1 l2
    exact gives_of b2 (by push_cast; exact i1) (by push_cast; exact i2) e
  · intro x l1 l2
    obtain ⟨⟨i1, i2⟩, e⟩ := row_3_0 l1 l2
    exact gives_of b3 (by push_cast; exact i1) (by push_cast; exact i2) e
  · intro x l1 l2
    obtain ⟨⟨i1, i2⟩, e⟩ := row_8_0 l1 l2
    exact gives_of b8 (by push_cast; exact i1) (by push_cast; exact i2) e
  · intro x l1 l2
    obtain ⟨⟨i1, i2⟩, e⟩ := row_8_1 l1 l2
    exact gives_of b8 (by push_cast; exact i1) (by push_cast; exact i2) e
  · intro x l1 l2
    obtain ⟨⟨i1, i2⟩, e⟩ := row_8_2 l1 l2
    exact gives_of b8 (by push_cast; exact i1) (by push_cast; exact i2) e
  · intro x l1 l2
    obtain ⟨⟨i1, i2⟩, e⟩ := row_9_0 l1 l2
    exact gives_of b9 (by push_cast; exact i1) (by push_cast; exact i2) e
  · intro x l1 l2
    obtain ⟨⟨i1, i2⟩, e⟩ := row_9_1 l1 l2
    exact gives_of b9 (by push_cast; exact i1) (by push_cast; exact i2) e
  · intro x l1 l2
    obtain ⟨⟨i1, i2⟩, e⟩ := row_10_0 l1 l2
    exact gives_of b10 (by push_cast; exact i1) (by push_cast; exact i2) e
  · intro x l1 l2
    obtain ⟨⟨i1, i2⟩, e⟩ := row_10_1 l1 l2
    exact gives_of b10 (by push_cast; exact i1) (by push_cast; exact i2) e
  · intro x l1 l2
    obtain ⟨⟨i1, i2⟩, e⟩ := row_10_2 l1 l2
    exact gives_of b10 (by push_cast; exact i1) (by push_cast; exact i2) e
  · intro x l1 l2
    obtain ⟨⟨i1, i2⟩, e⟩ := row_4_1 l1 l2
    exact gives_of b4 (by push_cast; exact i1) (by push_cast; exact i2) e
  · intro x l1 l2
    obtain ⟨⟨i1, i2⟩, e⟩ := row_4_2 l1 l2
    exact gives_of b4 (by push_cast; exact i1) (by push_cast; exact i2) e
  · intro x l1 l2
    obtain ⟨⟨i1, i2⟩, e⟩ := row_5_0 l1 l2
    exact gives_of b5 (by push_cast; exact i1) (by push_cast; exact i2) e
  · intro x l1 l2
    obtain ⟨⟨i1, i2⟩, e⟩ := row_5_1 l1 l2
    exact gives_of b5 (by push_cast; exact i1) (by push_cast; exact i2) e
  · intro x l1 l2
    obtain ⟨⟨i1, i2⟩, e⟩ := row_6_0 l1 l2
    exact gives_of b6 (by push_cast; exact i1) (by push_cast; exact i2) e
  · intro x l1 l2
    obtain ⟨⟨i1, i2⟩, e⟩ := row_6_1 l1 l2
    exact gives_of b6 (by push_cast; exact i1) (by push_cast; exact i2) e

/-- **C85** (theorems not sharp) On the left part of their intervals the functions for `664/877 ≤ sigma ≤ 31/40` and `373/493 ≤ sigma ≤ 103/136`
return less than the theorems state: at `664/877` and at `373/493` the returned value is strictly below the stated maximum. The stated bounds hold. -/
theorem C85_not_sharp (C : Contracts eng edges solve isZero orderR orderK) (hh : HRepSpec hrep) (hhz : HRepNoZero hrep) : ∃ o4 o10,
    proveEnergy4 eng hrep edges solve isZero orderR orderK = .ok o4 ∧ proveEnergy10 eng hrep edges solve isZero orderR orderK = .ok o10 ∧
    (∀ x : ℝ, 664 / 877 ≤ x → x < 31 / 40 → ∃ v, Gives o4 x v ∧
      v ≤ max ((72 - 91 * x) / (77 * x - 56)) ((90 - 95 * x) / (10 * x + 6)) / (1 - x)) ∧
    (∀ x : ℝ, 373 / 493 ≤ x → x < 103 / 136 → ∃ v, Gives o10 x v ∧
      v ≤ max ((730 * x - 533) / (1050 * x - 780)) (max ((78 - 99 * x) / (85 * x - 62)) ((174 - 185 * x) / (31 * x + 2))) / (1 - x)) ∧
    (∃ v, Gives o4 (664 / 877) v ∧ v < max ((72 - 91 * (664 / 877)) / (77 * (664 / 877) - 56)) ((90 - 95 * (664 / 877)) / (10 * (664 / 877) + 6)) /
      (1 - 664 / 877)) ∧
    ∃ v, Gives o10 (373 / 493) v ∧ v < max ((730 * (373 / 493) - 533) / (1050 * (373 / 493) - 780)) (max ((78 - 99 * (373 / 493)) /
      (85 * (373 / 493) - 62)) ((174 - 185 * (373 / 493)) / (31 * (373 / 493) + 2))) / (1 - 373 / 493) := by
  obtain ⟨o4, e4, b4⟩ := C85_energy_4 C hh hhz
  obtain ⟨o10, e10, b10⟩ := C85_energy_10 C hh hhz
  refine ⟨o4, o10, e4, e10, ?_, ?_, ?_, ?_⟩
  · intro x l1 l2
    refine ⟨_, gives_of b4 (by push_cast; exact l1) (by push_cast; exact l2) rfl, ?_⟩
    exact div_le_div_of_nonneg_right (max_le_max (min_le_right _ _) le_rfl) (by linarith)
  · intro x l1 l2
    refine ⟨_, gives_of b10 (by push_cast; exact l1) (by push_cast; exact l2) rfl, ?_⟩
    refine div_le_div_of_nonneg_right ?_ (by linarith)
    exact max_le (le_max_of_le_left (min_le_left _ _)) (le_max_of_le_right (le_max_right _ _))
  · refine ⟨_, gives_of b4 (by push_cast; exact le_rfl) (by norm_num) rfl, ?_⟩
    norm_num
  · refine ⟨_, gives_of b10 (by push_cast; exact le_rfl) (by norm_num) rfl, ?_⟩
    norm_num

/-- The row between `33/43` and `84/109` at `77/100`. -/
example : ∃ eng hrep edges solve isZero orderR orderK out, proveEnergy6 eng hrep edges solve isZero orderR orderK = .ok out ∧
    Gives out (77 / 100) (5 * (18 - 19 * (77 / 100)) / (2 * (13 * (77 / 100) - 3) * (1 - 77 / 100))) := by
  obtain ⟨eng, edges, solve, isZero, orderR, orderK, C⟩ := contracts_satisfiable
  obtain ⟨hrep, hh, hhz⟩ := hRepNoZero_satisfiable
  obtain ⟨out, h1, h2⟩ := C85_energy_6 C hh hhz
  obtain ⟨_, e⟩ := row_6_1 (x := 77 / 100) (by norm_num) (by norm_num)
  exact ⟨eng, hrep, edges, solve, isZero, orderR, orderK, out, h1, gives_of h2 (by norm_num) (by norm_num) e⟩

end DerivedEnergy
end Expdb
