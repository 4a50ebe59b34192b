import Verif.Model.EnergyPlot
import Verif.Props.DerivedEnergyTable
import Verif.Props.DerivedEnergyCase7

/-!
# C101: the energy estimates that are drawn, compared with the derived ones
-/

namespace Expdb
namespace EnergyPlot

open Formula (Fml parse)
open Rational SupRatio Mat Region ZeroDensity DerivedZD DerivedEnergy RegionUnb Literature EnergyUnb

/-- The function of row 1. -/
noncomputable def g1 (x : ℝ) : ℝ := (5 * (18 - 19 * x)) / ((2 * (5 * x + 3)) * (1 - x))

/-- The function of row 2. -/
noncomputable def g2 (x : ℝ) : ℝ := (2 * (45 - 44 * x)) / ((2 * x + 15) * (1 - x))

/-- The function of row 3. -/
noncomputable def g3 (x : ℝ) : ℝ := (197 - 220 * x) / ((8 * (5 * x - 1)) * (1 - x))

/-- The function of row 4. -/
noncomputable def g4 (x : ℝ) : ℝ := (110 * x - 53) / ((16 * (85 * x - 63)) * (1 - x))

/-- The function of row 5. -/
noncomputable def g5 (x : ℝ) : ℝ := (570 * x - 413) / ((10 * (85 * x - 63)) * (1 - x))

/-- The function of row 6. -/
noncomputable def g6 (x : ℝ) : ℝ := (66 - 83 * x) / ((69 * x - 50) * (1 - x))

/-- The function of row 7. -/
noncomputable def g7 (x : ℝ) : ℝ := (5 * (18 - 19 * x)) / ((2 * (5 * x + 3)) * (1 - x))

/-- The function of row 8. -/
noncomputable def g8 (x : ℝ) : ℝ := (18 - 19 * x) / ((6 * (15 * x - 11)) * (1 - x))

/-- The function of row 9. -/
noncomputable def g9 (x : ℝ) : ℝ := (3 * (18 - 19 * x)) / ((4 * (4 * x - 1)) * (1 - x))

/-- The function of row 10. -/
noncomputable def g10 (x : ℝ) : ℝ := (18 - 19 * x) / ((2 * (37 * x - 27)) * (1 - x))

/-- The function of row 11. -/
noncomputable def g11 (x : ℝ) : ℝ := (5 * (18 - 19 * x)) / ((2 * (13 * x - 3)) * (1 - x))

/-- The function of row 12. -/
noncomputable def g12 (x : ℝ) : ℝ := (18 - 19 * x) / ((9 * (3 * x - 2)) * (1 - x))

/-- The function of row 13. -/
noncomputable def g13 (x : ℝ) : ℝ := (4 * (10 - 9 * x)) / ((5 * (4 * x - 1)) * (1 - x))

/-- The value of a row, if its interval contains the point, in front of a list. -/
noncomputable def put (lo hi : ℚ) (g : ℝ → ℝ) (s : ℚ) (l : List ℝ) : List ℝ := if lo ≤ s ∧ s < hi then g s :: l else l

theorem valuesAt_cons {s : ℚ} {r : Row} {rs : List Row} {f : Fml} {l : List ℝ} (g : ℝ → ℝ) (h : parse r.expr = .ok f) (hg : ∀ x, f.eval x = g x)
    (hl : valuesAt s rs = .ok l) : valuesAt s (r :: rs) = .ok (put r.lo r.hi g s l) := by
  unfold valuesAt
  rw [h]
  simp only [bind, Except.bind, hl, pure, Except.pure]
  have : (⟨r.lo, r.hi, true, false⟩ : Interval).contains s = decide (r.lo ≤ s ∧ s < r.hi) := by
    unfold Interval.contains
    simp
  rw [this]
  unfold put
  by_cases hc : r.lo ≤ s ∧ s < r.hi
  · rw [if_pos hc, if_pos (decide_eq_true hc), hg]
  · rw [if_neg hc, if_neg (by simpa using hc)]

theorem values_eq (s : ℚ) : valuesAt s table = .ok (put (1 / 2) 1 (fun _ => 1000000) s (put (7 / 10) (1451 / 2000) g1 s (put (1451 / 2000) (3 / 4) g2 s (put (3 / 4) (25 / 33) g3 s (put (25 / 33) (3039 / 4010) g4 s (put (3039 / 4010) (254 / 335) g5 s (put (254 / 335) (758233 / 1000000) g6 s (put (758233 / 1000000) (42 / 55) g7 s (put (42 / 55) (97 / 127) g8 s (put (97 / 127) (79 / 103) g9 s (put (79 / 103) (33 / 43) g10 s (put (33 / 43) (84 / 109) g11 s (put (33 / 43) (7721 / 10000) g12 s (put (7721 / 10000) (5 / 6) g13 s ([]))))))))))))))) := by
  unfold table
  refine valuesAt_cons (f := .num 1000000) _ (by decide +kernel) (fun x => by simp [Fml.eval]) ?_
  refine valuesAt_cons (f := (.div (.mul (.num 5) (.sub (.num 18) (.mul (.num 19) .x))) (.mul (.mul (.num 2) (.add (.mul (.num 5) .x) (.num 3))) (.sub (.num 1) .x)))) g1 (by decide +kernel) (fun x => by simp [Fml.eval, g1]) ?_
  refine valuesAt_cons (f := (.div (.mul (.num 2) (.sub (.num 45) (.mul (.num 44) .x))) (.mul (.add (.mul (.num 2) .x) (.num 15)) (.sub (.num 1) .x)))) g2 (by decide +kernel) (fun x => by simp [Fml.eval, g2]) ?_
  refine valuesAt_cons (f := (.div (.sub (.num 197) (.mul (.num 220) .x)) (.mul (.mul (.num 8) (.sub (.mul (.num 5) .x) (.num 1))) (.sub (.num 1) .x)))) g3 (by decide +kernel) (fun x => by simp [Fml.eval, g3]) ?_
  refine valuesAt_cons (f := (.div (.sub (.mul (.num 110) .x) (.num 53)) (.mul (.mul (.num 16) (.sub (.mul (.num 85) .x) (.num 63))) (.sub (.num 1) .x)))) g4 (by decide +kernel) (fun x => by simp [Fml.eval, g4]) ?_
  refine valuesAt_cons (f := (.div (.sub (.mul (.num 570) .x) (.num 413)) (.mul (.mul (.num 10) (.sub (.mul (.num 85) .x) (.num 63))) (.sub (.num 1) .x)))) g5 (by decide +kernel) (fun x => by simp [Fml.eval, g5]) ?_
  refine valuesAt_cons (f := (.div (.sub (.num 66) (.mul (.num 83) .x)) (.mul (.sub (.mul (.num 69) .x) (.num 50)) (.sub (.num 1) .x)))) g6 (by decide +kernel) (fun x => by simp [Fml.eval, g6]) ?_
  refine valuesAt_cons (f := (.div (.mul (.num 5) (.sub (.num 18) (.mul (.num 19) .x))) (.mul (.mul (.num 2) (.add (.mul (.num 5) .x) (.num 3))) (.sub (.num 1) .x)))) g7 (by decide +kernel) (fun x => by simp [Fml.eval, g7]) ?_
  refine valuesAt_cons (f := (.div (.sub (.num 18) (.mul (.num 19) .x)) (.mul (.mul (.num 6) (.sub (.mul (.num 15) .x) (.num 11))) (.sub (.num 1) .x)))) g8 (by decide +kernel) (fun x => by simp [Fml.eval, g8]) ?_
  refine valuesAt_cons (f := (.div (.mul (.num 3) (.sub (.num 18) (.mul (.num 19) .x))) (.mul (.mul (.num 4) (.sub (.mul (.num 4) .x) (.num 1))) (.sub (.num 1) .x)))) g9 (by decide +kernel) (fun x => by simp [Fml.eval, g9]) ?_
  refine valuesAt_cons (f := (.div (.sub (.num 18) (.mul (.num 19) .x)) (.mul (.mul (.num 2) (.sub (.mul (.num 37) .x) (.num 27))) (.sub (.num 1) .x)))) g10 (by decide +kernel) (fun x => by simp [Fml.eval, g10]) ?_
  refine valuesAt_cons (f := (.div (.mul (.num 5) (.sub (.num 18) (.mul (.num 19) .x))) (.mul (.mul (.num 2) (.sub (.mul (.num 13) .x) (.num 3))) (.sub (.num 1) .x)))) g11 (by decide +kernel) (fun x => by simp [Fml.eval, g11]) ?_
  refine valuesAt_cons (f := (.div (.sub (.num 18) (.mul (.num 19) .x)) (.mul (.mul (.num 9) (.sub (.mul (.num 3) .x) (.num 2))) (.sub (.num 1) .x)))) g12 (by decide +kernel) (fun x => by simp [Fml.eval, g12]) ?_
  refine valuesAt_cons (f := (.div (.mul (.num 4) (.sub (.num 10) (.mul (.num 9) .x))) (.mul (.mul (.num 5) (.sub (.mul (.num 4) .x) (.num 1))) (.sub (.num 1) .x)))) g13 (by decide +kernel) (fun x => by simp [Fml.eval, g13]) ?_
  rfl

theorem put_pos {lo hi : ℚ} {g : ℝ → ℝ} {s : ℚ} {l : List ℝ} (h1 : lo ≤ s) (h2 : s < hi) : put lo hi g s l = g s :: l := if_pos ⟨h1, h2⟩

theorem put_low {lo hi : ℚ} {g : ℝ → ℝ} {s : ℚ} {l : List ℝ} (h : s < lo) : put lo hi g s l = l := if_neg (fun h' => by linarith [h'.1])

theorem put_high {lo hi : ℚ} {g : ℝ → ℝ} {s : ℚ} {l : List ℝ} (h : hi ≤ s) : put lo hi g s l = l := if_neg (fun h' => by linarith [h'.2])

theorem cap {a b y c m : ℝ} (hm : 0 < m) (hb : m ≤ b) (hy : 1 / 6 ≤ y) (ha : a ≤ c) (hc : c ≤ 1000000 * (m / 6)) : a / (b * y) ≤ 1000000 := by
  have : m * (1 / 6) ≤ b * y := mul_le_mul hb hy (by norm_num) (hm.le.trans hb)
  rw [div_le_iff₀ (lt_of_lt_of_le (by positivity) this)]
  linarith

theorem lt_of_cross {a b c d y : ℝ} (hb : 0 < b) (hd : 0 < d) (hy : 0 < y) (h : a * d < c * b) : a / (b * y) < c / (d * y) := by
  rw [← div_div, ← div_div]
  exact div_lt_div_of_pos_right ((div_lt_div_iff₀ hb hd).mpr h) hy

theorem le_of_cross {a b c d y : ℝ} (hb : 0 < b) (hd : 0 < d) (hy : 0 < y) (h : a * d ≤ c * b) : a / (b * y) ≤ c / (d * y) := by
  rw [← div_div, ← div_div]
  exact div_le_div_of_nonneg_right ((div_le_div_iff₀ hb hd).mpr h) hy.le

theorem cell1 (s : ℚ) (h1 : 7 / 10 ≤ s) (h2 : s < 1451 / 2000) : newBound s = .ok (g1 s) := by
  have v1 : ((7 / 10 : ℚ) : ℝ) ≤ s := by exact_mod_cast h1
  have v2 : (s : ℝ) < ((1451 / 2000 : ℚ) : ℝ) := by exact_mod_cast h2
  push_cast at v1 v2
  unfold newBound
  rw [values_eq, put_pos (by linarith) (by linarith), put_pos (lo := 7 / 10) (hi := 1451 / 2000) (by linarith) (by linarith), put_low (lo := 1451 / 2000) (hi := 3 / 4) (by linarith), put_low (lo := 3 / 4) (hi := 25 / 33) (by linarith), put_low (lo := 25 / 33) (hi := 3039 / 4010) (by linarith), put_low (lo := 3039 / 4010) (hi := 254 / 335) (by linarith), put_low (lo := 254 / 335) (hi := 758233 / 1000000) (by linarith), put_low (lo := 758233 / 1000000) (hi := 42 / 55) (by linarith), put_low (lo := 42 / 55) (hi := 97 / 127) (by linarith), put_low (lo := 97 / 127) (hi := 79 / 103) (by linarith), put_low (lo := 79 / 103) (hi := 33 / 43) (by linarith), put_low (lo := 33 / 43) (hi := 84 / 109) (by linarith), put_low (lo := 33 / 43) (hi := 7721 / 10000) (by linarith), put_low (lo := 7721 / 10000) (hi := 5 / 6) (by linarith)]
  have e : g1 s ≤ 1000000 := by
    unfold g1
    exact cap (m := 13 / 1) (c := 47 / 2) (by norm_num) (by linarith) (by linarith) (by linarith) (by norm_num)
  show Except.ok (min 1000000 (g1 s)) = _
  rw [min_eq_right e]

theorem cell2 (s : ℚ) (h1 : 1451 / 2000 ≤ s) (h2 : s < 3 / 4) : newBound s = .ok (g2 s) := by
  have v1 : ((1451 / 2000 : ℚ) : ℝ) ≤ s := by exact_mod_cast h1
  have v2 : (s : ℝ) < ((3 / 4 : ℚ) : ℝ) := by exact_mod_cast h2
  push_cast at v1 v2
  unfold newBound
  rw [values_eq, put_pos (by linarith) (by linarith), put_high (lo := 7 / 10) (hi := 1451 / 2000) (by linarith), put_pos (lo := 1451 / 2000) (hi := 3 / 4) (by linarith) (by linarith), put_low (lo := 3 / 4) (hi := 25 / 33) (by linarith), put_low (lo := 25 / 33) (hi := 3039 / 4010) (by linarith), put_low (lo := 3039 / 4010) (hi := 254 / 335) (by linarith), put_low (lo := 254 / 335) (hi := 758233 / 1000000) (by linarith), put_low (lo := 758233 / 1000000) (hi := 42 / 55) (by linarith), put_low (lo := 42 / 55) (hi := 97 / 127) (by linarith), put_low (lo := 97 / 127) (hi := 79 / 103) (by linarith), put_low (lo := 79 / 103) (hi := 33 / 43) (by linarith), put_low (lo := 33 / 43) (hi := 84 / 109) (by linarith), put_low (lo := 33 / 43) (hi := 7721 / 10000) (by linarith), put_low (lo := 7721 / 10000) (hi := 5 / 6) (by linarith)]
  have e : g2 s ≤ 1000000 := by
    unfold g2
    exact cap (m := 16451 / 1000) (c := 6539 / 250) (by norm_num) (by linarith) (by linarith) (by linarith) (by norm_num)
  show Except.ok (min 1000000 (g2 s)) = _
  rw [min_eq_right e]

theorem cell3 (s : ℚ) (h1 : 3 / 4 ≤ s) (h2 : s < 25 / 33) : newBound s = .ok (g3 s) := by
  have v1 : ((3 / 4 : ℚ) : ℝ) ≤ s := by exact_mod_cast h1
  have v2 : (s : ℝ) < ((25 / 33 : ℚ) : ℝ) := by exact_mod_cast h2
  push_cast at v1 v2
  unfold newBound
  rw [values_eq, put_pos (by linarith) (by linarith), put_high (lo := 7 / 10) (hi := 1451 / 2000) (by linarith), put_high (lo := 1451 / 2000) (hi := 3 / 4) (by linarith), put_pos (lo := 3 / 4) (hi := 25 / 33) (by linarith) (by linarith), put_low (lo := 25 / 33) (hi := 3039 / 4010) (by linarith), put_low (lo := 3039 / 4010) (hi := 254 / 335) (by linarith), put_low (lo := 254 / 335) (hi := 758233 / 1000000) (by linarith), put_low (lo := 758233 / 1000000) (hi := 42 / 55) (by linarith), put_low (lo := 42 / 55) (hi := 97 / 127) (by linarith), put_low (lo := 97 / 127) (hi := 79 / 103) (by linarith), put_low (lo := 79 / 103) (hi := 33 / 43) (by linarith), put_low (lo := 33 / 43) (hi := 84 / 109) (by linarith), put_low (lo := 33 / 43) (hi := 7721 / 10000) (by linarith), put_low (lo := 7721 / 10000) (hi := 5 / 6) (by linarith)]
  have e : g3 s ≤ 1000000 := by
    unfold g3
    exact cap (m := 22 / 1) (c := 32 / 1) (by norm_num) (by linarith) (by linarith) (by linarith) (by norm_num)
  show Except.ok (min 1000000 (g3 s)) = _
  rw [min_eq_right e]

theorem cell4 (s : ℚ) (h1 : 25 / 33 ≤ s) (h2 : s < 3039 / 4010) : newBound s = .ok (g4 s) := by
  have v1 : ((25 / 33 : ℚ) : ℝ) ≤ s := by exact_mod_cast h1
  have v2 : (s : ℝ) < ((3039 / 4010 : ℚ) : ℝ) := by exact_mod_cast h2
  push_cast at v1 v2
  unfold newBound
  rw [values_eq, put_pos (by linarith) (by linarith), put_high (lo := 7 / 10) (hi := 1451 / 2000) (by linarith), put_high (lo := 1451 / 2000) (hi := 3 / 4) (by linarith), put_high (lo := 3 / 4) (hi := 25 / 33) (by linarith), put_pos (lo := 25 / 33) (hi := 3039 / 4010) (by linarith) (by linarith), put_low (lo := 3039 / 4010) (hi := 254 / 335) (by linarith), put_low (lo := 254 / 335) (hi := 758233 / 1000000) (by linarith), put_low (lo := 758233 / 1000000) (hi := 42 / 55) (by linarith), put_low (lo := 42 / 55) (hi := 97 / 127) (by linarith), put_low (lo := 97 / 127) (hi := 79 / 103) (by linarith), put_low (lo := 79 / 103) (hi := 33 / 43) (by linarith), put_low (lo := 33 / 43) (hi := 84 / 109) (by linarith), put_low (lo := 33 / 43) (hi := 7721 / 10000) (by linarith), put_low (lo := 7721 / 10000) (hi := 5 / 6) (by linarith)]
  have e : g4 s ≤ 1000000 := by
    unfold g4
    exact cap (m := 736 / 33) (c := 12176 / 401) (by norm_num) (by linarith) (by linarith) (by linarith) (by norm_num)
  show Except.ok (min 1000000 (g4 s)) = _
  rw [min_eq_right e]

theorem cell5 (s : ℚ) (h1 : 3039 / 4010 ≤ s) (h2 : s < 254 / 335) : newBound s = .ok (g5 s) := by
  have v1 : ((3039 / 4010 : ℚ) : ℝ) ≤ s := by exact_mod_cast h1
  have v2 : (s : ℝ) < ((254 / 335 : ℚ) : ℝ) := by exact_mod_cast h2
  push_cast at v1 v2
  unfold newBound
  rw [values_eq, put_pos (by linarith) (by linarith), put_high (lo := 7 / 10) (hi := 1451 / 2000) (by linarith), put_high (lo := 1451 / 2000) (hi := 3 / 4) (by linarith), put_high (lo := 3 / 4) (hi := 25 / 33) (by linarith), put_high (lo := 25 / 33) (hi := 3039 / 4010) (by linarith), put_pos (lo := 3039 / 4010) (hi := 254 / 335) (by linarith) (by linarith), put_low (lo := 254 / 335) (hi := 758233 / 1000000) (by linarith), put_low (lo := 758233 / 1000000) (hi := 42 / 55) (by linarith), put_low (lo := 42 / 55) (hi := 97 / 127) (by linarith), put_low (lo := 97 / 127) (hi := 79 / 103) (by linarith), put_low (lo := 79 / 103) (hi := 33 / 43) (by linarith), put_low (lo := 33 / 43) (hi := 84 / 109) (by linarith), put_low (lo := 33 / 43) (hi := 7721 / 10000) (by linarith), put_low (lo := 7721 / 10000) (hi := 5 / 6) (by linarith)]
  have e : g5 s ≤ 1000000 := by
    unfold g5
    exact cap (m := 5685 / 401) (c := 1285 / 67) (by norm_num) (by linarith) (by linarith) (by linarith) (by norm_num)
  show Except.ok (min 1000000 (g5 s)) = _
  rw [min_eq_right e]

theorem cell6 (s : ℚ) (h1 : 254 / 335 ≤ s) (h2 : s < 758233 / 1000000) : newBound s = .ok (g6 s) := by
  have v1 : ((254 / 335 : ℚ) : ℝ) ≤ s := by exact_mod_cast h1
  have v2 : (s : ℝ) < ((758233 / 1000000 : ℚ) : ℝ) := by exact_mod_cast h2
  push_cast at v1 v2
  unfold newBound
  rw [values_eq, put_pos (by linarith) (by linarith), put_high (lo := 7 / 10) (hi := 1451 / 2000) (by linarith), put_high (lo := 1451 / 2000) (hi := 3 / 4) (by linarith), put_high (lo := 3 / 4) (hi := 25 / 33) (by linarith), put_high (lo := 25 / 33) (hi := 3039 / 4010) (by linarith), put_high (lo := 3039 / 4010) (hi := 254 / 335) (by linarith), put_pos (lo := 254 / 335) (hi := 758233 / 1000000) (by linarith) (by linarith), put_low (lo := 758233 / 1000000) (hi := 42 / 55) (by linarith), put_low (lo := 42 / 55) (hi := 97 / 127) (by linarith), put_low (lo := 97 / 127) (hi := 79 / 103) (by linarith), put_low (lo := 79 / 103) (hi := 33 / 43) (by linarith), put_low (lo := 33 / 43) (hi := 84 / 109) (by linarith), put_low (lo := 33 / 43) (hi := 7721 / 10000) (by linarith), put_low (lo := 7721 / 10000) (hi := 5 / 6) (by linarith)]
  have e : g6 s ≤ 1000000 := by
    unfold g6
    exact cap (m := 776 / 335) (c := 1028 / 335) (by norm_num) (by linarith) (by linarith) (by linarith) (by norm_num)
  show Except.ok (min 1000000 (g6 s)) = _
  rw [min_eq_right e]

theorem cell7 (s : ℚ) (h1 : 758233 / 1000000 ≤ s) (h2 : s < 42 / 55) : newBound s = .ok (g7 s) := by
  have v1 : ((758233 / 1000000 : ℚ) : ℝ) ≤ s := by exact_mod_cast h1
  have v2 : (s : ℝ) < ((42 / 55 : ℚ) : ℝ) := by exact_mod_cast h2
  push_cast at v1 v2
  unfold newBound
  rw [values_eq, put_pos (by linarith) (by linarith), put_high (lo := 7 / 10) (hi := 1451 / 2000) (by linarith), put_high (lo := 1451 / 2000) (hi := 3 / 4) (by linarith), put_high (lo := 3 / 4) (hi := 25 / 33) (by linarith), put_high (lo := 25 / 33) (hi := 3039 / 4010) (by linarith), put_high (lo := 3039 / 4010) (hi := 254 / 335) (by linarith), put_high (lo := 254 / 335) (hi := 758233 / 1000000) (by linarith), put_pos (lo := 758233 / 1000000) (hi := 42 / 55) (by linarith) (by linarith), put_low (lo := 42 / 55) (hi := 97 / 127) (by linarith), put_low (lo := 97 / 127) (hi := 79 / 103) (by linarith), put_low (lo := 79 / 103) (hi := 33 / 43) (by linarith), put_low (lo := 33 / 43) (hi := 84 / 109) (by linarith), put_low (lo := 33 / 43) (hi := 7721 / 10000) (by linarith), put_low (lo := 7721 / 10000) (hi := 5 / 6) (by linarith)]
  have e : g7 s ≤ 1000000 := by
    unfold g7
    exact cap (m := 1358233 / 100000) (c := 3593573 / 200000) (by norm_num) (by linarith) (by linarith) (by linarith) (by norm_num)
  show Except.ok (min 1000000 (g7 s)) = _
  rw [min_eq_right e]

theorem cell8 (s : ℚ) (h1 : 42 / 55 ≤ s) (h2 : s < 97 / 127) : newBound s = .ok (g8 s) := by
  have v1 : ((42 / 55 : ℚ) : ℝ) ≤ s := by exact_mod_cast h1
  have v2 : (s : ℝ) < ((97 / 127 : ℚ) : ℝ) := by exact_mod_cast h2
  push_cast at v1 v2
  unfold newBound
  rw [values_eq, put_pos (by linarith) (by linarith), put_high (lo := 7 / 10) (hi := 1451 / 2000) (by linarith), put_high (lo := 1451 / 2000) (hi := 3 / 4) (by linarith), put_high (lo := 3 / 4) (hi := 25 / 33) (by linarith), put_high (lo := 25 / 33) (hi := 3039 / 4010) (by linarith), put_high (lo := 3039 / 4010) (hi := 254 / 335) (by linarith), put_high (lo := 254 / 335) (hi := 758233 / 1000000) (by linarith), put_high (lo := 758233 / 1000000) (hi := 42 / 55) (by linarith), put_pos (lo := 42 / 55) (hi := 97 / 127) (by linarith) (by linarith), put_low (lo := 97 / 127) (hi := 79 / 103) (by linarith), put_low (lo := 79 / 103) (hi := 33 / 43) (by linarith), put_low (lo := 33 / 43) (hi := 84 / 109) (by linarith), put_low (lo := 33 / 43) (hi := 7721 / 10000) (by linarith), put_low (lo := 7721 / 10000) (hi := 5 / 6) (by linarith)]
  have e : g8 s ≤ 1000000 := by
    unfold g8
    exact cap (m := 30 / 11) (c := 192 / 55) (by norm_num) (by linarith) (by linarith) (by linarith) (by norm_num)
  show Except.ok (min 1000000 (g8 s)) = _
  rw [min_eq_right e]

theorem cell9 (s : ℚ) (h1 : 97 / 127 ≤ s) (h2 : s < 79 / 103) : newBound s = .ok (g9 s) := by
  have v1 : ((97 / 127 : ℚ) : ℝ) ≤ s := by exact_mod_cast h1
  have v2 : (s : ℝ) < ((79 / 103 : ℚ) : ℝ) := by exact_mod_cast h2
  push_cast at v1 v2
  unfold newBound
  rw [values_eq, put_pos (by linarith) (by linarith), put_high (lo := 7 / 10) (hi := 1451 / 2000) (by linarith), put_high (lo := 1451 / 2000) (hi := 3 / 4) (by linarith), put_high (lo := 3 / 4) (hi := 25 / 33) (by linarith), put_high (lo := 25 / 33) (hi := 3039 / 4010) (by linarith), put_high (lo := 3039 / 4010) (hi := 254 / 335) (by linarith), put_high (lo := 254 / 335) (hi := 758233 / 1000000) (by linarith), put_high (lo := 758233 / 1000000) (hi := 42 / 55) (by linarith), put_high (lo := 42 / 55) (hi := 97 / 127) (by linarith), put_pos (lo := 97 / 127) (hi := 79 / 103) (by linarith) (by linarith), put_low (lo := 79 / 103) (hi := 33 / 43) (by linarith), put_low (lo := 33 / 43) (hi := 84 / 109) (by linarith), put_low (lo := 33 / 43) (hi := 7721 / 10000) (by linarith), put_low (lo := 7721 / 10000) (hi := 5 / 6) (by linarith)]
  have e : g9 s ≤ 1000000 := by
    unfold g9
    exact cap (m := 1044 / 127) (c := 1329 / 127) (by norm_num) (by linarith) (by linarith) (by linarith) (by norm_num)
  show Except.ok (min 1000000 (g9 s)) = _
  rw [min_eq_right e]

theorem cell10 (s : ℚ) (h1 : 79 / 103 ≤ s) (h2 : s < 33 / 43) : newBound s = .ok (g10 s) := by
  have v1 : ((79 / 103 : ℚ) : ℝ) ≤ s := by exact_mod_cast h1
  have v2 : (s : ℝ) < ((33 / 43 : ℚ) : ℝ) := by exact_mod_cast h2
  push_cast at v1 v2
  unfold newBound
  rw [values_eq, put_pos (by linarith) (by linarith), put_high (lo := 7 / 10) (hi := 1451 / 2000) (by linarith), put_high (lo := 1451 / 2000) (hi := 3 / 4) (by linarith), put_high (lo := 3 / 4) (hi := 25 / 33) (by linarith), put_high (lo := 25 / 33) (hi := 3039 / 4010) (by linarith), put_high (lo := 3039 / 4010) (hi := 254 / 335) (by linarith), put_high (lo := 254 / 335) (hi := 758233 / 1000000) (by linarith), put_high (lo := 758233 / 1000000) (hi := 42 / 55) (by linarith), put_high (lo := 42 / 55) (hi := 97 / 127) (by linarith), put_high (lo := 97 / 127) (hi := 79 / 103) (by linarith), put_pos (lo := 79 / 103) (hi := 33 / 43) (by linarith) (by linarith), put_low (lo := 33 / 43) (hi := 84 / 109) (by linarith), put_low (lo := 33 / 43) (hi := 7721 / 10000) (by linarith), put_low (lo := 7721 / 10000) (hi := 5 / 6) (by linarith)]
  have e : g10 s ≤ 1000000 := by
    unfold g10
    exact cap (m := 284 / 103) (c := 353 / 103) (by norm_num) (by linarith) (by linarith) (by linarith) (by norm_num)
  show Except.ok (min 1000000 (g10 s)) = _
  rw [min_eq_right e]

theorem cell11 (s : ℚ) (h1 : 33 / 43 ≤ s) (h2 : s < 84 / 109) : newBound s = .ok (g11 s) := by
  have v1 : ((33 / 43 : ℚ) : ℝ) ≤ s := by exact_mod_cast h1
  have v2 : (s : ℝ) < ((84 / 109 : ℚ) : ℝ) := by exact_mod_cast h2
  push_cast at v1 v2
  unfold newBound
  rw [values_eq, put_pos (by linarith) (by linarith), put_high (lo := 7 / 10) (hi := 1451 / 2000) (by linarith), put_high (lo := 1451 / 2000) (hi := 3 / 4) (by linarith), put_high (lo := 3 / 4) (hi := 25 / 33) (by linarith), put_high (lo := 25 / 33) (hi := 3039 / 4010) (by linarith), put_high (lo := 3039 / 4010) (hi := 254 / 335) (by linarith), put_high (lo := 254 / 335) (hi := 758233 / 1000000) (by linarith), put_high (lo := 758233 / 1000000) (hi := 42 / 55) (by linarith), put_high (lo := 42 / 55) (hi := 97 / 127) (by linarith), put_high (lo := 97 / 127) (hi := 79 / 103) (by linarith), put_high (lo := 79 / 103) (hi := 33 / 43) (by linarith), put_pos (lo := 33 / 43) (hi := 84 / 109) (by linarith) (by linarith), put_pos (lo := 33 / 43) (hi := 7721 / 10000) (by linarith) (by linarith), put_low (lo := 7721 / 10000) (hi := 5 / 6) (by linarith)]
  have e : g11 s ≤ 1000000 := by
    unfold g11
    exact cap (m := 600 / 43) (c := 735 / 43) (by norm_num) (by linarith) (by linarith) (by linarith) (by norm_num)
  have e' : g11 s ≤ g12 s := by
    unfold g11 g12
    refine le_of_cross (by linarith) (by linarith) (by linarith) ?_
    nlinarith [mul_nonneg (show (0 : ℝ) ≤ 18 - 19 * s by linarith) (show (0 : ℝ) ≤ 84 / 109 - s by linarith)]
  show Except.ok (min (min 1000000 (g11 s)) (g12 s)) = _
  rw [min_eq_right e, min_eq_left e']

theorem cell12 (s : ℚ) (h1 : 84 / 109 ≤ s) (h2 : s < 7721 / 10000) : newBound s = .ok (g12 s) := by
  have v1 : ((84 / 109 : ℚ) : ℝ) ≤ s := by exact_mod_cast h1
  have v2 : (s : ℝ) < ((7721 / 10000 : ℚ) : ℝ) := by exact_mod_cast h2
  push_cast at v1 v2
  unfold newBound
  rw [values_eq, put_pos (by linarith) (by linarith), put_high (lo := 7 / 10) (hi := 1451 / 2000) (by linarith), put_high (lo := 1451 / 2000) (hi := 3 / 4) (by linarith), put_high (lo := 3 / 4) (hi := 25 / 33) (by linarith), put_high (lo := 25 / 33) (hi := 3039 / 4010) (by linarith), put_high (lo := 3039 / 4010) (hi := 254 / 335) (by linarith), put_high (lo := 254 / 335) (hi := 758233 / 1000000) (by linarith), put_high (lo := 758233 / 1000000) (hi := 42 / 55) (by linarith), put_high (lo := 42 / 55) (hi := 97 / 127) (by linarith), put_high (lo := 97 / 127) (hi := 79 / 103) (by linarith), put_high (lo := 79 / 103) (hi := 33 / 43) (by linarith), put_high (lo := 33 / 43) (hi := 84 / 109) (by linarith), put_pos (lo := 33 / 43) (hi := 7721 / 10000) (by linarith) (by linarith), put_low (lo := 7721 / 10000) (hi := 5 / 6) (by linarith)]
  have e : g12 s ≤ 1000000 := by
    unfold g12
    exact cap (m := 306 / 109) (c := 366 / 109) (by norm_num) (by linarith) (by linarith) (by linarith) (by norm_num)
  show Except.ok (min 1000000 (g12 s)) = _
  rw [min_eq_right e]

theorem cell13 (s : ℚ) (h1 : 7721 / 10000 ≤ s) (h2 : s < 5 / 6) : newBound s = .ok (g13 s) := by
  have v1 : ((7721 / 10000 : ℚ) : ℝ) ≤ s := by exact_mod_cast h1
  have v2 : (s : ℝ) < ((5 / 6 : ℚ) : ℝ) := by exact_mod_cast h2
  push_cast at v1 v2
  unfold newBound
  rw [values_eq, put_pos (by linarith) (by linarith), put_high (lo := 7 / 10) (hi := 1451 / 2000) (by linarith), put_high (lo := 1451 / 2000) (hi := 3 / 4) (by linarith), put_high (lo := 3 / 4) (hi := 25 / 33) (by linarith), put_high (lo := 25 / 33) (hi := 3039 / 4010) (by linarith), put_high (lo := 3039 / 4010) (hi := 254 / 335) (by linarith), put_high (lo := 254 / 335) (hi := 758233 / 1000000) (by linarith), put_high (lo := 758233 / 1000000) (hi := 42 / 55) (by linarith), put_high (lo := 42 / 55) (hi := 97 / 127) (by linarith), put_high (lo := 97 / 127) (hi := 79 / 103) (by linarith), put_high (lo := 79 / 103) (hi := 33 / 43) (by linarith), put_high (lo := 33 / 43) (hi := 84 / 109) (by linarith), put_high (lo := 33 / 43) (hi := 7721 / 10000) (by linarith), put_pos (lo := 7721 / 10000) (hi := 5 / 6) (by linarith) (by linarith)]
  have e : g13 s ≤ 1000000 := by
    unfold g13
    exact cap (m := 5221 / 500) (c := 30511 / 2500) (by norm_num) (by linarith) (by linarith) (by linarith) (by norm_num)
  show Except.ok (min 1000000 (g13 s)) = _
  rw [min_eq_right e]

/-! ### The older bounds between 37/49 and 0.758233 -/

theorem old0 {x : ℝ} (h1 : 37 / 49 < x) (h2 : x < 4359 / 5770) : (173 - 270 * x) / ((16 * (93 - 125 * x)) * (1 - x)) < g3 x := by
  unfold g3
  rw [show (173 - 270 * x) / ((16 * (93 - 125 * x)) * (1 - x)) = (-(173 - 270 * x)) / ((-(16 * (93 - 125 * x))) * (1 - x)) by rw [neg_mul, neg_div_neg_eq]]
  refine lt_of_cross (by linarith) (by linarith) (by linarith) ?_
  nlinarith [mul_pos (sub_pos.mpr h1) (sub_pos.mpr h2)]

theorem old1 {x : ℝ} (h1 : 4359 / 5770 ≤ x) (h2 : x < 241 / 319) : (653 - 890 * x) / ((10 * (93 - 125 * x)) * (1 - x)) < g3 x := by
  unfold g3
  rw [show (653 - 890 * x) / ((10 * (93 - 125 * x)) * (1 - x)) = (-(653 - 890 * x)) / ((-(10 * (93 - 125 * x))) * (1 - x)) by rw [neg_mul, neg_div_neg_eq]]
  refine lt_of_cross (by linarith) (by linarith) (by linarith) ?_
  nlinarith [mul_nonneg (sub_nonneg.mpr h1) (sub_nonneg.mpr h2.le), mul_nonneg (sub_nonneg.mpr h1) (sub_nonneg.mpr h1), mul_nonneg (sub_nonneg.mpr h2.le) (sub_nonneg.mpr h2.le)]

theorem old2 {x : ℝ} (h1 : 241 / 319 ≤ x) (h2 : x < 443 / 586) : (1151 - 1190 * x) / ((20 * (15 * x - 2)) * (1 - x)) < g3 x := by
  unfold g3
  refine lt_of_cross (by linarith) (by linarith) (by linarith) ?_
  nlinarith [mul_nonneg (sub_nonneg.mpr h1) (sub_nonneg.mpr h2.le), mul_nonneg (sub_nonneg.mpr h1) (sub_nonneg.mpr h1), mul_nonneg (sub_nonneg.mpr h2.le) (sub_nonneg.mpr h2.le)]

theorem old3 {x : ℝ} (h1 : 443 / 586 ≤ x) (h2 : x < 409 / 541) : (593 - 810 * x) / ((5 * (171 - 230 * x)) * (1 - x)) < g3 x := by
  unfold g3
  rw [show (593 - 810 * x) / ((5 * (171 - 230 * x)) * (1 - x)) = (-(593 - 810 * x)) / ((-(5 * (171 - 230 * x))) * (1 - x)) by rw [neg_mul, neg_div_neg_eq]]
  refine lt_of_cross (by linarith) (by linarith) (by linarith) ?_
  nlinarith [mul_nonneg (sub_nonneg.mpr h1) (sub_nonneg.mpr h2.le), mul_nonneg (sub_nonneg.mpr h1) (sub_nonneg.mpr h1), mul_nonneg (sub_nonneg.mpr h2.le) (sub_nonneg.mpr h2.le)]

theorem old4 {x : ℝ} (h1 : 409 / 541 ≤ x) (h2 : x < 373 / 493) : (4 * (266 - 275 * x)) / ((5 * (55 * x - 7)) * (1 - x)) < g3 x := by
  unfold g3
  refine lt_of_cross (by linarith) (by linarith) (by linarith) ?_
  nlinarith [mul_nonneg (sub_nonneg.mpr h1) (sub_nonneg.mpr h2.le), mul_nonneg (sub_nonneg.mpr h1) (sub_nonneg.mpr h1), mul_nonneg (sub_nonneg.mpr h2.le) (sub_nonneg.mpr h2.le)]

theorem old5 {x : ℝ} (h1 : 373 / 493 ≤ x) (h2 : x < 314 / 415) : (533 - 730 * x) / ((30 * (26 - 35 * x)) * (1 - x)) < g3 x := by
  unfold g3
  rw [show (533 - 730 * x) / ((30 * (26 - 35 * x)) * (1 - x)) = (-(533 - 730 * x)) / ((-(30 * (26 - 35 * x))) * (1 - x)) by rw [neg_mul, neg_div_neg_eq]]
  refine lt_of_cross (by linarith) (by linarith) (by linarith) ?_
  nlinarith [mul_nonneg (sub_nonneg.mpr h1) (sub_nonneg.mpr h2.le), mul_nonneg (sub_nonneg.mpr h1) (sub_nonneg.mpr h1), mul_nonneg (sub_nonneg.mpr h2.le) (sub_nonneg.mpr h2.le)]

theorem old6 {x : ℝ} (h1 : 314 / 415 ≤ x) (h2 : x < 171 / 226) : (3 * (26 - 33 * x)) / ((85 * x - 62) * (1 - x)) < g3 x := by
  unfold g3
  refine lt_of_cross (by linarith) (by linarith) (by linarith) ?_
  nlinarith [mul_nonneg (sub_nonneg.mpr h1) (sub_nonneg.mpr h2.le), mul_nonneg (sub_nonneg.mpr h1) (sub_nonneg.mpr h1), mul_nonneg (sub_nonneg.mpr h2.le) (sub_nonneg.mpr h2.le)]

theorem old7 {x : ℝ} (h1 : 171 / 226 ≤ x) (h2 : x < 103 / 136) : (174 - 185 * x) / ((31 * x + 2) * (1 - x)) < g3 x := by
  unfold g3
  refine lt_of_cross (by linarith) (by linarith) (by linarith) ?_
  nlinarith [mul_nonneg (sub_nonneg.mpr h1) (sub_nonneg.mpr h2.le), mul_nonneg (sub_nonneg.mpr h1) (sub_nonneg.mpr h1), mul_nonneg (sub_nonneg.mpr h2.le) (sub_nonneg.mpr h2.le)]

theorem old8 {x : ℝ} (h1 : 103 / 136 ≤ x) (h2 : x < 7574 / 10000) : (72 - 91 * x) / ((7 * (11 * x - 8)) * (1 - x)) < g3 x := by
  unfold g3
  refine lt_of_cross (by linarith) (by linarith) (by linarith) ?_
  nlinarith [mul_nonneg (sub_nonneg.mpr h1) (sub_nonneg.mpr h2.le), mul_nonneg (sub_nonneg.mpr h1) (sub_nonneg.mpr h1), mul_nonneg (sub_nonneg.mpr h2.le) (sub_nonneg.mpr h2.le)]

theorem old9 {x : ℝ} (h1 : 7573 / 10000 ≤ x) (h2 : x < 25 / 33) : (5 * (18 - 19 * x)) / ((2 * (5 * x + 3)) * (1 - x)) < g3 x := by
  unfold g3
  refine lt_of_cross (by linarith) (by linarith) (by linarith) ?_
  nlinarith [mul_nonneg (sub_nonneg.mpr h1) (sub_nonneg.mpr h2.le), mul_nonneg (sub_nonneg.mpr h1) (sub_nonneg.mpr h1), mul_nonneg (sub_nonneg.mpr h2.le) (sub_nonneg.mpr h2.le)]

theorem old10 {x : ℝ} (h1 : 25 / 33 ≤ x) (h2 : x < 3039 / 4010) : g1 x < g4 x := by
  unfold g1 g4
  refine lt_of_cross (by linarith) (by linarith) (by linarith) ?_
  nlinarith [mul_nonneg (sub_nonneg.mpr h1) (sub_nonneg.mpr h2.le), mul_nonneg (sub_nonneg.mpr h1) (sub_nonneg.mpr h1), mul_nonneg (sub_nonneg.mpr h2.le) (sub_nonneg.mpr h2.le)]

theorem old11 {x : ℝ} (h1 : 3039 / 4010 ≤ x) (h2 : x < 254 / 335) : g1 x < g5 x := by
  unfold g1 g5
  refine lt_of_cross (by linarith) (by linarith) (by linarith) ?_
  nlinarith [mul_nonneg (sub_nonneg.mpr h1) (sub_nonneg.mpr h2.le), mul_nonneg (sub_nonneg.mpr h1) (sub_nonneg.mpr h1), mul_nonneg (sub_nonneg.mpr h2.le) (sub_nonneg.mpr h2.le)]

theorem old12 {x : ℝ} (h1 : 254 / 335 ≤ x) (h2 : x < 758233 / 1000000) : g1 x < g6 x := by
  unfold g1 g6
  refine lt_of_cross (by linarith) (by linarith) (by linarith) ?_
  nlinarith [mul_nonneg (sub_nonneg.mpr h1) (sub_nonneg.mpr h2.le), mul_nonneg (sub_nonneg.mpr h1) (sub_nonneg.mpr h1), mul_nonneg (sub_nonneg.mpr h2.le) (sub_nonneg.mpr h2.le)]

/-! ### The two points that are rounded -/

theorem below1 {x : ℝ} (h1 : 1451 / 2000 ≤ x) (h2 : x < (539 - √42121) / 460) : g2 x < g1 x := by
  have h3 : √42121 < 539 - 460 * x := by rw [lt_div_iff₀ (by norm_num)] at h2; linarith
  have h0 : (205 : ℝ) ≤ √42121 := Real.le_sqrt_of_sq_le (by norm_num)
  have h4 : (42121 : ℝ) < (539 - 460 * x) * (539 - 460 * x) := by
    calc (42121 : ℝ) = √42121 * √42121 := (Real.mul_self_sqrt (by norm_num)).symm
      _ < _ := mul_lt_mul'' h3 h3 (by linarith) (by linarith)
  have h5 : x < 73 / 100 := by linarith
  unfold g1 g2
  refine lt_of_cross (by linarith) (by linarith) (by linarith) ?_
  nlinarith

theorem below2 {x : ℝ} (h1 : 7721 / 10000 ≤ x) (h2 : x < (1273 - √128689) / 1184) : g13 x < g12 x := by
  have h3 : √128689 < 1273 - 1184 * x := by rw [lt_div_iff₀ (by norm_num)] at h2; linarith
  have h0 : (358 : ℝ) ≤ √128689 := Real.le_sqrt_of_sq_le (by norm_num)
  have h4 : (128689 : ℝ) < (1273 - 1184 * x) * (1273 - 1184 * x) := by
    calc (128689 : ℝ) = √128689 * √128689 := (Real.mul_self_sqrt (by norm_num)).symm
      _ < _ := mul_lt_mul'' h3 h3 (by linarith) (by linarith)
  have h5 : x < 78 / 100 := by linarith
  unfold g12 g13
  refine lt_of_cross (by linarith) (by linarith) (by linarith) ?_
  nlinarith

theorem above2 {x : ℝ} (h1 : (1273 - √128689) / 1184 ≤ x) (h2 : x < 5 / 6) : g12 x ≤ g13 x := by
  have h3 : 1273 - 1184 * x ≤ √128689 := by rw [div_le_iff₀ (by norm_num)] at h1; linarith
  have h0 : √128689 ≤ 359 := Real.sqrt_le_iff.mpr ⟨by norm_num, by norm_num⟩
  have h5 : 77 / 100 < x := by linarith
  have h6 : -√128689 ≤ 1273 - 1184 * x := by
    have : (358 : ℝ) ≤ √128689 := Real.le_sqrt_of_sq_le (by norm_num)
    linarith
  have h4 : (1273 - 1184 * x) ^ 2 ≤ 128689 := by
    rw [← Real.sq_sqrt (show (0 : ℝ) ≤ 128689 by norm_num)]
    exact sq_le_sq' h6 h3
  unfold g12 g13
  refine le_of_cross (by linarith) (by linarith) (by linarith) ?_
  nlinarith

theorem max7 (x : ℝ) (h1 : 7 / 10 ≤ x) (h2 : x < 5 / 6) : (max ((18 - 19 * x) / (9 * (3 * x - 2))) (4 * (10 - 9 * x) / (5 * (4 * x - 1)))) / (1 - x) = max (g12 x) (g13 x) := by
  unfold g12 g13
  rw [← div_div (18 - 19 * x) (9 * (3 * x - 2)), ← div_div (4 * (10 - 9 * x)) (5 * (4 * x - 1)), max_div_div_right (by linarith)]

/-! ### The comparison -/

variable {eng : Engine} {hrep : List Pt → Mat} {edges : Mat → List (Pt × Pt)} {solve : RF ℝ → RF ℝ → List ℝ} {isZero : Expr ℝ → Bool}
  {orderR : List (Region ℕ) → List (Region ℕ)} {orderK : List ℚ → List ℚ}

/-- The values that the functions `prove_zero_density_energy_*` give at `x`. -/
def Derived (os : List (List (RF ℝ × Ival ℝ))) (x v : ℝ) : Prop := ∃ o ∈ os, Gives o x v

/-- **C101** (the list agrees with the derivations) The functions `prove_zero_density_energy_2` to `_10` return estimates with which the
minimum over the list of `zero_density_energy_plot` agrees at every rational `sigma` in `[7/10, 0.7255)`, in `[(539 - √42121)/460, 37/49)`, in
`[0.758233, 0.7721)` and in `[(1273 - √128689)/1184, 5/6)`. The full claim, that the list is the best bound derived on all of `[7/10, 5/6)`,
fails in the two gaps before the irrational points (see the first counterexample) and between `37/49` and `0.758233` (see the second). -/
theorem C101_list_partial (C : Contracts eng edges solve isZero orderR orderK) (hh : HRepSpec hrep) (hhz : HRepNoZero hrep) : ∃ o2 o3 o4 o5 o6 o7,
    proveEnergy2 eng hrep edges solve isZero orderR orderK = .ok o2 ∧ proveEnergy3 eng hrep edges solve isZero orderR orderK = .ok o3 ∧
    proveEnergy4 eng hrep edges solve isZero orderR orderK = .ok o4 ∧ proveEnergy5 eng hrep edges solve isZero orderR orderK = .ok o5 ∧
    proveEnergy6 eng hrep edges solve isZero orderR orderK = .ok o6 ∧ proveEnergy7 eng hrep edges solve isZero orderR orderK = .ok o7 ∧
    (∀ s : ℚ, 7 / 10 ≤ s → s < 1451 / 2000 → ∃ v, newBound s = .ok v ∧ Gives o2 s v) ∧
    (∀ s : ℚ, (539 - √42121) / 460 ≤ (s : ℝ) → s < 3 / 4 → ∃ v, newBound s = .ok v ∧ Gives o2 s v) ∧
    (∀ s : ℚ, 3 / 4 ≤ s → s < 37 / 49 → ∃ v, newBound s = .ok v ∧ Gives o3 s v) ∧
    (∀ s : ℚ, 758233 / 1000000 ≤ s → s < 42 / 55 → ∃ v, newBound s = .ok v ∧ Gives o4 s v) ∧
    (∀ s : ℚ, 42 / 55 ≤ s → s < 79 / 103 → ∃ v, newBound s = .ok v ∧ Gives o5 s v) ∧
    (∀ s : ℚ, 79 / 103 ≤ s → s < 84 / 109 → ∃ v, newBound s = .ok v ∧ Gives o6 s v) ∧
    (∀ s : ℚ, 84 / 109 ≤ s → s < 7721 / 10000 → ∃ v, newBound s = .ok v ∧ Gives o7 s v) ∧
    (∀ s : ℚ, (1273 - √128689) / 1184 ≤ (s : ℝ) → s < 5 / 6 → ∃ v, newBound s = .ok v ∧ Gives o7 s v) := by
  obtain ⟨o2, o3, o8, o9, o10, o4, o5, o6, e2, e3, -, -, -, e4, e5, e6, t1, t2, t3, -, -, -, -, -, -, -, -, -, t13, t14, t15, t16, t17⟩ := C85_table C hh hhz
  obtain ⟨o7, e7, t18⟩ := C97_energy_7 C hh hhz
  refine ⟨o2, o3, o4, o5, o6, o7, e2, e3, e4, e5, e6, e7, ?_, ?_, ?_, ?_, ?_, ?_, ?_, ?_⟩
  · intro s h1 h2
    have v1 : ((7 / 10 : ℚ) : ℝ) ≤ s := by exact_mod_cast h1
    have v2 : (s : ℝ) < ((1451 / 2000 : ℚ) : ℝ) := by exact_mod_cast h2
    push_cast at v1 v2
    refine ⟨_, cell1 s h1 h2, t1 s v1 (v2.trans_le ?_)⟩
    have : √42121 ≤ 20524 / 100 := Real.sqrt_le_iff.mpr ⟨by norm_num, by norm_num⟩
    rw [le_div_iff₀ (by norm_num)]
    linarith
  · intro s h1 h2
    have v2 : (s : ℝ) < ((3 / 4 : ℚ) : ℝ) := by exact_mod_cast h2
    push_cast at v2
    have : √42121 ≤ 20524 / 100 := Real.sqrt_le_iff.mpr ⟨by norm_num, by norm_num⟩
    have h3 : ((1451 / 2000 : ℚ) : ℝ) ≤ s := by
      refine le_trans ?_ h1
      rw [le_div_iff₀ (by norm_num)]
      push_cast
      linarith
    exact ⟨_, cell2 s (by exact_mod_cast h3) h2, t2 s h1 v2⟩
  · intro s h1 h2
    have v1 : ((3 / 4 : ℚ) : ℝ) ≤ s := by exact_mod_cast h1
    have v2 : (s : ℝ) < ((37 / 49 : ℚ) : ℝ) := by exact_mod_cast h2
    push_cast at v1 v2
    exact ⟨_, cell3 s h1 (by linarith), t3 s v1 v2⟩
  · intro s h1 h2
    have v1 : ((758233 / 1000000 : ℚ) : ℝ) ≤ s := by exact_mod_cast h1
    have v2 : (s : ℝ) < ((42 / 55 : ℚ) : ℝ) := by exact_mod_cast h2
    push_cast at v1 v2
    refine ⟨_, cell7 s h1 h2, t13 s ?_ v2⟩
    have : (5935 / 10 : ℝ) ≤ √352321 := Real.le_sqrt_of_sq_le (by norm_num)
    refine le_trans ?_ v1
    rw [div_le_iff₀ (by norm_num)]
    linarith
  · intro s h1 h2
    have v1 : ((42 / 55 : ℚ) : ℝ) ≤ s := by exact_mod_cast h1
    have v2 : (s : ℝ) < ((79 / 103 : ℚ) : ℝ) := by exact_mod_cast h2
    push_cast at v1 v2
    by_cases h3 : s < 97 / 127
    · have v3 : (s : ℝ) < ((97 / 127 : ℚ) : ℝ) := by exact_mod_cast h3
      push_cast at v3
      exact ⟨_, cell8 s h1 h3, t14 s v1 v3⟩
    · push Not at h3
      have v3 : ((97 / 127 : ℚ) : ℝ) ≤ s := by exact_mod_cast h3
      push_cast at v3
      exact ⟨_, cell9 s h3 h2, t15 s v3 v2⟩
  · intro s h1 h2
    have v1 : ((79 / 103 : ℚ) : ℝ) ≤ s := by exact_mod_cast h1
    have v2 : (s : ℝ) < ((84 / 109 : ℚ) : ℝ) := by exact_mod_cast h2
    push_cast at v1 v2
    by_cases h3 : s < 33 / 43
    · have v3 : (s : ℝ) < ((33 / 43 : ℚ) : ℝ) := by exact_mod_cast h3
      push_cast at v3
      exact ⟨_, cell10 s h1 h3, t16 s v1 v3⟩
    · push Not at h3
      have v3 : ((33 / 43 : ℚ) : ℝ) ≤ s := by exact_mod_cast h3
      push_cast at v3
      exact ⟨_, cell11 s h3 h2, t17 s v3 v2⟩
  · intro s h1 h2
    have v1 : ((84 / 109 : ℚ) : ℝ) ≤ s := by exact_mod_cast h1
    have v2 : (s : ℝ) < ((7721 / 10000 : ℚ) : ℝ) := by exact_mod_cast h2
    refine ⟨_, cell12 s h1 h2, gives_of t18 v1 (v2.trans (by norm_num)) ?_⟩
    push_cast at v1 v2
    rw [max7 _ (by linarith) (by linarith)]
    refine max_eq_left ?_
    unfold g12 g13
    refine le_of_cross (by linarith) (by linarith) (by linarith) ?_
    nlinarith [mul_nonneg (sub_nonneg.mpr v1) (sub_nonneg.mpr v2.le), mul_nonneg (sub_nonneg.mpr v1) (sub_nonneg.mpr v1),
      mul_nonneg (sub_nonneg.mpr v2.le) (sub_nonneg.mpr v2.le)]
  · intro s h1 h2
    have v2 : (s : ℝ) < ((5 / 6 : ℚ) : ℝ) := by exact_mod_cast h2
    have : √128689 ≤ 3588 / 10 := Real.sqrt_le_iff.mpr ⟨by norm_num, by norm_num⟩
    have h3 : ((7721 / 10000 : ℚ) : ℝ) ≤ s := by
      refine le_trans ?_ h1
      rw [le_div_iff₀ (by norm_num)]
      push_cast
      linarith
    refine ⟨_, cell13 s (by exact_mod_cast h3) h2, gives_of t18 (le_trans (by norm_num) h3) v2 ?_⟩
    push_cast at h3 v2
    rw [max7 _ (by linarith) v2]
    exact max_eq_right (above2 h1 v2)

/-- The contracts can be met, and the gaps are small but not empty: `0.72555` and `0.77215` are in them. -/
example : (1451 / 2000 : ℝ) ≤ 72555 / 100000 ∧ (72555 / 100000 : ℝ) < (539 - √42121) / 460 ∧
    (7721 / 10000 : ℝ) ≤ 77215 / 100000 ∧ (77215 / 100000 : ℝ) < (1273 - √128689) / 1184 := by
  have a : √42121 < 20524 / 100 := (Real.sqrt_lt' (by norm_num)).mpr (by norm_num)
  have b : √128689 < 35874 / 100 := (Real.sqrt_lt' (by norm_num)).mpr (by norm_num)
  refine ⟨by norm_num, ?_, by norm_num, ?_⟩ <;>
  · rw [lt_div_iff₀ (by norm_num)]
    linarith

/-- **C101 (counterexample).** In the list of `zero_density_energy_plot` (visualizations.py:261-262, 272-273) the points where the larger of two
functions changes are rounded down, to 0.7255 and 0.7721, so that between these and the true points `(539 - √42121)/460 ≈ 0.72558` and
`(1273 - √128689)/1184 ≈ 0.77219` the smaller function is taken: the "best additive energy estimate" that is drawn there is smaller than the
bound that has been derived, whatever the other estimates are. -/
theorem C101_rounding_counterexample (C : Contracts eng edges solve isZero orderR orderK) (hh : HRepSpec hrep) (hhz : HRepNoZero hrep) : ∃ o2 o7,
    proveEnergy2 eng hrep edges solve isZero orderR orderK = .ok o2 ∧ proveEnergy7 eng hrep edges solve isZero orderR orderK = .ok o7 ∧
    (∀ (s : ℚ) (lit trivial : ℝ), 1451 / 2000 ≤ s → (s : ℝ) < (539 - √42121) / 460 → ∃ v w, drawn lit trivial s = .ok v ∧ Gives o2 s w ∧ v < w) ∧
    (∀ (s : ℚ) (lit trivial : ℝ), 7721 / 10000 ≤ s → (s : ℝ) < (1273 - √128689) / 1184 → ∃ v w, drawn lit trivial s = .ok v ∧ Gives o7 s w ∧ v < w) := by
  obtain ⟨o2, o3, o8, o9, o10, o4, o5, o6, e2, -, -, -, -, -, -, -, t1, -⟩ := C85_table C hh hhz
  obtain ⟨o7, e7, t18⟩ := C97_energy_7 C hh hhz
  refine ⟨o2, o7, e2, e7, ?_, ?_⟩
  · intro s lit trivial h1 h2
    have v1 : ((1451 / 2000 : ℚ) : ℝ) ≤ s := by exact_mod_cast h1
    have h0 : (205 : ℝ) ≤ √42121 := Real.le_sqrt_of_sq_le (by norm_num)
    have v2 : (s : ℝ) < ((3 / 4 : ℚ) : ℝ) := by
      refine h2.trans_le ?_
      rw [div_le_iff₀ (by norm_num)]
      push_cast
      linarith
    have hc := cell2 s h1 (by exact_mod_cast v2)
    push_cast at v1 v2
    refine ⟨min (min (g2 s) lit) trivial, g1 s, ?_, t1 s (by linarith) h2, ?_⟩
    · unfold drawn; rw [hc]; rfl
    · exact ((min_le_left _ _).trans (min_le_left _ _)).trans_lt (below1 v1 h2)
  · intro s lit trivial h1 h2
    have v1 : ((7721 / 10000 : ℚ) : ℝ) ≤ s := by exact_mod_cast h1
    have h0 : (358 : ℝ) ≤ √128689 := Real.le_sqrt_of_sq_le (by norm_num)
    have v2 : (s : ℝ) < ((5 / 6 : ℚ) : ℝ) := by
      refine h2.trans_le ?_
      rw [div_le_iff₀ (by norm_num)]
      push_cast
      linarith
    have hc := cell13 s h1 (by exact_mod_cast v2)
    refine ⟨min (min (g13 s) lit) trivial, g12 s, ?_, gives_of t18 (le_trans (by norm_num) v1) v2 ?_, ?_⟩
    · unfold drawn; rw [hc]; rfl
    · push_cast at v1 v2
      rw [max7 _ (by linarith) v2]
      exact max_eq_left (below2 v1 h2).le
    · push_cast at v1 v2
      exact ((min_le_left _ _).trans (min_le_left _ _)).trans_lt (below2 v1 h2)

/-- **C101 (counterexample).** Between `37/49` and 0.758233 the list of `zero_density_energy_plot` (visualizations.py:263-267) is out of date:
the functions `prove_zero_density_energy_8`, `_9`, `_10` and `_4` give a smaller bound than the smallest of the list at every `sigma` there. -/
theorem C101_outdated_counterexample (C : Contracts eng edges solve isZero orderR orderK) (hh : HRepSpec hrep) (hhz : HRepNoZero hrep) : ∃ o8 o9 o10 o4,
    proveEnergy8 eng hrep edges solve isZero orderR orderK = .ok o8 ∧ proveEnergy9 eng hrep edges solve isZero orderR orderK = .ok o9 ∧
    proveEnergy10 eng hrep edges solve isZero orderR orderK = .ok o10 ∧ proveEnergy4 eng hrep edges solve isZero orderR orderK = .ok o4 ∧
    ∀ s : ℚ, 37 / 49 < s → s < 758233 / 1000000 → ∃ v w, newBound s = .ok v ∧ Derived [o8, o9, o10, o4] s w ∧ w < v := by
  obtain ⟨o2, o3, o8, o9, o10, o4, o5, o6, -, -, e8, e9, e10, e4, -, -, -, -, -, t4, t5, t6, t7, t8, t9, t10, t11, t12, t13, -⟩ := C85_table C hh hhz
  refine ⟨o8, o9, o10, o4, e8, e9, e10, e4, fun s h1 h2 => ?_⟩
  have v1 : ((37 / 49 : ℚ) : ℝ) < s := by exact_mod_cast h1
  have v2 : (s : ℝ) < ((758233 / 1000000 : ℚ) : ℝ) := by exact_mod_cast h2
  push_cast at v1 v2
  have r1 : (5935 / 10 : ℝ) ≤ √352321 := Real.le_sqrt_of_sq_le (by norm_num)
  have r2 : √352321 ≤ 5936 / 10 := Real.sqrt_le_iff.mpr ⟨by norm_num, by norm_num⟩
  have r3 : (6038 - 2 * √352321) / 6405 ≤ 7574 / 10000 := by rw [div_le_iff₀ (by norm_num)]; linarith
  have r4 : 7573 / 10000 ≤ (6038 - 2 * √352321) / 6405 := by rw [le_div_iff₀ (by norm_num)]; linarith
  by_cases hA : s < 25 / 33
  · have vA : (s : ℝ) < ((25 / 33 : ℚ) : ℝ) := by exact_mod_cast hA
    push_cast at vA
    have hc := cell3 s (by linarith) hA
    by_cases q1 : (s : ℝ) < 4359 / 5770
    · exact ⟨_, _, hc, ⟨o8, by simp, t4 s v1.le q1⟩, old0 v1 q1⟩
    push Not at q1
    by_cases q2 : (s : ℝ) < 241 / 319
    · exact ⟨_, _, hc, ⟨o8, by simp, t5 s q1 q2⟩, old1 q1 q2⟩
    push Not at q2
    by_cases q3 : (s : ℝ) < 443 / 586
    · exact ⟨_, _, hc, ⟨o8, by simp, t6 s q2 q3⟩, old2 q2 q3⟩
    push Not at q3
    by_cases q4 : (s : ℝ) < 409 / 541
    · exact ⟨_, _, hc, ⟨o9, by simp, t7 s q3 q4⟩, old3 q3 q4⟩
    push Not at q4
    by_cases q5 : (s : ℝ) < 373 / 493
    · exact ⟨_, _, hc, ⟨o9, by simp, t8 s q4 q5⟩, old4 q4 q5⟩
    push Not at q5
    by_cases q6 : (s : ℝ) < 314 / 415
    · exact ⟨_, _, hc, ⟨o10, by simp, t9 s q5 q6⟩, old5 q5 q6⟩
    push Not at q6
    by_cases q7 : (s : ℝ) < 171 / 226
    · exact ⟨_, _, hc, ⟨o10, by simp, t10 s q6 q7⟩, old6 q6 q7⟩
    push Not at q7
    by_cases q8 : (s : ℝ) < 103 / 136
    · exact ⟨_, _, hc, ⟨o10, by simp, t11 s q7 q8⟩, old7 q7 q8⟩
    push Not at q8
    by_cases q9 : (s : ℝ) < (6038 - 2 * √352321) / 6405
    · exact ⟨_, _, hc, ⟨o4, by simp, t12 s q8 q9⟩, old8 q8 (q9.trans_le r3)⟩
    push Not at q9
    exact ⟨_, _, hc, ⟨o4, by simp, t13 s q9 (by linarith)⟩, old9 (r4.trans q9) vA⟩
  · push Not at hA
    have vA : ((25 / 33 : ℚ) : ℝ) ≤ s := by exact_mod_cast hA
    push_cast at vA
    have hd : Derived [o8, o9, o10, o4] s (g1 s) := ⟨o4, by simp, t13 s (by linarith) (by linarith)⟩
    by_cases hB : s < 3039 / 4010
    · have vB : (s : ℝ) < ((3039 / 4010 : ℚ) : ℝ) := by exact_mod_cast hB
      push_cast at vB
      exact ⟨_, _, cell4 s hA hB, hd, old10 vA vB⟩
    · push Not at hB
      have vB : ((3039 / 4010 : ℚ) : ℝ) ≤ s := by exact_mod_cast hB
      push_cast at vB
      by_cases hC : s < 254 / 335
      · have vC : (s : ℝ) < ((254 / 335 : ℚ) : ℝ) := by exact_mod_cast hC
        push_cast at vC
        exact ⟨_, _, cell5 s hB hC, hd, old11 vB vC⟩
      · push Not at hC
        have vC : ((254 / 335 : ℚ) : ℝ) ≤ s := by exact_mod_cast hC
        push_cast at vC
        exact ⟨_, _, cell6 s hC h2, hd, old12 vC v2⟩

/-- The contracts can be met. -/
example : ∃ eng hrep edges solve isZero orderR orderK, ∃ o2, proveEnergy2 eng hrep edges solve isZero orderR orderK = .ok o2 ∧
    ∃ v, newBound (71 / 100) = .ok v ∧ Gives o2 ((71 / 100 : ℚ) : ℝ) v := by
  obtain ⟨eng, edges, solve, isZero, orderR, orderK, C⟩ := contracts_satisfiable
  obtain ⟨hrep, hh, hhz⟩ := hRepNoZero_satisfiable
  obtain ⟨o2, -, -, -, -, -, e2, -, -, -, -, -, h, -⟩ := C101_list_partial C hh hhz
  exact ⟨eng, hrep, edges, solve, isZero, orderR, orderK, o2, e2, h (71 / 100) (by norm_num) (by norm_num)⟩

end EnergyPlot
end Expdb
