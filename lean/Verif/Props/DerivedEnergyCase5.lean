import Verif.Props.DerivedEnergyForms

/-!
# C85: the zero density energy estimate that `prove_zero_density_energy_5` derives

The upper bound is proved on cells of the `(sigma, tau)` plane, with one power of Heath-Brown's relation and one power of one large value
estimate on each cell.
-/

namespace Expdb
namespace DerivedEnergy

open Rational SupRatio Mat Region ZeroDensity DerivedZD

namespace Case5

/-- The bound times `1 - sigma`. -/
def w (s : ℚ) : ℚ := max ((18 - 19 * s) / (90 * s - 66)) ((54 - 57 * s) / (16 * s - 4))

/-- The estimates. -/
abbrev LB : List (List (ℚ × ℚ × ℚ)) := [jutK 6]

/-- The zeta large value estimates. -/
abbrev ZB : List (List (ℚ × ℚ × ℚ)) := []

theorem powers : ∀ k ∈ ([2, 3] : List ℚ), 1 ≤ k := by decide +kernel

theorem u0 {s : ℚ} (l1 : 42 / 55 ≤ s) (l2 : s ≤ 79 / 103) : 0 < 90 * s - 66 := by linarith

theorem u1 {s : ℚ} (l1 : 42 / 55 ≤ s) (l2 : s ≤ 79 / 103) : 0 < 16 * s - 4 := by linarith

theorem le10_0 {s : ℚ} (h0 : 0 ≤ s - 42 / 55) (h1 : 0 ≤ 97 / 127 - s) : (54 - 57 * s) / (16 * s - 4) ≤ (18 - 19 * s) / (90 * s - 66) := by
  rw [div_le_div_iff₀ (u1 (by linarith) (by linarith)) (u0 (by linarith) (by linarith))]
  nlinarith [mul_nonneg h0 h1, mul_nonneg h0 h0, mul_nonneg h1 h1]

theorem le01_1 {s : ℚ} (h0 : 0 ≤ s - 97 / 127) (h1 : 0 ≤ 79 / 103 - s) : (18 - 19 * s) / (90 * s - 66) ≤ (54 - 57 * s) / (16 * s - 4) := by
  rw [div_le_div_iff₀ (u0 (by linarith) (by linarith)) (u1 (by linarith) (by linarith))]
  nlinarith [mul_nonneg h0 h1, mul_nonneg h0 h0, mul_nonneg h1 h1]

theorem cell1_0_0 {s t a b : ℚ} (h0 : 0 ≤ s - 42 / 55) (h1 : 0 ≤ 97 / 127 - s) (h2 : 0 ≤ t - (2)) (h3 : 0 ≤ 7 / 3 - t)
    (hH : HBCond 1 s t a b) (hV : LVCond (jutK 6) 2 s t a) : b * (90 * s - 66) ≤ (18 - 19 * s) * t := by
  have hu : 0 ≤ 90 * s - 66 := by linarith only [h0, h1]
  have p00 := mul_nonneg h0 h0
  have p03 := mul_nonneg h0 h3
  have hV := (jut_iff 6 _ _ _ _).mp hV
  push_cast at hV
  rcases hV with g | g | g
  · have g := mul_nonneg g hu
    rcases (hbCond_iff _ _ _ _ _).mp hH with h | h | h | h | h | h | h | h | h
    · linear_combination 2 * mul_nonneg h hu + g + 6359 / 33 * h1 + 192 / 55 * h2 + 720 * p00 + 19 * p03
    · linear_combination 2 * mul_nonneg h hu + 2 * g + 5837 / 33 * h1 + 192 / 55 * h2 + 1080 * p00 + 19 * p03
    · linear_combination 2 * mul_nonneg h hu + 5 / 4 * g + 7466 / 33 * h1 + 117 / 55 * h2 + 810 * p00 + 64 * p03
    · linear_combination mul_nonneg h hu + 5 / 2 * g + 7322 / 33 * h1 + 192 / 55 * h2 + 1080 * p00 + 19 * p03
    · linear_combination mul_nonneg h hu + 3 * g + 7061 / 33 * h1 + 192 / 55 * h2 + 1260 * p00 + 19 * p03
    · linear_combination mul_nonneg h hu + 21 / 8 * g + 15751 / 66 * h1 + 309 / 110 * h2 + 1125 * p00 + 83 / 2 * p03
    · linear_combination 8 / 5 * mul_nonneg h hu + 8 / 5 * g + 38671 / 165 * h1 + 12 / 5 * h2 + 864 * p00 + 55 * p03
    · linear_combination 8 / 5 * mul_nonneg h hu + 12 / 5 * g + 36583 / 165 * h1 + 12 / 5 * h2 + 1152 * p00 + 55 * p03
    · linear_combination 8 / 5 * mul_nonneg h hu + 9 / 5 * g + 43099 / 165 * h1 + 72 / 55 * h2 + 936 * p00 + 91 * p03
  · have g := mul_nonneg g hu
    rcases (hbCond_iff _ _ _ _ _).mp hH with h | h | h | h | h | h | h | h | h
    · linear_combination 2 * mul_nonneg h hu + g + 5897 / 33 * h1 + 42 / 55 * h2 + 1380 * p00 + 109 * p03
    · linear_combination 2 * mul_nonneg h hu + 2 * g + 4913 / 33 * h1 + 108 / 55 * h3 + 2400 * p00 + 199 * p03
    · linear_combination 2 * mul_nonneg h hu + 5 / 4 * g + 13777 / 66 * h1 + 141 / 110 * h3 + 1635 * p00 + 353 / 2 * p03
    · linear_combination mul_nonneg h hu + 5 / 2 * g + 6167 / 33 * h1 + 183 / 55 * h3 + 2730 * p00 + 244 * p03
    · linear_combination mul_nonneg h hu + 3 * g + 5675 / 33 * h1 + 258 / 55 * h3 + 3240 * p00 + 289 * p03
    · linear_combination mul_nonneg h hu + 21 / 8 * g + 26651 / 132 * h1 + 87 / 20 * h3 + 5715 / 2 * p00 + 1111 / 4 * p03
    · linear_combination 8 / 5 * mul_nonneg h hu + 8 / 5 * g + 6995 / 33 * h1 + 108 / 55 * h3 + 1920 * p00 + 199 * p03
    · linear_combination 8 / 5 * mul_nonneg h hu + 12 / 5 * g + 31039 / 165 * h1 + 228 / 55 * h3 + 2736 * p00 + 271 * p03
    · linear_combination 8 / 5 * mul_nonneg h hu + 9 / 5 * g + 38941 / 165 * h1 + 18 / 5 * h3 + 2124 * p00 + 253 * p03
  · have g := mul_nonneg g hu
    rcases (hbCond_iff _ _ _ _ _).mp hH with h | h | h | h | h | h | h | h | h
    · linear_combination 2 * mul_nonneg h hu + g + 1687 / 33 * h0 + 42 / 55 * h2 + 9000 * p00 + 109 * p03
    · linear_combination 2 * mul_nonneg h hu + 2 * g + 10255 / 33 * h0 + 108 / 55 * h3 + 17640 * p00 + 199 * p03
    · linear_combination 2 * mul_nonneg h hu + 5 / 4 * g + 5183 / 66 * h0 + 141 / 110 * h3 + 11160 * p00 + 353 / 2 * p03
    · linear_combination mul_nonneg h hu + 5 / 2 * g + 1163 / 3 * h0 + 183 / 55 * h3 + 21780 * p00 + 244 * p03
    · linear_combination mul_nonneg h hu + 3 * g + 17077 / 33 * h0 + 258 / 55 * h3 + 26100 * p00 + 289 * p03
    · linear_combination mul_nonneg h hu + 21 / 8 * g + 52981 / 132 * h0 + 87 / 20 * h3 + 22860 * p00 + 1111 / 4 * p03
    · linear_combination 8 / 5 * mul_nonneg h hu + 8 / 5 * g + 25697 / 165 * h0 + 108 / 55 * h3 + 14112 * p00 + 199 * p03
    · linear_combination 8 / 5 * mul_nonneg h hu + 12 / 5 * g + 59969 / 165 * h0 + 228 / 55 * h3 + 21024 * p00 + 271 * p03
    · linear_combination 8 / 5 * mul_nonneg h hu + 9 / 5 * g + 533 / 3 * h0 + 18 / 5 * h3 + 15840 * p00 + 253 * p03

theorem cell1_0_1 {s t a b : ℚ} (h0 : 0 ≤ s - 42 / 55) (h1 : 0 ≤ 97 / 127 - s) (h2 : 0 ≤ t - (7 / 3)) (h3 : 0 ≤ 90 * s - 66 - t)
    (hH : HBCond 2 s t a b) (hV : LVCond (jutK 6) 2 s t a) : b * (90 * s - 66) ≤ (18 - 19 * s) * t := by
  have hu : 0 ≤ 90 * s - 66 := by linarith only [h0, h1]
  have p00 := mul_nonneg h0 h0
  have p01 := mul_nonneg h0 h1
  have p03 := mul_nonneg h0 h3
  have hV := (jut_iff 6 _ _ _ _).mp hV
  push_cast at hV
  rcases hV with g | g | g
  · have g := mul_nonneg g hu
    rcases (hbCond_iff _ _ _ _ _).mp hH with h | h | h | h | h | h | h | h | h
    · linear_combination 2 * mul_nonneg h hu + g + 383412 / 1397 * h1 + 192 / 55 * h2 + 630 * p01 + 19 * p03
    · linear_combination 2 * mul_nonneg h hu + 2 * g + 235512 / 1397 * h1 + 192 / 55 * h2 + 270 * p01 + 19 * p03
    · linear_combination 2 * mul_nonneg h hu + 5 / 4 * g + 330102 / 1397 * h1 + 117 / 55 * h2 + 4590 * p01 + 64 * p03
    · linear_combination mul_nonneg h hu + 5 / 2 * g + 309462 / 1397 * h1 + 192 / 55 * h2 + 450 * p01 + 19 * p03
    · linear_combination mul_nonneg h hu + 3 * g + 235512 / 1397 * h1 + 192 / 55 * h2 + 270 * p01 + 19 * p03
    · linear_combination mul_nonneg h hu + 21 / 8 * g + 282807 / 1397 * h1 + 309 / 110 * h2 + 2430 * p01 + 83 / 2 * p03
    · linear_combination 8 / 5 * mul_nonneg h hu + 8 / 5 * g + 340764 / 1397 * h1 + 12 / 5 * h2 + 3798 * p01 + 55 * p03
    · linear_combination 8 / 5 * mul_nonneg h hu + 12 / 5 * g + 222444 / 1397 * h1 + 12 / 5 * h2 + 3510 * p01 + 55 * p03
    · linear_combination 8 / 5 * mul_nonneg h hu + 9 / 5 * g + 298116 / 1397 * h1 + 72 / 55 * h2 + 6966 * p01 + 91 * p03
  · have g := mul_nonneg g hu
    rcases (hbCond_iff _ _ _ _ _).mp hH with h | h | h | h | h | h | h | h | h
    · linear_combination 2 * mul_nonneg h hu + g + 414872 / 1397 * h1 + 42 / 55 * h2 + 8070 * p01 + 109 * p03
    · linear_combination 2 * mul_nonneg h hu + 2 * g + 545320 / 1397 * h1 + 108 / 55 * h3 + 15150 * p01 + 199 * p03
    · linear_combination 2 * mul_nonneg h hu + 5 / 4 * g + 530590 / 1397 * h1 + 141 / 110 * h3 + 13890 * p01 + 353 / 2 * p03
    · linear_combination mul_nonneg h hu + 5 / 2 * g + 6350 / 11 * h1 + 183 / 55 * h3 + 19050 * p01 + 244 * p03
    · linear_combination mul_nonneg h hu + 3 * g + 919680 / 1397 * h1 + 258 / 55 * h3 + 22590 * p01 + 289 * p03
    · linear_combination mul_nonneg h hu + 21 / 8 * g + 912315 / 1397 * h1 + 87 / 20 * h3 + 21960 * p01 + 1111 / 4 * p03
    · linear_combination 8 / 5 * mul_nonneg h hu + 8 / 5 * g + 637988 / 1397 * h1 + 108 / 55 * h3 + 15702 * p01 + 199 * p03
    · linear_combination 8 / 5 * mul_nonneg h hu + 12 / 5 * g + 819156 / 1397 * h1 + 228 / 55 * h3 + 21366 * p01 + 271 * p03
    · linear_combination 8 / 5 * mul_nonneg h hu + 9 / 5 * g + 807372 / 1397 * h1 + 18 / 5 * h3 + 20358 * p01 + 253 * p03
  · have g := mul_nonneg g hu
    rcases (hbCond_iff _ _ _ _ _).mp hH with h | h | h | h | h | h | h | h | h
    · linear_combination 2 * mul_nonneg h hu + g + 92292 / 1397 * h1 + 42 / 55 * h2 + 450 * p01 + 109 * p03
    · linear_combination 2 * mul_nonneg h hu + 2 * g + 786 / 11 * h0 + 108 / 55 * h3 + 90 * p00 + 199 * p03
    · linear_combination 2 * mul_nonneg h hu + 5 / 4 * g + 127365 / 1397 * h1 + 141 / 110 * h3 + 4365 * p01 + 353 / 2 * p03
    · linear_combination mul_nonneg h hu + 5 / 2 * g + 183 / 55 * h3 + 244 * p03
    · linear_combination mul_nonneg h hu + 3 * g + 378 / 11 * h0 + 258 / 55 * h3 + 270 * p00 + 289 * p03
    · linear_combination mul_nonneg h hu + 21 / 8 * g + 131085 / 2794 * h1 + 87 / 20 * h3 + 3915 / 2 * p01 + 1111 / 4 * p03
    · linear_combination 8 / 5 * mul_nonneg h hu + 8 / 5 * g + 121860 / 1397 * h1 + 108 / 55 * h3 + 3510 * p01 + 199 * p03
    · linear_combination 8 / 5 * mul_nonneg h hu + 12 / 5 * g + 44964 / 1397 * h1 + 228 / 55 * h3 + 3078 * p01 + 271 * p03
    · linear_combination 8 / 5 * mul_nonneg h hu + 9 / 5 * g + 226728 / 1397 * h1 + 18 / 5 * h3 + 6642 * p01 + 253 * p03

theorem cell1_0_2 {s t a b : ℚ} (h0 : 0 ≤ s - 42 / 55) (h1 : 0 ≤ 97 / 127 - s) (h2 : 0 ≤ t - (90 * s - 66)) (h3 : 0 ≤ 7 / 2 - t)
    (hH : HBCond 2 s t a b) (hV : LVCond (jutK 6) 3 s t a) : b * (90 * s - 66) ≤ (18 - 19 * s) * t := by
  have hu : 0 ≤ 90 * s - 66 := by linarith only [h0, h1]
  have p00 := mul_nonneg h0 h0
  have p03 := mul_nonneg h0 h3
  have p12 := mul_nonneg h1 h2
  have hV := (jut_iff 6 _ _ _ _).mp hV
  push_cast at hV
  rcases hV with g | g | g
  · have g := mul_nonneg g hu
    rcases (hbCond_iff _ _ _ _ _).mp hH with h | h | h | h | h | h | h | h | h
    · linear_combination 2 * mul_nonneg h hu + g + 263 / 22 * h1 + 192 / 55 * h2 + 1260 * p00 + 19 * p03
    · linear_combination 2 * mul_nonneg h hu + 2 * g + 1249 / 22 * h0 + 192 / 55 * h2 + 1800 * p00 + 19 * p03
    · linear_combination 2 * mul_nonneg h hu + 5 / 4 * g + 140 * h1 + 117 / 55 * h2 + 1395 * p00 + 64 * p03
    · linear_combination mul_nonneg h hu + 5 / 2 * g + 443 / 127 * h2 + 19 * p12
    · linear_combination mul_nonneg h hu + 3 * g + 433 / 22 * h0 + 192 / 55 * h2 + 1980 * p00 + 19 * p03
    · linear_combination mul_nonneg h hu + 21 / 8 * g + 3463 / 44 * h1 + 309 / 110 * h2 + 3555 / 2 * p00 + 83 / 2 * p03
    · linear_combination 8 / 5 * mul_nonneg h hu + 8 / 5 * g + 2843 / 22 * h1 + 12 / 5 * h2 + 1440 * p00 + 55 * p03
    · linear_combination 8 / 5 * mul_nonneg h hu + 12 / 5 * g + 8167 / 110 * h1 + 12 / 5 * h2 + 1872 * p00 + 55 * p03
    · linear_combination 8 / 5 * mul_nonneg h hu + 9 / 5 * g + 25483 / 110 * h1 + 72 / 55 * h2 + 1548 * p00 + 91 * p03
  · have g := mul_nonneg g hu
    rcases (hbCond_iff _ _ _ _ _).mp hH with h | h | h | h | h | h | h | h | h
    · linear_combination 2 * mul_nonneg h hu + g + 5201 / 22 * h1 + 42 / 55 * h2 + 2250 * p00 + 109 * p03
    · linear_combination 2 * mul_nonneg h hu + 2 * g + 4739 / 22 * h1 + 108 / 55 * h3 + 3780 * p00 + 199 * p03
    · linear_combination 2 * mul_nonneg h hu + 5 / 4 * g + 13429 / 44 * h1 + 141 / 110 * h3 + 5265 / 2 * p00 + 353 / 2 * p03
    · linear_combination mul_nonneg h hu + 5 / 2 * g + 3040 / 11 * h1 + 183 / 55 * h3 + 4185 * p00 + 244 * p03
    · linear_combination mul_nonneg h hu + 3 * g + 463 / 2 * h1 + 258 / 55 * h3 + 4950 * p00 + 289 * p03
    · linear_combination mul_nonneg h hu + 21 / 8 * g + 24323 / 88 * h1 + 87 / 20 * h3 + 17505 / 4 * p00 + 1111 / 4 * p03
    · linear_combination 8 / 5 * mul_nonneg h hu + 8 / 5 * g + 34279 / 110 * h1 + 108 / 55 * h3 + 3024 * p00 + 199 * p03
    · linear_combination 8 / 5 * mul_nonneg h hu + 12 / 5 * g + 26383 / 110 * h1 + 228 / 55 * h3 + 4248 * p00 + 271 * p03
    · linear_combination 8 / 5 * mul_nonneg h hu + 9 / 5 * g + 6857 / 22 * h1 + 18 / 5 * h3 + 3330 * p00 + 253 * p03
  · have g := mul_nonneg g hu
    rcases (hbCond_iff _ _ _ _ _).mp hH with h | h | h | h | h | h | h | h | h
    · linear_combination 2 * mul_nonneg h hu + g + 2383 / 22 * h0 + 42 / 55 * h2 + 13680 * p00 + 109 * p03
    · linear_combination 2 * mul_nonneg h hu + 2 * g + 10429 / 22 * h0 + 108 / 55 * h3 + 26640 * p00 + 199 * p03
    · linear_combination 2 * mul_nonneg h hu + 5 / 4 * g + 5531 / 44 * h0 + 141 / 110 * h3 + 16920 * p00 + 353 / 2 * p03
    · linear_combination mul_nonneg h hu + 5 / 2 * g + 6440 / 11 * h0 + 183 / 55 * h3 + 32760 * p00 + 244 * p03
    · linear_combination mul_nonneg h hu + 3 * g + 17659 / 22 * h0 + 258 / 55 * h3 + 39240 * p00 + 289 * p03
    · linear_combination mul_nonneg h hu + 21 / 8 * g + 55309 / 88 * h0 + 87 / 20 * h3 + 34380 * p00 + 1111 / 4 * p03
    · linear_combination 8 / 5 * mul_nonneg h hu + 8 / 5 * g + 26393 / 110 * h0 + 108 / 55 * h3 + 21312 * p00 + 199 * p03
    · linear_combination 8 / 5 * mul_nonneg h hu + 12 / 5 * g + 1175 / 2 * h0 + 228 / 55 * h3 + 31680 * p00 + 271 * p03
    · linear_combination 8 / 5 * mul_nonneg h hu + 9 / 5 * g + 33971 / 110 * h0 + 18 / 5 * h3 + 23904 * p00 + 253 * p03

theorem cell1_0_3 {s t a b : ℚ} (h0 : 0 ≤ s - 42 / 55) (h1 : 0 ≤ 97 / 127 - s) (h2 : 0 ≤ t - (7 / 2)) (h3 : 0 ≤ 4 - t)
    (hH : HBCond 3 s t a b) (hV : LVCond (jutK 6) 3 s t a) : b * (90 * s - 66) ≤ (18 - 19 * s) * t := by
  have hu : 0 ≤ 90 * s - 66 := by linarith only [h0, h1]
  have p00 := mul_nonneg h0 h0
  have p03 := mul_nonneg h0 h3
  have hV := (jut_iff 6 _ _ _ _).mp hV
  push_cast at hV
  rcases hV with g | g | g
  · have g := mul_nonneg g hu
    rcases (hbCond_iff _ _ _ _ _).mp hH with h | h | h | h | h | h | h | h | h
    · linear_combination 2 * mul_nonneg h hu + g + 4508 / 11 * h1 + 192 / 55 * h2 + 1620 * p00 + 19 * p03
    · linear_combination 2 * mul_nonneg h hu + 2 * g + 2762 / 11 * h1 + 192 / 55 * h2 + 2160 * p00 + 19 * p03
    · linear_combination 2 * mul_nonneg h hu + 5 / 4 * g + 3824 / 11 * h1 + 117 / 55 * h2 + 1755 * p00 + 64 * p03
    · linear_combination mul_nonneg h hu + 5 / 2 * g + 3635 / 11 * h1 + 192 / 55 * h2 + 1890 * p00 + 19 * p03
    · linear_combination mul_nonneg h hu + 3 * g + 2762 / 11 * h1 + 192 / 55 * h2 + 2160 * p00 + 19 * p03
    · linear_combination mul_nonneg h hu + 21 / 8 * g + 3293 / 11 * h1 + 309 / 110 * h2 + 3915 / 2 * p00 + 83 / 2 * p03
    · linear_combination 8 / 5 * mul_nonneg h hu + 8 / 5 * g + 19804 / 55 * h1 + 12 / 5 * h2 + 1728 * p00 + 55 * p03
    · linear_combination 8 / 5 * mul_nonneg h hu + 12 / 5 * g + 2564 / 11 * h1 + 12 / 5 * h2 + 2160 * p00 + 55 * p03
    · linear_combination 8 / 5 * mul_nonneg h hu + 9 / 5 * g + 17068 / 55 * h1 + 72 / 55 * h2 + 1836 * p00 + 91 * p03
  · have g := mul_nonneg g hu
    rcases (hbCond_iff _ _ _ _ _).mp hH with h | h | h | h | h | h | h | h | h
    · linear_combination 2 * mul_nonneg h hu + g + 4772 / 11 * h1 + 42 / 55 * h2 + 2610 * p00 + 109 * p03
    · linear_combination 2 * mul_nonneg h hu + 2 * g + 3290 / 11 * h1 + 108 / 55 * h3 + 4140 * p00 + 199 * p03
    · linear_combination 2 * mul_nonneg h hu + 5 / 4 * g + 4154 / 11 * h1 + 141 / 110 * h3 + 5985 / 2 * p00 + 353 / 2 * p03
    · linear_combination mul_nonneg h hu + 5 / 2 * g + 4295 / 11 * h1 + 183 / 55 * h3 + 4365 * p00 + 244 * p03
    · linear_combination mul_nonneg h hu + 3 * g + 3554 / 11 * h1 + 258 / 55 * h3 + 5130 * p00 + 289 * p03
    · linear_combination mul_nonneg h hu + 21 / 8 * g + 3986 / 11 * h1 + 87 / 20 * h3 + 18225 / 4 * p00 + 1111 / 4 * p03
    · linear_combination 8 / 5 * mul_nonneg h hu + 8 / 5 * g + 21916 / 55 * h1 + 108 / 55 * h3 + 3312 * p00 + 199 * p03
    · linear_combination 8 / 5 * mul_nonneg h hu + 12 / 5 * g + 15988 / 55 * h1 + 228 / 55 * h3 + 4536 * p00 + 271 * p03
    · linear_combination 8 / 5 * mul_nonneg h hu + 9 / 5 * g + 19444 / 55 * h1 + 18 / 5 * h3 + 3618 * p00 + 253 * p03
  · have g := mul_nonneg g hu
    rcases (hbCond_iff _ _ _ _ _).mp hH with h | h | h | h | h | h | h | h | h
    · linear_combination 2 * mul_nonneg h hu + g + 980 / 11 * h1 + 42 / 55 * h2 + 14040 * p00 + 109 * p03
    · linear_combination 2 * mul_nonneg h hu + 2 * g + 4294 / 11 * h0 + 108 / 55 * h3 + 27000 * p00 + 199 * p03
    · linear_combination 2 * mul_nonneg h hu + 5 / 4 * g + 586 / 11 * h0 + 141 / 110 * h3 + 17280 * p00 + 353 / 2 * p03
    · linear_combination mul_nonneg h hu + 5 / 2 * g + 5185 / 11 * h0 + 183 / 55 * h3 + 32940 * p00 + 244 * p03
    · linear_combination mul_nonneg h hu + 3 * g + 7822 / 11 * h0 + 258 / 55 * h3 + 39420 * p00 + 289 * p03
    · linear_combination mul_nonneg h hu + 21 / 8 * g + 5968 / 11 * h0 + 87 / 20 * h3 + 34560 * p00 + 1111 / 4 * p03
    · linear_combination 8 / 5 * mul_nonneg h hu + 8 / 5 * g + 1684 / 11 * h0 + 108 / 55 * h3 + 21600 * p00 + 199 * p03
    · linear_combination 8 / 5 * mul_nonneg h hu + 12 / 5 * g + 29516 / 55 * h0 + 228 / 55 * h3 + 31968 * p00 + 271 * p03
    · linear_combination 8 / 5 * mul_nonneg h hu + 9 / 5 * g + 14684 / 55 * h0 + 18 / 5 * h3 + 24192 * p00 + 253 * p03

theorem cell1_1_0 {s t a b : ℚ} (h0 : 0 ≤ s - 97 / 127) (h1 : 0 ≤ 79 / 103 - s) (h2 : 0 ≤ t - (2)) (h3 : 0 ≤ 7 / 3 - t)
    (hH : HBCond 1 s t a b) (hV : LVCond (jutK 6) 2 s t a) : b * (16 * s - 4) ≤ (54 - 57 * s) * t := by
  have hu : 0 ≤ 16 * s - 4 := by linarith only [h0, h1]
  have p00 := mul_nonneg h0 h0
  have p03 := mul_nonneg h0 h3
  have hV := (jut_iff 6 _ _ _ _).mp hV
  push_cast at hV
  rcases hV with g | g | g
  · have g := mul_nonneg g hu
    rcases (hbCond_iff _ _ _ _ _).mp hH with h | h | h | h | h | h | h | h | h
    · linear_combination 2 * mul_nonneg h hu + g + 12379 / 127 * h1 + 1329 / 127 * h2 + 128 * p00 + 57 * p03
    · linear_combination 2 * mul_nonneg h hu + 2 * g + 8091 / 127 * h1 + 1329 / 127 * h2 + 192 * p00 + 57 * p03
    · linear_combination 2 * mul_nonneg h hu + 5 / 4 * g + 36461 / 381 * h1 + 807 / 127 * h2 + 144 * p00 + 65 * p03
    · linear_combination mul_nonneg h hu + 5 / 2 * g + 9107 / 127 * h1 + 1329 / 127 * h2 + 192 * p00 + 57 * p03
    · linear_combination mul_nonneg h hu + 3 * g + 6963 / 127 * h1 + 1329 / 127 * h2 + 224 * p00 + 57 * p03
    · linear_combination mul_nonneg h hu + 21 / 8 * g + 26983 / 381 * h1 + 1068 / 127 * h2 + 200 * p00 + 61 * p03
    · linear_combination 8 / 5 * mul_nonneg h hu + 8 / 5 * g + 176213 / 1905 * h1 + 4557 / 635 * h2 + 768 / 5 * p00 + 317 / 5 * p03
    · linear_combination 8 / 5 * mul_nonneg h hu + 12 / 5 * g + 124757 / 1905 * h1 + 4557 / 635 * h2 + 1024 / 5 * p00 + 317 / 5 * p03
    · linear_combination 8 / 5 * mul_nonneg h hu + 9 / 5 * g + 173509 / 1905 * h1 + 2469 / 635 * h2 + 832 / 5 * p00 + 349 / 5 * p03
  · have g := mul_nonneg g hu
    rcases (hbCond_iff _ _ _ _ _).mp hH with h | h | h | h | h | h | h | h | h
    · linear_combination 2 * mul_nonneg h hu + g + 14569 / 381 * h1 + 285 / 127 * h2 + 736 / 3 * p00 + 73 * p03
    · linear_combination 2 * mul_nonneg h hu + 2 * g + 20863 / 381 * h0 + 759 / 127 * h3 + 1280 / 3 * p00 + 89 * p03
    · linear_combination 2 * mul_nonneg h hu + 5 / 4 * g + 8251 / 381 * h1 + 498 / 127 * h3 + 872 / 3 * p00 + 85 * p03
    · linear_combination mul_nonneg h hu + 5 / 2 * g + 29099 / 381 * h0 + 1281 / 127 * h3 + 1456 / 3 * p00 + 97 * p03
    · linear_combination mul_nonneg h hu + 3 * g + 15605 / 127 * h0 + 1803 / 127 * h3 + 576 * p00 + 105 * p03
    · linear_combination mul_nonneg h hu + 21 / 8 * g + 254 / 3 * h0 + 3345 / 254 * h3 + 508 * p00 + 103 * p03
    · linear_combination 8 / 5 * mul_nonneg h hu + 8 / 5 * g + 4331 / 1905 * h0 + 759 / 127 * h3 + 1024 / 3 * p00 + 89 * p03
    · linear_combination 8 / 5 * mul_nonneg h hu + 12 / 5 * g + 146059 / 1905 * h0 + 7971 / 635 * h3 + 2432 / 5 * p00 + 509 / 5 * p03
    · linear_combination 8 / 5 * mul_nonneg h hu + 9 / 5 * g + 29603 / 1905 * h0 + 6927 / 635 * h3 + 1888 / 5 * p00 + 493 / 5 * p03
  · have g := mul_nonneg g hu
    rcases (hbCond_iff _ _ _ _ _).mp hH with h | h | h | h | h | h | h | h | h
    · linear_combination 2 * mul_nonneg h hu + g + 250607 / 381 * h0 + 285 / 127 * h2 + 1600 * p00 + 73 * p03
    · linear_combination 2 * mul_nonneg h hu + 2 * g + 551215 / 381 * h0 + 759 / 127 * h3 + 3136 * p00 + 89 * p03
    · linear_combination 2 * mul_nonneg h hu + 5 / 4 * g + 323219 / 381 * h0 + 498 / 127 * h3 + 1984 * p00 + 85 * p03
    · linear_combination mul_nonneg h hu + 5 / 2 * g + 692039 / 381 * h0 + 1281 / 127 * h3 + 3872 * p00 + 97 * p03
    · linear_combination mul_nonneg h hu + 3 * g + 280781 / 127 * h0 + 1803 / 127 * h3 + 4640 * p00 + 105 * p03
    · linear_combination mul_nonneg h hu + 21 / 8 * g + 5735 / 3 * h0 + 3345 / 254 * h3 + 4064 * p00 + 103 * p03
    · linear_combination 8 / 5 * mul_nonneg h hu + 8 / 5 * g + 2125739 / 1905 * h0 + 759 / 127 * h3 + 12544 / 5 * p00 + 89 * p03
    · linear_combination 8 / 5 * mul_nonneg h hu + 12 / 5 * g + 3328171 / 1905 * h0 + 7971 / 635 * h3 + 18688 / 5 * p00 + 509 / 5 * p03
    · linear_combination 8 / 5 * mul_nonneg h hu + 9 / 5 * g + 2416187 / 1905 * h0 + 6927 / 635 * h3 + 2816 * p00 + 493 / 5 * p03

theorem cell1_1_1 {s t a b : ℚ} (h0 : 0 ≤ s - 97 / 127) (h1 : 0 ≤ 79 / 103 - s) (h2 : 0 ≤ t - (7 / 3)) (h3 : 0 ≤ 16 / 3 * s - 4 / 3 - t)
    (hH : HBCond 2 s t a b) (hV : LVCond (jutK 6) 2 s t a) : b * (16 * s - 4) ≤ (54 - 57 * s) * t := by
  have hu : 0 ≤ 16 * s - 4 := by linarith only [h0, h1]
  have p00 := mul_nonneg h0 h0
  have p01 := mul_nonneg h0 h1
  have p03 := mul_nonneg h0 h3
  have hV := (jut_iff 6 _ _ _ _).mp hV
  push_cast at hV
  rcases hV with g | g | g
  · have g := mul_nonneg g hu
    rcases (hbCond_iff _ _ _ _ _).mp hH with h | h | h | h | h | h | h | h | h
    · linear_combination 2 * mul_nonneg h hu + g + 1350708 / 13081 * h1 + 1329 / 127 * h2 + 112 * p01 + 57 * p03
    · linear_combination 2 * mul_nonneg h hu + 2 * g + 697060 / 13081 * h1 + 1329 / 127 * h2 + 48 * p01 + 57 * p03
    · linear_combination 2 * mul_nonneg h hu + 5 / 4 * g + 1161896 / 13081 * h1 + 807 / 127 * h2 + 416 / 3 * p01 + 65 * p03
    · linear_combination mul_nonneg h hu + 5 / 2 * g + 1023884 / 13081 * h1 + 1329 / 127 * h2 + 80 * p01 + 57 * p03
    · linear_combination mul_nonneg h hu + 3 * g + 697060 / 13081 * h1 + 1329 / 127 * h2 + 48 * p01 + 57 * p03
    · linear_combination mul_nonneg h hu + 21 / 8 * g + 929478 / 13081 * h1 + 1068 / 127 * h2 + 280 / 3 * p01 + 61 * p03
    · linear_combination 8 / 5 * mul_nonneg h hu + 8 / 5 * g + 5998292 / 65405 * h1 + 4557 / 635 * h2 + 400 / 3 * p01 + 317 / 5 * p03
    · linear_combination 8 / 5 * mul_nonneg h hu + 12 / 5 * g + 676740 / 13081 * h1 + 4557 / 635 * h2 + 1232 / 15 * p01 + 317 / 5 * p03
    · linear_combination 8 / 5 * mul_nonneg h hu + 9 / 5 * g + 5243044 / 65405 * h1 + 2469 / 635 * h2 + 464 / 3 * p01 + 349 / 5 * p03
  · have g := mul_nonneg g hu
    rcases (hbCond_iff _ _ _ _ _).mp hH with h | h | h | h | h | h | h | h | h
    · linear_combination 2 * mul_nonneg h hu + g + 659676 / 13081 * h1 + 285 / 127 * h2 + 80 * p01 + 73 * p03
    · linear_combination 2 * mul_nonneg h hu + 2 * g + 2596 / 127 * h0 + 759 / 127 * h3 + 16 * p00 + 89 * p03
    · linear_combination 2 * mul_nonneg h hu + 5 / 4 * g + 571674 / 13081 * h1 + 498 / 127 * h3 + 296 / 3 * p01 + 85 * p03
    · linear_combination mul_nonneg h hu + 5 / 2 * g + 1281 / 127 * h3 + 97 * p03
    · linear_combination mul_nonneg h hu + 3 * g + 3724 / 127 * h0 + 1803 / 127 * h3 + 48 * p00 + 105 * p03
    · linear_combination mul_nonneg h hu + 21 / 8 * g + 34279 / 13081 * h1 + 3345 / 254 * h3 + 28 / 3 * p01 + 103 * p03
    · linear_combination 8 / 5 * mul_nonneg h hu + 8 / 5 * g + 2554756 / 65405 * h1 + 759 / 127 * h3 + 1232 / 15 * p01 + 89 * p03
    · linear_combination 8 / 5 * mul_nonneg h hu + 12 / 5 * g + 529948 / 65405 * h0 + 7971 / 635 * h3 + 16 / 3 * p01 + 509 / 5 * p03
    · linear_combination 8 / 5 * mul_nonneg h hu + 9 / 5 * g + 2828988 / 65405 * h1 + 6927 / 635 * h3 + 1456 / 15 * p01 + 493 / 5 * p03
  · have g := mul_nonneg g hu
    rcases (hbCond_iff _ _ _ _ _).mp hH with h | h | h | h | h | h | h | h | h
    · linear_combination 2 * mul_nonneg h hu + g + 82020 / 127 * h0 + 285 / 127 * h2 + 3824 / 3 * p00 + 73 * p03
    · linear_combination 2 * mul_nonneg h hu + 2 * g + 179380 / 127 * h0 + 759 / 127 * h3 + 8176 / 3 * p00 + 89 * p03
    · linear_combination 2 * mul_nonneg h hu + 5 / 4 * g + 104980 / 127 * h0 + 498 / 127 * h3 + 4784 / 3 * p00 + 85 * p03
    · linear_combination mul_nonneg h hu + 5 / 2 * g + 1740 * h0 + 1281 / 127 * h3 + 10160 / 3 * p00 + 97 * p03
    · linear_combination mul_nonneg h hu + 3 * g + 268900 / 127 * h0 + 1803 / 127 * h3 + 4112 * p00 + 105 * p03
    · linear_combination mul_nonneg h hu + 21 / 8 * g + 231700 / 127 * h0 + 3345 / 254 * h3 + 10640 / 3 * p00 + 103 * p03
    · linear_combination 8 / 5 * mul_nonneg h hu + 8 / 5 * g + 136500 / 127 * h0 + 759 / 127 * h3 + 6256 / 3 * p00 + 89 * p03
    · linear_combination 8 / 5 * mul_nonneg h hu + 12 / 5 * g + 213172 / 127 * h0 + 7971 / 635 * h3 + 48688 / 15 * p00 + 509 / 5 * p03
    · linear_combination 8 / 5 * mul_nonneg h hu + 9 / 5 * g + 153652 / 127 * h0 + 6927 / 635 * h3 + 7024 / 3 * p00 + 493 / 5 * p03

theorem cell1_1_2 {s t a b : ℚ} (h0 : 0 ≤ s - 97 / 127) (h1 : 0 ≤ 79 / 103 - s) (h2 : 0 ≤ t - (16 / 3 * s - 4 / 3)) (h3 : 0 ≤ 11 / 3 - t)
    (hH : HBCond 2 s t a b) (hV : LVCond (jutK 6) 3 s t a) : b * (16 * s - 4) ≤ (54 - 57 * s) * t := by
  have hu : 0 ≤ 16 * s - 4 := by linarith only [h0, h1]
  have p00 := mul_nonneg h0 h0
  have p03 := mul_nonneg h0 h3
  have p12 := mul_nonneg h1 h2
  have hV := (jut_iff 6 _ _ _ _).mp hV
  push_cast at hV
  rcases hV with g | g | g
  · have g := mul_nonneg g hu
    rcases (hbCond_iff _ _ _ _ _).mp hH with h | h | h | h | h | h | h | h | h
    · linear_combination 2 * mul_nonneg h hu + g + 11559 / 127 * h1 + 1329 / 127 * h2 + 224 * p00 + 57 * p03
    · linear_combination 2 * mul_nonneg h hu + 2 * g + 4111 / 127 * h1 + 1329 / 127 * h2 + 320 * p00 + 57 * p03
    · linear_combination 2 * mul_nonneg h hu + 5 / 4 * g + 39475 / 381 * h1 + 807 / 127 * h2 + 248 * p00 + 65 * p03
    · linear_combination mul_nonneg h hu + 5 / 2 * g + 1059 / 103 * h2 + 57 * p12
    · linear_combination mul_nonneg h hu + 3 * g + 2983 / 127 * h1 + 1329 / 127 * h2 + 352 * p00 + 57 * p03
    · linear_combination mul_nonneg h hu + 21 / 8 * g + 22520 / 381 * h1 + 1068 / 127 * h2 + 316 * p00 + 61 * p03
    · linear_combination 8 / 5 * mul_nonneg h hu + 8 / 5 * g + 185809 / 1905 * h1 + 4557 / 635 * h2 + 256 * p00 + 317 / 5 * p03
    · linear_combination 8 / 5 * mul_nonneg h hu + 12 / 5 * g + 96433 / 1905 * h1 + 4557 / 635 * h2 + 1664 / 5 * p00 + 317 / 5 * p03
    · linear_combination 8 / 5 * mul_nonneg h hu + 9 / 5 * g + 205001 / 1905 * h1 + 2469 / 635 * h2 + 1376 / 5 * p00 + 349 / 5 * p03
  · have g := mul_nonneg g hu
    rcases (hbCond_iff _ _ _ _ _).mp hH with h | h | h | h | h | h | h | h | h
    · linear_combination 2 * mul_nonneg h hu + g + 18545 / 381 * h1 + 285 / 127 * h2 + 400 * p00 + 73 * p03
    · linear_combination 2 * mul_nonneg h hu + 2 * g + 32075 / 381 * h0 + 759 / 127 * h3 + 672 * p00 + 89 * p03
    · linear_combination 2 * mul_nonneg h hu + 5 / 4 * g + 11342 / 381 * h1 + 498 / 127 * h3 + 468 * p00 + 85 * p03
    · linear_combination mul_nonneg h hu + 5 / 2 * g + 40705 / 381 * h0 + 1281 / 127 * h3 + 744 * p00 + 97 * p03
    · linear_combination mul_nonneg h hu + 3 * g + 22765 / 127 * h0 + 1803 / 127 * h3 + 880 * p00 + 105 * p03
    · linear_combination mul_nonneg h hu + 21 / 8 * g + 93173 / 762 * h0 + 3345 / 254 * h3 + 778 * p00 + 103 * p03
    · linear_combination 8 / 5 * mul_nonneg h hu + 8 / 5 * g + 3967 / 1905 * h0 + 759 / 127 * h3 + 2688 / 5 * p00 + 89 * p03
    · linear_combination 8 / 5 * mul_nonneg h hu + 12 / 5 * g + 224687 / 1905 * h0 + 7971 / 635 * h3 + 3776 / 5 * p00 + 509 / 5 * p03
    · linear_combination 8 / 5 * mul_nonneg h hu + 9 / 5 * g + 51019 / 1905 * h0 + 6927 / 635 * h3 + 592 * p00 + 493 / 5 * p03
  · have g := mul_nonneg g hu
    rcases (hbCond_iff _ _ _ _ _).mp hH with h | h | h | h | h | h | h | h | h
    · linear_combination 2 * mul_nonneg h hu + g + 379219 / 381 * h0 + 285 / 127 * h2 + 2432 * p00 + 73 * p03
    · linear_combination 2 * mul_nonneg h hu + 2 * g + 827603 / 381 * h0 + 759 / 127 * h3 + 4736 * p00 + 89 * p03
    · linear_combination 2 * mul_nonneg h hu + 5 / 4 * g + 485863 / 381 * h0 + 498 / 127 * h3 + 3008 * p00 + 85 * p03
    · linear_combination mul_nonneg h hu + 5 / 2 * g + 1035115 / 381 * h0 + 1281 / 127 * h3 + 5824 * p00 + 97 * p03
    · linear_combination mul_nonneg h hu + 3 * g + 420529 / 127 * h0 + 1803 / 127 * h3 + 6976 * p00 + 105 * p03
    · linear_combination mul_nonneg h hu + 21 / 8 * g + 1090717 / 381 * h0 + 3345 / 254 * h3 + 6112 * p00 + 103 * p03
    · linear_combination 8 / 5 * mul_nonneg h hu + 8 / 5 * g + 3186079 / 1905 * h0 + 759 / 127 * h3 + 18944 / 5 * p00 + 89 * p03
    · linear_combination 8 / 5 * mul_nonneg h hu + 12 / 5 * g + 999571 / 381 * h0 + 7971 / 635 * h3 + 5632 * p00 + 509 / 5 * p03
    · linear_combination 8 / 5 * mul_nonneg h hu + 9 / 5 * g + 726179 / 381 * h0 + 6927 / 635 * h3 + 21248 / 5 * p00 + 493 / 5 * p03

theorem cell1_1_3 {s t a b : ℚ} (h0 : 0 ≤ s - 97 / 127) (h1 : 0 ≤ 79 / 103 - s) (h2 : 0 ≤ t - (11 / 3)) (h3 : 0 ≤ 4 - t)
    (hH : HBCond 3 s t a b) (hV : LVCond (jutK 6) 3 s t a) : b * (16 * s - 4) ≤ (54 - 57 * s) * t := by
  have hu : 0 ≤ 16 * s - 4 := by linarith only [h0, h1]
  have p00 := mul_nonneg h0 h0
  have p03 := mul_nonneg h0 h3
  have hV := (jut_iff 6 _ _ _ _).mp hV
  push_cast at hV
  rcases hV with g | g | g
  · have g := mul_nonneg g hu
    rcases (hbCond_iff _ _ _ _ _).mp hH with h | h | h | h | h | h | h | h | h
    · linear_combination 2 * mul_nonneg h hu + g + 18804 / 127 * h1 + 1329 / 127 * h2 + 288 * p00 + 57 * p03
    · linear_combination 2 * mul_nonneg h hu + 2 * g + 9324 / 127 * h1 + 1329 / 127 * h2 + 384 * p00 + 57 * p03
    · linear_combination 2 * mul_nonneg h hu + 5 / 4 * g + 15926 / 127 * h1 + 807 / 127 * h2 + 312 * p00 + 65 * p03
    · linear_combination mul_nonneg h hu + 5 / 2 * g + 14064 / 127 * h1 + 1329 / 127 * h2 + 336 * p00 + 57 * p03
    · linear_combination mul_nonneg h hu + 3 * g + 9324 / 127 * h1 + 1329 / 127 * h2 + 384 * p00 + 57 * p03
    · linear_combination mul_nonneg h hu + 21 / 8 * g + 12625 / 127 * h1 + 1068 / 127 * h2 + 348 * p00 + 61 * p03
    · linear_combination 8 / 5 * mul_nonneg h hu + 8 / 5 * g + 82508 / 635 * h1 + 4557 / 635 * h2 + 1536 / 5 * p00 + 317 / 5 * p03
    · linear_combination 8 / 5 * mul_nonneg h hu + 12 / 5 * g + 44588 / 635 * h1 + 4557 / 635 * h2 + 384 * p00 + 317 / 5 * p03
    · linear_combination 8 / 5 * mul_nonneg h hu + 9 / 5 * g + 70996 / 635 * h1 + 2469 / 635 * h2 + 1632 / 5 * p00 + 349 / 5 * p03
  · have g := mul_nonneg g hu
    rcases (hbCond_iff _ _ _ _ _).mp hH with h | h | h | h | h | h | h | h | h
    · linear_combination 2 * mul_nonneg h hu + g + 8536 / 127 * h1 + 285 / 127 * h2 + 464 * p00 + 73 * p03
    · linear_combination 2 * mul_nonneg h hu + 2 * g + 11212 / 127 * h0 + 759 / 127 * h3 + 736 * p00 + 89 * p03
    · linear_combination 2 * mul_nonneg h hu + 5 / 4 * g + 3091 / 127 * h1 + 498 / 127 * h3 + 532 * p00 + 85 * p03
    · linear_combination mul_nonneg h hu + 5 / 2 * g + 11606 / 127 * h0 + 1281 / 127 * h3 + 776 * p00 + 97 * p03
    · linear_combination mul_nonneg h hu + 3 * g + 21480 / 127 * h0 + 1803 / 127 * h3 + 912 * p00 + 105 * p03
    · linear_combination mul_nonneg h hu + 21 / 8 * g + 28657 / 254 * h0 + 3345 / 254 * h3 + 810 * p00 + 103 * p03
    · linear_combination 8 / 5 * mul_nonneg h hu + 8 / 5 * g + 364 / 635 * h1 + 759 / 127 * h3 + 2944 / 5 * p00 + 89 * p03
    · linear_combination 8 / 5 * mul_nonneg h hu + 12 / 5 * g + 78628 / 635 * h0 + 7971 / 635 * h3 + 4032 / 5 * p00 + 509 / 5 * p03
    · linear_combination 8 / 5 * mul_nonneg h hu + 9 / 5 * g + 21416 / 635 * h0 + 6927 / 635 * h3 + 3216 / 5 * p00 + 493 / 5 * p03
  · have g := mul_nonneg g hu
    rcases (hbCond_iff _ _ _ _ _).mp hH with h | h | h | h | h | h | h | h | h
    · linear_combination 2 * mul_nonneg h hu + g + 124052 / 127 * h0 + 285 / 127 * h2 + 2496 * p00 + 73 * p03
    · linear_combination 2 * mul_nonneg h hu + 2 * g + 276388 / 127 * h0 + 759 / 127 * h3 + 4800 * p00 + 89 * p03
    · linear_combination 2 * mul_nonneg h hu + 5 / 4 * g + 162644 / 127 * h0 + 498 / 127 * h3 + 3072 * p00 + 85 * p03
    · linear_combination mul_nonneg h hu + 5 / 2 * g + 343076 / 127 * h0 + 1281 / 127 * h3 + 5856 * p00 + 97 * p03
    · linear_combination mul_nonneg h hu + 3 * g + 419244 / 127 * h0 + 1803 / 127 * h3 + 7008 * p00 + 105 * p03
    · linear_combination mul_nonneg h hu + 21 / 8 * g + 362372 / 127 * h0 + 3345 / 254 * h3 + 6144 * p00 + 103 * p03
    · linear_combination 8 / 5 * mul_nonneg h hu + 8 / 5 * g + 212068 / 127 * h0 + 759 / 127 * h3 + 3840 * p00 + 89 * p03
    · linear_combination 8 / 5 * mul_nonneg h hu + 12 / 5 * g + 1669684 / 635 * h0 + 7971 / 635 * h3 + 28416 / 5 * p00 + 509 / 5 * p03
    · linear_combination 8 / 5 * mul_nonneg h hu + 9 / 5 * g + 1214708 / 635 * h0 + 6927 / 635 * h3 + 21504 / 5 * p00 + 493 / 5 * p03

theorem strip1_0 {s t a b : ℚ} (h0 : 0 ≤ s - 42 / 55) (h1 : 0 ≤ 97 / 127 - s) (t0 : 2 ≤ t) (t1 : t ≤ 4)
    (h : TupleOK [2, 3] LB [] s t a b) : b ≤ w s * t := by
  have hpos : 0 ≤ t := by linarith
  have k0 : (18 - 19 * s) / (90 * s - 66) ≤ w s := le_max_of_le_left (le_rfl)
  have v0 : 0 < 90 * s - 66 := u0 (by linarith) (by linarith)
  by_cases c0 : t ≤ 7 / 3
  · exact (le_quot v0 (cell1_0_0 h0 h1 (by linarith) (by linarith) (tuple_hb powers h (by simp)) (tuple_lv powers h (by simp) (by simp)))).trans (mul_le_mul_of_nonneg_right k0 hpos)
  rw [not_le] at c0
  by_cases c1 : t ≤ 90 * s - 66
  · exact (le_quot v0 (cell1_0_1 h0 h1 (by linarith) (by linarith) (tuple_hb powers h (by simp)) (tuple_lv powers h (by simp) (by simp)))).trans (mul_le_mul_of_nonneg_right k0 hpos)
  rw [not_le] at c1
  by_cases c2 : t ≤ 7 / 2
  · exact (le_quot v0 (cell1_0_2 h0 h1 (by linarith) (by linarith) (tuple_hb powers h (by simp)) (tuple_lv powers h (by simp) (by simp)))).trans (mul_le_mul_of_nonneg_right k0 hpos)
  rw [not_le] at c2
  exact (le_quot v0 (cell1_0_3 h0 h1 (by linarith) (by linarith) (tuple_hb powers h (by simp)) (tuple_lv powers h (by simp) (by simp)))).trans (mul_le_mul_of_nonneg_right k0 hpos)

theorem strip1_1 {s t a b : ℚ} (h0 : 0 ≤ s - 97 / 127) (h1 : 0 ≤ 79 / 103 - s) (t0 : 2 ≤ t) (t1 : t ≤ 4)
    (h : TupleOK [2, 3] LB [] s t a b) : b ≤ w s * t := by
  have hpos : 0 ≤ t := by linarith
  have k1 : (54 - 57 * s) / (16 * s - 4) ≤ w s := le_max_of_le_right (le_rfl)
  have v1 : 0 < 16 * s - 4 := u1 (by linarith) (by linarith)
  by_cases c0 : t ≤ 7 / 3
  · exact (le_quot v1 (cell1_1_0 h0 h1 (by linarith) (by linarith) (tuple_hb powers h (by simp)) (tuple_lv powers h (by simp) (by simp)))).trans (mul_le_mul_of_nonneg_right k1 hpos)
  rw [not_le] at c0
  by_cases c1 : t ≤ 16 / 3 * s - 4 / 3
  · exact (le_quot v1 (cell1_1_1 h0 h1 (by linarith) (by linarith) (tuple_hb powers h (by simp)) (tuple_lv powers h (by simp) (by simp)))).trans (mul_le_mul_of_nonneg_right k1 hpos)
  rw [not_le] at c1
  by_cases c2 : t ≤ 11 / 3
  · exact (le_quot v1 (cell1_1_2 h0 h1 (by linarith) (by linarith) (tuple_hb powers h (by simp)) (tuple_lv powers h (by simp) (by simp)))).trans (mul_le_mul_of_nonneg_right k1 hpos)
  rw [not_le] at c2
  exact (le_quot v1 (cell1_1_3 h0 h1 (by linarith) (by linarith) (tuple_hb powers h (by simp)) (tuple_lv powers h (by simp) (by simp)))).trans (mul_le_mul_of_nonneg_right k1 hpos)

theorem upper (s t a b : ℚ) (l1 : 42 / 55 ≤ s) (l2 : s < 79 / 103) (h : FeasibleE [2, 3] LB ZB 0 2 s t a b) : b ≤ w s * t := by
  have h : (2 ≤ t ∧ t ≤ 4) ∧ TupleOK [2, 3] LB [] s t a b := by
    rcases h with ⟨⟨i1, i2⟩, h⟩ | ⟨⟨i1, i2⟩, h⟩
    · exact ⟨⟨by linarith, by linarith⟩, h⟩
    · exact ⟨⟨i1, by linarith⟩, tuple_mono h⟩
  obtain ⟨⟨i1, i2⟩, h⟩ := h
  by_cases d0 : s ≤ 97 / 127
  · exact strip1_0 (by linarith) (by linarith) (by linarith) (by linarith) h
  rw [not_le] at d0
  exact strip1_1 (by linarith) (by linarith) (by linarith) (by linarith) h

theorem att0 {s : ℚ} (h0 : 42 / 55 ≤ s) (h1 : s ≤ 97 / 127) :
    Inside [2, 3] LB [] 0 2 (2 * 0) (2 * 2) s (90 * s - 66) (6 - 6 * s) (18 - 19 * s) := by
  refine ⟨by linarith, by linarith, by linarith, by linarith, by linarith, by linarith, tuple_of powers ⟨by linarith, by linarith⟩ ⟨by linarith, by linarith⟩ ?_ ?_⟩
  · refine List.forall_mem_cons.mpr ⟨?_, List.forall_mem_cons.mpr ⟨?_, List.forall_mem_cons.mpr ⟨?_, List.forall_mem_nil _⟩⟩⟩
    · exact ⟨(hbCond_iff _ _ _ _ _).mpr (.inr (.inr (.inr (.inl (by linarith))))), List.forall_mem_cons.mpr ⟨(jut_iff 6 _ _ _ _).mpr (.inr (.inl (by push_cast; linarith))), List.forall_mem_nil _⟩⟩
    · exact ⟨(hbCond_iff _ _ _ _ _).mpr (.inr (.inr (.inr (.inl (by linarith))))), List.forall_mem_cons.mpr ⟨(jut_iff 6 _ _ _ _).mpr (.inr (.inr (by push_cast; linarith))), List.forall_mem_nil _⟩⟩
    · exact ⟨(hbCond_iff _ _ _ _ _).mpr (.inl (by linarith)), List.forall_mem_cons.mpr ⟨(jut_iff 6 _ _ _ _).mpr (.inl (by push_cast; linarith)), List.forall_mem_nil _⟩⟩
  · exact List.forall_mem_nil _

theorem att1 {s : ℚ} (h0 : 97 / 127 ≤ s) (h1 : s < 79 / 103) :
    Inside [2, 3] LB [] 0 2 (2 * 0) (2 * 2) s (16 / 3 * s - 4 / 3) (6 - 6 * s) (18 - 19 * s) := by
  refine ⟨by linarith, by linarith, by linarith, by linarith, by linarith, by linarith, tuple_of powers ⟨by linarith, by linarith⟩ ⟨by linarith, by linarith⟩ ?_ ?_⟩
  · refine List.forall_mem_cons.mpr ⟨?_, List.forall_mem_cons.mpr ⟨?_, List.forall_mem_cons.mpr ⟨?_, List.forall_mem_nil _⟩⟩⟩
    · exact ⟨(hbCond_iff _ _ _ _ _).mpr (.inr (.inr (.inr (.inl (by linarith))))), List.forall_mem_cons.mpr ⟨(jut_iff 6 _ _ _ _).mpr (.inr (.inl (by push_cast; linarith))), List.forall_mem_nil _⟩⟩
    · exact ⟨(hbCond_iff _ _ _ _ _).mpr (.inr (.inr (.inr (.inl (by linarith))))), List.forall_mem_cons.mpr ⟨(jut_iff 6 _ _ _ _).mpr (.inr (.inl (by push_cast; linarith))), List.forall_mem_nil _⟩⟩
    · exact ⟨(hbCond_iff _ _ _ _ _).mpr (.inl (by linarith)), List.forall_mem_cons.mpr ⟨(jut_iff 6 _ _ _ _).mpr (.inl (by push_cast; linarith)), List.forall_mem_nil _⟩⟩
  · exact List.forall_mem_nil _

theorem attained (s : ℚ) (l1 : 42 / 55 ≤ s) (l2 : s < 79 / 103) : ∃ t a b, (Inside [2, 3] LB [] 0 2 (2 * 0) (2 * 2) s t a b ∨
    Inside [2, 3] LB ZB 0 2 0 2 s t a b) ∧ b = w s * t := by
  by_cases g0 : s ≤ 97 / 127
  · have h0 : 0 ≤ s - 42 / 55 := by linarith
    have h1 : 0 ≤ 97 / 127 - s := by linarith
    have e : w s = (18 - 19 * s) / (90 * s - 66) := le_antisymm (max_le (le_rfl) (le10_0 h0 h1)) (le_max_of_le_left (le_rfl))
    exact ⟨_, _, _, .inl (att0 (by linarith) (by linarith)), by rw [e]; exact eq_quot (u0 (by linarith) (by linarith)) (by ring)⟩
  rw [not_le] at g0
  have h0 : 0 ≤ s - 97 / 127 := by linarith
  have h1 : 0 ≤ 79 / 103 - s := by linarith
  have e : w s = (54 - 57 * s) / (16 * s - 4) := le_antisymm (max_le (le01_1 h0 h1) (le_rfl)) (le_max_of_le_right (le_rfl))
  exact ⟨_, _, _, .inl (att1 (by linarith) (by linarith)), by rw [e]; exact eq_quot (u1 (by linarith) (by linarith)) (by ring)⟩

theorem notConvex1 : NotConvex [2, 3] LB [] (42 / 55) (79 / 103) 0 2 (2 * 0) (2 * 2) :=
  ⟨49 / 64, 27 / 10, 271 / 200, 831 / 250, 49 / 64, 33 / 10, 281 / 200, 867 / 250, by decide +kernel⟩

end Case5

variable {eng : Engine} {hrep : List Pt → Mat} {edges : Mat → List (Pt × Pt)} {solve : RF ℝ → RF ℝ → List ℝ} {isZero : Expr ℝ → Bool}
  {orderR : List (Region ℕ) → List (Region ℕ)} {orderK : List ℚ → List ℚ}

/-- **C85** (`prove_zero_density_energy_5`, derived.py:876-891) The function returns pieces which, at every real `sigma` of `[42/55, 79/103)`, give
`A*(sigma) = w(sigma) / (1 - sigma)` with the `w` stated here. -/
theorem C85_energy_5 (C : Contracts eng edges solve isZero orderR orderK) (hh : HRepSpec hrep) (hhz : HRepNoZero hrep) :
    ∃ out, proveEnergy5 eng hrep edges solve isZero orderR orderK = .ok out ∧ IsBoundE (42 / 55) (79 / 103) out
      (fun x => (max ((18 - 19 * x) / (90 * x - 66)) ((54 - 57 * x) / (16 * x - 4))) / (1 - x)) := by
  have := deriveE C hh hhz [2, 3] Case5.powers Case5.LB Case5.ZB (List.forall_mem_cons.mpr ⟨good_jutK (j := 6) (by norm_num), List.forall_mem_nil _⟩) (List.forall_mem_nil _) 0 2 (42 / 55) (79 / 103)
    (by norm_num) (by norm_num) (by norm_num) (by decide +kernel) (by norm_num) (by norm_num) (by norm_num) (by norm_num) Case5.notConvex1
    (.inl ⟨rfl, rfl⟩) Case5.w (fun x => max ((18 - 19 * x) / (90 * x - 66)) ((54 - 57 * x) / (16 * x - 4))) (fun s _ _ => by simp only [Case5.w]; push_cast; rfl) ?_ Case5.attained Case5.upper
  · exact this
  · intro x l1 l2
    push_cast at l1 l2
    have k0 : ContinuousAt (fun x : ℝ => (18 - 19 * x) / (90 * x - 66)) x := ContinuousAt.div (by fun_prop) (by fun_prop) (by intro h; linarith)
    have k1 : ContinuousAt (fun x : ℝ => (54 - 57 * x) / (16 * x - 4)) x := ContinuousAt.div (by fun_prop) (by fun_prop) (by intro h; linarith)
    exact (Filter.Tendsto.max k0 k1)

/-- The value at `49/64`. -/
example : ∃ eng hrep edges solve isZero orderR orderK out, proveEnergy5 eng hrep edges solve isZero orderR orderK = .ok out ∧
    ∃ q ∈ out, q.1.at (49 / 64) = (884 / 165 : ℝ) := by
  obtain ⟨eng, edges, solve, isZero, orderR, orderK, C⟩ := contracts_satisfiable
  obtain ⟨hrep, hh, hhz⟩ := hRepNoZero_satisfiable
  obtain ⟨out, h1, h2⟩ := C85_energy_5 C hh hhz
  obtain ⟨q, q1, _, _, _, q5⟩ := h2 (49 / 64) (by norm_num) (by norm_num)
  exact ⟨eng, hrep, edges, solve, isZero, orderR, orderK, out, h1, q, q1, by rw [q5]; norm_num⟩

end DerivedEnergy
end Expdb
