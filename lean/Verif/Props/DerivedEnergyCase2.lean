import Verif.Props.DerivedEnergyForms

/-!
# C85: the zero density energy estimate that `prove_zero_density_energy_2` derives

The upper bound is proved on cells of the `(sigma, tau)` plane, with one power of Heath-Brown's relation and one power of one large value
estimate on each cell.
-/

namespace Expdb
namespace DerivedEnergy

open Rational SupRatio Mat Region ZeroDensity DerivedZD

namespace Case2

/-- The bound times `1 - sigma`. -/
def w (s : ℚ) : ℚ := max ((90 - 95 * s) / (10 * s + 6)) ((90 - 88 * s) / (2 * s + 15))

/-- The estimates. -/
abbrev LB : List (List (ℚ × ℚ × ℚ)) := [l2, gm]

/-- The zeta large value estimates. -/
abbrev ZB : List (List (ℚ × ℚ × ℚ)) := []

theorem powers : ∀ k ∈ ([2, 3, 4] : List ℚ), 1 ≤ k := by decide +kernel

theorem u0 {s : ℚ} (l1 : 7 / 10 ≤ s) (l2 : s ≤ 3 / 4) : 0 < 10 * s + 6 := by linarith

theorem u1 {s : ℚ} (l1 : 7 / 10 ≤ s) (l2 : s ≤ 3 / 4) : 0 < 2 * s + 15 := by linarith

theorem cross0 {s : ℚ} (l1 : 7 / 10 ≤ s) (l2 : s ≤ 3 / 4) (hc : (90 - 88 * s) / (2 * s + 15) ≤ (90 - 95 * s) / (10 * s + 6)) : s ≤ 53 / 73 := by
  rw [div_le_div_iff₀ (u1 l1 l2) (u0 l1 l2)] at hc
  by_contra h
  rw [not_le] at h
  nlinarith [mul_pos (sub_pos.mpr h) (sub_pos.mpr h), mul_nonneg (sub_nonneg.mpr l2) (sub_pos.mpr h).le]

theorem cross1 {s : ℚ} (l1 : 7 / 10 ≤ s) (l2 : s ≤ 3 / 4) (hc : (90 - 95 * s) / (10 * s + 6) ≤ (90 - 88 * s) / (2 * s + 15)) : 66 / 91 ≤ s := by
  rw [div_le_div_iff₀ (u0 l1 l2) (u1 l1 l2)] at hc
  by_contra h
  rw [not_le] at h
  nlinarith [mul_pos (sub_pos.mpr h) (sub_pos.mpr h), mul_nonneg (sub_nonneg.mpr l1) (sub_pos.mpr h).le]

theorem cell1_0_0 {s t a b : ℚ} (h0 : 0 ≤ s - 7 / 10) (h1 : 0 ≤ 3 / 4 - s) (h2 : 0 ≤ t - (2)) (h3 : 0 ≤ 4 / 15 * s + 2 - t)
    (hH : HBCond 1 s t a b) (hV : LVCond l2 2 s t a) : b * (2 * s + 15) ≤ (90 - 88 * s) * t := by
  have hu : 0 ≤ 2 * s + 15 := by linarith only [h0, h1]
  have p00 := mul_nonneg h0 h0
  have p01 := mul_nonneg h0 h1
  have p03 := mul_nonneg h0 h3
  have hV := (l2_iff _ _ _ _).mp hV
  rcases hV with g | g
  · have g := mul_nonneg g hu
    rcases (hbCond_iff _ _ _ _ _).mp hH with h | h | h | h | h | h | h | h | h
    · linear_combination 2 * mul_nonneg h hu + g + 332 / 5 * h1 + 142 / 5 * h2 + 112 / 15 * p01 + 88 * p03
    · linear_combination 2 * mul_nonneg h hu + 2 * g + 62 / 75 * h1 + 142 / 5 * h2 + 8 / 15 * p00 + 88 * p03
    · linear_combination 2 * mul_nonneg h hu + 5 / 4 * g + 507 / 10 * h1 + 101 / 5 * h2 + 86 / 15 * p01 + 89 * p03
    · linear_combination mul_nonneg h hu + 5 / 2 * g + 137 / 75 * h1 + 142 / 5 * h2 + 8 / 15 * p00 + 88 * p03
    · linear_combination mul_nonneg h hu + 3 * g + 2308 / 75 * h0 + 142 / 5 * h2 + 68 / 15 * p00 + 88 * p03
    · linear_combination mul_nonneg h hu + 21 / 8 * g + 299 / 50 * h0 + 243 / 10 * h2 + 7 / 5 * p00 + 177 / 2 * p03
    · linear_combination 8 / 5 * mul_nonneg h hu + 8 / 5 * g + 1028 / 25 * h1 + 546 / 25 * h2 + 112 / 25 * p01 + 444 / 5 * p03
    · linear_combination 8 / 5 * mul_nonneg h hu + 12 / 5 * g + 1408 / 125 * h0 + 546 / 25 * h2 + 48 / 25 * p00 + 444 / 5 * p03
    · linear_combination 8 / 5 * mul_nonneg h hu + 9 / 5 * g + 714 / 25 * h1 + 382 / 25 * h2 + 232 / 75 * p01 + 448 / 5 * p03
  · have g := mul_nonneg g hu
    rcases (hbCond_iff _ _ _ _ _).mp hH with h | h | h | h | h | h | h | h | h
    · linear_combination 2 * mul_nonneg h hu + g + 334 / 5 * h1 + 12 * h2 + 8 * p01 + 90 * p03
    · linear_combination 2 * mul_nonneg h hu + 2 * g + 208 / 75 * h1 + 22 / 5 * h3 + 8 / 15 * p01 + 92 * p03
    · linear_combination 2 * mul_nonneg h hu + 5 / 4 * g + 1282 / 25 * h1 + 3 / 10 * h3 + 32 / 5 * p01 + 183 / 2 * p03
    · linear_combination mul_nonneg h hu + 5 / 2 * g + 154 / 25 * h1 + 63 / 5 * h3 + 4 / 5 * p01 + 93 * p03
    · linear_combination mul_nonneg h hu + 3 * g + 1808 / 75 * h0 + 104 / 5 * h3 + 44 / 15 * p00 + 94 * p03
    · linear_combination mul_nonneg h hu + 21 / 8 * g + 75 / 4 * h3 + 375 / 4 * p03
    · linear_combination 8 / 5 * mul_nonneg h hu + 8 / 5 * g + 644 / 15 * h1 + 22 / 5 * h3 + 16 / 3 * p01 + 92 * p03
    · linear_combination 8 / 5 * mul_nonneg h hu + 12 / 5 * g + 712 / 125 * h0 + 438 / 25 * h3 + 16 / 25 * p00 + 468 / 5 * p03
    · linear_combination 8 / 5 * mul_nonneg h hu + 9 / 5 * g + 12404 / 375 * h1 + 356 / 25 * h3 + 304 / 75 * p01 + 466 / 5 * p03

theorem cell1_0_1 {s t a b : ℚ} (h0 : 0 ≤ s - 7 / 10) (h1 : 0 ≤ 3 / 4 - s) (h2 : 0 ≤ t - (4 / 15 * s + 2)) (h3 : 0 ≤ 7 / 3 - t)
    (hH : HBCond 2 s t a b) (hV : LVCond l2 2 s t a) : b * (2 * s + 15) ≤ (90 - 88 * s) * t := by
  have hu : 0 ≤ 2 * s + 15 := by linarith only [h0, h1]
  have p00 := mul_nonneg h0 h0
  have p03 := mul_nonneg h0 h3
  have p12 := mul_nonneg h1 h2
  have hV := (l2_iff _ _ _ _).mp hV
  rcases hV with g | g
  · have g := mul_nonneg g hu
    rcases (hbCond_iff _ _ _ _ _).mp hH with h | h | h | h | h | h | h | h | h
    · linear_combination 2 * mul_nonneg h hu + g + 204 / 25 * h1 + 142 / 5 * h2 + 24 * p00 + 88 * p03
    · linear_combination 2 * mul_nonneg h hu + 2 * g + 1476 / 25 * h0 + 142 / 5 * h2 + 32 * p00 + 88 * p03
    · linear_combination 2 * mul_nonneg h hu + 5 / 4 * g + 178 / 25 * h0 + 101 / 5 * h2 + 26 * p00 + 89 * p03
    · linear_combination mul_nonneg h hu + 5 / 2 * g + 636 / 25 * h0 + 142 / 5 * h2 + 28 * p00 + 88 * p03
    · linear_combination mul_nonneg h hu + 3 * g + 1476 / 25 * h0 + 142 / 5 * h2 + 32 * p00 + 88 * p03
    · linear_combination mul_nonneg h hu + 21 / 8 * g + 827 / 25 * h0 + 243 / 10 * h2 + 29 * p00 + 177 / 2 * p03
    · linear_combination 8 / 5 * mul_nonneg h hu + 8 / 5 * g + 508 / 125 * h0 + 546 / 25 * h2 + 128 / 5 * p00 + 444 / 5 * p03
    · linear_combination 8 / 5 * mul_nonneg h hu + 12 / 5 * g + 7228 / 125 * h0 + 546 / 25 * h2 + 32 * p00 + 444 / 5 * p03
    · linear_combination 8 / 5 * mul_nonneg h hu + 9 / 5 * g + 2036 / 125 * h0 + 382 / 25 * h2 + 136 / 5 * p00 + 448 / 5 * p03
  · have g := mul_nonneg g hu
    rcases (hbCond_iff _ _ _ _ _).mp hH with h | h | h | h | h | h | h | h | h
    · linear_combination 2 * mul_nonneg h hu + g + 15 / 2 * h2 + 90 * p12
    · linear_combination 2 * mul_nonneg h hu + 2 * g + 752 / 15 * h0 + 22 / 5 * h3 + 32 * p00 + 92 * p03
    · linear_combination 2 * mul_nonneg h hu + 5 / 4 * g + 9 / 10 * h0 + 3 / 10 * h3 + 26 * p00 + 183 / 2 * p03
    · linear_combination mul_nonneg h hu + 5 / 2 * g + 81 / 5 * h0 + 63 / 5 * h3 + 28 * p00 + 93 * p03
    · linear_combination mul_nonneg h hu + 3 * g + 742 / 15 * h0 + 104 / 5 * h3 + 32 * p00 + 94 * p03
    · linear_combination mul_nonneg h hu + 21 / 8 * g + 497 / 20 * h0 + 75 / 4 * h3 + 29 * p00 + 375 / 4 * p03
    · linear_combination 8 / 5 * mul_nonneg h hu + 8 / 5 * g + 212 / 75 * h1 + 22 / 5 * h3 + 128 / 5 * p00 + 92 * p03
    · linear_combination 8 / 5 * mul_nonneg h hu + 12 / 5 * g + 252 / 5 * h0 + 438 / 25 * h3 + 32 * p00 + 468 / 5 * p03
    · linear_combination 8 / 5 * mul_nonneg h hu + 9 / 5 * g + 826 / 75 * h0 + 356 / 25 * h3 + 136 / 5 * p00 + 466 / 5 * p03

theorem cell1_0_2 {s t a b : ℚ} (h0 : 0 ≤ s - 7 / 10) (h1 : 0 ≤ 3 / 4 - s) (h2 : 0 ≤ t - (7 / 3)) (h3 : 0 ≤ 2 * s + 6 / 5 - t)
    (hH : HBCond 2 s t a b) (hV : LVCond gm 2 s t a) : b * (10 * s + 6) ≤ (90 - 95 * s) * t := by
  have hu : 0 ≤ 10 * s + 6 := by linarith only [h0, h1]
  have p00 := mul_nonneg h0 h0
  have p01 := mul_nonneg h0 h1
  have p03 := mul_nonneg h0 h3
  have p12 := mul_nonneg h1 h2
  have hV := (gm_iff _ _ _ _).mp hV
  rcases hV with g | g | g
  · have g := mul_nonneg g hu
    rcases (hbCond_iff _ _ _ _ _).mp hH with h | h | h | h | h | h | h | h | h
    · linear_combination 2 * mul_nonneg h hu + g + 261 / 2 * h1 + 47 / 2 * h2 + 70 * p01 + 95 * p03
    · linear_combination 2 * mul_nonneg h hu + 2 * g + 137 / 2 * h1 + 47 / 2 * h2 + 30 * p01 + 95 * p03
    · linear_combination 2 * mul_nonneg h hu + 5 / 4 * g + 227 / 2 * h1 + 17 * h2 + 70 * p01 + 100 * p03
    · linear_combination mul_nonneg h hu + 5 / 2 * g + 199 / 2 * h1 + 47 / 2 * h2 + 50 * p01 + 95 * p03
    · linear_combination mul_nonneg h hu + 3 * g + 137 / 2 * h1 + 47 / 2 * h2 + 30 * p01 + 95 * p03
    · linear_combination mul_nonneg h hu + 21 / 8 * g + 91 * h1 + 81 / 4 * h2 + 50 * p01 + 195 / 2 * p03
    · linear_combination 8 / 5 * mul_nonneg h hu + 8 / 5 * g + 1169 / 10 * h1 + 183 / 10 * h2 + 70 * p01 + 99 * p03
    · linear_combination 8 / 5 * mul_nonneg h hu + 12 / 5 * g + 673 / 10 * h1 + 183 / 10 * h2 + 38 * p01 + 99 * p03
    · linear_combination 8 / 5 * mul_nonneg h hu + 9 / 5 * g + 1033 / 10 * h1 + 131 / 10 * h2 + 70 * p01 + 103 * p03
  · have g := mul_nonneg g hu
    rcases (hbCond_iff _ _ _ _ _).mp hH with h | h | h | h | h | h | h | h | h
    · linear_combination 2 * mul_nonneg h hu + g + 170 / 3 * h1 + 309 / 16 * h2 + 275 / 2 * p00 + 45 / 4 * p03 + 335 / 4 * p12
    · linear_combination 2 * mul_nonneg h hu + 2 * g + 29 * h0 + 47 / 2 * h2 + 50 * p00 + 95 * p03
    · linear_combination 2 * mul_nonneg h hu + 5 / 4 * g + 51 * h1 + 17 * h2 + 20 * p01 + 100 * p03
    · linear_combination mul_nonneg h hu + 5 / 2 * g + 23 * h0 + 47 / 2 * h2 + 50 * p00 + 95 * p03
    · linear_combination mul_nonneg h hu + 3 * g + 77 * h0 + 47 / 2 * h2 + 90 * p00 + 95 * p03
    · linear_combination mul_nonneg h hu + 21 / 8 * g + 75 / 2 * h0 + 81 / 4 * h2 + 55 * p00 + 195 / 2 * p03
    · linear_combination 8 / 5 * mul_nonneg h hu + 8 / 5 * g + 369 / 10 * h1 + 183 / 10 * h2 + 6 * p01 + 99 * p03
    · linear_combination 8 / 5 * mul_nonneg h hu + 12 / 5 * g + 249 / 5 * h0 + 183 / 10 * h2 + 58 * p00 + 99 * p03
    · linear_combination 8 / 5 * mul_nonneg h hu + 9 / 5 * g + 67 / 5 * h1 + 131 / 10 * h2 + 2 * p00 + 103 * p03
  · have g := mul_nonneg g hu
    rcases (hbCond_iff _ _ _ _ _).mp hH with h | h | h | h | h | h | h | h | h
    · linear_combination 2 * mul_nonneg h hu + g + 74 * h1 + 147 / 16 * h2 + 5 / 2 * p00 + 315 / 4 * p03 + 105 / 4 * p12
    · linear_combination 2 * mul_nonneg h hu + 2 * g + 20 * h0 + 5 / 2 * h3 + 10 * p00 + 115 * p03
    · linear_combination 2 * mul_nonneg h hu + 5 / 4 * g + 219 / 4 * h1 + 3 / 4 * h2 + 45 * p01 + 225 / 2 * p03
    · linear_combination mul_nonneg h hu + 5 / 2 * g + 9 * h3 + 120 * p03
    · linear_combination mul_nonneg h hu + 3 * g + 40 * h0 + 31 / 2 * h3 + 30 * p00 + 125 * p03
    · linear_combination mul_nonneg h hu + 21 / 8 * g + 9 / 2 * h0 + 111 / 8 * h3 + 5 / 2 * p00 + 495 / 4 * p03
    · linear_combination 8 / 5 * mul_nonneg h hu + 8 / 5 * g + 467 / 10 * h1 + 5 / 2 * h3 + 38 * p01 + 115 * p03
    · linear_combination 8 / 5 * mul_nonneg h hu + 12 / 5 * g + 96 / 5 * h0 + 129 / 10 * h3 + 10 * p00 + 123 * p03
    · linear_combination 8 / 5 * mul_nonneg h hu + 9 / 5 * g + 393 / 10 * h1 + 103 / 10 * h3 + 34 * p01 + 121 * p03

theorem cell1_0_3 {s t a b : ℚ} (h0 : 0 ≤ s - 7 / 10) (h1 : 0 ≤ 3 / 4 - s) (h2 : 0 ≤ t - (2 * s + 6 / 5)) (h3 : 0 ≤ 43 / 13 - t)
    (hH : HBCond 2 s t a b) (hV : LVCond l2 3 s t a) : b * (10 * s + 6) ≤ (90 - 95 * s) * t := by
  have hu : 0 ≤ 10 * s + 6 := by linarith only [h0, h1]
  have p00 := mul_nonneg h0 h0
  have p03 := mul_nonneg h0 h3
  have p11 := mul_nonneg h1 h1
  have p12 := mul_nonneg h1 h2
  have hV := (l2_iff _ _ _ _).mp hV
  rcases hV with g | g
  · have g := mul_nonneg g hu
    rcases (hbCond_iff _ _ _ _ _).mp hH with h | h | h | h | h | h | h | h | h
    · linear_combination 2 * mul_nonneg h hu + g + 1654 / 13 * h1 + 47 / 2 * h2 + 140 * p00 + 95 * p03
    · linear_combination 2 * mul_nonneg h hu + 2 * g + 614 / 13 * h1 + 47 / 2 * h2 + 200 * p00 + 95 * p03
    · linear_combination 2 * mul_nonneg h hu + 5 / 4 * g + 1583 / 13 * h1 + 17 * h2 + 155 * p00 + 100 * p03
    · linear_combination mul_nonneg h hu + 5 / 2 * g + 75 / 4 * h2 + 95 * p12
    · linear_combination mul_nonneg h hu + 3 * g + 322 / 13 * h1 + 47 / 2 * h2 + 2540 / 13 * p00 + 95 * p03 + 320 / 13 * p11
    · linear_combination mul_nonneg h hu + 21 / 8 * g + 2075 / 79 * h1 + 23295 / 1264 * h2 + 19305 / 316 * p03 + 9850 / 79 * p11 + 11505 / 316 * p12
    · linear_combination 8 / 5 * mul_nonneg h hu + 8 / 5 * g + 7466 / 65 * h1 + 183 / 10 * h2 + 160 * p00 + 99 * p03
    · linear_combination 8 / 5 * mul_nonneg h hu + 12 / 5 * g + 3306 / 65 * h1 + 183 / 10 * h2 + 208 * p00 + 99 * p03
    · linear_combination 8 / 5 * mul_nonneg h hu + 9 / 5 * g + 7182 / 65 * h1 + 131 / 10 * h2 + 172 * p00 + 103 * p03
  · have g := mul_nonneg g hu
    rcases (hbCond_iff _ _ _ _ _).mp hH with h | h | h | h | h | h | h | h | h
    · linear_combination 2 * mul_nonneg h hu + g + 2032 / 13 * h1 + 21 / 2 * h2 + 140 * p00 + 105 * p03
    · linear_combination 2 * mul_nonneg h hu + 2 * g + 1305 / 13 * h1 + 5 / 2 * h3 + 200 * p00 + 115 * p03
    · linear_combination 2 * mul_nonneg h hu + 5 / 4 * g + 4111 / 26 * h1 + 3 / 4 * h2 + 155 * p00 + 225 / 2 * p03
    · linear_combination mul_nonneg h hu + 5 / 2 * g + 1585 / 13 * h1 + 9 * h3 + 190 * p00 + 120 * p03
    · linear_combination mul_nonneg h hu + 3 * g + 1085 / 13 * h1 + 31 / 2 * h3 + 220 * p00 + 125 * p03
    · linear_combination mul_nonneg h hu + 21 / 8 * g + 1367 / 13 * h1 + 111 / 8 * h3 + 3075 / 26 * p00 + 495 / 4 * p03 + 1030 / 13 * p11
    · linear_combination 8 / 5 * mul_nonneg h hu + 8 / 5 * g + 2033 / 13 * h1 + 5 / 2 * h3 + 160 * p00 + 115 * p03
    · linear_combination 8 / 5 * mul_nonneg h hu + 12 / 5 * g + 1233 / 13 * h1 + 129 / 10 * h3 + 208 * p00 + 123 * p03
    · linear_combination 8 / 5 * mul_nonneg h hu + 9 / 5 * g + 1849 / 13 * h1 + 103 / 10 * h3 + 172 * p00 + 121 * p03

theorem cell1_0_4 {s t a b : ℚ} (h0 : 0 ≤ s - 7 / 10) (h1 : 0 ≤ 3 / 4 - s) (h2 : 0 ≤ t - (43 / 13)) (h3 : 0 ≤ 7 / 2 - t)
    (hH : HBCond 3 s t a b) (hV : LVCond l2 3 s t a) : b * (2 * s + 15) ≤ (90 - 88 * s) * t := by
  have hu : 0 ≤ 2 * s + 15 := by linarith only [h0, h1]
  have p00 := mul_nonneg h0 h0
  have p03 := mul_nonneg h0 h3
  have p11 := mul_nonneg h1 h1
  have p12 := mul_nonneg h1 h2
  have hV := (l2_iff _ _ _ _).mp hV
  rcases hV with g | g
  · have g := mul_nonneg g hu
    rcases (hbCond_iff _ _ _ _ _).mp hH with h | h | h | h | h | h | h | h | h
    · linear_combination 2 * mul_nonneg h hu + g + 118 / 5 * h1 + 142 / 5 * h2 + 36 * p00 + 88 * p03
    · linear_combination 2 * mul_nonneg h hu + 2 * g + 386 / 5 * h0 + 142 / 5 * h2 + 48 * p00 + 88 * p03
    · linear_combination 2 * mul_nonneg h hu + 5 / 4 * g + 13 / 5 * h0 + 101 / 5 * h2 + 39 * p00 + 89 * p03
    · linear_combination mul_nonneg h hu + 5 / 2 * g + 134 / 5 * h0 + 142 / 5 * h2 + 42 * p00 + 88 * p03
    · linear_combination mul_nonneg h hu + 3 * g + 386 / 5 * h0 + 142 / 5 * h2 + 48 * p00 + 88 * p03
    · linear_combination mul_nonneg h hu + 21 / 8 * g + 399 / 10 * h0 + 243 / 10 * h2 + 87 / 2 * p00 + 177 / 2 * p03
    · linear_combination 8 / 5 * mul_nonneg h hu + 8 / 5 * g + 66 / 25 * h1 + 546 / 25 * h2 + 192 / 5 * p00 + 444 / 5 * p03
    · linear_combination 8 / 5 * mul_nonneg h hu + 12 / 5 * g + 78 * h0 + 546 / 25 * h2 + 48 * p00 + 444 / 5 * p03
    · linear_combination 8 / 5 * mul_nonneg h hu + 9 / 5 * g + 458 / 25 * h0 + 382 / 25 * h2 + 204 / 5 * p00 + 448 / 5 * p03
  · have g := mul_nonneg g hu
    rcases (hbCond_iff _ _ _ _ _).mp hH with h | h | h | h | h | h | h | h | h
    · linear_combination 2 * mul_nonneg h hu + g + 63 / 13 * h1 + 39 / 5 * h2 + 6 * p03 + 36 * p11 + 84 * p12
    · linear_combination 2 * mul_nonneg h hu + 2 * g + 376 / 5 * h0 + 22 / 5 * h3 + 48 * p00 + 92 * p03
    · linear_combination 2 * mul_nonneg h hu + 5 / 4 * g + 27 / 20 * h0 + 3 / 10 * h3 + 39 * p00 + 183 / 2 * p03
    · linear_combination mul_nonneg h hu + 5 / 2 * g + 243 / 10 * h0 + 63 / 5 * h3 + 42 * p00 + 93 * p03
    · linear_combination mul_nonneg h hu + 3 * g + 371 / 5 * h0 + 104 / 5 * h3 + 48 * p00 + 94 * p03
    · linear_combination mul_nonneg h hu + 21 / 8 * g + 1491 / 40 * h0 + 75 / 4 * h3 + 87 / 2 * p00 + 375 / 4 * p03
    · linear_combination 8 / 5 * mul_nonneg h hu + 8 / 5 * g + 106 / 25 * h1 + 22 / 5 * h3 + 192 / 5 * p00 + 92 * p03
    · linear_combination 8 / 5 * mul_nonneg h hu + 12 / 5 * g + 378 / 5 * h0 + 438 / 25 * h3 + 48 * p00 + 468 / 5 * p03
    · linear_combination 8 / 5 * mul_nonneg h hu + 9 / 5 * g + 413 / 25 * h0 + 356 / 25 * h3 + 204 / 5 * p00 + 466 / 5 * p03

theorem cell1_0_5 {s t a b : ℚ} (h0 : 0 ≤ s - 7 / 10) (h1 : 0 ≤ 3 / 4 - s) (h2 : 0 ≤ t - (7 / 2)) (h3 : 0 ≤ 19 / 5 - t)
    (hH : HBCond 3 s t a b) (hV : LVCond gm 3 s t a) : b * (10 * s + 6) ≤ (90 - 95 * s) * t := by
  have hu : 0 ≤ 10 * s + 6 := by linarith only [h0, h1]
  have p00 := mul_nonneg h0 h0
  have p03 := mul_nonneg h0 h3
  have p11 := mul_nonneg h1 h1
  have p12 := mul_nonneg h1 h2
  have hV := (gm_iff _ _ _ _).mp hV
  rcases hV with g | g | g
  · have g := mul_nonneg g hu
    rcases (hbCond_iff _ _ _ _ _).mp hH with h | h | h | h | h | h | h | h | h
    · linear_combination 2 * mul_nonneg h hu + g + 181 * h1 + 47 / 2 * h2 + 180 * p00 + 95 * p03
    · linear_combination 2 * mul_nonneg h hu + 2 * g + 91 * h1 + 47 / 2 * h2 + 240 * p00 + 95 * p03
    · linear_combination 2 * mul_nonneg h hu + 5 / 4 * g + 155 * h1 + 17 * h2 + 195 * p00 + 100 * p03
    · linear_combination mul_nonneg h hu + 5 / 2 * g + 136 * h1 + 47 / 2 * h2 + 210 * p00 + 95 * p03
    · linear_combination mul_nonneg h hu + 3 * g + 91 * h1 + 47 / 2 * h2 + 240 * p00 + 95 * p03
    · linear_combination mul_nonneg h hu + 21 / 8 * g + 123 * h1 + 81 / 4 * h2 + 435 / 2 * p00 + 195 / 2 * p03
    · linear_combination 8 / 5 * mul_nonneg h hu + 8 / 5 * g + 801 / 5 * h1 + 183 / 10 * h2 + 192 * p00 + 99 * p03
    · linear_combination 8 / 5 * mul_nonneg h hu + 12 / 5 * g + 441 / 5 * h1 + 183 / 10 * h2 + 240 * p00 + 99 * p03
    · linear_combination 8 / 5 * mul_nonneg h hu + 9 / 5 * g + 697 / 5 * h1 + 131 / 10 * h2 + 204 * p00 + 103 * p03
  · have g := mul_nonneg g hu
    rcases (hbCond_iff _ _ _ _ _).mp hH with h | h | h | h | h | h | h | h | h
    · linear_combination 2 * mul_nonneg h hu + g + 73 * h1 + 43 / 2 * h2 + 55 * p03 + 240 * p11 + 40 * p12
    · linear_combination 2 * mul_nonneg h hu + 2 * g + 53 * h0 + 47 / 2 * h2 + 360 * p00 + 95 * p03
    · linear_combination 2 * mul_nonneg h hu + 5 / 4 * g + 65 * h1 + 17 * h2 + 270 * p00 + 100 * p03
    · linear_combination mul_nonneg h hu + 5 / 2 * g + 44 * h0 + 47 / 2 * h2 + 360 * p00 + 95 * p03
    · linear_combination mul_nonneg h hu + 3 * g + 125 * h0 + 47 / 2 * h2 + 420 * p00 + 95 * p03
    · linear_combination mul_nonneg h hu + 21 / 8 * g + 66 * h0 + 81 / 4 * h2 + 375 * p00 + 195 / 2 * p03
    · linear_combination 8 / 5 * mul_nonneg h hu + 8 / 5 * g + 45 * h1 + 183 / 10 * h2 + 288 * p00 + 99 * p03
    · linear_combination 8 / 5 * mul_nonneg h hu + 12 / 5 * g + 423 / 5 * h0 + 183 / 10 * h2 + 384 * p00 + 99 * p03
    · linear_combination 8 / 5 * mul_nonneg h hu + 9 / 5 * g + 49 / 5 * h1 + 131 / 10 * h2 + 312 * p00 + 103 * p03
  · have g := mul_nonneg g hu
    rcases (hbCond_iff _ _ _ _ _).mp hH with h | h | h | h | h | h | h | h | h
    · linear_combination 2 * mul_nonneg h hu + g + 111 * h1 + 21 / 2 * h2 + 240 * p00 + 105 * p03
    · linear_combination 2 * mul_nonneg h hu + 2 * g + 49 * h0 + 5 / 2 * h3 + 360 * p00 + 115 * p03
    · linear_combination 2 * mul_nonneg h hu + 5 / 4 * g + 135 / 2 * h1 + 3 / 4 * h2 + 270 * p00 + 225 / 2 * p03
    · linear_combination mul_nonneg h hu + 5 / 2 * g + 39 * h0 + 9 * h3 + 360 * p00 + 120 * p03
    · linear_combination mul_nonneg h hu + 3 * g + 119 * h0 + 31 / 2 * h3 + 420 * p00 + 125 * p03
    · linear_combination mul_nonneg h hu + 21 / 8 * g + 243 / 4 * h0 + 111 / 8 * h3 + 375 * p00 + 495 / 4 * p03
    · linear_combination 8 / 5 * mul_nonneg h hu + 8 / 5 * g + 241 / 5 * h1 + 5 / 2 * h3 + 288 * p00 + 115 * p03
    · linear_combination 8 / 5 * mul_nonneg h hu + 12 / 5 * g + 399 / 5 * h0 + 129 / 10 * h3 + 384 * p00 + 123 * p03
    · linear_combination 8 / 5 * mul_nonneg h hu + 9 / 5 * g + 67 / 5 * h1 + 103 / 10 * h3 + 312 * p00 + 121 * p03

theorem cell1_0_6 {s t a b : ℚ} (h0 : 0 ≤ s - 7 / 10) (h1 : 0 ≤ 3 / 4 - s) (h2 : 0 ≤ t - (19 / 5)) (h3 : 0 ≤ 4 - t)
    (hH : HBCond 2 s t a b) (hV : LVCond l2 4 s t a) : b * (10 * s + 6) ≤ (90 - 95 * s) * t := by
  have hu : 0 ≤ 10 * s + 6 := by linarith only [h0, h1]
  have p00 := mul_nonneg h0 h0
  have p03 := mul_nonneg h0 h3
  have p11 := mul_nonneg h1 h1
  have hV := (l2_iff _ _ _ _).mp hV
  rcases hV with g | g
  · have g := mul_nonneg g hu
    rcases (hbCond_iff _ _ _ _ _).mp hH with h | h | h | h | h | h | h | h | h
    · linear_combination 2 * mul_nonneg h hu + g + 220 * h1 + 47 / 2 * h2 + 160 * p00 + 95 * p03
    · linear_combination 2 * mul_nonneg h hu + 2 * g + 120 * h1 + 47 / 2 * h2 + 240 * p00 + 95 * p03
    · linear_combination 2 * mul_nonneg h hu + 5 / 4 * g + 200 * h1 + 17 * h2 + 180 * p00 + 100 * p03
    · linear_combination mul_nonneg h hu + 5 / 2 * g + 130 * h1 + 47 / 2 * h2 + 240 * p00 + 95 * p03
    · linear_combination mul_nonneg h hu + 3 * g + 80 * h1 + 47 / 2 * h2 + 280 * p00 + 95 * p03
    · linear_combination mul_nonneg h hu + 21 / 8 * g + 98 * h1 + 81 / 4 * h2 + 30 * p00 + 195 / 2 * p03 + 220 * p11
    · linear_combination 8 / 5 * mul_nonneg h hu + 8 / 5 * g + 188 * h1 + 183 / 10 * h2 + 192 * p00 + 99 * p03
    · linear_combination 8 / 5 * mul_nonneg h hu + 12 / 5 * g + 108 * h1 + 183 / 10 * h2 + 256 * p00 + 99 * p03
    · linear_combination 8 / 5 * mul_nonneg h hu + 9 / 5 * g + 172 * h1 + 131 / 10 * h2 + 208 * p00 + 103 * p03
  · have g := mul_nonneg g hu
    rcases (hbCond_iff _ _ _ _ _).mp hH with h | h | h | h | h | h | h | h | h
    · linear_combination 2 * mul_nonneg h hu + g + 220 * h1 + 21 / 2 * h2 + 160 * p00 + 105 * p03
    · linear_combination 2 * mul_nonneg h hu + 2 * g + 120 * h1 + 5 / 2 * h3 + 240 * p00 + 115 * p03
    · linear_combination 2 * mul_nonneg h hu + 5 / 4 * g + 200 * h1 + 3 / 4 * h2 + 180 * p00 + 225 / 2 * p03
    · linear_combination mul_nonneg h hu + 5 / 2 * g + 130 * h1 + 9 * h3 + 240 * p00 + 120 * p03
    · linear_combination mul_nonneg h hu + 3 * g + 80 * h1 + 31 / 2 * h3 + 280 * p00 + 125 * p03
    · linear_combination mul_nonneg h hu + 21 / 8 * g + 120 * h1 + 111 / 8 * h3 + 250 * p00 + 495 / 4 * p03
    · linear_combination 8 / 5 * mul_nonneg h hu + 8 / 5 * g + 188 * h1 + 5 / 2 * h3 + 192 * p00 + 115 * p03
    · linear_combination 8 / 5 * mul_nonneg h hu + 12 / 5 * g + 108 * h1 + 129 / 10 * h3 + 256 * p00 + 123 * p03
    · linear_combination 8 / 5 * mul_nonneg h hu + 9 / 5 * g + 172 * h1 + 103 / 10 * h3 + 208 * p00 + 121 * p03

theorem strip1_0 {s t a b : ℚ} (h0 : 0 ≤ s - 7 / 10) (h1 : 0 ≤ 3 / 4 - s) (t0 : 2 ≤ t) (t1 : t ≤ 4)
    (h : TupleOK [2, 3, 4] LB [] s t a b) : b ≤ w s * t := by
  have hpos : 0 ≤ t := by linarith
  have k0 : (90 - 95 * s) / (10 * s + 6) ≤ w s := le_max_of_le_left (le_rfl)
  have v0 : 0 < 10 * s + 6 := u0 (by linarith) (by linarith)
  have k1 : (90 - 88 * s) / (2 * s + 15) ≤ w s := le_max_of_le_right (le_rfl)
  have v1 : 0 < 2 * s + 15 := u1 (by linarith) (by linarith)
  by_cases c0 : t ≤ 4 / 15 * s + 2
  · exact (le_quot v1 (cell1_0_0 h0 h1 (by linarith) (by linarith) (tuple_hb powers h (by simp)) (tuple_lv powers h (by simp) (by simp)))).trans (mul_le_mul_of_nonneg_right k1 hpos)
  rw [not_le] at c0
  by_cases c1 : t ≤ 7 / 3
  · exact (le_quot v1 (cell1_0_1 h0 h1 (by linarith) (by linarith) (tuple_hb powers h (by simp)) (tuple_lv powers h (by simp) (by simp)))).trans (mul_le_mul_of_nonneg_right k1 hpos)
  rw [not_le] at c1
  by_cases c2 : t ≤ 2 * s + 6 / 5
  · exact (le_quot v0 (cell1_0_2 h0 h1 (by linarith) (by linarith) (tuple_hb powers h (by simp)) (tuple_lv powers h (by simp) (by simp)))).trans (mul_le_mul_of_nonneg_right k0 hpos)
  rw [not_le] at c2
  by_cases c3 : t ≤ 43 / 13
  · exact (le_quot v0 (cell1_0_3 h0 h1 (by linarith) (by linarith) (tuple_hb powers h (by simp)) (tuple_lv powers h (by simp) (by simp)))).trans (mul_le_mul_of_nonneg_right k0 hpos)
  rw [not_le] at c3
  by_cases c4 : t ≤ 7 / 2
  · exact (le_quot v1 (cell1_0_4 h0 h1 (by linarith) (by linarith) (tuple_hb powers h (by simp)) (tuple_lv powers h (by simp) (by simp)))).trans (mul_le_mul_of_nonneg_right k1 hpos)
  rw [not_le] at c4
  by_cases c5 : t ≤ 19 / 5
  · exact (le_quot v0 (cell1_0_5 h0 h1 (by linarith) (by linarith) (tuple_hb powers h (by simp)) (tuple_lv powers h (by simp) (by simp)))).trans (mul_le_mul_of_nonneg_right k0 hpos)
  rw [not_le] at c5
  exact (le_quot v0 (cell1_0_6 h0 h1 (by linarith) (by linarith) (tuple_hb powers h (by simp)) (tuple_lv powers h (by simp) (by simp)))).trans (mul_le_mul_of_nonneg_right k0 hpos)

theorem upper (s t a b : ℚ) (l1 : 7 / 10 ≤ s) (l2 : s < 3 / 4) (h : FeasibleE [2, 3, 4] LB ZB 0 2 s t a b) : b ≤ w s * t := by
  have h : (2 ≤ t ∧ t ≤ 4) ∧ TupleOK [2, 3, 4] LB [] s t a b := by
    rcases h with ⟨⟨i1, i2⟩, h⟩ | ⟨⟨i1, i2⟩, h⟩
    · exact ⟨⟨by linarith, by linarith⟩, h⟩
    · exact ⟨⟨i1, by linarith⟩, tuple_mono h⟩
  obtain ⟨⟨i1, i2⟩, h⟩ := h
  exact strip1_0 (by linarith) (by linarith) (by linarith) (by linarith) h

theorem att0 {s : ℚ} (h0 : 7 / 10 ≤ s) (h1 : s ≤ 53 / 73) :
    Inside [2, 3, 4] LB [] 0 2 (2 * 0) (2 * 2) s (2 * s + 6 / 5) (6 - 6 * s) (18 - 19 * s) := by
  refine ⟨by linarith, by linarith, by linarith, by linarith, by linarith, by linarith, tuple_of powers ⟨by linarith, by linarith⟩ ⟨by linarith, by linarith⟩ ?_ ?_⟩
  · refine List.forall_mem_cons.mpr ⟨?_, List.forall_mem_cons.mpr ⟨?_, List.forall_mem_cons.mpr ⟨?_, List.forall_mem_cons.mpr ⟨?_, List.forall_mem_nil _⟩⟩⟩⟩
    · exact ⟨(hbCond_iff _ _ _ _ _).mpr (.inr (.inr (.inr (.inr (.inl (by linarith)))))), List.forall_mem_cons.mpr ⟨(l2_iff _ _ _ _).mpr (.inr (by linarith)), List.forall_mem_cons.mpr ⟨(gm_iff _ _ _ _).mpr (.inr (.inr (by linarith))), List.forall_mem_nil _⟩⟩⟩
    · exact ⟨(hbCond_iff _ _ _ _ _).mpr (.inr (.inr (.inr (.inl (by linarith))))), List.forall_mem_cons.mpr ⟨(l2_iff _ _ _ _).mpr (.inr (by linarith)), List.forall_mem_cons.mpr ⟨(gm_iff _ _ _ _).mpr (.inr (.inr (by linarith))), List.forall_mem_nil _⟩⟩⟩
    · exact ⟨(hbCond_iff _ _ _ _ _).mpr (.inl (by linarith)), List.forall_mem_cons.mpr ⟨(l2_iff _ _ _ _).mpr (.inl (by linarith)), List.forall_mem_cons.mpr ⟨(gm_iff _ _ _ _).mpr (.inl (by linarith)), List.forall_mem_nil _⟩⟩⟩
    · exact ⟨(hbCond_iff _ _ _ _ _).mpr (.inl (by linarith)), List.forall_mem_cons.mpr ⟨(l2_iff _ _ _ _).mpr (.inl (by linarith)), List.forall_mem_cons.mpr ⟨(gm_iff _ _ _ _).mpr (.inl (by linarith)), List.forall_mem_nil _⟩⟩⟩
  · exact List.forall_mem_nil _

theorem att1 {s : ℚ} (h0 : 66 / 91 ≤ s) (h1 : s < 3 / 4) :
    Inside [2, 3, 4] LB [] 0 2 (2 * 0) (2 * 2) s (4 / 15 * s + 2) (4 - 56 / 15 * s) (12 - 176 / 15 * s) := by
  refine ⟨by linarith, by linarith, by linarith, by linarith, by linarith, by linarith, tuple_of powers ⟨by linarith, by linarith⟩ ⟨by linarith, by linarith⟩ ?_ ?_⟩
  · refine List.forall_mem_cons.mpr ⟨?_, List.forall_mem_cons.mpr ⟨?_, List.forall_mem_cons.mpr ⟨?_, List.forall_mem_cons.mpr ⟨?_, List.forall_mem_nil _⟩⟩⟩⟩
    · exact ⟨(hbCond_iff _ _ _ _ _).mpr (.inr (.inr (.inr (.inr (.inr (.inl (by linarith))))))), List.forall_mem_cons.mpr ⟨(l2_iff _ _ _ _).mpr (.inr (by linarith)), List.forall_mem_cons.mpr ⟨(gm_iff _ _ _ _).mpr (.inr (.inr (by linarith))), List.forall_mem_nil _⟩⟩⟩
    · exact ⟨(hbCond_iff _ _ _ _ _).mpr (.inl (by linarith)), List.forall_mem_cons.mpr ⟨(l2_iff _ _ _ _).mpr (.inr (by linarith)), List.forall_mem_cons.mpr ⟨(gm_iff _ _ _ _).mpr (.inr (.inl (by linarith))), List.forall_mem_nil _⟩⟩⟩
    · exact ⟨(hbCond_iff _ _ _ _ _).mpr (.inl (by linarith)), List.forall_mem_cons.mpr ⟨(l2_iff _ _ _ _).mpr (.inl (by linarith)), List.forall_mem_cons.mpr ⟨(gm_iff _ _ _ _).mpr (.inl (by linarith)), List.forall_mem_nil _⟩⟩⟩
    · exact ⟨(hbCond_iff _ _ _ _ _).mpr (.inl (by linarith)), List.forall_mem_cons.mpr ⟨(l2_iff _ _ _ _).mpr (.inl (by linarith)), List.forall_mem_cons.mpr ⟨(gm_iff _ _ _ _).mpr (.inl (by linarith)), List.forall_mem_nil _⟩⟩⟩
  · exact List.forall_mem_nil _

theorem attained (s : ℚ) (l1 : 7 / 10 ≤ s) (l2 : s < 3 / 4) : ∃ t a b, (Inside [2, 3, 4] LB [] 0 2 (2 * 0) (2 * 2) s t a b ∨
    Inside [2, 3, 4] LB ZB 0 2 0 2 s t a b) ∧ b = w s * t := by
  rcases le_total ((90 - 88 * s) / (2 * s + 15)) ((90 - 95 * s) / (10 * s + 6)) with hc | hc
  · have hs : s ≤ 53 / 73 := cross0 (by linarith) (by linarith) hc
    have h0 : 0 ≤ s - 7 / 10 := by linarith
    have h1 : 0 ≤ 53 / 73 - s := by linarith
    have e : w s = (90 - 95 * s) / (10 * s + 6) := le_antisymm (max_le (le_rfl) (hc)) (le_max_of_le_left (le_rfl))
    exact ⟨_, _, _, .inl (att0 (by linarith) (by linarith)), by rw [e]; exact eq_quot (u0 (by linarith) (by linarith)) (by ring)⟩
  have g0 : 66 / 91 ≤ s := cross1 (by linarith) (by linarith) hc
  have h0 : 0 ≤ s - 66 / 91 := by linarith
  have h1 : 0 ≤ 3 / 4 - s := by linarith
  have e : w s = (90 - 88 * s) / (2 * s + 15) := le_antisymm (max_le (hc) (le_rfl)) (le_max_of_le_right (le_rfl))
  exact ⟨_, _, _, .inl (att1 (by linarith) (by linarith)), by rw [e]; exact eq_quot (u1 (by linarith) (by linarith)) (by ring)⟩

theorem notConvex1 : NotConvex [2, 3, 4] LB [] (7 / 10) (3 / 4) 0 2 (2 * 0) (2 * 2) :=
  ⟨8 / 11, 23 / 10, 69 / 50, 89 / 25, 8 / 11, 37 / 10, 51 / 50, 167 / 50, by decide +kernel⟩

end Case2

variable {eng : Engine} {hrep : List Pt → Mat} {edges : Mat → List (Pt × Pt)} {solve : RF ℝ → RF ℝ → List ℝ} {isZero : Expr ℝ → Bool}
  {orderR : List (Region ℕ) → List (Region ℕ)} {orderK : List ℚ → List ℚ}

/-- **C85** (`prove_zero_density_energy_2`, derived.py:814-833) The function returns pieces which, at every real `sigma` of `[7/10, 3/4)`, give
`A*(sigma) = w(sigma) / (1 - sigma)` with the `w` stated here. -/
theorem C85_energy_2 (C : Contracts eng edges solve isZero orderR orderK) (hh : HRepSpec hrep) (hhz : HRepNoZero hrep) :
    ∃ out, proveEnergy2 eng hrep edges solve isZero orderR orderK = .ok out ∧ IsBoundE (7 / 10) (3 / 4) out
      (fun x => (max ((90 - 95 * x) / (10 * x + 6)) ((90 - 88 * x) / (2 * x + 15))) / (1 - x)) := by
  have := deriveE C hh hhz [2, 3, 4] Case2.powers Case2.LB Case2.ZB (List.forall_mem_cons.mpr ⟨good_l2, List.forall_mem_cons.mpr ⟨good_gm, List.forall_mem_nil _⟩⟩) (List.forall_mem_nil _) 0 2 (7 / 10) (3 / 4)
    (by norm_num) (by norm_num) (by norm_num) (by decide +kernel) (by norm_num) (by norm_num) (by norm_num) (by norm_num) Case2.notConvex1
    (.inl ⟨rfl, rfl⟩) Case2.w (fun x => max ((90 - 95 * x) / (10 * x + 6)) ((90 - 88 * x) / (2 * x + 15))) (fun s _ _ => by simp only [Case2.w]; push_cast; rfl) ?_ Case2.attained Case2.upper
  · exact this
  · intro x l1 l2
    push_cast at l1 l2
    have k0 : ContinuousAt (fun x : ℝ => (90 - 95 * x) / (10 * x + 6)) x := ContinuousAt.div (by fun_prop) (by fun_prop) (by intro h; linarith)
    have k1 : ContinuousAt (fun x : ℝ => (90 - 88 * x) / (2 * x + 15)) x := ContinuousAt.div (by fun_prop) (by fun_prop) (by intro h; linarith)
    exact (Filter.Tendsto.max k0 k1)

/-- The value at `8/11`. -/
example : ∃ eng hrep edges solve isZero orderR orderK out, proveEnergy2 eng hrep edges solve isZero orderR orderK = .ok out ∧
    ∃ q ∈ out, q.1.at (8 / 11) = (3146 / 543 : ℝ) := by
  obtain ⟨eng, edges, solve, isZero, orderR, orderK, C⟩ := contracts_satisfiable
  obtain ⟨hrep, hh, hhz⟩ := hRepNoZero_satisfiable
  obtain ⟨out, h1, h2⟩ := C85_energy_2 C hh hhz
  obtain ⟨q, q1, _, _, _, q5⟩ := h2 (8 / 11) (by norm_num) (by norm_num)
  exact ⟨eng, hrep, edges, solve, isZero, orderR, orderK, out, h1, q, q1, by rw [q5]; norm_num⟩

end DerivedEnergy
end Expdb
