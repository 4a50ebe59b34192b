import Verif.Props.DerivedEnergyForms

/-!
# C85: the zero density energy estimate that `prove_zero_density_energy_8` derives

The upper bound is proved on cells of the `(sigma, tau)` plane, with one power of Heath-Brown's relation and one power of one large value
estimate on each cell.
-/

namespace Expdb
namespace DerivedEnergy

open Rational SupRatio Mat Region ZeroDensity DerivedZD

namespace Case8

/-- The bound times `1 - sigma`. -/
def w (s : ℚ) : ℚ := max ((270 * s - 173) / (2000 * s - 1488)) (max ((890 * s - 653) / (1250 * s - 930)) ((1151 - 1190 * s) / (300 * s - 40)))

/-- The estimates. -/
abbrev LB : List (List (ℚ × ℚ × ℚ)) := [gm, jutK 13]

/-- The zeta large value estimates. -/
abbrev ZB : List (List (ℚ × ℚ × ℚ)) := []

theorem powers : ∀ k ∈ ([2, 3] : List ℚ), 1 ≤ k := by decide +kernel

theorem u0 {s : ℚ} (l1 : 37 / 49 ≤ s) (l2 : s ≤ 443 / 586) : 0 < 2000 * s - 1488 := by linarith

theorem u1 {s : ℚ} (l1 : 37 / 49 ≤ s) (l2 : s ≤ 443 / 586) : 0 < 1250 * s - 930 := by linarith

theorem u2 {s : ℚ} (l1 : 37 / 49 ≤ s) (l2 : s ≤ 443 / 586) : 0 < 300 * s - 40 := by linarith

theorem le10_0 {s : ℚ} (h0 : 0 ≤ s - 37 / 49) (h1 : 0 ≤ 4359 / 5770 - s) : (890 * s - 653) / (1250 * s - 930) ≤ (270 * s - 173) / (2000 * s - 1488) := by
  rw [div_le_div_iff₀ (u1 (by linarith) (by linarith)) (u0 (by linarith) (by linarith))]
  nlinarith [mul_nonneg h0 h1, mul_nonneg h0 h0, mul_nonneg h1 h1]

theorem le20_1 {s : ℚ} (h0 : 0 ≤ s - 37 / 49) (h1 : 0 ≤ 4359 / 5770 - s) : (1151 - 1190 * s) / (300 * s - 40) ≤ (270 * s - 173) / (2000 * s - 1488) := by
  rw [div_le_div_iff₀ (u2 (by linarith) (by linarith)) (u0 (by linarith) (by linarith))]
  nlinarith [mul_nonneg h0 h1, mul_nonneg h0 h0, mul_nonneg h1 h1]

theorem le01_2 {s : ℚ} (h0 : 0 ≤ s - 4359 / 5770) (h1 : 0 ≤ 241 / 319 - s) : (270 * s - 173) / (2000 * s - 1488) ≤ (890 * s - 653) / (1250 * s - 930) := by
  rw [div_le_div_iff₀ (u0 (by linarith) (by linarith)) (u1 (by linarith) (by linarith))]
  nlinarith [mul_nonneg h0 h1, mul_nonneg h0 h0, mul_nonneg h1 h1]

theorem le21_3 {s : ℚ} (h0 : 0 ≤ s - 4359 / 5770) (h1 : 0 ≤ 241 / 319 - s) : (1151 - 1190 * s) / (300 * s - 40) ≤ (890 * s - 653) / (1250 * s - 930) := by
  rw [div_le_div_iff₀ (u2 (by linarith) (by linarith)) (u1 (by linarith) (by linarith))]
  nlinarith [mul_nonneg h0 h1, mul_nonneg h0 h0, mul_nonneg h1 h1]

theorem le02_4 {s : ℚ} (h0 : 0 ≤ s - 241 / 319) (h1 : 0 ≤ 443 / 586 - s) : (270 * s - 173) / (2000 * s - 1488) ≤ (1151 - 1190 * s) / (300 * s - 40) := by
  rw [div_le_div_iff₀ (u0 (by linarith) (by linarith)) (u2 (by linarith) (by linarith))]
  nlinarith [mul_nonneg h0 h1, mul_nonneg h0 h0, mul_nonneg h1 h1]

theorem le12_5 {s : ℚ} (h0 : 0 ≤ s - 241 / 319) (h1 : 0 ≤ 443 / 586 - s) : (890 * s - 653) / (1250 * s - 930) ≤ (1151 - 1190 * s) / (300 * s - 40) := by
  rw [div_le_div_iff₀ (u1 (by linarith) (by linarith)) (u2 (by linarith) (by linarith))]
  nlinarith [mul_nonneg h0 h1, mul_nonneg h0 h0, mul_nonneg h1 h1]

theorem cell1_0_0 {s t a b : ℚ} (h0 : 0 ≤ s - 37 / 49) (h1 : 0 ≤ 4359 / 5770 - s) (h2 : 0 ≤ t - (2)) (h3 : 0 ≤ 200 * s - 744 / 5 - t)
    (hH : HBCond 1 s t a b) (hV : LVCond (jutK 13) 2 s t a) : b * (2000 * s - 1488) ≤ (270 * s - 173) * t := by
  have hu : 0 ≤ 2000 * s - 1488 := by linarith only [h0, h1]
  have p00 := mul_nonneg h0 h0
  have p01 := mul_nonneg h0 h1
  have p02 := mul_nonneg h0 h2
  have p03 := mul_nonneg h0 h3
  have hV := (jut_iff 13 _ _ _ _).mp hV
  push_cast at hV
  rcases hV with g | g | g
  · have g := mul_nonneg g hu
    rcases (hbCond_iff _ _ _ _ _).mp hH with h | h | h | h | h | h | h | h | h
    · linear_combination 2 * mul_nonneg h hu + g + 156836 / 49 * h1 + 1513 / 49 * h2 + 16000 * p00 + 270 * p02
    · linear_combination 2 * mul_nonneg h hu + 2 * g + 150484 / 49 * h1 + 1513 / 49 * h2 + 24000 * p00 + 270 * p02
    · linear_combination 2 * mul_nonneg h hu + 5 / 4 * g + 109556464 / 28273 * h1 + 969 / 49 * h2 + 128000 * p01 + 730 * p03
    · linear_combination mul_nonneg h hu + 5 / 2 * g + 199484 / 49 * h1 + 1513 / 49 * h2 + 24000 * p00 + 270 * p02
    · linear_combination mul_nonneg h hu + 3 * g + 28044 / 7 * h1 + 1513 / 49 * h2 + 28000 * p00 + 270 * p02
    · linear_combination mul_nonneg h hu + 21 / 8 * g + 123357748 / 28273 * h1 + 1241 / 49 * h2 + 21000 * p01 + 230 * p03
    · linear_combination 8 / 5 * mul_nonneg h hu + 8 / 5 * g + 579130792 / 141365 * h1 + 5389 / 245 * h2 + 86800 * p01 + 530 * p03
    · linear_combination 8 / 5 * mul_nonneg h hu + 12 / 5 * g + 564147176 / 141365 * h1 + 5389 / 245 * h2 + 80400 * p01 + 530 * p03
    · linear_combination 8 / 5 * mul_nonneg h hu + 9 / 5 * g + 664937288 / 141365 * h1 + 459 / 35 * h2 + 245200 * p01 + 1330 * p03
  · have g := mul_nonneg g hu
    rcases (hbCond_iff _ _ _ _ _).mp hH with h | h | h | h | h | h | h | h | h
    · linear_combination 2 * mul_nonneg h hu + g + 1209710920 / 367549 * h1 + 425 / 49 * h2 + 4090000 / 13 * p01 + 1730 * p03
    · linear_combination 2 * mul_nonneg h hu + 2 * g + 2219994768 / 367549 * h1 + 663 / 49 * h3 + 8986000 / 13 * p01 + 3730 * p03
    · linear_combination 2 * mul_nonneg h hu + 5 / 4 * g + 2091247232 / 367549 * h1 + 391 / 49 * h3 + 7914000 / 13 * p01 + 3230 * p03
    · linear_combination mul_nonneg h hu + 5 / 2 * g + 3435826568 / 367549 * h1 + 1207 / 49 * h3 + 11486000 / 13 * p01 + 4730 * p03
    · linear_combination mul_nonneg h hu + 3 * g + 4259760992 / 367549 * h1 + 1751 / 49 * h3 + 13934000 / 13 * p01 + 5730 * p03
    · linear_combination mul_nonneg h hu + 21 / 8 * g + 599341032 / 52507 * h1 + 1615 / 49 * h3 + 13398000 / 13 * p01 + 5480 * p03
    · linear_combination 8 / 5 * mul_nonneg h hu + 8 / 5 * g + 13016647296 / 1837745 * h1 + 663 / 49 * h3 + 9128400 / 13 * p01 + 3730 * p03
    · linear_combination 8 / 5 * mul_nonneg h hu + 12 / 5 * g + 2801160384 / 262535 * h1 + 7667 / 245 * h3 + 13045200 / 13 * p01 + 5330 * p03
    · linear_combination 8 / 5 * mul_nonneg h hu + 9 / 5 * g + 19093132544 / 1837745 * h1 + 6579 / 245 * h3 + 12187600 / 13 * p01 + 4930 * p03
  · have g := mul_nonneg g hu
    rcases (hbCond_iff _ _ _ _ _).mp hH with h | h | h | h | h | h | h | h | h
    · linear_combination 2 * mul_nonneg h hu + g + 50432 / 49 * h0 + 425 / 49 * h2 + 78000 * p00 + 1730 * p03
    · linear_combination 2 * mul_nonneg h hu + 2 * g + 128536 / 49 * h0 + 663 / 49 * h3 + 94000 * p00 + 3730 * p03
    · linear_combination 2 * mul_nonneg h hu + 5 / 4 * g + 7187984 / 28273 * h1 + 391 / 49 * h3 + 118000 * p01 + 3230 * p03
    · linear_combination mul_nonneg h hu + 5 / 2 * g + 1488 * h0 + 1207 / 49 * h3 + 98000 * p00 + 4730 * p03
    · linear_combination mul_nonneg h hu + 3 * g + 69464 / 49 * h0 + 1751 / 49 * h3 + 106000 * p00 + 5730 * p03
    · linear_combination mul_nonneg h hu + 21 / 8 * g + 1615 / 49 * h3 + 5480 * p03
    · linear_combination 8 / 5 * mul_nonneg h hu + 8 / 5 * g + 3549312 / 28273 * h1 + 663 / 49 * h3 + 74000 * p01 + 3730 * p03
    · linear_combination 8 / 5 * mul_nonneg h hu + 12 / 5 * g + 33016128 / 141365 * h1 + 7667 / 245 * h3 + 61200 * p01 + 5330 * p03
    · linear_combination 8 / 5 * mul_nonneg h hu + 9 / 5 * g + 627776 / 245 * h1 + 6579 / 245 * h3 + 230800 * p01 + 4930 * p03

theorem cell1_0_1 {s t a b : ℚ} (h0 : 0 ≤ s - 37 / 49) (h1 : 0 ≤ 4359 / 5770 - s) (h2 : 0 ≤ t - (200 * s - 744 / 5)) (h3 : 0 ≤ 12 / 5 - t)
    (hH : HBCond 1 s t a b) (hV : LVCond gm 2 s t a) : b * (2000 * s - 1488) ≤ (270 * s - 173) * t := by
  have hu : 0 ≤ 2000 * s - 1488 := by linarith only [h0, h1]
  have p00 := mul_nonneg h0 h0
  have p01 := mul_nonneg h0 h1
  have p02 := mul_nonneg h0 h2
  have p03 := mul_nonneg h0 h3
  have p12 := mul_nonneg h1 h2
  have hV := (gm_iff _ _ _ _).mp hV
  rcases hV with g | g | g
  · have g := mul_nonneg g hu
    rcases (hbCond_iff _ _ _ _ _).mp hH with h | h | h | h | h | h | h | h | h
    · linear_combination 2 * mul_nonneg h hu + g + 21240 / 7 * h0 + 1513 / 49 * h2 + 70000 * p00 + 270 * p02
    · linear_combination 2 * mul_nonneg h hu + 2 * g + 155032 / 49 * h0 + 1513 / 49 * h2 + 78000 * p00 + 270 * p02
    · linear_combination 2 * mul_nonneg h hu + 5 / 4 * g + 256 / 49 * h1 + 969 / 49 * h2 + 18000 * p00 + 730 * p03
    · linear_combination mul_nonneg h hu + 5 / 2 * g + 106032 / 49 * h0 + 1513 / 49 * h2 + 78000 * p00 + 270 * p02
    · linear_combination mul_nonneg h hu + 3 * g + 109208 / 49 * h0 + 1513 / 49 * h2 + 82000 * p00 + 270 * p02
    · linear_combination mul_nonneg h hu + 21 / 8 * g + 32752 / 49 * h0 + 1241 / 49 * h2 + 25000 * p00 + 230 * p03
    · linear_combination 8 / 5 * mul_nonneg h hu + 8 / 5 * g + 58384 / 245 * h0 + 5389 / 245 * h2 + 19200 * p00 + 530 * p03
    · linear_combination 8 / 5 * mul_nonneg h hu + 12 / 5 * g + 83792 / 245 * h0 + 5389 / 245 * h2 + 25600 * p00 + 530 * p03
    · linear_combination 8 / 5 * mul_nonneg h hu + 9 / 5 * g + 546864 / 245 * h1 + 459 / 35 * h2 + 20800 * p00 + 1330 * p03
  · have g := mul_nonneg g hu
    rcases (hbCond_iff _ _ _ _ _).mp hH with h | h | h | h | h | h | h | h | h
    · linear_combination 2 * mul_nonneg h hu + g + 135432 / 49 * h0 + 1513 / 49 * h2 + 78000 * p00 + 270 * p02
    · linear_combination 2 * mul_nonneg h hu + 2 * g + 128536 / 49 * h0 + 1513 / 49 * h2 + 94000 * p00 + 270 * p02
    · linear_combination 2 * mul_nonneg h hu + 5 / 4 * g + 16816 / 49 * h1 + 969 / 49 * h2 + 28000 * p00 + 730 * p03
    · linear_combination mul_nonneg h hu + 5 / 2 * g + 1488 * h0 + 1513 / 49 * h2 + 98000 * p00 + 270 * p02
    · linear_combination mul_nonneg h hu + 3 * g + 69464 / 49 * h0 + 1513 / 49 * h2 + 106000 * p00 + 270 * p02
    · linear_combination mul_nonneg h hu + 21 / 8 * g + 14566 / 577 * h2 + 230 * p12
    · linear_combination 8 / 5 * mul_nonneg h hu + 8 / 5 * g + 1360 / 7 * h1 + 5389 / 245 * h2 + 32000 * p00 + 530 * p03
    · linear_combination 8 / 5 * mul_nonneg h hu + 12 / 5 * g + 75184 / 245 * h1 + 5389 / 245 * h2 + 44800 * p00 + 530 * p03
    · linear_combination 8 / 5 * mul_nonneg h hu + 9 / 5 * g + 627776 / 245 * h1 + 36464 / 2885 * h2 + 230800 * p01 + 1330 * p12
  · have g := mul_nonneg g hu
    rcases (hbCond_iff _ _ _ _ _).mp hH with h | h | h | h | h | h | h | h | h
    · linear_combination 2 * mul_nonneg h hu + g + 79792 / 49 * h1 + 425 / 49 * h2 + 24000 * p00 + 1730 * p03
    · linear_combination 2 * mul_nonneg h hu + 2 * g + 171688 / 49 * h1 + 663 / 49 * h3 + 40000 * p00 + 3730 * p03
    · linear_combination 2 * mul_nonneg h hu + 5 / 4 * g + 30088 / 7 * h1 + 391 / 49 * h3 + 28000 * p00 + 3230 * p03
    · linear_combination mul_nonneg h hu + 5 / 2 * g + 227312 / 49 * h1 + 1207 / 49 * h3 + 44000 * p00 + 4730 * p03
    · linear_combination mul_nonneg h hu + 3 * g + 230760 / 49 * h1 + 1751 / 49 * h3 + 52000 * p00 + 5730 * p03
    · linear_combination mul_nonneg h hu + 21 / 8 * g + 250224 / 49 * h1 + 1615 / 49 * h3 + 46000 * p00 + 5480 * p03
    · linear_combination 8 / 5 * mul_nonneg h hu + 8 / 5 * g + 225080 / 49 * h1 + 663 / 49 * h3 + 32000 * p00 + 3730 * p03
    · linear_combination 8 / 5 * mul_nonneg h hu + 12 / 5 * g + 164712 / 35 * h1 + 7667 / 245 * h3 + 44800 * p00 + 5330 * p03
    · linear_combination 8 / 5 * mul_nonneg h hu + 9 / 5 * g + 1308696 / 245 * h1 + 6579 / 245 * h3 + 35200 * p00 + 4930 * p03

theorem cell1_0_2 {s t a b : ℚ} (h0 : 0 ≤ s - 37 / 49) (h1 : 0 ≤ 4359 / 5770 - s) (h2 : 0 ≤ t - (12 / 5)) (h3 : 0 ≤ 19 / 7 - t)
    (hH : HBCond 2 s t a b) (hV : LVCond gm 2 s t a) : b * (2000 * s - 1488) ≤ (270 * s - 173) * t := by
  have hu : 0 ≤ 2000 * s - 1488 := by linarith only [h0, h1]
  have p00 := mul_nonneg h0 h0
  have p02 := mul_nonneg h0 h2
  have p03 := mul_nonneg h0 h3
  have hV := (gm_iff _ _ _ _).mp hV
  rcases hV with g | g | g
  · have g := mul_nonneg g hu
    rcases (hbCond_iff _ _ _ _ _).mp hH with h | h | h | h | h | h | h | h | h
    · linear_combination 2 * mul_nonneg h hu + g + 243192 / 49 * h1 + 1513 / 49 * h2 + 24000 * p00 + 270 * p02
    · linear_combination 2 * mul_nonneg h hu + 2 * g + 138840 / 49 * h1 + 1513 / 49 * h2 + 32000 * p00 + 270 * p02
    · linear_combination 2 * mul_nonneg h hu + 5 / 4 * g + 198946 / 49 * h1 + 969 / 49 * h2 + 26000 * p00 + 730 * p03
    · linear_combination mul_nonneg h hu + 5 / 2 * g + 27288 / 7 * h1 + 1513 / 49 * h2 + 28000 * p00 + 270 * p02
    · linear_combination mul_nonneg h hu + 3 * g + 138840 / 49 * h1 + 1513 / 49 * h2 + 32000 * p00 + 270 * p02
    · linear_combination mul_nonneg h hu + 21 / 8 * g + 166814 / 49 * h1 + 1241 / 49 * h2 + 29000 * p00 + 230 * p03
    · linear_combination 8 / 5 * mul_nonneg h hu + 8 / 5 * g + 1034818 / 245 * h1 + 5389 / 245 * h2 + 25600 * p00 + 530 * p03
    · linear_combination 8 / 5 * mul_nonneg h hu + 12 / 5 * g + 123482 / 49 * h1 + 5389 / 245 * h2 + 32000 * p00 + 530 * p03
    · linear_combination 8 / 5 * mul_nonneg h hu + 9 / 5 * g + 874466 / 245 * h1 + 459 / 35 * h2 + 27200 * p00 + 1330 * p03
  · have g := mul_nonneg g hu
    rcases (hbCond_iff _ _ _ _ _).mp hH with h | h | h | h | h | h | h | h | h
    · linear_combination 2 * mul_nonneg h hu + g + 256440 / 49 * h1 + 1513 / 49 * h2 + 32000 * p00 + 270 * p02
    · linear_combination 2 * mul_nonneg h hu + 2 * g + 165336 / 49 * h1 + 1513 / 49 * h2 + 48000 * p00 + 270 * p02
    · linear_combination 2 * mul_nonneg h hu + 5 / 4 * g + 215506 / 49 * h1 + 969 / 49 * h2 + 36000 * p00 + 730 * p03
    · linear_combination mul_nonneg h hu + 5 / 2 * g + 224136 / 49 * h1 + 1513 / 49 * h2 + 48000 * p00 + 270 * p02
    · linear_combination mul_nonneg h hu + 3 * g + 25512 / 7 * h1 + 1513 / 49 * h2 + 56000 * p00 + 270 * p02
    · linear_combination mul_nonneg h hu + 21 / 8 * g + 201590 / 49 * h1 + 1241 / 49 * h2 + 50000 * p00 + 230 * p03
    · linear_combination 8 / 5 * mul_nonneg h hu + 8 / 5 * g + 1140802 / 245 * h1 + 5389 / 245 * h2 + 38400 * p00 + 530 * p03
    · linear_combination 8 / 5 * mul_nonneg h hu + 12 / 5 * g + 776386 / 245 * h1 + 5389 / 245 * h2 + 51200 * p00 + 530 * p03
    · linear_combination 8 / 5 * mul_nonneg h hu + 9 / 5 * g + 993698 / 245 * h1 + 459 / 35 * h2 + 41600 * p00 + 1330 * p03
  · have g := mul_nonneg g hu
    rcases (hbCond_iff _ _ _ _ _).mp hH with h | h | h | h | h | h | h | h | h
    · linear_combination 2 * mul_nonneg h hu + g + 283082 / 49 * h1 + 425 / 49 * h2 + 32000 * p00 + 1730 * p03
    · linear_combination 2 * mul_nonneg h hu + 2 * g + 222778 / 49 * h1 + 663 / 49 * h3 + 48000 * p00 + 3730 * p03
    · linear_combination 2 * mul_nonneg h hu + 5 / 4 * g + 254006 / 49 * h1 + 391 / 49 * h3 + 36000 * p00 + 3230 * p03
    · linear_combination mul_nonneg h hu + 5 / 2 * g + 296978 / 49 * h1 + 1207 / 49 * h3 + 48000 * p00 + 4730 * p03
    · linear_combination mul_nonneg h hu + 3 * g + 38118 / 7 * h1 + 1751 / 49 * h3 + 56000 * p00 + 5730 * p03
    · linear_combination mul_nonneg h hu + 21 / 8 * g + 282440 / 49 * h1 + 1615 / 49 * h3 + 50000 * p00 + 5480 * p03
    · linear_combination 8 / 5 * mul_nonneg h hu + 8 / 5 * g + 1387202 / 245 * h1 + 663 / 49 * h3 + 38400 * p00 + 3730 * p03
    · linear_combination 8 / 5 * mul_nonneg h hu + 12 / 5 * g + 1145986 / 245 * h1 + 7667 / 245 * h3 + 51200 * p00 + 5330 * p03
    · linear_combination 8 / 5 * mul_nonneg h hu + 9 / 5 * g + 1270898 / 245 * h1 + 6579 / 245 * h3 + 41600 * p00 + 4930 * p03

theorem cell1_0_3 {s t a b : ℚ} (h0 : 0 ≤ s - 37 / 49) (h1 : 0 ≤ 4359 / 5770 - s) (h2 : 0 ≤ t - (19 / 7)) (h3 : 0 ≤ 52 / 15 - t)
    (hH : HBCond 2 s t a b) (hV : LVCond (jutK 13) 3 s t a) : b * (2000 * s - 1488) ≤ (270 * s - 173) * t := by
  have hu : 0 ≤ 2000 * s - 1488 := by linarith only [h0, h1]
  have p00 := mul_nonneg h0 h0
  have p02 := mul_nonneg h0 h2
  have p03 := mul_nonneg h0 h3
  have hV := (jut_iff 13 _ _ _ _).mp hV
  push_cast at hV
  rcases hV with g | g | g
  · have g := mul_nonneg g hu
    rcases (hbCond_iff _ _ _ _ _).mp hH with h | h | h | h | h | h | h | h | h
    · linear_combination 2 * mul_nonneg h hu + g + 40694 / 7 * h1 + 1513 / 49 * h2 + 28000 * p00 + 270 * p02
    · linear_combination 2 * mul_nonneg h hu + 2 * g + 226330 / 49 * h1 + 1513 / 49 * h2 + 40000 * p00 + 270 * p02
    · linear_combination 2 * mul_nonneg h hu + 5 / 4 * g + 849416 / 147 * h1 + 969 / 49 * h2 + 31000 * p00 + 730 * p03
    · linear_combination mul_nonneg h hu + 5 / 2 * g + 301418 / 49 * h1 + 1513 / 49 * h2 + 38000 * p00 + 270 * p02
    · linear_combination mul_nonneg h hu + 3 * g + 272154 / 49 * h1 + 1513 / 49 * h2 + 44000 * p00 + 270 * p02
    · linear_combination mul_nonneg h hu + 21 / 8 * g + 886744 / 147 * h1 + 1241 / 49 * h2 + 39500 * p00 + 230 * p03
    · linear_combination 8 / 5 * mul_nonneg h hu + 8 / 5 * g + 899464 / 147 * h1 + 5389 / 245 * h2 + 32000 * p00 + 530 * p03
    · linear_combination 8 / 5 * mul_nonneg h hu + 12 / 5 * g + 3794984 / 735 * h1 + 5389 / 245 * h2 + 41600 * p00 + 530 * p03
    · linear_combination 8 / 5 * mul_nonneg h hu + 9 / 5 * g + 4596136 / 735 * h1 + 459 / 35 * h2 + 34400 * p00 + 1330 * p03
  · have g := mul_nonneg g hu
    rcases (hbCond_iff _ _ _ _ _).mp hH with h | h | h | h | h | h | h | h | h
    · linear_combination 2 * mul_nonneg h hu + g + 11349256 / 1911 * h1 + 425 / 49 * h2 + 664000 / 13 * p00 + 1730 * p03
    · linear_combination 2 * mul_nonneg h hu + 2 * g + 1384952 / 273 * h1 + 663 / 49 * h3 + 1120000 / 13 * p00 + 3730 * p03
    · linear_combination 2 * mul_nonneg h hu + 5 / 4 * g + 11827408 / 1911 * h1 + 391 / 49 * h3 + 778000 / 13 * p00 + 3230 * p03
    · linear_combination mul_nonneg h hu + 5 / 2 * g + 12937096 / 1911 * h1 + 1207 / 49 * h3 + 1244000 / 13 * p00 + 4730 * p03
    · linear_combination mul_nonneg h hu + 3 * g + 4036600 / 637 * h1 + 1751 / 49 * h3 + 1472000 / 13 * p00 + 5730 * p03
    · linear_combination mul_nonneg h hu + 21 / 8 * g + 13176172 / 1911 * h1 + 1615 / 49 * h3 + 1301000 / 13 * p00 + 5480 * p03
    · linear_combination 8 / 5 * mul_nonneg h hu + 8 / 5 * g + 1813976 / 273 * h1 + 663 / 49 * h3 + 896000 / 13 * p00 + 3730 * p03
    · linear_combination 8 / 5 * mul_nonneg h hu + 12 / 5 * g + 56870792 / 9555 * h1 + 7667 / 245 * h3 + 1260800 / 13 * p00 + 5330 * p03
    · linear_combination 8 / 5 * mul_nonneg h hu + 9 / 5 * g + 65401768 / 9555 * h1 + 6579 / 245 * h3 + 987200 / 13 * p00 + 4930 * p03
  · have g := mul_nonneg g hu
    rcases (hbCond_iff _ _ _ _ _).mp hH with h | h | h | h | h | h | h | h | h
    · linear_combination 2 * mul_nonneg h hu + g + 54872 / 147 * h0 + 425 / 49 * h2 + 640000 * p00 + 1730 * p03
    · linear_combination 2 * mul_nonneg h hu + 2 * g + 1110040 / 147 * h0 + 663 / 49 * h3 + 1264000 * p00 + 3730 * p03
    · linear_combination 2 * mul_nonneg h hu + 5 / 4 * g + 250064 / 147 * h0 + 391 / 49 * h3 + 796000 * p00 + 3230 * p03
    · linear_combination mul_nonneg h hu + 5 / 2 * g + 27032 / 3 * h0 + 1207 / 49 * h3 + 1568000 * p00 + 4730 * p03
    · linear_combination mul_nonneg h hu + 3 * g + 617384 / 49 * h0 + 1751 / 49 * h3 + 1880000 * p00 + 5730 * p03
    · linear_combination mul_nonneg h hu + 21 / 8 * g + 1422164 / 147 * h0 + 1615 / 49 * h3 + 1646000 * p00 + 5480 * p03
    · linear_combination 8 / 5 * mul_nonneg h hu + 8 / 5 * g + 2539352 / 735 * h0 + 663 / 49 * h3 + 1011200 * p00 + 3730 * p03
    · linear_combination 8 / 5 * mul_nonneg h hu + 12 / 5 * g + 6760024 / 735 * h0 + 7667 / 245 * h3 + 1510400 * p00 + 5330 * p03
    · linear_combination 8 / 5 * mul_nonneg h hu + 9 / 5 * g + 664024 / 147 * h0 + 6579 / 245 * h3 + 1136000 * p00 + 4930 * p03

theorem cell1_0_4 {s t a b : ℚ} (h0 : 0 ≤ s - 37 / 49) (h1 : 0 ≤ 4359 / 5770 - s) (h2 : 0 ≤ t - (52 / 15)) (h3 : 0 ≤ 4 - t)
    (hH : HBCond 3 s t a b) (hV : LVCond gm 3 s t a) : b * (2000 * s - 1488) ≤ (270 * s - 173) * t := by
  have hu : 0 ≤ 2000 * s - 1488 := by linarith only [h0, h1]
  have p00 := mul_nonneg h0 h0
  have p02 := mul_nonneg h0 h2
  have p03 := mul_nonneg h0 h3
  have hV := (gm_iff _ _ _ _).mp hV
  rcases hV with g | g | g
  · have g := mul_nonneg g hu
    rcases (hbCond_iff _ _ _ _ _).mp hH with h | h | h | h | h | h | h | h | h
    · linear_combination 2 * mul_nonneg h hu + g + 366552 / 49 * h1 + 1513 / 49 * h2 + 36000 * p00 + 270 * p02
    · linear_combination 2 * mul_nonneg h hu + 2 * g + 210024 / 49 * h1 + 1513 / 49 * h2 + 48000 * p00 + 270 * p02
    · linear_combination 2 * mul_nonneg h hu + 5 / 4 * g + 295864 / 49 * h1 + 969 / 49 * h2 + 39000 * p00 + 730 * p03
    · linear_combination mul_nonneg h hu + 5 / 2 * g + 41184 / 7 * h1 + 1513 / 49 * h2 + 42000 * p00 + 270 * p02
    · linear_combination mul_nonneg h hu + 3 * g + 210024 / 49 * h1 + 1513 / 49 * h2 + 48000 * p00 + 270 * p02
    · linear_combination mul_nonneg h hu + 21 / 8 * g + 249416 / 49 * h1 + 1241 / 49 * h2 + 43500 * p00 + 230 * p03
    · linear_combination 8 / 5 * mul_nonneg h hu + 8 / 5 * g + 1542952 / 245 * h1 + 5389 / 245 * h2 + 38400 * p00 + 530 * p03
    · linear_combination 8 / 5 * mul_nonneg h hu + 12 / 5 * g + 183368 / 49 * h1 + 5389 / 245 * h2 + 48000 * p00 + 530 * p03
    · linear_combination 8 / 5 * mul_nonneg h hu + 9 / 5 * g + 1288424 / 245 * h1 + 459 / 35 * h2 + 40800 * p00 + 1330 * p03
  · have g := mul_nonneg g hu
    rcases (hbCond_iff _ _ _ _ _).mp hH with h | h | h | h | h | h | h | h | h
    · linear_combination 2 * mul_nonneg h hu + g + 386424 / 49 * h1 + 1513 / 49 * h2 + 48000 * p00 + 270 * p02
    · linear_combination 2 * mul_nonneg h hu + 2 * g + 249768 / 49 * h1 + 1513 / 49 * h2 + 72000 * p00 + 270 * p02
    · linear_combination 2 * mul_nonneg h hu + 5 / 4 * g + 320704 / 49 * h1 + 969 / 49 * h2 + 54000 * p00 + 730 * p03
    · linear_combination mul_nonneg h hu + 5 / 2 * g + 337968 / 49 * h1 + 1513 / 49 * h2 + 72000 * p00 + 270 * p02
    · linear_combination mul_nonneg h hu + 3 * g + 38520 / 7 * h1 + 1513 / 49 * h2 + 84000 * p00 + 270 * p02
    · linear_combination mul_nonneg h hu + 21 / 8 * g + 301580 / 49 * h1 + 1241 / 49 * h2 + 75000 * p00 + 230 * p03
    · linear_combination 8 / 5 * mul_nonneg h hu + 8 / 5 * g + 1701928 / 245 * h1 + 5389 / 245 * h2 + 57600 * p00 + 530 * p03
    · linear_combination 8 / 5 * mul_nonneg h hu + 12 / 5 * g + 1155304 / 245 * h1 + 5389 / 245 * h2 + 76800 * p00 + 530 * p03
    · linear_combination 8 / 5 * mul_nonneg h hu + 9 / 5 * g + 1467272 / 245 * h1 + 459 / 35 * h2 + 62400 * p00 + 1330 * p03
  · have g := mul_nonneg g hu
    rcases (hbCond_iff _ _ _ _ _).mp hH with h | h | h | h | h | h | h | h | h
    · linear_combination 2 * mul_nonneg h hu + g + 418568 / 49 * h1 + 425 / 49 * h2 + 48000 * p00 + 1730 * p03
    · linear_combination 2 * mul_nonneg h hu + 2 * g + 321112 / 49 * h1 + 663 / 49 * h3 + 72000 * p00 + 3730 * p03
    · linear_combination 2 * mul_nonneg h hu + 5 / 4 * g + 369704 / 49 * h1 + 391 / 49 * h3 + 54000 * p00 + 3230 * p03
    · linear_combination mul_nonneg h hu + 5 / 2 * g + 428912 / 49 * h1 + 1207 / 49 * h3 + 72000 * p00 + 4730 * p03
    · linear_combination mul_nonneg h hu + 3 * g + 54312 / 7 * h1 + 1751 / 49 * h3 + 84000 * p00 + 5730 * p03
    · linear_combination mul_nonneg h hu + 21 / 8 * g + 404480 / 49 * h1 + 1615 / 49 * h3 + 75000 * p00 + 5480 * p03
    · linear_combination 8 / 5 * mul_nonneg h hu + 8 / 5 * g + 2015528 / 245 * h1 + 663 / 49 * h3 + 57600 * p00 + 3730 * p03
    · linear_combination 8 / 5 * mul_nonneg h hu + 12 / 5 * g + 1625704 / 245 * h1 + 7667 / 245 * h3 + 76800 * p00 + 5330 * p03
    · linear_combination 8 / 5 * mul_nonneg h hu + 9 / 5 * g + 1820072 / 245 * h1 + 6579 / 245 * h3 + 62400 * p00 + 4930 * p03

theorem cell1_1_0 {s t a b : ℚ} (h0 : 0 ≤ s - 4359 / 5770) (h1 : 0 ≤ 241 / 319 - s) (h2 : 0 ≤ t - (2)) (h3 : 0 ≤ 200 * s - 744 / 5 - t)
    (hH : HBCond 1 s t a b) (hV : LVCond (jutK 13) 2 s t a) : b * (1250 * s - 930) ≤ (890 * s - 653) * t := by
  have hu : 0 ≤ 1250 * s - 930 := by linarith only [h0, h1]
  have p00 := mul_nonneg h0 h0
  have p01 := mul_nonneg h0 h1
  have p02 := mul_nonneg h0 h2
  have p03 := mul_nonneg h0 h3
  have hV := (jut_iff 13 _ _ _ _).mp hV
  push_cast at hV
  rcases hV with g | g | g
  · have g := mul_nonneg g hu
    rcases (hbCond_iff _ _ _ _ _).mp hH with h | h | h | h | h | h | h | h | h
    · linear_combination 2 * mul_nonneg h hu + g + 317820 / 577 * h1 + 11170 / 577 * h2 + 10000 * p00 + 890 * p02
    · linear_combination 2 * mul_nonneg h hu + 2 * g + 269010 / 577 * h1 + 11170 / 577 * h2 + 15000 * p00 + 890 * p02
    · linear_combination 2 * mul_nonneg h hu + 5 / 4 * g + 485930 / 577 * h1 + 14075 / 1154 * h2 + 11250 * p00 + 265 * p02
    · linear_combination mul_nonneg h hu + 5 / 2 * g + 629635 / 577 * h1 + 11170 / 577 * h2 + 15000 * p00 + 890 * p02
    · linear_combination mul_nonneg h hu + 3 * g + 605230 / 577 * h1 + 11170 / 577 * h2 + 17500 * p00 + 890 * p02
    · linear_combination mul_nonneg h hu + 21 / 8 * g + 713690 / 577 * h1 + 36415 / 2308 * h2 + 15625 * p00 + 1155 / 2 * p02
    · linear_combination 8 / 5 * mul_nonneg h hu + 8 / 5 * g + 586796 / 577 * h1 + 7864 / 577 * h2 + 12000 * p00 + 390 * p02
    · linear_combination 8 / 5 * mul_nonneg h hu + 12 / 5 * g + 547748 / 577 * h1 + 7864 / 577 * h2 + 16000 * p00 + 390 * p02
    · linear_combination 8 / 5 * mul_nonneg h hu + 9 / 5 * g + 236042852 / 184063 * h1 + 4558 / 577 * h2 + 9000 * p01 + 110 * p03
  · have g := mul_nonneg g hu
    rcases (hbCond_iff _ _ _ _ _).mp hH with h | h | h | h | h | h | h | h | h
    · linear_combination 2 * mul_nonneg h hu + g + 953405668 / 2392819 * h1 + 2905 / 577 * h2 + 681000 / 13 * p01 + 360 * p03
    · linear_combination 2 * mul_nonneg h hu + 2 * g + 188454262 / 82511 * h1 + 5360 / 577 * h3 + 3741000 / 13 * p01 + 1610 * p03
    · linear_combination 2 * mul_nonneg h hu + 5 / 4 * g + 4893978088 / 2392819 * h1 + 13175 / 2308 * h3 + 3071000 / 13 * p01 + 2595 / 2 * p03
    · linear_combination mul_nonneg h hu + 5 / 2 * g + 10522639723 / 2392819 * h1 + 18985 / 1154 * h3 + 5303500 / 13 * p01 + 2235 * p03
    · linear_combination mul_nonneg h hu + 3 * g + 13983227188 / 2392819 * h1 + 13625 / 577 * h3 + 6833500 / 13 * p01 + 2860 * p03
    · linear_combination mul_nonneg h hu + 21 / 8 * g + 13697629433 / 2392819 * h1 + 100735 / 4616 * h3 + 6498500 / 13 * p01 + 10815 / 4 * p03
    · linear_combination 8 / 5 * mul_nonneg h hu + 8 / 5 * g + 7031203640 / 2392819 * h1 + 5360 / 577 * h3 + 3830000 / 13 * p01 + 1610 * p03
    · linear_combination 8 / 5 * mul_nonneg h hu + 12 / 5 * g + 12568143584 / 2392819 * h1 + 11972 / 577 * h3 + 6278000 / 13 * p01 + 2610 * p03
    · linear_combination 8 / 5 * mul_nonneg h hu + 9 / 5 * g + 37966104 / 7501 * h1 + 10319 / 577 * h3 + 5742000 / 13 * p01 + 2360 * p03
  · have g := mul_nonneg g hu
    rcases (hbCond_iff _ _ _ _ _).mp hH with h | h | h | h | h | h | h | h | h
    · linear_combination 2 * mul_nonneg h hu + g + 1389616 / 577 * h0 + 2905 / 577 * h2 + 193000 * p00 + 360 * p03
    · linear_combination 2 * mul_nonneg h hu + 2 * g + 1923986 / 577 * h0 + 5360 / 577 * h3 + 203000 * p00 + 1610 * p03
    · linear_combination 2 * mul_nonneg h hu + 5 / 4 * g + 846896 / 577 * h0 + 13175 / 2308 * h3 + 70500 * p00 + 2595 / 2 * p03
    · linear_combination mul_nonneg h hu + 5 / 2 * g + 1515641 / 577 * h0 + 18985 / 1154 * h3 + 205500 * p00 + 2235 * p03
    · linear_combination mul_nonneg h hu + 3 * g + 1492326 / 577 * h0 + 13625 / 577 * h3 + 210500 * p00 + 2860 * p03
    · linear_combination mul_nonneg h hu + 21 / 8 * g + 1653 * h0 + 100735 / 4616 * h3 + 144250 * p00 + 10815 / 4 * p03
    · linear_combination 8 / 5 * mul_nonneg h hu + 8 / 5 * g + 898976 / 577 * h0 + 5360 / 577 * h3 + 98000 * p00 + 1610 * p03
    · linear_combination 8 / 5 * mul_nonneg h hu + 12 / 5 * g + 861672 / 577 * h0 + 11972 / 577 * h3 + 106000 * p00 + 2610 * p03
    · linear_combination 8 / 5 * mul_nonneg h hu + 9 / 5 * g + 10319 / 577 * h3 + 2360 * p03

theorem cell1_1_1 {s t a b : ℚ} (h0 : 0 ≤ s - 4359 / 5770) (h1 : 0 ≤ 241 / 319 - s) (h2 : 0 ≤ t - (200 * s - 744 / 5)) (h3 : 0 ≤ 12 / 5 - t)
    (hH : HBCond 1 s t a b) (hV : LVCond gm 2 s t a) : b * (1250 * s - 930) ≤ (890 * s - 653) * t := by
  have hu : 0 ≤ 1250 * s - 930 := by linarith only [h0, h1]
  have p00 := mul_nonneg h0 h0
  have p02 := mul_nonneg h0 h2
  have p03 := mul_nonneg h0 h3
  have p12 := mul_nonneg h1 h2
  have hV := (gm_iff _ _ _ _).mp hV
  rcases hV with g | g | g
  · have g := mul_nonneg g hu
    rcases (hbCond_iff _ _ _ _ _).mp hH with h | h | h | h | h | h | h | h | h
    · linear_combination 2 * mul_nonneg h hu + g + 2066056 / 577 * h0 + 11170 / 577 * h2 + 188000 * p00 + 890 * p02
    · linear_combination 2 * mul_nonneg h hu + 2 * g + 2114866 / 577 * h0 + 11170 / 577 * h2 + 193000 * p00 + 890 * p02
    · linear_combination 2 * mul_nonneg h hu + 5 / 4 * g + 966196 / 577 * h0 + 14075 / 1154 * h2 + 64250 * p00 + 265 * p02
    · linear_combination mul_nonneg h hu + 5 / 2 * g + 1754241 / 577 * h0 + 11170 / 577 * h2 + 193000 * p00 + 890 * p02
    · linear_combination mul_nonneg h hu + 3 * g + 1778646 / 577 * h0 + 11170 / 577 * h2 + 195500 * p00 + 890 * p02
    · linear_combination mul_nonneg h hu + 21 / 8 * g + 1204311 / 577 * h0 + 36415 / 2308 * h2 + 131125 * p00 + 1155 / 2 * p02
    · linear_combination 8 / 5 * mul_nonneg h hu + 8 / 5 * g + 1051680 / 577 * h0 + 7864 / 577 * h2 + 90000 * p00 + 390 * p02
    · linear_combination 8 / 5 * mul_nonneg h hu + 12 / 5 * g + 1090728 / 577 * h0 + 7864 / 577 * h2 + 94000 * p00 + 390 * p02
    · linear_combination 8 / 5 * mul_nonneg h hu + 9 / 5 * g + 164928 / 577 * h0 + 4558 / 577 * h2 + 13000 * p00 + 110 * p03
  · have g := mul_nonneg g hu
    rcases (hbCond_iff _ _ _ _ _).mp hH with h | h | h | h | h | h | h | h | h
    · linear_combination 2 * mul_nonneg h hu + g + 1970616 / 577 * h0 + 11170 / 577 * h2 + 193000 * p00 + 890 * p02
    · linear_combination 2 * mul_nonneg h hu + 2 * g + 1923986 / 577 * h0 + 11170 / 577 * h2 + 203000 * p00 + 890 * p02
    · linear_combination 2 * mul_nonneg h hu + 5 / 4 * g + 846896 / 577 * h0 + 14075 / 1154 * h2 + 70500 * p00 + 265 * p02
    · linear_combination mul_nonneg h hu + 5 / 2 * g + 1515641 / 577 * h0 + 11170 / 577 * h2 + 205500 * p00 + 890 * p02
    · linear_combination mul_nonneg h hu + 3 * g + 1492326 / 577 * h0 + 11170 / 577 * h2 + 210500 * p00 + 890 * p02
    · linear_combination mul_nonneg h hu + 21 / 8 * g + 1653 * h0 + 36415 / 2308 * h2 + 144250 * p00 + 1155 / 2 * p02
    · linear_combination 8 / 5 * mul_nonneg h hu + 8 / 5 * g + 898976 / 577 * h0 + 7864 / 577 * h2 + 98000 * p00 + 390 * p02
    · linear_combination 8 / 5 * mul_nonneg h hu + 12 / 5 * g + 861672 / 577 * h0 + 7864 / 577 * h2 + 106000 * p00 + 390 * p02
    · linear_combination 8 / 5 * mul_nonneg h hu + 9 / 5 * g + 229 / 29 * h2 + 110 * p12
  · have g := mul_nonneg g hu
    rcases (hbCond_iff _ _ _ _ _).mp hH with h | h | h | h | h | h | h | h | h
    · linear_combination 2 * mul_nonneg h hu + g + 373152 / 577 * h0 + 2905 / 577 * h2 + 15000 * p00 + 360 * p03
    · linear_combination 2 * mul_nonneg h hu + 2 * g + 254478 / 577 * h1 + 5360 / 577 * h3 + 25000 * p00 + 1610 * p03
    · linear_combination 2 * mul_nonneg h hu + 5 / 4 * g + 544068 / 577 * h1 + 13175 / 2308 * h3 + 17500 * p00 + 2595 / 2 * p03
    · linear_combination mul_nonneg h hu + 5 / 2 * g + 662823 / 577 * h1 + 18985 / 1154 * h3 + 27500 * p00 + 2235 * p03
    · linear_combination mul_nonneg h hu + 3 * g + 686138 / 577 * h1 + 13625 / 577 * h3 + 32500 * p00 + 2860 * p03
    · linear_combination mul_nonneg h hu + 21 / 8 * g + 830933 / 577 * h1 + 100735 / 4616 * h3 + 28750 * p00 + 10815 / 4 * p03
    · linear_combination 8 / 5 * mul_nonneg h hu + 8 / 5 * g + 649488 / 577 * h1 + 5360 / 577 * h3 + 20000 * p00 + 1610 * p03
    · linear_combination 8 / 5 * mul_nonneg h hu + 12 / 5 * g + 686792 / 577 * h1 + 11972 / 577 * h3 + 28000 * p00 + 2610 * p03
    · linear_combination 8 / 5 * mul_nonneg h hu + 9 / 5 * g + 918464 / 577 * h1 + 10319 / 577 * h3 + 22000 * p00 + 2360 * p03

theorem cell1_1_2 {s t a b : ℚ} (h0 : 0 ≤ s - 4359 / 5770) (h1 : 0 ≤ 241 / 319 - s) (h2 : 0 ≤ t - (12 / 5)) (h3 : 0 ≤ 19 / 7 - t)
    (hH : HBCond 2 s t a b) (hV : LVCond gm 2 s t a) : b * (1250 * s - 930) ≤ (890 * s - 653) * t := by
  have hu : 0 ≤ 1250 * s - 930 := by linarith only [h0, h1]
  have p00 := mul_nonneg h0 h0
  have p02 := mul_nonneg h0 h2
  have p03 := mul_nonneg h0 h3
  have hV := (gm_iff _ _ _ _).mp hV
  rcases hV with g | g | g
  · have g := mul_nonneg g hu
    rcases (hbCond_iff _ _ _ _ _).mp hH with h | h | h | h | h | h | h | h | h
    · linear_combination 2 * mul_nonneg h hu + g + 784848 / 577 * h1 + 11170 / 577 * h2 + 15000 * p00 + 890 * p02
    · linear_combination 2 * mul_nonneg h hu + 2 * g + 14788 / 577 * h1 + 11170 / 577 * h2 + 20000 * p00 + 890 * p02
    · linear_combination 2 * mul_nonneg h hu + 5 / 4 * g + 375958 / 577 * h1 + 14075 / 1154 * h2 + 16250 * p00 + 265 * p02
    · linear_combination mul_nonneg h hu + 5 / 2 * g + 399818 / 577 * h1 + 11170 / 577 * h2 + 17500 * p00 + 890 * p02
    · linear_combination mul_nonneg h hu + 3 * g + 14788 / 577 * h1 + 11170 / 577 * h2 + 20000 * p00 + 890 * p02
    · linear_combination mul_nonneg h hu + 21 / 8 * g + 195373 / 577 * h1 + 36415 / 2308 * h2 + 18125 * p00 + 1155 / 2 * p02
    · linear_combination 8 / 5 * mul_nonneg h hu + 8 / 5 * g + 457736 / 577 * h1 + 7864 / 577 * h2 + 16000 * p00 + 390 * p02
    · linear_combination 8 / 5 * mul_nonneg h hu + 12 / 5 * g + 158312 / 577 * h0 + 7864 / 577 * h2 + 20000 * p00 + 390 * p02
    · linear_combination 8 / 5 * mul_nonneg h hu + 9 / 5 * g + 1054002 / 4039 * h1 + 4558 / 577 * h2 + 17000 * p00 + 110 * p03
  · have g := mul_nonneg g hu
    rcases (hbCond_iff _ _ _ _ _).mp hH with h | h | h | h | h | h | h | h | h
    · linear_combination 2 * mul_nonneg h hu + g + 880288 / 577 * h1 + 11170 / 577 * h2 + 20000 * p00 + 890 * p02
    · linear_combination 2 * mul_nonneg h hu + 2 * g + 205668 / 577 * h1 + 11170 / 577 * h2 + 30000 * p00 + 890 * p02
    · linear_combination 2 * mul_nonneg h hu + 5 / 4 * g + 495258 / 577 * h1 + 14075 / 1154 * h2 + 22500 * p00 + 265 * p02
    · linear_combination mul_nonneg h hu + 5 / 2 * g + 638418 / 577 * h1 + 11170 / 577 * h2 + 30000 * p00 + 890 * p02
    · linear_combination mul_nonneg h hu + 3 * g + 301108 / 577 * h1 + 11170 / 577 * h2 + 35000 * p00 + 890 * p02
    · linear_combination mul_nonneg h hu + 21 / 8 * g + 445903 / 577 * h1 + 36415 / 2308 * h2 + 31250 * p00 + 1155 / 2 * p02
    · linear_combination 8 / 5 * mul_nonneg h hu + 8 / 5 * g + 610440 / 577 * h1 + 7864 / 577 * h2 + 24000 * p00 + 390 * p02
    · linear_combination 8 / 5 * mul_nonneg h hu + 12 / 5 * g + 70744 / 577 * h1 + 7864 / 577 * h2 + 32000 * p00 + 390 * p02
    · linear_combination 8 / 5 * mul_nonneg h hu + 9 / 5 * g + 2256546 / 4039 * h1 + 4558 / 577 * h2 + 26000 * p00 + 110 * p03
  · have g := mul_nonneg g hu
    rcases (hbCond_iff _ _ _ _ _).mp hH with h | h | h | h | h | h | h | h | h
    · linear_combination 2 * mul_nonneg h hu + g + 6619000 / 4039 * h1 + 2905 / 577 * h2 + 20000 * p00 + 360 * p03
    · linear_combination 2 * mul_nonneg h hu + 2 * g + 497630 / 577 * h1 + 5360 / 577 * h3 + 30000 * p00 + 1610 * p03
    · linear_combination 2 * mul_nonneg h hu + 5 / 4 * g + 10227705 / 8078 * h1 + 13175 / 2308 * h3 + 22500 * p00 + 2595 / 2 * p03
    · linear_combination mul_nonneg h hu + 5 / 2 * g + 7306035 / 4039 * h1 + 18985 / 1154 * h3 + 30000 * p00 + 2235 * p03
    · linear_combination mul_nonneg h hu + 3 * g + 5738240 / 4039 * h1 + 13625 / 577 * h3 + 35000 * p00 + 2860 * p03
    · linear_combination mul_nonneg h hu + 21 / 8 * g + 3744835 / 2308 * h1 + 100735 / 4616 * h3 + 31250 * p00 + 10815 / 4 * p03
    · linear_combination 8 / 5 * mul_nonneg h hu + 8 / 5 * g + 902402 / 577 * h1 + 5360 / 577 * h3 + 24000 * p00 + 1610 * p03
    · linear_combination 8 / 5 * mul_nonneg h hu + 12 / 5 * g + 3808342 / 4039 * h1 + 11972 / 577 * h3 + 32000 * p00 + 2610 * p03
    · linear_combination 8 / 5 * mul_nonneg h hu + 9 / 5 * g + 5112696 / 4039 * h1 + 10319 / 577 * h3 + 26000 * p00 + 2360 * p03

theorem cell1_1_3 {s t a b : ℚ} (h0 : 0 ≤ s - 4359 / 5770) (h1 : 0 ≤ 241 / 319 - s) (h2 : 0 ≤ t - (19 / 7)) (h3 : 0 ≤ 7 / 2 - t)
    (hH : HBCond 2 s t a b) (hV : LVCond (jutK 13) 3 s t a) : b * (1250 * s - 930) ≤ (890 * s - 653) * t := by
  have hu : 0 ≤ 1250 * s - 930 := by linarith only [h0, h1]
  have p00 := mul_nonneg h0 h0
  have p02 := mul_nonneg h0 h2
  have p03 := mul_nonneg h0 h3
  have hV := (jut_iff 13 _ _ _ _).mp hV
  push_cast at hV
  rcases hV with g | g | g
  · have g := mul_nonneg g hu
    rcases (hbCond_iff _ _ _ _ _).mp hH with h | h | h | h | h | h | h | h | h
    · linear_combination 2 * mul_nonneg h hu + g + 6717710 / 4039 * h1 + 11170 / 577 * h2 + 17500 * p00 + 890 * p02
    · linear_combination 2 * mul_nonneg h hu + 2 * g + 3680830 / 4039 * h1 + 11170 / 577 * h2 + 25000 * p00 + 890 * p02
    · linear_combination 2 * mul_nonneg h hu + 5 / 4 * g + 5237240 / 4039 * h1 + 14075 / 1154 * h2 + 19375 * p00 + 265 * p02
    · linear_combination mul_nonneg h hu + 5 / 2 * g + 7552810 / 4039 * h1 + 11170 / 577 * h2 + 23750 * p00 + 890 * p02
    · linear_combination mul_nonneg h hu + 3 * g + 6034370 / 4039 * h1 + 11170 / 577 * h2 + 27500 * p00 + 890 * p02
    · linear_combination mul_nonneg h hu + 21 / 8 * g + 973225 / 577 * h1 + 36415 / 2308 * h2 + 49375 / 2 * p00 + 1155 / 2 * p02
    · linear_combination 8 / 5 * mul_nonneg h hu + 8 / 5 * g + 6474750 / 4039 * h1 + 7864 / 577 * h2 + 20000 * p00 + 390 * p02
    · linear_combination 8 / 5 * mul_nonneg h hu + 12 / 5 * g + 4045246 / 4039 * h1 + 7864 / 577 * h2 + 26000 * p00 + 390 * p02
    · linear_combination 8 / 5 * mul_nonneg h hu + 9 / 5 * g + 805637 / 577 * h1 + 4558 / 577 * h2 + 21500 * p00 + 110 * p03
  · have g := mul_nonneg g hu
    rcases (hbCond_iff _ _ _ _ _).mp hH with h | h | h | h | h | h | h | h | h
    · linear_combination 2 * mul_nonneg h hu + g + 9006280 / 7501 * h1 + 2905 / 577 * h2 + 415000 / 13 * p00 + 360 * p03
    · linear_combination 2 * mul_nonneg h hu + 2 * g + 5142235 / 7501 * h1 + 5360 / 577 * h3 + 700000 / 13 * p00 + 1610 * p03
    · linear_combination 2 * mul_nonneg h hu + 5 / 4 * g + 41537325 / 30004 * h1 + 13175 / 2308 * h3 + 486250 / 13 * p00 + 2595 / 2 * p03
    · linear_combination mul_nonneg h hu + 5 / 2 * g + 26441985 / 15002 * h1 + 18985 / 1154 * h3 + 777500 / 13 * p00 + 2235 * p03
    · linear_combination mul_nonneg h hu + 3 * g + 11288970 / 7501 * h1 + 13625 / 577 * h3 + 920000 / 13 * p00 + 2860 * p03
    · linear_combination mul_nonneg h hu + 21 / 8 * g + 111280145 / 60008 * h1 + 100735 / 4616 * h3 + 813125 / 13 * p00 + 10815 / 4 * p03
    · linear_combination 8 / 5 * mul_nonneg h hu + 8 / 5 * g + 12567415 / 7501 * h1 + 5360 / 577 * h3 + 560000 / 13 * p00 + 1610 * p03
    · linear_combination 8 / 5 * mul_nonneg h hu + 12 / 5 * g + 9476179 / 7501 * h1 + 11972 / 577 * h3 + 788000 / 13 * p00 + 2610 * p03
    · linear_combination 8 / 5 * mul_nonneg h hu + 9 / 5 * g + 13669856 / 7501 * h1 + 10319 / 577 * h3 + 617000 / 13 * p00 + 2360 * p03
  · have g := mul_nonneg g hu
    rcases (hbCond_iff _ _ _ _ _).mp hH with h | h | h | h | h | h | h | h | h
    · linear_combination 2 * mul_nonneg h hu + g + 1735280 / 577 * h0 + 2905 / 577 * h2 + 400000 * p00 + 360 * p03
    · linear_combination 2 * mul_nonneg h hu + 2 * g + 4460585 / 577 * h0 + 5360 / 577 * h3 + 790000 * p00 + 1610 * p03
    · linear_combination 2 * mul_nonneg h hu + 5 / 4 * g + 8945175 / 2308 * h0 + 13175 / 2308 * h3 + 497500 * p00 + 2595 / 2 * p03
    · linear_combination mul_nonneg h hu + 5 / 2 * g + 10106355 / 1154 * h0 + 18985 / 1154 * h3 + 980000 * p00 + 2235 * p03
    · linear_combination mul_nonneg h hu + 3 * g + 6415830 / 577 * h0 + 13625 / 577 * h3 + 1175000 * p00 + 2860 * p03
    · linear_combination mul_nonneg h hu + 21 / 8 * g + 42429475 / 4616 * h0 + 100735 / 4616 * h3 + 1028750 * p00 + 10815 / 4 * p03
    · linear_combination 8 / 5 * mul_nonneg h hu + 8 / 5 * g + 2918189 / 577 * h0 + 5360 / 577 * h3 + 632000 * p00 + 1610 * p03
    · linear_combination 8 / 5 * mul_nonneg h hu + 12 / 5 * g + 5098433 / 577 * h0 + 11972 / 577 * h3 + 944000 * p00 + 2610 * p03
    · linear_combination 8 / 5 * mul_nonneg h hu + 9 / 5 * g + 3319000 / 577 * h0 + 10319 / 577 * h3 + 710000 * p00 + 2360 * p03

theorem cell1_1_4 {s t a b : ℚ} (h0 : 0 ≤ s - 4359 / 5770) (h1 : 0 ≤ 241 / 319 - s) (h2 : 0 ≤ t - (7 / 2)) (h3 : 0 ≤ 4 - t)
    (hH : HBCond 3 s t a b) (hV : LVCond gm 3 s t a) : b * (2000 * s - 1488) ≤ (270 * s - 173) * t := by
  have hu : 0 ≤ 2000 * s - 1488 := by linarith only [h0, h1]
  have p00 := mul_nonneg h0 h0
  have p02 := mul_nonneg h0 h2
  have p03 := mul_nonneg h0 h3
  have hV := (gm_iff _ _ _ _).mp hV
  rcases hV with g | g | g
  · have g := mul_nonneg g hu
    rcases (hbCond_iff _ _ _ _ _).mp hH with h | h | h | h | h | h | h | h | h
    · linear_combination 2 * mul_nonneg h hu + g + 4296303 / 577 * h1 + 17872 / 577 * h2 + 36000 * p00 + 270 * p02
    · linear_combination 2 * mul_nonneg h hu + 2 * g + 2448159 / 577 * h1 + 17872 / 577 * h2 + 48000 * p00 + 270 * p02
    · linear_combination 2 * mul_nonneg h hu + 5 / 4 * g + 3467872 / 577 * h1 + 11260 / 577 * h2 + 39000 * p00 + 730 * p03
    · linear_combination mul_nonneg h hu + 5 / 2 * g + 3372231 / 577 * h1 + 17872 / 577 * h2 + 42000 * p00 + 270 * p02
    · linear_combination mul_nonneg h hu + 3 * g + 2448159 / 577 * h1 + 17872 / 577 * h2 + 48000 * p00 + 270 * p02
    · linear_combination mul_nonneg h hu + 21 / 8 * g + 2919068 / 577 * h1 + 14566 / 577 * h2 + 43500 * p00 + 230 * p03
    · linear_combination 8 / 5 * mul_nonneg h hu + 8 / 5 * g + 18089896 / 2885 * h1 + 62912 / 2885 * h2 + 38400 * p00 + 530 * p03
    · linear_combination 8 / 5 * mul_nonneg h hu + 12 / 5 * g + 2139464 / 577 * h1 + 62912 / 2885 * h2 + 48000 * p00 + 530 * p03
    · linear_combination 8 / 5 * mul_nonneg h hu + 9 / 5 * g + 15087752 / 2885 * h1 + 36464 / 2885 * h2 + 40800 * p00 + 1330 * p03
  · have g := mul_nonneg g hu
    rcases (hbCond_iff _ _ _ _ _).mp hH with h | h | h | h | h | h | h | h | h
    · linear_combination 2 * mul_nonneg h hu + g + 4525359 / 577 * h1 + 17872 / 577 * h2 + 48000 * p00 + 270 * p02
    · linear_combination 2 * mul_nonneg h hu + 2 * g + 2906271 / 577 * h1 + 17872 / 577 * h2 + 72000 * p00 + 270 * p02
    · linear_combination 2 * mul_nonneg h hu + 5 / 4 * g + 3754192 / 577 * h1 + 11260 / 577 * h2 + 54000 * p00 + 730 * p03
    · linear_combination mul_nonneg h hu + 5 / 2 * g + 3944871 / 577 * h1 + 17872 / 577 * h2 + 72000 * p00 + 270 * p02
    · linear_combination mul_nonneg h hu + 3 * g + 3135327 / 577 * h1 + 17872 / 577 * h2 + 84000 * p00 + 270 * p02
    · linear_combination mul_nonneg h hu + 21 / 8 * g + 3520340 / 577 * h1 + 14566 / 577 * h2 + 75000 * p00 + 230 * p03
    · linear_combination 8 / 5 * mul_nonneg h hu + 8 / 5 * g + 19922344 / 2885 * h1 + 62912 / 2885 * h2 + 57600 * p00 + 530 * p03
    · linear_combination 8 / 5 * mul_nonneg h hu + 12 / 5 * g + 13445992 / 2885 * h1 + 62912 / 2885 * h2 + 76800 * p00 + 530 * p03
    · linear_combination 8 / 5 * mul_nonneg h hu + 9 / 5 * g + 17149256 / 2885 * h1 + 36464 / 2885 * h2 + 62400 * p00 + 1330 * p03
  · have g := mul_nonneg g hu
    rcases (hbCond_iff _ _ _ _ _).mp hH with h | h | h | h | h | h | h | h | h
    · linear_combination 2 * mul_nonneg h hu + g + 4909064 / 577 * h1 + 4648 / 577 * h2 + 48000 * p00 + 1730 * p03
    · linear_combination 2 * mul_nonneg h hu + 2 * g + 3751576 / 577 * h1 + 8576 / 577 * h3 + 72000 * p00 + 3730 * p03
    · linear_combination 2 * mul_nonneg h hu + 5 / 4 * g + 4331192 / 577 * h1 + 5270 / 577 * h3 + 54000 * p00 + 3230 * p03
    · linear_combination mul_nonneg h hu + 5 / 2 * g + 5020976 / 577 * h1 + 15188 / 577 * h3 + 72000 * p00 + 4730 * p03
    · linear_combination mul_nonneg h hu + 3 * g + 4442232 / 577 * h1 + 21800 / 577 * h3 + 84000 * p00 + 5730 * p03
    · linear_combination mul_nonneg h hu + 21 / 8 * g + 4732040 / 577 * h1 + 20147 / 577 * h3 + 75000 * p00 + 5480 * p03
    · linear_combination 8 / 5 * mul_nonneg h hu + 8 / 5 * g + 23615144 / 2885 * h1 + 8576 / 577 * h3 + 57600 * p00 + 3730 * p03
    · linear_combination 8 / 5 * mul_nonneg h hu + 12 / 5 * g + 18985192 / 2885 * h1 + 95776 / 2885 * h3 + 76800 * p00 + 5330 * p03
    · linear_combination 8 / 5 * mul_nonneg h hu + 9 / 5 * g + 21303656 / 2885 * h1 + 82552 / 2885 * h3 + 62400 * p00 + 4930 * p03

theorem cell1_2_0 {s t a b : ℚ} (h0 : 0 ≤ s - 241 / 319) (h1 : 0 ≤ 443 / 586 - s) (h2 : 0 ≤ t - (2)) (h3 : 0 ≤ 48 / 13 * s - 32 / 65 - t)
    (hH : HBCond 1 s t a b) (hV : LVCond (jutK 13) 2 s t a) : b * (300 * s - 40) ≤ (1151 - 1190 * s) * t := by
  have hu : 0 ≤ 300 * s - 40 := by linarith only [h0, h1]
  have p00 := mul_nonneg h0 h0
  have p01 := mul_nonneg h0 h1
  have p03 := mul_nonneg h0 h3
  have hV := (jut_iff 13 _ _ _ _).mp hV
  push_cast at hV
  rcases hV with g | g | g
  · have g := mul_nonneg g hu
    rcases (hbCond_iff _ _ _ _ _).mp hH with h | h | h | h | h | h | h | h | h
    · linear_combination 2 * mul_nonneg h hu + g + 170883936 / 93467 * h1 + 80379 / 319 * h2 + 25920 / 13 * p01 + 1190 * p03
    · linear_combination 2 * mul_nonneg h hu + 2 * g + 100433156 / 93467 * h1 + 80379 / 319 * h2 + 10320 / 13 * p01 + 1190 * p03
    · linear_combination 2 * mul_nonneg h hu + 5 / 4 * g + 164472926 / 93467 * h1 + 50609 / 319 * h2 + 29220 / 13 * p01 + 1340 * p03
    · linear_combination mul_nonneg h hu + 5 / 2 * g + 114453206 / 93467 * h1 + 80379 / 319 * h2 + 10320 / 13 * p01 + 1190 * p03
    · linear_combination mul_nonneg h hu + 3 * g + 79227816 / 93467 * h1 + 80379 / 319 * h2 + 2520 / 13 * p01 + 1190 * p03
    · linear_combination mul_nonneg h hu + 21 / 8 * g + 111247701 / 93467 * h1 + 5954 / 29 * h2 + 11970 / 13 * p01 + 1265 * p03
    · linear_combination 8 / 5 * mul_nonneg h hu + 8 / 5 * g + 157272992 / 93467 * h1 + 56563 / 319 * h2 + 25440 / 13 * p01 + 1310 * p03
    · linear_combination 8 / 5 * mul_nonneg h hu + 12 / 5 * g + 100912368 / 93467 * h1 + 56563 / 319 * h2 + 12960 / 13 * p01 + 1310 * p03
    · linear_combination 8 / 5 * mul_nonneg h hu + 9 / 5 * g + 152144184 / 93467 * h1 + 2977 / 29 * h2 + 2160 * p01 + 1430 * p03
  · have g := mul_nonneg g hu
    rcases (hbCond_iff _ _ _ _ _).mp hH with h | h | h | h | h | h | h | h | h
    · linear_combination 2 * mul_nonneg h hu + g + 41628056 / 93467 * h1 + 20839 / 319 * h2 + 10320 / 13 * p01 + 1490 * p03
    · linear_combination 2 * mul_nonneg h hu + 2 * g + 13668 / 11 * h0 + 38701 / 319 * h3 + 20880 / 13 * p00 + 1790 * p03
    · linear_combination 2 * mul_nonneg h hu + 5 / 4 * g + 28668324 / 93467 * h1 + 23816 / 319 * h3 + 9720 / 13 * p01 + 1715 * p03
    · linear_combination mul_nonneg h hu + 5 / 2 * g + 459082 / 319 * h0 + 68471 / 319 * h3 + 28680 / 13 * p00 + 1940 * p03
    · linear_combination mul_nonneg h hu + 3 * g + 689772 / 319 * h0 + 8931 / 29 * h3 + 44280 / 13 * p00 + 2090 * p03
    · linear_combination mul_nonneg h hu + 21 / 8 * g + 442722 / 319 * h0 + 181597 / 638 * h3 + 28980 / 13 * p00 + 4105 / 2 * p03
    · linear_combination 8 / 5 * mul_nonneg h hu + 8 / 5 * g + 7667888 / 93467 * h0 + 38701 / 319 * h3 + 480 / 13 * p01 + 1790 * p03
    · linear_combination 8 / 5 * mul_nonneg h hu + 12 / 5 * g + 395280 / 319 * h0 + 2977 / 11 * h3 + 24480 / 13 * p00 + 2030 * p03
    · linear_combination 8 / 5 * mul_nonneg h hu + 9 / 5 * g + 74425 / 319 * h3 + 1970 * p03
  · have g := mul_nonneg g hu
    rcases (hbCond_iff _ _ _ _ _).mp hH with h | h | h | h | h | h | h | h | h
    · linear_combination 2 * mul_nonneg h hu + g + 11546208 / 319 * h0 + 20839 / 319 * h2 + 755280 / 13 * p00 + 1490 * p03
    · linear_combination 2 * mul_nonneg h hu + 2 * g + 819748 / 11 * h0 + 38701 / 319 * h3 + 1552080 / 13 * p00 + 1790 * p03
    · linear_combination 2 * mul_nonneg h hu + 5 / 4 * g + 14512472 / 319 * h0 + 23816 / 319 * h3 + 947280 / 13 * p00 + 1715 * p03
    · linear_combination mul_nonneg h hu + 5 / 2 * g + 29679482 / 319 * h0 + 68471 / 319 * h3 + 1942680 / 13 * p00 + 1940 * p03
    · linear_combination mul_nonneg h hu + 3 * g + 35754252 / 319 * h0 + 8931 / 29 * h3 + 2341080 / 13 * p00 + 2090 * p03
    · linear_combination mul_nonneg h hu + 21 / 8 * g + 31124142 / 319 * h0 + 181597 / 638 * h3 + 2038680 / 13 * p00 + 4105 / 2 * p03
    · linear_combination 8 / 5 * mul_nonneg h hu + 8 / 5 * g + 18727232 / 319 * h0 + 38701 / 319 * h3 + 1224480 / 13 * p00 + 1790 * p03
    · linear_combination 8 / 5 * mul_nonneg h hu + 12 / 5 * g + 28446864 / 319 * h0 + 2977 / 11 * h3 + 1861920 / 13 * p00 + 2030 * p03
    · linear_combination 8 / 5 * mul_nonneg h hu + 9 / 5 * g + 65952 * h0 + 74425 / 319 * h3 + 1378080 / 13 * p00 + 1970 * p03

theorem cell1_2_1 {s t a b : ℚ} (h0 : 0 ≤ s - 241 / 319) (h1 : 0 ≤ 443 / 586 - s) (h2 : 0 ≤ t - (48 / 13 * s - 32 / 65)) (h3 : 0 ≤ 12 / 5 - t)
    (hH : HBCond 1 s t a b) (hV : LVCond gm 2 s t a) : b * (300 * s - 40) ≤ (1151 - 1190 * s) * t := by
  have hu : 0 ≤ 300 * s - 40 := by linarith only [h0, h1]
  have p00 := mul_nonneg h0 h0
  have p03 := mul_nonneg h0 h3
  have p12 := mul_nonneg h1 h2
  have hV := (gm_iff _ _ _ _).mp hV
  rcases hV with g | g | g
  · have g := mul_nonneg g hu
    rcases (hbCond_iff _ _ _ _ _).mp hH with h | h | h | h | h | h | h | h | h
    · linear_combination 2 * mul_nonneg h hu + g + 29560 / 29 * h1 + 80379 / 319 * h2 + 2400 * p00 + 1190 * p03
    · linear_combination 2 * mul_nonneg h hu + 2 * g + 84900 / 319 * h1 + 80379 / 319 * h2 + 3600 * p00 + 1190 * p03
    · linear_combination 2 * mul_nonneg h hu + 5 / 4 * g + 418080 / 319 * h1 + 50609 / 319 * h2 + 2700 * p00 + 1340 * p03
    · linear_combination mul_nonneg h hu + 5 / 2 * g + 132750 / 319 * h1 + 80379 / 319 * h2 + 3600 * p00 + 1190 * p03
    · linear_combination mul_nonneg h hu + 3 * g + 12620 / 319 * h1 + 80379 / 319 * h2 + 4200 * p00 + 1190 * p03
    · linear_combination mul_nonneg h hu + 21 / 8 * g + 179210 / 319 * h1 + 5954 / 29 * h2 + 3750 * p00 + 1265 * p03
    · linear_combination 8 / 5 * mul_nonneg h hu + 8 / 5 * g + 370584 / 319 * h1 + 56563 / 319 * h2 + 2880 * p00 + 1310 * p03
    · linear_combination 8 / 5 * mul_nonneg h hu + 12 / 5 * g + 16216 / 29 * h1 + 56563 / 319 * h2 + 3840 * p00 + 1310 * p03
    · linear_combination 8 / 5 * mul_nonneg h hu + 9 / 5 * g + 444920 / 319 * h1 + 2977 / 29 * h2 + 3120 * p00 + 1430 * p03
  · have g := mul_nonneg g hu
    rcases (hbCond_iff _ _ _ _ _).mp hH with h | h | h | h | h | h | h | h | h
    · linear_combination 2 * mul_nonneg h hu + g + 104040 / 319 * h1 + 80379 / 319 * h2 + 3600 * p00 + 1190 * p03
    · linear_combination 2 * mul_nonneg h hu + 2 * g + 357340 / 319 * h0 + 80379 / 319 * h2 + 6000 * p00 + 1190 * p03
    · linear_combination 2 * mul_nonneg h hu + 5 / 4 * g + 12880 / 29 * h1 + 50609 / 319 * h2 + 4200 * p00 + 1340 * p03
    · linear_combination mul_nonneg h hu + 5 / 2 * g + 420050 / 319 * h0 + 80379 / 319 * h2 + 6600 * p00 + 1190 * p03
    · linear_combination mul_nonneg h hu + 3 * g + 650740 / 319 * h0 + 80379 / 319 * h2 + 7800 * p00 + 1190 * p03
    · linear_combination mul_nonneg h hu + 21 / 8 * g + 401230 / 319 * h0 + 5954 / 29 * h2 + 6900 * p00 + 1265 * p03
    · linear_combination 8 / 5 * mul_nonneg h hu + 8 / 5 * g + 16792 / 319 * h1 + 56563 / 319 * h2 + 4800 * p00 + 1310 * p03
    · linear_combination 8 / 5 * mul_nonneg h hu + 12 / 5 * g + 352312 / 319 * h0 + 56563 / 319 * h2 + 6720 * p00 + 1310 * p03
    · linear_combination 8 / 5 * mul_nonneg h hu + 9 / 5 * g + 29874 / 293 * h2 + 1430 * p12
  · have g := mul_nonneg g hu
    rcases (hbCond_iff _ _ _ _ _).mp hH with h | h | h | h | h | h | h | h | h
    · linear_combination 2 * mul_nonneg h hu + g + 323880 / 319 * h1 + 20839 / 319 * h2 + 3600 * p00 + 1490 * p03
    · linear_combination 2 * mul_nonneg h hu + 2 * g + 60556 / 319 * h0 + 38701 / 319 * h3 + 6000 * p00 + 1790 * p03
    · linear_combination 2 * mul_nonneg h hu + 5 / 4 * g + 328544 / 319 * h1 + 23816 / 319 * h3 + 4200 * p00 + 1715 * p03
    · linear_combination mul_nonneg h hu + 5 / 2 * g + 11206 / 29 * h0 + 68471 / 319 * h3 + 6600 * p00 + 1940 * p03
    · linear_combination mul_nonneg h hu + 3 * g + 353956 / 319 * h0 + 8931 / 29 * h3 + 7800 * p00 + 2090 * p03
    · linear_combination mul_nonneg h hu + 21 / 8 * g + 159406 / 319 * h0 + 181597 / 638 * h3 + 6900 * p00 + 4105 / 2 * p03
    · linear_combination 8 / 5 * mul_nonneg h hu + 8 / 5 * g + 225640 / 319 * h1 + 38701 / 319 * h3 + 4800 * p00 + 1790 * p03
    · linear_combination 8 / 5 * mul_nonneg h hu + 12 / 5 * g + 143464 / 319 * h0 + 2977 / 11 * h3 + 6720 * p00 + 2030 * p03
    · linear_combination 8 / 5 * mul_nonneg h hu + 9 / 5 * g + 15256 / 29 * h1 + 74425 / 319 * h3 + 5280 * p00 + 1970 * p03

theorem cell1_2_2 {s t a b : ℚ} (h0 : 0 ≤ s - 241 / 319) (h1 : 0 ≤ 443 / 586 - s) (h2 : 0 ≤ t - (12 / 5)) (h3 : 0 ≤ 19 / 7 - t)
    (hH : HBCond 2 s t a b) (hV : LVCond gm 2 s t a) : b * (300 * s - 40) ≤ (1151 - 1190 * s) * t := by
  have hu : 0 ≤ 300 * s - 40 := by linarith only [h0, h1]
  have p00 := mul_nonneg h0 h0
  have p03 := mul_nonneg h0 h3
  have hV := (gm_iff _ _ _ _).mp hV
  rcases hV with g | g | g
  · have g := mul_nonneg g hu
    rcases (hbCond_iff _ _ _ _ _).mp hH with h | h | h | h | h | h | h | h | h
    · linear_combination 2 * mul_nonneg h hu + g + 596690 / 319 * h1 + 80379 / 319 * h2 + 3600 * p00 + 1190 * p03
    · linear_combination 2 * mul_nonneg h hu + 2 * g + 260730 / 319 * h1 + 80379 / 319 * h2 + 4800 * p00 + 1190 * p03
    · linear_combination 2 * mul_nonneg h hu + 5 / 4 * g + 3493200 / 2233 * h1 + 50609 / 319 * h2 + 3900 * p00 + 1340 * p03
    · linear_combination mul_nonneg h hu + 5 / 2 * g + 428710 / 319 * h1 + 80379 / 319 * h2 + 4200 * p00 + 1190 * p03
    · linear_combination mul_nonneg h hu + 3 * g + 260730 / 319 * h1 + 80379 / 319 * h2 + 4800 * p00 + 1190 * p03
    · linear_combination mul_nonneg h hu + 21 / 8 * g + 91695 / 77 * h1 + 5954 / 29 * h2 + 4350 * p00 + 1265 * p03
    · linear_combination 8 / 5 * mul_nonneg h hu + 8 / 5 * g + 3629926 / 2233 * h1 + 56563 / 319 * h2 + 3840 * p00 + 1310 * p03
    · linear_combination 8 / 5 * mul_nonneg h hu + 12 / 5 * g + 1748550 / 2233 * h1 + 56563 / 319 * h2 + 4800 * p00 + 1310 * p03
    · linear_combination 8 / 5 * mul_nonneg h hu + 9 / 5 * g + 3083022 / 2233 * h1 + 2977 / 29 * h2 + 4080 * p00 + 1430 * p03
  · have g := mul_nonneg g hu
    rcases (hbCond_iff _ _ _ _ _).mp hH with h | h | h | h | h | h | h | h | h
    · linear_combination 2 * mul_nonneg h hu + g + 375570 / 319 * h1 + 80379 / 319 * h2 + 4800 * p00 + 1190 * p03
    · linear_combination 2 * mul_nonneg h hu + 2 * g + 181510 / 319 * h0 + 80379 / 319 * h2 + 7200 * p00 + 1190 * p03
    · linear_combination 2 * mul_nonneg h hu + 5 / 4 * g + 1558400 / 2233 * h1 + 50609 / 319 * h2 + 5400 * p00 + 1340 * p03
    · linear_combination mul_nonneg h hu + 5 / 2 * g + 124090 / 319 * h0 + 80379 / 319 * h2 + 7200 * p00 + 1190 * p03
    · linear_combination mul_nonneg h hu + 3 * g + 402630 / 319 * h0 + 80379 / 319 * h2 + 8400 * p00 + 1190 * p03
    · linear_combination mul_nonneg h hu + 21 / 8 * g + 1403925 / 2233 * h0 + 5954 / 29 * h2 + 7500 * p00 + 1265 * p03
    · linear_combination 8 / 5 * mul_nonneg h hu + 8 / 5 * g + 1153382 / 2233 * h1 + 56563 / 319 * h2 + 5760 * p00 + 1310 * p03
    · linear_combination 8 / 5 * mul_nonneg h hu + 12 / 5 * g + 1966266 / 2233 * h0 + 56563 / 319 * h2 + 7680 * p00 + 1310 * p03
    · linear_combination 8 / 5 * mul_nonneg h hu + 9 / 5 * g + 296910 / 2233 * h1 + 2977 / 29 * h2 + 6240 * p00 + 1430 * p03
  · have g := mul_nonneg g hu
    rcases (hbCond_iff _ _ _ _ _).mp hH with h | h | h | h | h | h | h | h | h
    · linear_combination 2 * mul_nonneg h hu + g + 2839530 / 2233 * h1 + 20839 / 319 * h2 + 4800 * p00 + 1490 * p03
    · linear_combination 2 * mul_nonneg h hu + 2 * g + 849490 / 2233 * h0 + 38701 / 319 * h3 + 7200 * p00 + 1790 * p03
    · linear_combination 2 * mul_nonneg h hu + 5 / 4 * g + 260225 / 319 * h1 + 23816 / 319 * h3 + 5400 * p00 + 1715 * p03
    · linear_combination mul_nonneg h hu + 5 / 2 * g + 342280 / 2233 * h0 + 68471 / 319 * h3 + 7200 * p00 + 1940 * p03
    · linear_combination mul_nonneg h hu + 3 * g + 2186790 / 2233 * h0 + 8931 / 29 * h3 + 8400 * p00 + 2090 * p03
    · linear_combination mul_nonneg h hu + 21 / 8 * g + 1702515 / 4466 * h0 + 181597 / 638 * h3 + 7500 * p00 + 4105 / 2 * p03
    · linear_combination 8 / 5 * mul_nonneg h hu + 8 / 5 * g + 1490246 / 2233 * h1 + 38701 / 319 * h3 + 5760 * p00 + 1790 * p03
    · linear_combination 8 / 5 * mul_nonneg h hu + 12 / 5 * g + 208710 / 319 * h0 + 2977 / 11 * h3 + 7680 * p00 + 2030 * p03
    · linear_combination 8 / 5 * mul_nonneg h hu + 9 / 5 * g + 675882 / 2233 * h1 + 74425 / 319 * h3 + 6240 * p00 + 1970 * p03

theorem cell1_2_3 {s t a b : ℚ} (h0 : 0 ≤ s - 241 / 319) (h1 : 0 ≤ 443 / 586 - s) (h2 : 0 ≤ t - (19 / 7)) (h3 : 0 ≤ 25 / 7 - t)
    (hH : HBCond 2 s t a b) (hV : LVCond (jutK 13) 3 s t a) : b * (300 * s - 40) ≤ (1151 - 1190 * s) * t := by
  have hu : 0 ≤ 300 * s - 40 := by linarith only [h0, h1]
  have p00 := mul_nonneg h0 h0
  have p03 := mul_nonneg h0 h3
  have hV := (jut_iff 13 _ _ _ _).mp hV
  push_cast at hV
  rcases hV with g | g | g
  · have g := mul_nonneg g hu
    rcases (hbCond_iff _ _ _ _ _).mp hH with h | h | h | h | h | h | h | h | h
    · linear_combination 2 * mul_nonneg h hu + g + 849790 / 319 * h1 + 80379 / 319 * h2 + 4200 * p00 + 1190 * p03
    · linear_combination 2 * mul_nonneg h hu + 2 * g + 441550 / 319 * h1 + 80379 / 319 * h2 + 6000 * p00 + 1190 * p03
    · linear_combination 2 * mul_nonneg h hu + 5 / 4 * g + 5425510 / 2233 * h1 + 50609 / 319 * h2 + 4650 * p00 + 1340 * p03
    · linear_combination mul_nonneg h hu + 5 / 2 * g + 573390 / 319 * h1 + 80379 / 319 * h2 + 5700 * p00 + 1190 * p03
    · linear_combination mul_nonneg h hu + 3 * g + 33570 / 29 * h1 + 80379 / 319 * h2 + 6600 * p00 + 1190 * p03
    · linear_combination mul_nonneg h hu + 21 / 8 * g + 3752220 / 2233 * h1 + 5954 / 29 * h2 + 5925 * p00 + 1265 * p03
    · linear_combination 8 / 5 * mul_nonneg h hu + 8 / 5 * g + 5327730 / 2233 * h1 + 56563 / 319 * h2 + 4800 * p00 + 1310 * p03
    · linear_combination 8 / 5 * mul_nonneg h hu + 12 / 5 * g + 3041586 / 2233 * h1 + 56563 / 319 * h2 + 6240 * p00 + 1310 * p03
    · linear_combination 8 / 5 * mul_nonneg h hu + 9 / 5 * g + 4909314 / 2233 * h1 + 2977 / 29 * h2 + 5160 * p00 + 1430 * p03
  · have g := mul_nonneg g hu
    rcases (hbCond_iff _ _ _ _ _).mp hH with h | h | h | h | h | h | h | h | h
    · linear_combination 2 * mul_nonneg h hu + g + 1402630 / 2233 * h1 + 20839 / 319 * h2 + 99600 / 13 * p00 + 1490 * p03
    · linear_combination 2 * mul_nonneg h hu + 2 * g + 6000950 / 2233 * h0 + 38701 / 319 * h3 + 168000 / 13 * p00 + 1790 * p03
    · linear_combination 2 * mul_nonneg h hu + 5 / 4 * g + 36695 / 319 * h0 + 23816 / 319 * h3 + 116700 / 13 * p00 + 1715 * p03
    · linear_combination mul_nonneg h hu + 5 / 2 * g + 7351020 / 2233 * h0 + 68471 / 319 * h3 + 186600 / 13 * p00 + 1940 * p03
    · linear_combination mul_nonneg h hu + 3 * g + 11052810 / 2233 * h0 + 8931 / 29 * h3 + 220800 / 13 * p00 + 2090 * p03
    · linear_combination mul_nonneg h hu + 21 / 8 * g + 16361535 / 4466 * h0 + 181597 / 638 * h3 + 195150 / 13 * p00 + 4105 / 2 * p03
    · linear_combination 8 / 5 * mul_nonneg h hu + 8 / 5 * g + 1945710 / 2233 * h0 + 38701 / 319 * h3 + 134400 / 13 * p00 + 1790 * p03
    · linear_combination 8 / 5 * mul_nonneg h hu + 12 / 5 * g + 1124082 / 319 * h0 + 2977 / 11 * h3 + 189120 / 13 * p00 + 2030 * p03
    · linear_combination 8 / 5 * mul_nonneg h hu + 9 / 5 * g + 3273306 / 2233 * h0 + 74425 / 319 * h3 + 148080 / 13 * p00 + 1970 * p03
  · have g := mul_nonneg g hu
    rcases (hbCond_iff _ _ _ _ _).mp hH with h | h | h | h | h | h | h | h | h
    · linear_combination 2 * mul_nonneg h hu + g + 121323050 / 2233 * h0 + 20839 / 319 * h2 + 96000 * p00 + 1490 * p03
    · linear_combination 2 * mul_nonneg h hu + 2 * g + 251452310 / 2233 * h0 + 38701 / 319 * h3 + 189600 * p00 + 1790 * p03
    · linear_combination 2 * mul_nonneg h hu + 5 / 4 * g + 21951995 / 319 * h0 + 23816 / 319 * h3 + 119400 * p00 + 1715 * p03
    · linear_combination mul_nonneg h hu + 5 / 2 * g + 314165220 / 2233 * h0 + 68471 / 319 * h3 + 235200 * p00 + 1940 * p03
    · linear_combination mul_nonneg h hu + 3 * g + 379229850 / 2233 * h0 + 8931 / 29 * h3 + 282000 * p00 + 2090 * p03
    · linear_combination mul_nonneg h hu + 21 / 8 * g + 660671355 / 4466 * h0 + 181597 / 638 * h3 + 246900 * p00 + 4105 / 2 * p03
    · linear_combination 8 / 5 * mul_nonneg h hu + 8 / 5 * g + 198306798 / 2233 * h0 + 38701 / 319 * h3 + 151680 * p00 + 1790 * p03
    · linear_combination 8 / 5 * mul_nonneg h hu + 12 / 5 * g + 43201458 / 319 * h0 + 2977 / 11 * h3 + 226560 * p00 + 2030 * p03
    · linear_combination 8 / 5 * mul_nonneg h hu + 9 / 5 * g + 224179530 / 2233 * h0 + 74425 / 319 * h3 + 170400 * p00 + 1970 * p03

theorem cell1_2_4 {s t a b : ℚ} (h0 : 0 ≤ s - 241 / 319) (h1 : 0 ≤ 443 / 586 - s) (h2 : 0 ≤ t - (25 / 7)) (h3 : 0 ≤ 4 - t)
    (hH : HBCond 3 s t a b) (hV : LVCond gm 3 s t a) : b * (1250 * s - 930) ≤ (890 * s - 653) * t := by
  have hu : 0 ≤ 1250 * s - 930 := by linarith only [h0, h1]
  have p00 := mul_nonneg h0 h0
  have p02 := mul_nonneg h0 h2
  have p03 := mul_nonneg h0 h3
  have hV := (gm_iff _ _ _ _).mp hV
  rcases hV with g | g | g
  · have g := mul_nonneg g hu
    rcases (hbCond_iff _ _ _ _ _).mp hH with h | h | h | h | h | h | h | h | h
    · linear_combination 2 * mul_nonneg h hu + g + 4610170 / 2233 * h1 + 6183 / 319 * h2 + 22500 * p00 + 890 * p02
    · linear_combination 2 * mul_nonneg h hu + 2 * g + 139060 / 2233 * h1 + 6183 / 319 * h2 + 30000 * p00 + 890 * p02
    · linear_combination 2 * mul_nonneg h hu + 5 / 4 * g + 2196455 / 2233 * h1 + 3893 / 319 * h2 + 24375 * p00 + 265 * p02
    · linear_combination mul_nonneg h hu + 5 / 2 * g + 2374615 / 2233 * h1 + 6183 / 319 * h2 + 26250 * p00 + 890 * p02
    · linear_combination mul_nonneg h hu + 3 * g + 139060 / 2233 * h1 + 6183 / 319 * h2 + 30000 * p00 + 890 * p02
    · linear_combination mul_nonneg h hu + 21 / 8 * g + 11505 / 22 * h1 + 458 / 29 * h2 + 54375 / 2 * p00 + 1155 / 2 * p02
    · linear_combination 8 / 5 * mul_nonneg h hu + 8 / 5 * g + 2679198 / 2233 * h1 + 4351 / 319 * h2 + 24000 * p00 + 390 * p02
    · linear_combination 8 / 5 * mul_nonneg h hu + 12 / 5 * g + 897690 / 2233 * h0 + 4351 / 319 * h2 + 30000 * p00 + 390 * p02
    · linear_combination 8 / 5 * mul_nonneg h hu + 9 / 5 * g + 121928 / 319 * h1 + 229 / 29 * h2 + 25500 * p00 + 110 * p03
  · have g := mul_nonneg g hu
    rcases (hbCond_iff _ _ _ _ _).mp hH with h | h | h | h | h | h | h | h | h
    · linear_combination 2 * mul_nonneg h hu + g + 5163310 / 2233 * h1 + 6183 / 319 * h2 + 30000 * p00 + 890 * p02
    · linear_combination 2 * mul_nonneg h hu + 2 * g + 1245340 / 2233 * h1 + 6183 / 319 * h2 + 45000 * p00 + 890 * p02
    · linear_combination 2 * mul_nonneg h hu + 5 / 4 * g + 2887880 / 2233 * h1 + 3893 / 319 * h2 + 33750 * p00 + 265 * p02
    · linear_combination mul_nonneg h hu + 5 / 2 * g + 3757465 / 2233 * h1 + 6183 / 319 * h2 + 45000 * p00 + 890 * p02
    · linear_combination mul_nonneg h hu + 3 * g + 1798480 / 2233 * h1 + 6183 / 319 * h2 + 52500 * p00 + 890 * p02
    · linear_combination mul_nonneg h hu + 21 / 8 * g + 374250 / 319 * h1 + 458 / 29 * h2 + 46875 * p00 + 1155 / 2 * p02
    · linear_combination 8 / 5 * mul_nonneg h hu + 8 / 5 * g + 3564222 / 2233 * h1 + 4351 / 319 * h2 + 36000 * p00 + 390 * p02
    · linear_combination 8 / 5 * mul_nonneg h hu + 12 / 5 * g + 429846 / 2233 * h1 + 4351 / 319 * h2 + 48000 * p00 + 390 * p02
    · linear_combination 8 / 5 * mul_nonneg h hu + 9 / 5 * g + 264164 / 319 * h1 + 229 / 29 * h2 + 39000 * p00 + 110 * p03
  · have g := mul_nonneg g hu
    rcases (hbCond_iff _ _ _ _ _).mp hH with h | h | h | h | h | h | h | h | h
    · linear_combination 2 * mul_nonneg h hu + g + 775440 / 319 * h1 + 1603 / 319 * h2 + 30000 * p00 + 360 * p03
    · linear_combination 2 * mul_nonneg h hu + 2 * g + 375230 / 319 * h1 + 2977 / 319 * h3 + 45000 * p00 + 1610 * p03
    · linear_combination 2 * mul_nonneg h hu + 5 / 4 * g + 575700 / 319 * h1 + 1832 / 319 * h3 + 33750 * p00 + 2595 / 2 * p03
    · linear_combination mul_nonneg h hu + 5 / 2 * g + 813855 / 319 * h1 + 5267 / 319 * h3 + 45000 * p00 + 2235 * p03
    · linear_combination mul_nonneg h hu + 3 * g + 613750 / 319 * h1 + 687 / 29 * h3 + 52500 * p00 + 2860 * p03
    · linear_combination mul_nonneg h hu + 21 / 8 * g + 713985 / 319 * h1 + 13969 / 638 * h3 + 46875 * p00 + 10815 / 4 * p03
    · linear_combination 8 / 5 * mul_nonneg h hu + 8 / 5 * g + 711056 / 319 * h1 + 2977 / 319 * h3 + 36000 * p00 + 1610 * p03
    · linear_combination 8 / 5 * mul_nonneg h hu + 12 / 5 * g + 390888 / 319 * h1 + 229 / 11 * h3 + 48000 * p00 + 2610 * p03
    · linear_combination 8 / 5 * mul_nonneg h hu + 9 / 5 * g + 551264 / 319 * h1 + 5725 / 319 * h3 + 39000 * p00 + 2360 * p03

theorem strip1_0 {s t a b : ℚ} (h0 : 0 ≤ s - 37 / 49) (h1 : 0 ≤ 4359 / 5770 - s) (t0 : 2 ≤ t) (t1 : t ≤ 4)
    (h : TupleOK [2, 3] LB [] s t a b) : b ≤ w s * t := by
  have hpos : 0 ≤ t := by linarith
  have k0 : (270 * s - 173) / (2000 * s - 1488) ≤ w s := le_max_of_le_left (le_rfl)
  have v0 : 0 < 2000 * s - 1488 := u0 (by linarith) (by linarith)
  by_cases c0 : t ≤ 200 * s - 744 / 5
  · exact (le_quot v0 (cell1_0_0 h0 h1 (by linarith) (by linarith) (tuple_hb powers h (by simp)) (tuple_lv powers h (by simp) (by simp)))).trans (mul_le_mul_of_nonneg_right k0 hpos)
  rw [not_le] at c0
  by_cases c1 : t ≤ 12 / 5
  · exact (le_quot v0 (cell1_0_1 h0 h1 (by linarith) (by linarith) (tuple_hb powers h (by simp)) (tuple_lv powers h (by simp) (by simp)))).trans (mul_le_mul_of_nonneg_right k0 hpos)
  rw [not_le] at c1
  by_cases c2 : t ≤ 19 / 7
  · exact (le_quot v0 (cell1_0_2 h0 h1 (by linarith) (by linarith) (tuple_hb powers h (by simp)) (tuple_lv powers h (by simp) (by simp)))).trans (mul_le_mul_of_nonneg_right k0 hpos)
  rw [not_le] at c2
  by_cases c3 : t ≤ 52 / 15
  · exact (le_quot v0 (cell1_0_3 h0 h1 (by linarith) (by linarith) (tuple_hb powers h (by simp)) (tuple_lv powers h (by simp) (by simp)))).trans (mul_le_mul_of_nonneg_right k0 hpos)
  rw [not_le] at c3
  exact (le_quot v0 (cell1_0_4 h0 h1 (by linarith) (by linarith) (tuple_hb powers h (by simp)) (tuple_lv powers h (by simp) (by simp)))).trans (mul_le_mul_of_nonneg_right k0 hpos)

theorem strip1_1 {s t a b : ℚ} (h0 : 0 ≤ s - 4359 / 5770) (h1 : 0 ≤ 241 / 319 - s) (t0 : 2 ≤ t) (t1 : t ≤ 4)
    (h : TupleOK [2, 3] LB [] s t a b) : b ≤ w s * t := by
  have hpos : 0 ≤ t := by linarith
  have k0 : (270 * s - 173) / (2000 * s - 1488) ≤ w s := le_max_of_le_left (le_rfl)
  have v0 : 0 < 2000 * s - 1488 := u0 (by linarith) (by linarith)
  have k1 : (890 * s - 653) / (1250 * s - 930) ≤ w s := le_max_of_le_right (le_max_of_le_left (le_rfl))
  have v1 : 0 < 1250 * s - 930 := u1 (by linarith) (by linarith)
  by_cases c0 : t ≤ 200 * s - 744 / 5
  · exact (le_quot v1 (cell1_1_0 h0 h1 (by linarith) (by linarith) (tuple_hb powers h (by simp)) (tuple_lv powers h (by simp) (by simp)))).trans (mul_le_mul_of_nonneg_right k1 hpos)
  rw [not_le] at c0
  by_cases c1 : t ≤ 12 / 5
  · exact (le_quot v1 (cell1_1_1 h0 h1 (by linarith) (by linarith) (tuple_hb powers h (by simp)) (tuple_lv powers h (by simp) (by simp)))).trans (mul_le_mul_of_nonneg_right k1 hpos)
  rw [not_le] at c1
  by_cases c2 : t ≤ 19 / 7
  · exact (le_quot v1 (cell1_1_2 h0 h1 (by linarith) (by linarith) (tuple_hb powers h (by simp)) (tuple_lv powers h (by simp) (by simp)))).trans (mul_le_mul_of_nonneg_right k1 hpos)
  rw [not_le] at c2
  by_cases c3 : t ≤ 7 / 2
  · exact (le_quot v1 (cell1_1_3 h0 h1 (by linarith) (by linarith) (tuple_hb powers h (by simp)) (tuple_lv powers h (by simp) (by simp)))).trans (mul_le_mul_of_nonneg_right k1 hpos)
  rw [not_le] at c3
  exact (le_quot v0 (cell1_1_4 h0 h1 (by linarith) (by linarith) (tuple_hb powers h (by simp)) (tuple_lv powers h (by simp) (by simp)))).trans (mul_le_mul_of_nonneg_right k0 hpos)

theorem strip1_2 {s t a b : ℚ} (h0 : 0 ≤ s - 241 / 319) (h1 : 0 ≤ 443 / 586 - s) (t0 : 2 ≤ t) (t1 : t ≤ 4)
    (h : TupleOK [2, 3] LB [] s t a b) : b ≤ w s * t := by
  have hpos : 0 ≤ t := by linarith
  have k1 : (890 * s - 653) / (1250 * s - 930) ≤ w s := le_max_of_le_right (le_max_of_le_left (le_rfl))
  have v1 : 0 < 1250 * s - 930 := u1 (by linarith) (by linarith)
  have k2 : (1151 - 1190 * s) / (300 * s - 40) ≤ w s := le_max_of_le_right (le_max_of_le_right (le_rfl))
  have v2 : 0 < 300 * s - 40 := u2 (by linarith) (by linarith)
  by_cases c0 : t ≤ 48 / 13 * s - 32 / 65
  · exact (le_quot v2 (cell1_2_0 h0 h1 (by linarith) (by linarith) (tuple_hb powers h (by simp)) (tuple_lv powers h (by simp) (by simp)))).trans (mul_le_mul_of_nonneg_right k2 hpos)
  rw [not_le] at c0
  by_cases c1 : t ≤ 12 / 5
  · exact (le_quot v2 (cell1_2_1 h0 h1 (by linarith) (by linarith) (tuple_hb powers h (by simp)) (tuple_lv powers h (by simp) (by simp)))).trans (mul_le_mul_of_nonneg_right k2 hpos)
  rw [not_le] at c1
  by_cases c2 : t ≤ 19 / 7
  · exact (le_quot v2 (cell1_2_2 h0 h1 (by linarith) (by linarith) (tuple_hb powers h (by simp)) (tuple_lv powers h (by simp) (by simp)))).trans (mul_le_mul_of_nonneg_right k2 hpos)
  rw [not_le] at c2
  by_cases c3 : t ≤ 25 / 7
  · exact (le_quot v2 (cell1_2_3 h0 h1 (by linarith) (by linarith) (tuple_hb powers h (by simp)) (tuple_lv powers h (by simp) (by simp)))).trans (mul_le_mul_of_nonneg_right k2 hpos)
  rw [not_le] at c3
  exact (le_quot v1 (cell1_2_4 h0 h1 (by linarith) (by linarith) (tuple_hb powers h (by simp)) (tuple_lv powers h (by simp) (by simp)))).trans (mul_le_mul_of_nonneg_right k1 hpos)

theorem upper (s t a b : ℚ) (l1 : 37 / 49 ≤ s) (l2 : s < 443 / 586) (h : FeasibleE [2, 3] LB ZB 0 2 s t a b) : b ≤ w s * t := by
  have h : (2 ≤ t ∧ t ≤ 4) ∧ TupleOK [2, 3] LB [] s t a b := by
    rcases h with ⟨⟨i1, i2⟩, h⟩ | ⟨⟨i1, i2⟩, h⟩
    · exact ⟨⟨by linarith, by linarith⟩, h⟩
    · exact ⟨⟨i1, by linarith⟩, tuple_mono h⟩
  obtain ⟨⟨i1, i2⟩, h⟩ := h
  by_cases d0 : s ≤ 4359 / 5770
  · exact strip1_0 (by linarith) (by linarith) (by linarith) (by linarith) h
  rw [not_le] at d0
  by_cases d1 : s ≤ 241 / 319
  · exact strip1_1 (by linarith) (by linarith) (by linarith) (by linarith) h
  rw [not_le] at d1
  exact strip1_2 (by linarith) (by linarith) (by linarith) (by linarith) h

theorem att0 {s : ℚ} (h0 : 37 / 49 ≤ s) (h1 : s ≤ 4359 / 5770) :
    Inside [2, 3] LB [] 0 2 (2 * 0) (2 * 2) s (200 * s - 744 / 5) (36 / 5 - 8 * s) (27 * s - 173 / 10) := by
  refine ⟨by linarith, by linarith, by linarith, by linarith, by linarith, by linarith, tuple_of powers ⟨by linarith, by linarith⟩ ⟨by linarith, by linarith⟩ ?_ ?_⟩
  · refine List.forall_mem_cons.mpr ⟨?_, List.forall_mem_cons.mpr ⟨?_, List.forall_mem_cons.mpr ⟨?_, List.forall_mem_nil _⟩⟩⟩
    · exact ⟨(hbCond_iff _ _ _ _ _).mpr (.inr (.inr (.inr (.inr (.inr (.inl (by linarith))))))), List.forall_mem_cons.mpr ⟨(gm_iff _ _ _ _).mpr (.inr (.inr (by linarith))), List.forall_mem_cons.mpr ⟨(jut_iff 13 _ _ _ _).mpr (.inr (.inl (by push_cast; linarith))), List.forall_mem_nil _⟩⟩⟩
    · exact ⟨(hbCond_iff _ _ _ _ _).mpr (.inl (by linarith)), List.forall_mem_cons.mpr ⟨(gm_iff _ _ _ _).mpr (.inr (.inl (by linarith))), List.forall_mem_cons.mpr ⟨(jut_iff 13 _ _ _ _).mpr (.inr (.inr (by push_cast; linarith))), List.forall_mem_nil _⟩⟩⟩
    · exact ⟨(hbCond_iff _ _ _ _ _).mpr (.inl (by linarith)), List.forall_mem_cons.mpr ⟨(gm_iff _ _ _ _).mpr (.inl (by linarith)), List.forall_mem_cons.mpr ⟨(jut_iff 13 _ _ _ _).mpr (.inl (by push_cast; linarith)), List.forall_mem_nil _⟩⟩⟩
  · exact List.forall_mem_nil _

theorem att1 {s : ℚ} (h0 : 4359 / 5770 ≤ s) (h1 : s ≤ 241 / 319) :
    Inside [2, 3] LB [] 0 2 (2 * 0) (2 * 2) s (200 * s - 744 / 5) (36 / 5 - 8 * s) (712 / 5 * s - 2612 / 25) := by
  refine ⟨by linarith, by linarith, by linarith, by linarith, by linarith, by linarith, tuple_of powers ⟨by linarith, by linarith⟩ ⟨by linarith, by linarith⟩ ?_ ?_⟩
  · refine List.forall_mem_cons.mpr ⟨?_, List.forall_mem_cons.mpr ⟨?_, List.forall_mem_cons.mpr ⟨?_, List.forall_mem_nil _⟩⟩⟩
    · exact ⟨(hbCond_iff _ _ _ _ _).mpr (.inr (.inr (.inr (.inr (.inr (.inr (.inr (.inr (by linarith))))))))), List.forall_mem_cons.mpr ⟨(gm_iff _ _ _ _).mpr (.inr (.inr (by linarith))), List.forall_mem_cons.mpr ⟨(jut_iff 13 _ _ _ _).mpr (.inr (.inl (by push_cast; linarith))), List.forall_mem_nil _⟩⟩⟩
    · exact ⟨(hbCond_iff _ _ _ _ _).mpr (.inl (by linarith)), List.forall_mem_cons.mpr ⟨(gm_iff _ _ _ _).mpr (.inr (.inl (by linarith))), List.forall_mem_cons.mpr ⟨(jut_iff 13 _ _ _ _).mpr (.inr (.inr (by push_cast; linarith))), List.forall_mem_nil _⟩⟩⟩
    · exact ⟨(hbCond_iff _ _ _ _ _).mpr (.inl (by linarith)), List.forall_mem_cons.mpr ⟨(gm_iff _ _ _ _).mpr (.inl (by linarith)), List.forall_mem_cons.mpr ⟨(jut_iff 13 _ _ _ _).mpr (.inl (by push_cast; linarith)), List.forall_mem_nil _⟩⟩⟩
  · exact List.forall_mem_nil _

theorem att2 {s : ℚ} (h0 : 241 / 319 ≤ s) (h1 : s < 443 / 586) :
    Inside [2, 3] LB [] 0 2 (2 * 0) (2 * 2) s (48 / 13 * s - 32 / 65) (36 / 5 - 8 * s) (4604 / 325 - 952 / 65 * s) := by
  refine ⟨by linarith, by linarith, by linarith, by linarith, by linarith, by linarith, tuple_of powers ⟨by linarith, by linarith⟩ ⟨by linarith, by linarith⟩ ?_ ?_⟩
  · refine List.forall_mem_cons.mpr ⟨?_, List.forall_mem_cons.mpr ⟨?_, List.forall_mem_cons.mpr ⟨?_, List.forall_mem_nil _⟩⟩⟩
    · exact ⟨(hbCond_iff _ _ _ _ _).mpr (.inr (.inr (.inr (.inr (.inr (.inr (.inr (.inr (by linarith))))))))), List.forall_mem_cons.mpr ⟨(gm_iff _ _ _ _).mpr (.inr (.inr (by linarith))), List.forall_mem_cons.mpr ⟨(jut_iff 13 _ _ _ _).mpr (.inr (.inl (by push_cast; linarith))), List.forall_mem_nil _⟩⟩⟩
    · exact ⟨(hbCond_iff _ _ _ _ _).mpr (.inl (by linarith)), List.forall_mem_cons.mpr ⟨(gm_iff _ _ _ _).mpr (.inr (.inl (by linarith))), List.forall_mem_cons.mpr ⟨(jut_iff 13 _ _ _ _).mpr (.inr (.inl (by push_cast; linarith))), List.forall_mem_nil _⟩⟩⟩
    · exact ⟨(hbCond_iff _ _ _ _ _).mpr (.inl (by linarith)), List.forall_mem_cons.mpr ⟨(gm_iff _ _ _ _).mpr (.inl (by linarith)), List.forall_mem_cons.mpr ⟨(jut_iff 13 _ _ _ _).mpr (.inl (by push_cast; linarith)), List.forall_mem_nil _⟩⟩⟩
  · exact List.forall_mem_nil _

theorem attained (s : ℚ) (l1 : 37 / 49 ≤ s) (l2 : s < 443 / 586) : ∃ t a b, (Inside [2, 3] LB [] 0 2 (2 * 0) (2 * 2) s t a b ∨
    Inside [2, 3] LB ZB 0 2 0 2 s t a b) ∧ b = w s * t := by
  by_cases g0 : s ≤ 4359 / 5770
  · have h0 : 0 ≤ s - 37 / 49 := by linarith
    have h1 : 0 ≤ 4359 / 5770 - s := by linarith
    have e : w s = (270 * s - 173) / (2000 * s - 1488) := le_antisymm (max_le (le_rfl) (max_le (le10_0 h0 h1) (le20_1 h0 h1))) (le_max_of_le_left (le_rfl))
    exact ⟨_, _, _, .inl (att0 (by linarith) (by linarith)), by rw [e]; exact eq_quot (u0 (by linarith) (by linarith)) (by ring)⟩
  rw [not_le] at g0
  by_cases g1 : s ≤ 241 / 319
  · have h0 : 0 ≤ s - 4359 / 5770 := by linarith
    have h1 : 0 ≤ 241 / 319 - s := by linarith
    have e : w s = (890 * s - 653) / (1250 * s - 930) := le_antisymm (max_le (le01_2 h0 h1) (max_le (le_rfl) (le21_3 h0 h1))) (le_max_of_le_right (le_max_of_le_left (le_rfl)))
    exact ⟨_, _, _, .inl (att1 (by linarith) (by linarith)), by rw [e]; exact eq_quot (u1 (by linarith) (by linarith)) (by ring)⟩
  rw [not_le] at g1
  have h0 : 0 ≤ s - 241 / 319 := by linarith
  have h1 : 0 ≤ 443 / 586 - s := by linarith
  have e : w s = (1151 - 1190 * s) / (300 * s - 40) := le_antisymm (max_le (le02_4 h0 h1) (max_le (le12_5 h0 h1) (le_rfl))) (le_max_of_le_right (le_max_of_le_right (le_rfl)))
  exact ⟨_, _, _, .inl (att2 (by linarith) (by linarith)), by rw [e]; exact eq_quot (u2 (by linarith) (by linarith)) (by ring)⟩

theorem notConvex1 : NotConvex [2, 3] LB [] (37 / 49) (443 / 586) 0 2 (2 * 0) (2 * 2) :=
  ⟨34 / 45, 31 / 10, 123 / 100, 398 / 125, 34 / 45, 37 / 10, 229 / 125, 471 / 100, by decide +kernel⟩

end Case8

variable {eng : Engine} {hrep : List Pt → Mat} {edges : Mat → List (Pt × Pt)} {solve : RF ℝ → RF ℝ → List ℝ} {isZero : Expr ℝ → Bool}
  {orderR : List (Region ℕ) → List (Region ℕ)} {orderK : List ℚ → List ℚ}

/-- **C85** (`prove_zero_density_energy_8`, derived.py:929-945) The function returns pieces which, at every real `sigma` of `[37/49, 443/586)`, give
`A*(sigma) = w(sigma) / (1 - sigma)` with the `w` stated here. -/
theorem C85_energy_8 (C : Contracts eng edges solve isZero orderR orderK) (hh : HRepSpec hrep) (hhz : HRepNoZero hrep) :
    ∃ out, proveEnergy8 eng hrep edges solve isZero orderR orderK = .ok out ∧ IsBoundE (37 / 49) (443 / 586) out
      (fun x => (max ((270 * x - 173) / (2000 * x - 1488)) (max ((890 * x - 653) / (1250 * x - 930)) ((1151 - 1190 * x) / (300 * x - 40)))) / (1 - x)) := by
  have := deriveE C hh hhz [2, 3] Case8.powers Case8.LB Case8.ZB (List.forall_mem_cons.mpr ⟨good_gm, List.forall_mem_cons.mpr ⟨good_jutK (j := 13) (by norm_num), List.forall_mem_nil _⟩⟩) (List.forall_mem_nil _) 0 2 (37 / 49) (443 / 586)
    (by norm_num) (by norm_num) (by norm_num) (by decide +kernel) (by norm_num) (by norm_num) (by norm_num) (by norm_num) Case8.notConvex1
    (.inl ⟨rfl, rfl⟩) Case8.w (fun x => max ((270 * x - 173) / (2000 * x - 1488)) (max ((890 * x - 653) / (1250 * x - 930)) ((1151 - 1190 * x) / (300 * x - 40)))) (fun s _ _ => by simp only [Case8.w]; push_cast; rfl) ?_ Case8.attained Case8.upper
  · exact this
  · intro x l1 l2
    push_cast at l1 l2
    have k0 : ContinuousAt (fun x : ℝ => (270 * x - 173) / (2000 * x - 1488)) x := ContinuousAt.div (by fun_prop) (by fun_prop) (by intro h; linarith)
    have k1 : ContinuousAt (fun x : ℝ => (890 * x - 653) / (1250 * x - 930)) x := ContinuousAt.div (by fun_prop) (by fun_prop) (by intro h; linarith)
    have k2 : ContinuousAt (fun x : ℝ => (1151 - 1190 * x) / (300 * x - 40)) x := ContinuousAt.div (by fun_prop) (by fun_prop) (by intro h; linarith)
    exact (Filter.Tendsto.max k0 (Filter.Tendsto.max k1 k2))

/-- The value at `34/45`. -/
example : ∃ eng hrep edges solve isZero orderR orderK out, proveEnergy8 eng hrep edges solve isZero orderR orderK = .ok out ∧
    ∃ q ∈ out, q.1.at (34 / 45) = (6801 / 1232 : ℝ) := by
  obtain ⟨eng, edges, solve, isZero, orderR, orderK, C⟩ := contracts_satisfiable
  obtain ⟨hrep, hh, hhz⟩ := hRepNoZero_satisfiable
  obtain ⟨out, h1, h2⟩ := C85_energy_8 C hh hhz
  obtain ⟨q, q1, _, _, _, q5⟩ := h2 (34 / 45) (by norm_num) (by norm_num)
  exact ⟨eng, hrep, edges, solve, isZero, orderR, orderK, out, h1, q, q1, by rw [q5]; norm_num⟩

end DerivedEnergy
end Expdb
