import Verif.Props.DerivedEnergyForms

/-!
# C85: the zero density energy estimate that `prove_zero_density_energy_4` derives

The upper bound is proved on cells of the `(sigma, tau)` plane, with one power of Heath-Brown's relation and one power of one large value
estimate on each cell.
-/

namespace Expdb
namespace DerivedEnergy

open Rational SupRatio Mat Region ZeroDensity DerivedZD

namespace Case4

/-- The bound times `1 - sigma`. -/
def w (s : ℚ) : ℚ := max (min ((650 * s - 473) / (950 * s - 705)) ((72 - 91 * s) / (77 * s - 56))) ((90 - 95 * s) / (10 * s + 6))

/-- The estimates. -/
abbrev LB : List (List (ℚ × ℚ × ℚ)) := [gm, jutK 10]

/-- The zeta large value estimates. -/
abbrev ZB : List (List (ℚ × ℚ × ℚ)) := []

theorem powers : ∀ k ∈ ([2, 3] : List ℚ), 1 ≤ k := by decide +kernel

theorem u0 {s : ℚ} (l1 : 664 / 877 ≤ s) (l2 : s ≤ 31 / 40) : 0 < 950 * s - 705 := by linarith

theorem u1 {s : ℚ} (l1 : 664 / 877 ≤ s) (l2 : s ≤ 31 / 40) : 0 < 77 * s - 56 := by linarith

theorem u2 {s : ℚ} (l1 : 664 / 877 ≤ s) (l2 : s ≤ 31 / 40) : 0 < 10 * s + 6 := by linarith

theorem le01_0 {s : ℚ} (h0 : 0 ≤ s - 664 / 877) (h1 : 0 ≤ 284 / 375 - s) : (650 * s - 473) / (950 * s - 705) ≤ (72 - 91 * s) / (77 * s - 56) := by
  rw [div_le_div_iff₀ (u0 (by linarith) (by linarith)) (u1 (by linarith) (by linarith))]
  nlinarith [mul_nonneg h0 h1, mul_nonneg h0 h0, mul_nonneg h1 h1]

theorem le10_1 {s : ℚ} (h0 : 0 ≤ s - 284 / 375) (h1 : 0 ≤ 9467 / 12500 - s) : (72 - 91 * s) / (77 * s - 56) ≤ (650 * s - 473) / (950 * s - 705) := by
  rw [div_le_div_iff₀ (u1 (by linarith) (by linarith)) (u0 (by linarith) (by linarith))]
  nlinarith [mul_nonneg h0 h1, mul_nonneg h0 h0, mul_nonneg h1 h1]

theorem le20_2 {s : ℚ} (h0 : 0 ≤ s - 664 / 877) (h1 : 0 ≤ 284 / 375 - s) : (90 - 95 * s) / (10 * s + 6) ≤ (650 * s - 473) / (950 * s - 705) := by
  rw [div_le_div_iff₀ (u2 (by linarith) (by linarith)) (u0 (by linarith) (by linarith))]
  nlinarith [mul_nonneg h0 h1, mul_nonneg h0 h0, mul_nonneg h1 h1]

theorem le10_3 {s : ℚ} (h0 : 0 ≤ s - 284 / 375) (h1 : 0 ≤ 1364 / 1801 - s) : (72 - 91 * s) / (77 * s - 56) ≤ (650 * s - 473) / (950 * s - 705) := by
  rw [div_le_div_iff₀ (u1 (by linarith) (by linarith)) (u0 (by linarith) (by linarith))]
  nlinarith [mul_nonneg h0 h1, mul_nonneg h0 h0, mul_nonneg h1 h1]

theorem cross1 {s : ℚ} (l1 : 664 / 877 ≤ s) (l2 : s ≤ 31 / 40) (hc : (90 - 95 * s) / (10 * s + 6) ≤ (72 - 91 * s) / (77 * s - 56)) : s ≤ 1364 / 1801 := by
  rw [div_le_div_iff₀ (u2 l1 l2) (u1 l1 l2)] at hc
  by_contra h
  rw [not_le] at h
  nlinarith [mul_pos (sub_pos.mpr h) (sub_pos.mpr h), mul_nonneg (sub_nonneg.mpr l2) (sub_pos.mpr h).le]

theorem cross2 {s : ℚ} (l1 : 664 / 877 ≤ s) (l2 : s ≤ 31 / 40) (hc : (72 - 91 * s) / (77 * s - 56) ≤ (90 - 95 * s) / (10 * s + 6)) : 1982 / 2617 ≤ s := by
  rw [div_le_div_iff₀ (u1 l1 l2) (u2 l1 l2)] at hc
  by_contra h
  rw [not_le] at h
  nlinarith [mul_pos (sub_pos.mpr h) (sub_pos.mpr h), mul_nonneg (sub_nonneg.mpr l1) (sub_pos.mpr h).le]

theorem cell1_0_0 {s t a b : ℚ} (h0 : 0 ≤ s - 664 / 877) (h1 : 0 ≤ 284 / 375 - s) (h2 : 0 ≤ t - (2)) (h3 : 0 ≤ 152 * s - 564 / 5 - t)
    (hH : HBCond 1 s t a b) (hV : LVCond (jutK 10) 2 s t a) : b * (950 * s - 705) ≤ (650 * s - 473) * t := by
  have hu : 0 ≤ 950 * s - 705 := by linarith only [h0, h1]
  have p00 := mul_nonneg h0 h0
  have p01 := mul_nonneg h0 h1
  have p02 := mul_nonneg h0 h2
  have p03 := mul_nonneg h0 h3
  have hV := (jut_iff 10 _ _ _ _).mp hV
  push_cast at hV
  rcases hV with g | g | g
  · have g := mul_nonneg g hu
    rcases (hbCond_iff _ _ _ _ _).mp hH with h | h | h | h | h | h | h | h | h
    · linear_combination 2 * mul_nonneg h hu + g + 378580 / 877 * h1 + 16779 / 877 * h2 + 7600 * p00 + 650 * p02
    · linear_combination 2 * mul_nonneg h hu + 2 * g + 304770 / 877 * h1 + 16779 / 877 * h2 + 11400 * p00 + 650 * p02
    · linear_combination 2 * mul_nonneg h hu + 5 / 4 * g + 568415 / 877 * h1 + 21043 / 1754 * h2 + 8550 * p00 + 175 * p02
    · linear_combination mul_nonneg h hu + 5 / 2 * g + 721345 / 877 * h1 + 16779 / 877 * h2 + 11400 * p00 + 650 * p02
    · linear_combination mul_nonneg h hu + 3 * g + 684440 / 877 * h1 + 16779 / 877 * h2 + 13300 * p00 + 650 * p02
    · linear_combination mul_nonneg h hu + 21 / 8 * g + 1632525 / 1754 * h1 + 54601 / 3508 * h2 + 11875 * p00 + 825 / 2 * p02
    · linear_combination 8 / 5 * mul_nonneg h hu + 8 / 5 * g + 682316 / 877 * h1 + 11773 / 877 * h2 + 9120 * p00 + 270 * p02
    · linear_combination 8 / 5 * mul_nonneg h hu + 12 / 5 * g + 623268 / 877 * h1 + 11773 / 877 * h2 + 12160 * p00 + 270 * p02
    · linear_combination 8 / 5 * mul_nonneg h hu + 9 / 5 * g + 21568708 / 21925 * h1 + 6767 / 877 * h2 + 6840 * p01 + 110 * p03
  · have g := mul_nonneg g hu
    rcases (hbCond_iff _ _ _ _ _).mp hH with h | h | h | h | h | h | h | h | h
    · linear_combination 2 * mul_nonneg h hu + g + 5878186 / 21925 * h1 + 4264 / 877 * h2 + 30780 * p01 + 300 * p03
    · linear_combination 2 * mul_nonneg h hu + 2 * g + 36302042 / 21925 * h1 + 8251 / 877 * h3 + 164160 * p01 + 1250 * p03
    · linear_combination 2 * mul_nonneg h hu + 5 / 4 * g + 40313393 / 26310 * h1 + 20489 / 3508 * h3 + 136325 * p01 + 2025 / 2 * p03
    · linear_combination mul_nonneg h hu + 5 / 2 * g + 8515342 / 2631 * h1 + 29017 / 1754 * h3 + 232750 * p01 + 1725 * p03
    · linear_combination mul_nonneg h hu + 3 * g + 282824134 / 65775 * h1 + 20766 / 877 * h3 + 299440 * p01 + 2200 * p03
    · linear_combination mul_nonneg h hu + 21 / 8 * g + 1115051249 / 263100 * h1 + 153613 / 7016 * h3 + 571045 / 2 * p01 + 8325 / 4 * p03
    · linear_combination 8 / 5 * mul_nonneg h hu + 8 / 5 * g + 719994904 / 328875 * h1 + 8251 / 877 * h3 + 169328 * p01 + 1250 * p03
    · linear_combination 8 / 5 * mul_nonneg h hu + 12 / 5 * g + 1279519576 / 328875 * h1 + 18263 / 877 * h3 + 276032 * p01 + 2010 * p03
    · linear_combination 8 / 5 * mul_nonneg h hu + 9 / 5 * g + 415676334 / 109625 * h1 + 15760 / 877 * h3 + 253764 * p01 + 1820 * p03
  · have g := mul_nonneg g hu
    rcases (hbCond_iff _ _ _ _ _).mp hH with h | h | h | h | h | h | h | h | h
    · linear_combination 2 * mul_nonneg h hu + g + 1592340 / 877 * h0 + 4264 / 877 * h2 + 110200 * p00 + 300 * p03
    · linear_combination 2 * mul_nonneg h hu + 2 * g + 2221458 / 877 * h0 + 8251 / 877 * h3 + 117800 * p00 + 1250 * p03
    · linear_combination 2 * mul_nonneg h hu + 5 / 4 * g + 958298 / 877 * h0 + 20489 / 3508 * h3 + 39900 * p00 + 2025 / 2 * p03
    · linear_combination mul_nonneg h hu + 5 / 2 * g + 1758473 / 877 * h0 + 29017 / 1754 * h3 + 119700 * p00 + 1725 * p03
    · linear_combination mul_nonneg h hu + 3 * g + 1748968 / 877 * h0 + 20766 / 877 * h3 + 123500 * p00 + 2200 * p03
    · linear_combination mul_nonneg h hu + 21 / 8 * g + 1117388 / 877 * h0 + 153613 / 7016 * h3 + 84550 * p00 + 8325 / 4 * p03
    · linear_combination 8 / 5 * mul_nonneg h hu + 8 / 5 * g + 1025736 / 877 * h0 + 8251 / 877 * h3 + 56240 * p00 + 1250 * p03
    · linear_combination 8 / 5 * mul_nonneg h hu + 12 / 5 * g + 1010528 / 877 * h0 + 18263 / 877 * h3 + 62320 * p00 + 2010 * p03
    · linear_combination 8 / 5 * mul_nonneg h hu + 9 / 5 * g + 15760 / 877 * h3 + 1820 * p03

theorem cell1_0_1 {s t a b : ℚ} (h0 : 0 ≤ s - 664 / 877) (h1 : 0 ≤ 284 / 375 - s) (h2 : 0 ≤ t - (152 * s - 564 / 5)) (h3 : 0 ≤ 12 / 5 - t)
    (hH : HBCond 1 s t a b) (hV : LVCond gm 2 s t a) : b * (950 * s - 705) ≤ (650 * s - 473) * t := by
  have hu : 0 ≤ 950 * s - 705 := by linarith only [h0, h1]
  have p00 := mul_nonneg h0 h0
  have p02 := mul_nonneg h0 h2
  have p03 := mul_nonneg h0 h3
  have p12 := mul_nonneg h1 h2
  have hV := (gm_iff _ _ _ _).mp hV
  rcases hV with g | g | g
  · have g := mul_nonneg g hu
    rcases (hbCond_iff _ _ _ _ _).mp hH with h | h | h | h | h | h | h | h | h
    · linear_combination 2 * mul_nonneg h hu + g + 2333288 / 877 * h0 + 16779 / 877 * h2 + 106400 * p00 + 650 * p02
    · linear_combination 2 * mul_nonneg h hu + 2 * g + 2407098 / 877 * h0 + 16779 / 877 * h2 + 110200 * p00 + 650 * p02
    · linear_combination 2 * mul_nonneg h hu + 5 / 4 * g + 1074323 / 877 * h0 + 21043 / 1754 * h2 + 35150 * p00 + 175 * p02
    · linear_combination mul_nonneg h hu + 5 / 2 * g + 1990523 / 877 * h0 + 16779 / 877 * h2 + 110200 * p00 + 650 * p02
    · linear_combination mul_nonneg h hu + 3 * g + 2027428 / 877 * h0 + 16779 / 877 * h2 + 112100 * p00 + 650 * p02
    · linear_combination mul_nonneg h hu + 21 / 8 * g + 2722081 / 1754 * h0 + 54601 / 3508 * h2 + 74575 * p00 + 825 / 2 * p02
    · linear_combination 8 / 5 * mul_nonneg h hu + 8 / 5 * g + 1174248 / 877 * h0 + 11773 / 877 * h2 + 50160 * p00 + 270 * p02
    · linear_combination 8 / 5 * mul_nonneg h hu + 12 / 5 * g + 1233296 / 877 * h0 + 11773 / 877 * h2 + 53200 * p00 + 270 * p02
    · linear_combination 8 / 5 * mul_nonneg h hu + 9 / 5 * g + 155812 / 877 * h0 + 6767 / 877 * h2 + 9880 * p00 + 110 * p03
  · have g := mul_nonneg g hu
    rcases (hbCond_iff _ _ _ _ _).mp hH with h | h | h | h | h | h | h | h | h
    · linear_combination 2 * mul_nonneg h hu + g + 2240468 / 877 * h0 + 16779 / 877 * h2 + 110200 * p00 + 650 * p02
    · linear_combination 2 * mul_nonneg h hu + 2 * g + 2221458 / 877 * h0 + 16779 / 877 * h2 + 117800 * p00 + 650 * p02
    · linear_combination 2 * mul_nonneg h hu + 5 / 4 * g + 958298 / 877 * h0 + 21043 / 1754 * h2 + 39900 * p00 + 175 * p02
    · linear_combination mul_nonneg h hu + 5 / 2 * g + 1758473 / 877 * h0 + 16779 / 877 * h2 + 119700 * p00 + 650 * p02
    · linear_combination mul_nonneg h hu + 3 * g + 1748968 / 877 * h0 + 16779 / 877 * h2 + 123500 * p00 + 650 * p02
    · linear_combination mul_nonneg h hu + 21 / 8 * g + 1117388 / 877 * h0 + 54601 / 3508 * h2 + 84550 * p00 + 825 / 2 * p02
    · linear_combination 8 / 5 * mul_nonneg h hu + 8 / 5 * g + 1025736 / 877 * h0 + 11773 / 877 * h2 + 56240 * p00 + 270 * p02
    · linear_combination 8 / 5 * mul_nonneg h hu + 12 / 5 * g + 1010528 / 877 * h0 + 11773 / 877 * h2 + 62320 * p00 + 270 * p02
    · linear_combination 8 / 5 * mul_nonneg h hu + 9 / 5 * g + 577 / 75 * h2 + 110 * p12
  · have g := mul_nonneg g hu
    rcases (hbCond_iff _ _ _ _ _).mp hH with h | h | h | h | h | h | h | h | h
    · linear_combination 2 * mul_nonneg h hu + g + 404748 / 877 * h0 + 4264 / 877 * h2 + 11400 * p00 + 300 * p03
    · linear_combination 2 * mul_nonneg h hu + 2 * g + 262390 / 877 * h1 + 8251 / 877 * h3 + 19000 * p00 + 1250 * p03
    · linear_combination 2 * mul_nonneg h hu + 5 / 4 * g + 623050 / 877 * h1 + 20489 / 3508 * h3 + 13300 * p00 + 2025 / 2 * p03
    · linear_combination mul_nonneg h hu + 5 / 2 * g + 725375 / 877 * h1 + 29017 / 1754 * h3 + 20900 * p00 + 1725 * p03
    · linear_combination mul_nonneg h hu + 3 * g + 734880 / 877 * h1 + 20766 / 877 * h3 + 24700 * p00 + 2200 * p03
    · linear_combination mul_nonneg h hu + 21 / 8 * g + 915210 / 877 * h1 + 153613 / 7016 * h3 + 21850 * p00 + 8325 / 4 * p03
    · linear_combination 8 / 5 * mul_nonneg h hu + 8 / 5 * g + 736112 / 877 * h1 + 8251 / 877 * h3 + 15200 * p00 + 1250 * p03
    · linear_combination 8 / 5 * mul_nonneg h hu + 12 / 5 * g + 751320 / 877 * h1 + 18263 / 877 * h3 + 21280 * p00 + 2010 * p03
    · linear_combination 8 / 5 * mul_nonneg h hu + 9 / 5 * g + 1039848 / 877 * h1 + 15760 / 877 * h3 + 16720 * p00 + 1820 * p03

theorem cell1_0_2 {s t a b : ℚ} (h0 : 0 ≤ s - 664 / 877) (h1 : 0 ≤ 284 / 375 - s) (h2 : 0 ≤ t - (12 / 5)) (h3 : 0 ≤ 19 / 7 - t)
    (hH : HBCond 2 s t a b) (hV : LVCond gm 2 s t a) : b * (950 * s - 705) ≤ (650 * s - 473) * t := by
  have hu : 0 ≤ 950 * s - 705 := by linarith only [h0, h1]
  have p00 := mul_nonneg h0 h0
  have p02 := mul_nonneg h0 h2
  have p03 := mul_nonneg h0 h3
  have hV := (gm_iff _ _ _ _).mp hV
  rcases hV with g | g | g
  · have g := mul_nonneg g hu
    rcases (hbCond_iff _ _ _ _ _).mp hH with h | h | h | h | h | h | h | h | h
    · linear_combination 2 * mul_nonneg h hu + g + 909900 / 877 * h1 + 16779 / 877 * h2 + 11400 * p00 + 650 * p02
    · linear_combination 2 * mul_nonneg h hu + 2 * g + 2940 / 877 * h1 + 16779 / 877 * h2 + 15200 * p00 + 650 * p02
    · linear_combination 2 * mul_nonneg h hu + 5 / 4 * g + 433215 / 877 * h1 + 21043 / 1754 * h2 + 12350 * p00 + 175 * p02
    · linear_combination mul_nonneg h hu + 5 / 2 * g + 456420 / 877 * h1 + 16779 / 877 * h2 + 13300 * p00 + 650 * p02
    · linear_combination mul_nonneg h hu + 3 * g + 2940 / 877 * h1 + 16779 / 877 * h2 + 15200 * p00 + 650 * p02
    · linear_combination mul_nonneg h hu + 21 / 8 * g + 436155 / 1754 * h1 + 54601 / 3508 * h2 + 13775 * p00 + 825 / 2 * p02
    · linear_combination 8 / 5 * mul_nonneg h hu + 8 / 5 * g + 528552 / 877 * h1 + 11773 / 877 * h2 + 12160 * p00 + 270 * p02
    · linear_combination 8 / 5 * mul_nonneg h hu + 12 / 5 * g + 197016 / 877 * h0 + 11773 / 877 * h2 + 15200 * p00 + 270 * p02
    · linear_combination 8 / 5 * mul_nonneg h hu + 9 / 5 * g + 1242662 / 6139 * h1 + 6767 / 877 * h2 + 12920 * p00 + 110 * p03
  · have g := mul_nonneg g hu
    rcases (hbCond_iff _ _ _ _ _).mp hH with h | h | h | h | h | h | h | h | h
    · linear_combination 2 * mul_nonneg h hu + g + 1002720 / 877 * h1 + 16779 / 877 * h2 + 15200 * p00 + 650 * p02
    · linear_combination 2 * mul_nonneg h hu + 2 * g + 188580 / 877 * h1 + 16779 / 877 * h2 + 22800 * p00 + 650 * p02
    · linear_combination 2 * mul_nonneg h hu + 5 / 4 * g + 549240 / 877 * h1 + 21043 / 1754 * h2 + 17100 * p00 + 175 * p02
    · linear_combination mul_nonneg h hu + 5 / 2 * g + 688470 / 877 * h1 + 16779 / 877 * h2 + 22800 * p00 + 650 * p02
    · linear_combination mul_nonneg h hu + 3 * g + 281400 / 877 * h1 + 16779 / 877 * h2 + 26600 * p00 + 650 * p02
    · linear_combination mul_nonneg h hu + 21 / 8 * g + 461730 / 877 * h1 + 54601 / 3508 * h2 + 23750 * p00 + 825 / 2 * p02
    · linear_combination 8 / 5 * mul_nonneg h hu + 8 / 5 * g + 677064 / 877 * h1 + 11773 / 877 * h2 + 18240 * p00 + 270 * p02
    · linear_combination 8 / 5 * mul_nonneg h hu + 12 / 5 * g + 25752 / 877 * h1 + 11773 / 877 * h2 + 24320 * p00 + 270 * p02
    · linear_combination 8 / 5 * mul_nonneg h hu + 9 / 5 * g + 2412194 / 6139 * h1 + 6767 / 877 * h2 + 19760 * p00 + 110 * p03
  · have g := mul_nonneg g hu
    rcases (hbCond_iff _ _ _ _ _).mp hH with h | h | h | h | h | h | h | h | h
    · linear_combination 2 * mul_nonneg h hu + g + 7597860 / 6139 * h1 + 4264 / 877 * h2 + 15200 * p00 + 300 * p03
    · linear_combination 2 * mul_nonneg h hu + 2 * g + 3731810 / 6139 * h1 + 8251 / 877 * h3 + 22800 * p00 + 1250 * p03
    · linear_combination 2 * mul_nonneg h hu + 5 / 4 * g + 11596395 / 12278 * h1 + 20489 / 3508 * h3 + 17100 * p00 + 2025 / 2 * p03
    · linear_combination mul_nonneg h hu + 5 / 2 * g + 8147505 / 6139 * h1 + 29017 / 1754 * h3 + 22800 * p00 + 1725 * p03
    · linear_combination mul_nonneg h hu + 3 * g + 6214480 / 6139 * h1 + 20766 / 877 * h3 + 26600 * p00 + 2200 * p03
    · linear_combination mul_nonneg h hu + 21 / 8 * g + 28990695 / 24556 * h1 + 153613 / 7016 * h3 + 23750 * p00 + 8325 / 4 * p03
    · linear_combination 8 / 5 * mul_nonneg h hu + 8 / 5 * g + 7151198 / 6139 * h1 + 8251 / 877 * h3 + 18240 * p00 + 1250 * p03
    · linear_combination 8 / 5 * mul_nonneg h hu + 12 / 5 * g + 4058358 / 6139 * h1 + 18263 / 877 * h3 + 24320 * p00 + 2010 * p03
    · linear_combination 8 / 5 * mul_nonneg h hu + 9 / 5 * g + 815924 / 877 * h1 + 15760 / 877 * h3 + 19760 * p00 + 1820 * p03

theorem cell1_0_3 {s t a b : ℚ} (h0 : 0 ≤ s - 664 / 877) (h1 : 0 ≤ 284 / 375 - s) (h2 : 0 ≤ t - (19 / 7)) (h3 : 0 ≤ 32 / 9 - t)
    (hH : HBCond 2 s t a b) (hV : LVCond (jutK 10) 3 s t a) : b * (950 * s - 705) ≤ (650 * s - 473) * t := by
  have hu : 0 ≤ 950 * s - 705 := by linarith only [h0, h1]
  have p00 := mul_nonneg h0 h0
  have p02 := mul_nonneg h0 h2
  have p03 := mul_nonneg h0 h3
  have hV := (jut_iff 10 _ _ _ _).mp hV
  push_cast at hV
  rcases hV with g | g | g
  · have g := mul_nonneg g hu
    rcases (hbCond_iff _ _ _ _ _).mp hH with h | h | h | h | h | h | h | h | h
    · linear_combination 2 * mul_nonneg h hu + g + 7772880 / 6139 * h1 + 16779 / 877 * h2 + 13300 * p00 + 650 * p02
    · linear_combination 2 * mul_nonneg h hu + 2 * g + 4081850 / 6139 * h1 + 16779 / 877 * h2 + 19000 * p00 + 650 * p02
    · linear_combination 2 * mul_nonneg h hu + 5 / 4 * g + 1719135 / 1754 * h1 + 21043 / 1754 * h2 + 14725 * p00 + 175 * p02
    · linear_combination mul_nonneg h hu + 5 / 2 * g + 8585055 / 6139 * h1 + 16779 / 877 * h2 + 18050 * p00 + 650 * p02
    · linear_combination mul_nonneg h hu + 3 * g + 6739540 / 6139 * h1 + 16779 / 877 * h2 + 20900 * p00 + 650 * p02
    · linear_combination mul_nonneg h hu + 21 / 8 * g + 30828405 / 24556 * h1 + 54601 / 3508 * h2 + 37525 / 2 * p00 + 825 / 2 * p02
    · linear_combination 8 / 5 * mul_nonneg h hu + 8 / 5 * g + 7431230 / 6139 * h1 + 11773 / 877 * h2 + 15200 * p00 + 270 * p02
    · linear_combination 8 / 5 * mul_nonneg h hu + 12 / 5 * g + 4478406 / 6139 * h1 + 11773 / 877 * h2 + 19760 * p00 + 270 * p02
    · linear_combination 8 / 5 * mul_nonneg h hu + 9 / 5 * g + 8478778 / 7893 * h1 + 6767 / 877 * h2 + 16340 * p00 + 110 * p03
  · have g := mul_nonneg g hu
    rcases (hbCond_iff _ _ _ _ _).mp hH with h | h | h | h | h | h | h | h | h
    · linear_combination 2 * mul_nonneg h hu + g + 2275127 / 2631 * h1 + 4264 / 877 * h2 + 24130 * p00 + 300 * p03
    · linear_combination 2 * mul_nonneg h hu + 2 * g + 3227542 / 7893 * h1 + 8251 / 877 * h3 + 40660 * p00 + 1250 * p03
    · linear_combination 2 * mul_nonneg h hu + 5 / 4 * g + 3559465 / 3508 * h1 + 20489 / 3508 * h3 + 56525 / 2 * p00 + 2025 / 2 * p03
    · linear_combination mul_nonneg h hu + 5 / 2 * g + 6394175 / 5262 * h1 + 29017 / 1754 * h3 + 45125 * p00 + 1725 * p03
    · linear_combination mul_nonneg h hu + 3 * g + 7792343 / 7893 * h1 + 20766 / 877 * h3 + 53390 * p00 + 2200 * p03
    · linear_combination mul_nonneg h hu + 21 / 8 * g + 9051529 / 7016 * h1 + 153613 / 7016 * h3 + 188765 / 4 * p00 + 8325 / 4 * p03
    · linear_combination 8 / 5 * mul_nonneg h hu + 8 / 5 * g + 47990168 / 39465 * h1 + 8251 / 877 * h3 + 32528 * p00 + 1250 * p03
    · linear_combination 8 / 5 * mul_nonneg h hu + 12 / 5 * g + 11199604 / 13155 * h1 + 18263 / 877 * h3 + 45752 * p00 + 2010 * p03
    · linear_combination 8 / 5 * mul_nonneg h hu + 9 / 5 * g + 52723829 / 39465 * h1 + 15760 / 877 * h3 + 35834 * p00 + 1820 * p03
  · have g := mul_nonneg g hu
    rcases (hbCond_iff _ _ _ _ _).mp hH with h | h | h | h | h | h | h | h | h
    · linear_combination 2 * mul_nonneg h hu + g + 5923360 / 2631 * h0 + 4264 / 877 * h2 + 235600 * p00 + 300 * p03
    · linear_combination 2 * mul_nonneg h hu + 2 * g + 45963380 / 7893 * h0 + 8251 / 877 * h3 + 463600 * p00 + 1250 * p03
    · linear_combination 2 * mul_nonneg h hu + 5 / 4 * g + 2526170 / 877 * h0 + 20489 / 3508 * h3 + 292600 * p00 + 2025 / 2 * p03
    · linear_combination mul_nonneg h hu + 5 / 2 * g + 17299130 / 2631 * h0 + 29017 / 1754 * h3 + 573800 * p00 + 1725 * p03
    · linear_combination mul_nonneg h hu + 3 * g + 65994040 / 7893 * h0 + 20766 / 877 * h3 + 687800 * p00 + 2200 * p03
    · linear_combination mul_nonneg h hu + 21 / 8 * g + 6042235 / 877 * h0 + 153613 / 7016 * h3 + 602300 * p00 + 8325 / 4 * p03
    · linear_combination 8 / 5 * mul_nonneg h hu + 8 / 5 * g + 29754704 / 7893 * h0 + 8251 / 877 * h3 + 370880 * p00 + 1250 * p03
    · linear_combination 8 / 5 * mul_nonneg h hu + 12 / 5 * g + 17436448 / 2631 * h0 + 18263 / 877 * h3 + 553280 * p00 + 2010 * p03
    · linear_combination 8 / 5 * mul_nonneg h hu + 9 / 5 * g + 33727064 / 7893 * h0 + 15760 / 877 * h3 + 416480 * p00 + 1820 * p03

theorem cell1_0_4 {s t a b : ℚ} (h0 : 0 ≤ s - 664 / 877) (h1 : 0 ≤ 284 / 375 - s) (h2 : 0 ≤ t - (32 / 9)) (h3 : 0 ≤ 4 - t)
    (hH : HBCond 3 s t a b) (hV : LVCond gm 3 s t a) : b * (950 * s - 705) ≤ (650 * s - 473) * t := by
  have hu : 0 ≤ 950 * s - 705 := by linarith only [h0, h1]
  have p00 := mul_nonneg h0 h0
  have p02 := mul_nonneg h0 h2
  have p03 := mul_nonneg h0 h3
  have hV := (gm_iff _ _ _ _).mp hV
  rcases hV with g | g | g
  · have g := mul_nonneg g hu
    rcases (hbCond_iff _ _ _ _ _).mp hH with h | h | h | h | h | h | h | h | h
    · linear_combination 2 * mul_nonneg h hu + g + 12511670 / 7893 * h1 + 16779 / 877 * h2 + 17100 * p00 + 650 * p02
    · linear_combination 2 * mul_nonneg h hu + 2 * g + 267710 / 7893 * h1 + 16779 / 877 * h2 + 22800 * p00 + 650 * p02
    · linear_combination 2 * mul_nonneg h hu + 5 / 4 * g + 11819585 / 15786 * h1 + 21043 / 1754 * h2 + 18525 * p00 + 175 * p02
    · linear_combination mul_nonneg h hu + 5 / 2 * g + 6389690 / 7893 * h1 + 16779 / 877 * h2 + 19950 * p00 + 650 * p02
    · linear_combination mul_nonneg h hu + 3 * g + 267710 / 7893 * h1 + 16779 / 877 * h2 + 22800 * p00 + 650 * p02
    · linear_combination mul_nonneg h hu + 21 / 8 * g + 4118335 / 10524 * h1 + 54601 / 3508 * h2 + 41325 / 2 * p00 + 825 / 2 * p02
    · linear_combination 8 / 5 * mul_nonneg h hu + 8 / 5 * g + 803352 / 877 * h1 + 11773 / 877 * h2 + 18240 * p00 + 270 * p02
    · linear_combination 8 / 5 * mul_nonneg h hu + 12 / 5 * g + 285000 / 877 * h0 + 11773 / 877 * h2 + 22800 * p00 + 270 * p02
    · linear_combination 8 / 5 * mul_nonneg h hu + 9 / 5 * g + 259394 / 877 * h1 + 6767 / 877 * h2 + 19380 * p00 + 110 * p03
  · have g := mul_nonneg g hu
    rcases (hbCond_iff _ _ _ _ _).mp hH with h | h | h | h | h | h | h | h | h
    · linear_combination 2 * mul_nonneg h hu + g + 13764740 / 7893 * h1 + 16779 / 877 * h2 + 22800 * p00 + 650 * p02
    · linear_combination 2 * mul_nonneg h hu + 2 * g + 2773850 / 7893 * h1 + 16779 / 877 * h2 + 34200 * p00 + 650 * p02
    · linear_combination 2 * mul_nonneg h hu + 5 / 4 * g + 7476130 / 7893 * h1 + 21043 / 1754 * h2 + 25650 * p00 + 175 * p02
    · linear_combination mul_nonneg h hu + 5 / 2 * g + 9522365 / 7893 * h1 + 16779 / 877 * h2 + 34200 * p00 + 650 * p02
    · linear_combination mul_nonneg h hu + 3 * g + 4026920 / 7893 * h1 + 16779 / 877 * h2 + 39900 * p00 + 650 * p02
    · linear_combination mul_nonneg h hu + 21 / 8 * g + 2126020 / 2631 * h1 + 54601 / 3508 * h2 + 35625 * p00 + 825 / 2 * p02
    · linear_combination 8 / 5 * mul_nonneg h hu + 8 / 5 * g + 1026120 / 877 * h1 + 11773 / 877 * h2 + 27360 * p00 + 270 * p02
    · linear_combination 8 / 5 * mul_nonneg h hu + 12 / 5 * g + 49152 / 877 * h1 + 11773 / 877 * h2 + 36480 * p00 + 270 * p02
    · linear_combination 8 / 5 * mul_nonneg h hu + 9 / 5 * g + 510008 / 877 * h1 + 6767 / 877 * h2 + 29640 * p00 + 110 * p03
  · have g := mul_nonneg g hu
    rcases (hbCond_iff _ _ _ _ _).mp hH with h | h | h | h | h | h | h | h | h
    · linear_combination 2 * mul_nonneg h hu + g + 1609320 / 877 * h1 + 4264 / 877 * h2 + 22800 * p00 + 300 * p03
    · linear_combination 2 * mul_nonneg h hu + 2 * g + 721370 / 877 * h1 + 8251 / 877 * h3 + 34200 * p00 + 1250 * p03
    · linear_combination 2 * mul_nonneg h hu + 5 / 4 * g + 1179045 / 877 * h1 + 20489 / 3508 * h3 + 25650 * p00 + 2025 / 2 * p03
    · linear_combination mul_nonneg h hu + 5 / 2 * g + 1637835 / 877 * h1 + 29017 / 1754 * h3 + 34200 * p00 + 1725 * p03
    · linear_combination mul_nonneg h hu + 3 * g + 1193860 / 877 * h1 + 20766 / 877 * h3 + 39900 * p00 + 2200 * p03
    · linear_combination mul_nonneg h hu + 21 / 8 * g + 2845395 / 1754 * h1 + 153613 / 7016 * h3 + 35625 * p00 + 8325 / 4 * p03
    · linear_combination 8 / 5 * mul_nonneg h hu + 8 / 5 * g + 1454096 / 877 * h1 + 8251 / 877 * h3 + 27360 * p00 + 1250 * p03
    · linear_combination 8 / 5 * mul_nonneg h hu + 12 / 5 * g + 743736 / 877 * h1 + 18263 / 877 * h3 + 36480 * p00 + 2010 * p03
    · linear_combination 8 / 5 * mul_nonneg h hu + 9 / 5 * g + 1109876 / 877 * h1 + 15760 / 877 * h3 + 29640 * p00 + 1820 * p03

theorem cell1_1_0 {s t a b : ℚ} (h0 : 0 ≤ s - 284 / 375) (h1 : 0 ≤ 9467 / 12500 - s) (h2 : 0 ≤ t - (2)) (h3 : 0 ≤ 77 * s - 56 - t)
    (hH : HBCond 1 s t a b) (hV : LVCond (jutK 10) 2 s t a) : b * (77 * s - 56) ≤ (72 - 91 * s) * t := by
  have hu : 0 ≤ 77 * s - 56 := by linarith only [h0, h1]
  have p00 := mul_nonneg h0 h0
  have p01 := mul_nonneg h0 h1
  have p03 := mul_nonneg h0 h3
  have hV := (jut_iff 10 _ _ _ _).mp hV
  push_cast at hV
  rcases hV with g | g | g
  · have g := mul_nonneg g hu
    rcases (hbCond_iff _ _ _ _ _).mp hH with h | h | h | h | h | h | h | h | h
    · linear_combination 2 * mul_nonneg h hu + g + 12816391 / 37500 * h1 + 1156 / 375 * h2 + 6391 * p01 + 91 * p03
    · linear_combination 2 * mul_nonneg h hu + 2 * g + 4128061 / 12500 * h1 + 1156 / 375 * h2 + 6083 * p01 + 91 * p03
    · linear_combination 2 * mul_nonneg h hu + 5 / 4 * g + 9258319 / 25000 * h1 + 722 / 375 * h2 + 18557 / 2 * p01 + 259 / 2 * p03
    · linear_combination mul_nonneg h hu + 5 / 2 * g + 4609311 / 12500 * h1 + 1156 / 375 * h2 + 6083 * p01 + 91 * p03
    · linear_combination mul_nonneg h hu + 3 * g + 13611829 / 37500 * h1 + 1156 / 375 * h2 + 5929 * p01 + 91 * p03
    · linear_combination mul_nonneg h hu + 21 / 8 * g + 57453907 / 150000 * h1 + 313 / 125 * h2 + 30107 / 4 * p01 + 441 / 4 * p03
    · linear_combination 8 / 5 * mul_nonneg h hu + 8 / 5 * g + 23607199 / 62500 * h1 + 1348 / 625 * h2 + 43197 / 5 * p01 + 609 / 5 * p03
    · linear_combination 8 / 5 * mul_nonneg h hu + 12 / 5 * g + 13818553 / 37500 * h1 + 1348 / 625 * h2 + 8393 * p01 + 609 / 5 * p03
    · linear_combination 8 / 5 * mul_nonneg h hu + 9 / 5 * g + 75105947 / 187500 * h1 + 2308 / 1875 * h2 + 54747 / 5 * p01 + 763 / 5 * p03
  · have g := mul_nonneg g hu
    rcases (hbCond_iff _ _ _ _ _).mp hH with h | h | h | h | h | h | h | h | h
    · linear_combination 2 * mul_nonneg h hu + g + 10517479 / 31250 * h1 + 96 / 125 * h2 + 58674 / 5 * p01 + 168 * p03
    · linear_combination 2 * mul_nonneg h hu + 2 * g + 27432251 / 62500 * h1 + 116 / 75 * h3 + 83853 / 5 * p01 + 245 * p03
    · linear_combination 2 * mul_nonneg h hu + 5 / 4 * g + 65753233 / 150000 * h1 + 121 / 125 * h3 + 63833 / 4 * p01 + 903 / 4 * p03
    · linear_combination mul_nonneg h hu + 5 / 2 * g + 8458877 / 15000 * h1 + 338 / 125 * h3 + 38885 / 2 * p01 + 567 / 2 * p03
    · linear_combination mul_nonneg h hu + 3 * g + 60437951 / 93750 * h1 + 1448 / 375 * h3 + 109802 / 5 * p01 + 322 * p03
    · linear_combination mul_nonneg h hu + 21 / 8 * g + 966586369 / 1500000 * h1 + 893 / 250 * h3 + 862169 / 40 * p01 + 2499 / 8 * p03
    · linear_combination 8 / 5 * mul_nonneg h hu + 8 / 5 * g + 457941337 / 937500 * h1 + 116 / 75 * h3 + 429737 / 25 * p01 + 245 * p03
    · linear_combination 8 / 5 * mul_nonneg h hu + 12 / 5 * g + 579060853 / 937500 * h1 + 2124 / 625 * h3 + 530453 / 25 * p01 + 1533 / 5 * p03
    · linear_combination 8 / 5 * mul_nonneg h hu + 9 / 5 * g + 96440001 / 156250 * h1 + 5504 / 1875 * h3 + 514206 / 25 * p01 + 1456 / 5 * p03
  · have g := mul_nonneg g hu
    rcases (hbCond_iff _ _ _ _ _).mp hH with h | h | h | h | h | h | h | h | h
    · linear_combination 2 * mul_nonneg h hu + g + 59423 / 9375 * h0 + 96 / 125 * h2 + 308 * p01 + 168 * p03
    · linear_combination 2 * mul_nonneg h hu + 2 * g + 92519 / 375 * h0 + 116 / 75 * h3 + 6083 * p00 + 245 * p03
    · linear_combination 2 * mul_nonneg h hu + 5 / 4 * g + 486633 / 50000 * h1 + 121 / 125 * h3 + 6699 / 4 * p01 + 903 / 4 * p03
    · linear_combination mul_nonneg h hu + 5 / 2 * g + 73269 / 250 * h0 + 338 / 125 * h3 + 18249 / 2 * p00 + 567 / 2 * p03
    · linear_combination mul_nonneg h hu + 3 * g + 28777 / 75 * h0 + 1448 / 375 * h3 + 12320 * p00 + 322 * p03
    · linear_combination mul_nonneg h hu + 21 / 8 * g + 95809 / 375 * h0 + 893 / 250 * h3 + 67529 / 8 * p00 + 2499 / 8 * p03
    · linear_combination 8 / 5 * mul_nonneg h hu + 8 / 5 * g + 112756 / 1875 * h0 + 116 / 75 * h3 + 5467 / 5 * p00 + 245 * p03
    · linear_combination 8 / 5 * mul_nonneg h hu + 12 / 5 * g + 384608 / 1875 * h0 + 2124 / 625 * h3 + 31031 / 5 * p00 + 1533 / 5 * p03
    · linear_combination 8 / 5 * mul_nonneg h hu + 9 / 5 * g + 5504 / 1875 * h3 + 1456 / 5 * p03

theorem cell1_1_1 {s t a b : ℚ} (h0 : 0 ≤ s - 284 / 375) (h1 : 0 ≤ 9467 / 12500 - s) (h2 : 0 ≤ t - (77 * s - 56)) (h3 : 0 ≤ 12 / 5 - t)
    (hH : HBCond 2 s t a b) (hV : LVCond (jutK 10) 2 s t a) : b * (77 * s - 56) ≤ (72 - 91 * s) * t := by
  have hu : 0 ≤ 77 * s - 56 := by linarith only [h0, h1]
  have p00 := mul_nonneg h0 h0
  have p03 := mul_nonneg h0 h3
  have p12 := mul_nonneg h1 h2
  have hV := (jut_iff 10 _ _ _ _).mp hV
  push_cast at hV
  rcases hV with g | g | g
  · have g := mul_nonneg g hu
    rcases (hbCond_iff _ _ _ _ _).mp hH with h | h | h | h | h | h | h | h | h
    · linear_combination 2 * mul_nonneg h hu + g + 66556 / 375 * h1 + 1156 / 375 * h2 + 924 * p00 + 91 * p03
    · linear_combination 2 * mul_nonneg h hu + 2 * g + 33362 / 375 * h1 + 1156 / 375 * h2 + 1232 * p00 + 91 * p03
    · linear_combination 2 * mul_nonneg h hu + 5 / 4 * g + 27671 / 125 * h1 + 722 / 375 * h2 + 1001 * p00 + 259 / 2 * p03
    · linear_combination mul_nonneg h hu + 5 / 2 * g + 16653 / 125 * h1 + 1156 / 375 * h2 + 1078 * p00 + 91 * p03
    · linear_combination mul_nonneg h hu + 3 * g + 33362 / 375 * h1 + 1156 / 375 * h2 + 1232 * p00 + 91 * p03
    · linear_combination mul_nonneg h hu + 21 / 8 * g + 931 / 6 * h1 + 313 / 125 * h2 + 2233 / 2 * p00 + 441 / 4 * p03
    · linear_combination 8 / 5 * mul_nonneg h hu + 8 / 5 * g + 398608 / 1875 * h1 + 1348 / 625 * h2 + 4928 / 5 * p00 + 609 / 5 * p03
    · linear_combination 8 / 5 * mul_nonneg h hu + 12 / 5 * g + 265832 / 1875 * h1 + 1348 / 625 * h2 + 1232 * p00 + 609 / 5 * p03
    · linear_combination 8 / 5 * mul_nonneg h hu + 9 / 5 * g + 154812 / 625 * h1 + 2308 / 1875 * h2 + 5236 / 5 * p00 + 763 / 5 * p03
  · have g := mul_nonneg g hu
    rcases (hbCond_iff _ _ _ _ _).mp hH with h | h | h | h | h | h | h | h | h
    · linear_combination 2 * mul_nonneg h hu + g + 669242 / 1875 * h1 + 96 / 125 * h2 + 7546 / 5 * p00 + 168 * p03
    · linear_combination 2 * mul_nonneg h hu + 2 * g + 205478 / 625 * h1 + 116 / 75 * h3 + 12012 / 5 * p00 + 245 * p03
    · linear_combination 2 * mul_nonneg h hu + 5 / 4 * g + 18557 / 50 * h1 + 121 / 125 * h3 + 3465 / 2 * p00 + 903 / 4 * p03
    · linear_combination mul_nonneg h hu + 5 / 2 * g + 46704 / 125 * h1 + 338 / 125 * h3 + 2541 * p00 + 567 / 2 * p03
    · linear_combination mul_nonneg h hu + 3 * g + 618716 / 1875 * h1 + 1448 / 375 * h3 + 14938 / 5 * p00 + 322 * p03
    · linear_combination mul_nonneg h hu + 21 / 8 * g + 2633771 / 7500 * h1 + 893 / 250 * h3 + 53053 / 20 * p00 + 2499 / 8 * p03
    · linear_combination 8 / 5 * mul_nonneg h hu + 8 / 5 * g + 1189412 / 3125 * h1 + 116 / 75 * h3 + 48048 / 25 * p00 + 245 * p03
    · linear_combination 8 / 5 * mul_nonneg h hu + 12 / 5 * g + 2913484 / 9375 * h1 + 2124 / 625 * h3 + 65912 / 25 * p00 + 1533 / 5 * p03
    · linear_combination 8 / 5 * mul_nonneg h hu + 9 / 5 * g + 3231298 / 9375 * h1 + 5504 / 1875 * h3 + 52514 / 25 * p00 + 1456 / 5 * p03
  · have g := mul_nonneg g hu
    rcases (hbCond_iff _ _ _ _ _).mp hH with h | h | h | h | h | h | h | h | h
    · linear_combination 2 * mul_nonneg h hu + g + 2386 / 3125 * h2 + 168 * p12
    · linear_combination 2 * mul_nonneg h hu + 2 * g + 133658 / 375 * h0 + 116 / 75 * h3 + 25256 * p00 + 245 * p03
    · linear_combination 2 * mul_nonneg h hu + 5 / 4 * g + 21413 / 375 * h0 + 121 / 125 * h3 + 16016 * p00 + 903 / 4 * p03
    · linear_combination mul_nonneg h hu + 5 / 2 * g + 181069 / 375 * h0 + 338 / 125 * h3 + 31108 * p00 + 567 / 2 * p03
    · linear_combination mul_nonneg h hu + 3 * g + 261674 / 375 * h0 + 1448 / 375 * h3 + 37268 * p00 + 322 * p03
    · linear_combination mul_nonneg h hu + 21 / 8 * g + 411103 / 750 * h0 + 893 / 250 * h3 + 32648 * p00 + 2499 / 8 * p03
    · linear_combination 8 / 5 * mul_nonneg h hu + 8 / 5 * g + 314132 / 1875 * h0 + 116 / 75 * h3 + 101024 / 5 * p00 + 245 * p03
    · linear_combination 8 / 5 * mul_nonneg h hu + 12 / 5 * g + 958972 / 1875 * h0 + 2124 / 625 * h3 + 150304 / 5 * p00 + 1533 / 5 * p03
    · linear_combination 8 / 5 * mul_nonneg h hu + 9 / 5 * g + 509992 / 1875 * h0 + 5504 / 1875 * h3 + 113344 / 5 * p00 + 1456 / 5 * p03

theorem cell1_1_2 {s t a b : ℚ} (h0 : 0 ≤ s - 284 / 375) (h1 : 0 ≤ 9467 / 12500 - s) (h2 : 0 ≤ t - (12 / 5)) (h3 : 0 ≤ 2 * s + 6 / 5 - t)
    (hH : HBCond 2 s t a b) (hV : LVCond gm 2 s t a) : b * (10 * s + 6) ≤ (90 - 95 * s) * t := by
  have hu : 0 ≤ 10 * s + 6 := by linarith only [h0, h1]
  have p00 := mul_nonneg h0 h0
  have p01 := mul_nonneg h0 h1
  have p03 := mul_nonneg h0 h3
  have hV := (gm_iff _ _ _ _).mp hV
  rcases hV with g | g | g
  · have g := mul_nonneg g hu
    rcases (hbCond_iff _ _ _ _ _).mp hH with h | h | h | h | h | h | h | h | h
    · linear_combination 2 * mul_nonneg h hu + g + 155169 / 1250 * h1 + 1354 / 75 * h2 + 70 * p01 + 95 * p03
    · linear_combination 2 * mul_nonneg h hu + 2 * g + 223303 / 3750 * h1 + 1354 / 75 * h2 + 30 * p01 + 95 * p03
    · linear_combination 2 * mul_nonneg h hu + 5 / 4 * g + 399607 / 3750 * h1 + 169 / 15 * h2 + 70 * p01 + 100 * p03
    · linear_combination mul_nonneg h hu + 5 / 2 * g + 68881 / 750 * h1 + 1354 / 75 * h2 + 50 * p01 + 95 * p03
    · linear_combination mul_nonneg h hu + 3 * g + 223303 / 3750 * h1 + 1354 / 75 * h2 + 30 * p01 + 95 * p03
    · linear_combination mul_nonneg h hu + 21 / 8 * g + 62291 / 750 * h1 + 733 / 50 * h2 + 50 * p01 + 195 / 2 * p03
    · linear_combination 8 / 5 * mul_nonneg h hu + 8 / 5 * g + 412787 / 3750 * h1 + 1578 / 125 * h2 + 70 * p01 + 99 * p03
    · linear_combination 8 / 5 * mul_nonneg h hu + 12 / 5 * g + 1095119 / 18750 * h1 + 1578 / 125 * h2 + 38 * p01 + 99 * p03
    · linear_combination 8 / 5 * mul_nonneg h hu + 9 / 5 * g + 360067 / 3750 * h1 + 2698 / 375 * h2 + 70 * p01 + 103 * p03
  · have g := mul_nonneg g hu
    rcases (hbCond_iff _ _ _ _ _).mp hH with h | h | h | h | h | h | h | h | h
    · linear_combination 2 * mul_nonneg h hu + g + 268303 / 3750 * h1 + 1354 / 75 * h2 + 30 * p01 + 95 * p03
    · linear_combination 2 * mul_nonneg h hu + 2 * g + 3422 / 75 * h0 + 1354 / 75 * h2 + 50 * p00 + 95 * p03
    · linear_combination 2 * mul_nonneg h hu + 5 / 4 * g + 25517 / 625 * h1 + 169 / 15 * h2 + 20 * p01 + 100 * p03
    · linear_combination mul_nonneg h hu + 5 / 2 * g + 2972 / 75 * h0 + 1354 / 75 * h2 + 50 * p00 + 95 * p03
    · linear_combination mul_nonneg h hu + 3 * g + 7366 / 75 * h0 + 1354 / 75 * h2 + 90 * p00 + 95 * p03
    · linear_combination mul_nonneg h hu + 21 / 8 * g + 4124 / 75 * h0 + 733 / 50 * h2 + 55 * p00 + 195 / 2 * p03
    · linear_combination 8 / 5 * mul_nonneg h hu + 8 / 5 * g + 162101 / 6250 * h1 + 1578 / 125 * h2 + 6 * p01 + 99 * p03
    · linear_combination 8 / 5 * mul_nonneg h hu + 12 / 5 * g + 25426 / 375 * h0 + 1578 / 125 * h2 + 58 * p00 + 99 * p03
    · linear_combination 8 / 5 * mul_nonneg h hu + 9 / 5 * g + 34 / 25 * h1 + 2698 / 375 * h2 + 2 * p00 + 103 * p03
  · have g := mul_nonneg g hu
    rcases (hbCond_iff _ _ _ _ _).mp hH with h | h | h | h | h | h | h | h | h
    · linear_combination 2 * mul_nonneg h hu + g + 56021 / 750 * h1 + 112 / 25 * h2 + 50 * p01 + 105 * p03
    · linear_combination 2 * mul_nonneg h hu + 2 * g + 1586 / 75 * h0 + 682 / 75 * h3 + 10 * p00 + 115 * p03
    · linear_combination 2 * mul_nonneg h hu + 5 / 4 * g + 140403 / 2500 * h1 + 57 / 10 * h3 + 45 * p01 + 225 / 2 * p03
    · linear_combination mul_nonneg h hu + 5 / 2 * g + 397 / 25 * h3 + 120 * p03
    · linear_combination mul_nonneg h hu + 3 * g + 1086 / 25 * h0 + 68 / 3 * h3 + 30 * p00 + 125 * p03
    · linear_combination mul_nonneg h hu + 21 / 8 * g + 359 / 75 * h0 + 2097 / 100 * h3 + 5 / 2 * p00 + 495 / 4 * p03
    · linear_combination 8 / 5 * mul_nonneg h hu + 8 / 5 * g + 921719 / 18750 * h1 + 682 / 75 * h3 + 38 * p01 + 115 * p03
    · linear_combination 8 / 5 * mul_nonneg h hu + 12 / 5 * g + 1526 / 75 * h0 + 2494 / 125 * h3 + 10 * p00 + 123 * p03
    · linear_combination 8 / 5 * mul_nonneg h hu + 9 / 5 * g + 778117 / 18750 * h1 + 6464 / 375 * h3 + 34 * p01 + 121 * p03

theorem cell1_1_3 {s t a b : ℚ} (h0 : 0 ≤ s - 284 / 375) (h1 : 0 ≤ 9467 / 12500 - s) (h2 : 0 ≤ t - (2 * s + 6 / 5)) (h3 : 0 ≤ 18 / 5 - t)
    (hH : HBCond 2 s t a b) (hV : LVCond (jutK 10) 3 s t a) : b * (10 * s + 6) ≤ (90 - 95 * s) * t := by
  have hu : 0 ≤ 10 * s + 6 := by linarith only [h0, h1]
  have p00 := mul_nonneg h0 h0
  have p03 := mul_nonneg h0 h3
  have p12 := mul_nonneg h1 h2
  have hV := (jut_iff 10 _ _ _ _).mp hV
  push_cast at hV
  rcases hV with g | g | g
  · have g := mul_nonneg g hu
    rcases (hbCond_iff _ _ _ _ _).mp hH with h | h | h | h | h | h | h | h | h
    · linear_combination 2 * mul_nonneg h hu + g + 3746 / 25 * h1 + 1354 / 75 * h2 + 140 * p00 + 95 * p03
    · linear_combination 2 * mul_nonneg h hu + 2 * g + 1574 / 25 * h1 + 1354 / 75 * h2 + 200 * p00 + 95 * p03
    · linear_combination 2 * mul_nonneg h hu + 5 / 4 * g + 10852 / 75 * h1 + 169 / 15 * h2 + 155 * p00 + 100 * p03
    · linear_combination mul_nonneg h hu + 5 / 2 * g + 45127 / 2500 * h2 + 95 * p12
    · linear_combination mul_nonneg h hu + 3 * g + 122 / 3 * h1 + 1354 / 75 * h2 + 220 * p00 + 95 * p03
    · linear_combination mul_nonneg h hu + 21 / 8 * g + 1223 / 15 * h1 + 733 / 50 * h2 + 395 / 2 * p00 + 195 / 2 * p03
    · linear_combination 8 / 5 * mul_nonneg h hu + 8 / 5 * g + 51302 / 375 * h1 + 1578 / 125 * h2 + 160 * p00 + 99 * p03
    · linear_combination 8 / 5 * mul_nonneg h hu + 12 / 5 * g + 25238 / 375 * h1 + 1578 / 125 * h2 + 208 * p00 + 99 * p03
    · linear_combination 8 / 5 * mul_nonneg h hu + 9 / 5 * g + 16586 / 125 * h1 + 2698 / 375 * h2 + 172 * p00 + 103 * p03
  · have g := mul_nonneg g hu
    rcases (hbCond_iff _ _ _ _ _).mp hH with h | h | h | h | h | h | h | h | h
    · linear_combination 2 * mul_nonneg h hu + g + 9718 / 375 * h1 + 112 / 25 * h2 + 254 * p00 + 105 * p03
    · linear_combination 2 * mul_nonneg h hu + 2 * g + 76154 / 375 * h0 + 682 / 75 * h3 + 428 * p00 + 115 * p03
    · linear_combination 2 * mul_nonneg h hu + 5 / 4 * g + 1621 / 75 * h0 + 57 / 10 * h3 + 595 / 2 * p00 + 225 / 2 * p03
    · linear_combination mul_nonneg h hu + 5 / 2 * g + 3862 / 15 * h0 + 397 / 25 * h3 + 475 * p00 + 120 * p03
    · linear_combination mul_nonneg h hu + 3 * g + 141166 / 375 * h0 + 68 / 3 * h3 + 562 * p00 + 125 * p03
    · linear_combination mul_nonneg h hu + 21 / 8 * g + 214283 / 750 * h0 + 2097 / 100 * h3 + 1987 / 4 * p00 + 495 / 4 * p03
    · linear_combination 8 / 5 * mul_nonneg h hu + 8 / 5 * g + 149366 / 1875 * h0 + 682 / 75 * h3 + 1712 / 5 * p00 + 115 * p03
    · linear_combination 8 / 5 * mul_nonneg h hu + 12 / 5 * g + 506294 / 1875 * h0 + 2494 / 125 * h3 + 2408 / 5 * p00 + 123 * p03
    · linear_combination 8 / 5 * mul_nonneg h hu + 9 / 5 * g + 234098 / 1875 * h0 + 6464 / 375 * h3 + 1886 / 5 * p00 + 121 * p03
  · have g := mul_nonneg g hu
    rcases (hbCond_iff _ _ _ _ _).mp hH with h | h | h | h | h | h | h | h | h
    · linear_combination 2 * mul_nonneg h hu + g + 8986 / 3 * h0 + 112 / 25 * h2 + 2480 * p00 + 105 * p03
    · linear_combination 2 * mul_nonneg h hu + 2 * g + 468418 / 75 * h0 + 682 / 75 * h3 + 4880 * p00 + 115 * p03
    · linear_combination 2 * mul_nonneg h hu + 5 / 4 * g + 284863 / 75 * h0 + 57 / 10 * h3 + 3080 * p00 + 225 / 2 * p03
    · linear_combination mul_nonneg h hu + 5 / 2 * g + 585794 / 75 * h0 + 397 / 25 * h3 + 6040 * p00 + 120 * p03
    · linear_combination mul_nonneg h hu + 3 * g + 708014 / 75 * h0 + 68 / 3 * h3 + 7240 * p00 + 125 * p03
    · linear_combination mul_nonneg h hu + 21 / 8 * g + 1232473 / 150 * h0 + 2097 / 100 * h3 + 6340 * p00 + 495 / 4 * p03
    · linear_combination 8 / 5 * mul_nonneg h hu + 8 / 5 * g + 1842622 / 375 * h0 + 682 / 75 * h3 + 3904 * p00 + 115 * p03
    · linear_combination 8 / 5 * mul_nonneg h hu + 12 / 5 * g + 2820382 / 375 * h0 + 2494 / 125 * h3 + 5824 * p00 + 123 * p03
    · linear_combination 8 / 5 * mul_nonneg h hu + 9 / 5 * g + 2086162 / 375 * h0 + 6464 / 375 * h3 + 4384 * p00 + 121 * p03

theorem cell1_1_4 {s t a b : ℚ} (h0 : 0 ≤ s - 284 / 375) (h1 : 0 ≤ 9467 / 12500 - s) (h2 : 0 ≤ t - (18 / 5)) (h3 : 0 ≤ 4 - t)
    (hH : HBCond 3 s t a b) (hV : LVCond gm 3 s t a) : b * (77 * s - 56) ≤ (72 - 91 * s) * t := by
  have hu : 0 ≤ 77 * s - 56 := by linarith only [h0, h1]
  have p00 := mul_nonneg h0 h0
  have p03 := mul_nonneg h0 h3
  have hV := (gm_iff _ _ _ _).mp hV
  rcases hV with g | g | g
  · have g := mul_nonneg g hu
    rcases (hbCond_iff _ _ _ _ _).mp hH with h | h | h | h | h | h | h | h | h
    · linear_combination 2 * mul_nonneg h hu + g + 82334 / 125 * h1 + 1156 / 375 * h2 + 1386 * p00 + 91 * p03
    · linear_combination 2 * mul_nonneg h hu + 2 * g + 65737 / 125 * h1 + 1156 / 375 * h2 + 1848 * p00 + 91 * p03
    · linear_combination 2 * mul_nonneg h hu + 5 / 4 * g + 151557 / 250 * h1 + 722 / 375 * h2 + 3003 / 2 * p00 + 259 / 2 * p03
    · linear_combination mul_nonneg h hu + 5 / 2 * g + 148071 / 250 * h1 + 1156 / 375 * h2 + 1617 * p00 + 91 * p03
    · linear_combination mul_nonneg h hu + 3 * g + 65737 / 125 * h1 + 1156 / 375 * h2 + 1848 * p00 + 91 * p03
    · linear_combination mul_nonneg h hu + 21 / 8 * g + 283031 / 500 * h1 + 313 / 125 * h2 + 6699 / 4 * p00 + 441 / 4 * p03
    · linear_combination 8 / 5 * mul_nonneg h hu + 8 / 5 * g + 385448 / 625 * h1 + 1348 / 625 * h2 + 7392 / 5 * p00 + 609 / 5 * p03
    · linear_combination 8 / 5 * mul_nonneg h hu + 12 / 5 * g + 63812 / 125 * h1 + 1348 / 625 * h2 + 1848 * p00 + 609 / 5 * p03
    · linear_combination 8 / 5 * mul_nonneg h hu + 9 / 5 * g + 359226 / 625 * h1 + 2308 / 1875 * h2 + 7854 / 5 * p00 + 763 / 5 * p03
  · have g := mul_nonneg g hu
    rcases (hbCond_iff _ _ _ _ _).mp hH with h | h | h | h | h | h | h | h | h
    · linear_combination 2 * mul_nonneg h hu + g + 83062 / 125 * h1 + 1156 / 375 * h2 + 1848 * p00 + 91 * p03
    · linear_combination 2 * mul_nonneg h hu + 2 * g + 67193 / 125 * h1 + 1156 / 375 * h2 + 2772 * p00 + 91 * p03
    · linear_combination 2 * mul_nonneg h hu + 5 / 4 * g + 153377 / 250 * h1 + 722 / 375 * h2 + 2079 * p00 + 259 / 2 * p03
    · linear_combination mul_nonneg h hu + 5 / 2 * g + 151711 / 250 * h1 + 1156 / 375 * h2 + 2772 * p00 + 91 * p03
    · linear_combination mul_nonneg h hu + 3 * g + 67921 / 125 * h1 + 1156 / 375 * h2 + 3234 * p00 + 91 * p03
    · linear_combination mul_nonneg h hu + 21 / 8 * g + 11627 / 20 * h1 + 313 / 125 * h2 + 5775 / 2 * p00 + 441 / 4 * p03
    · linear_combination 8 / 5 * mul_nonneg h hu + 8 / 5 * g + 391272 / 625 * h1 + 1348 / 625 * h2 + 11088 / 5 * p00 + 609 / 5 * p03
    · linear_combination 8 / 5 * mul_nonneg h hu + 12 / 5 * g + 327796 / 625 * h1 + 1348 / 625 * h2 + 14784 / 5 * p00 + 609 / 5 * p03
    · linear_combination 8 / 5 * mul_nonneg h hu + 9 / 5 * g + 365778 / 625 * h1 + 2308 / 1875 * h2 + 12012 / 5 * p00 + 763 / 5 * p03
  · have g := mul_nonneg g hu
    rcases (hbCond_iff _ _ _ _ _).mp hH with h | h | h | h | h | h | h | h | h
    · linear_combination 2 * mul_nonneg h hu + g + 86912 / 125 * h1 + 96 / 125 * h2 + 1848 * p00 + 168 * p03
    · linear_combination 2 * mul_nonneg h hu + 2 * g + 74893 / 125 * h1 + 116 / 75 * h3 + 2772 * p00 + 245 * p03
    · linear_combination 2 * mul_nonneg h hu + 5 / 4 * g + 81501 / 125 * h1 + 121 / 125 * h3 + 2079 * p00 + 903 / 4 * p03
    · linear_combination mul_nonneg h hu + 5 / 2 * g + 170961 / 250 * h1 + 338 / 125 * h3 + 2772 * p00 + 567 / 2 * p03
    · linear_combination mul_nonneg h hu + 3 * g + 79471 / 125 * h1 + 1448 / 375 * h3 + 3234 * p00 + 322 * p03
    · linear_combination mul_nonneg h hu + 21 / 8 * g + 3311 / 5 * h1 + 893 / 250 * h3 + 5775 / 2 * p00 + 2499 / 8 * p03
    · linear_combination 8 / 5 * mul_nonneg h hu + 8 / 5 * g + 422072 / 625 * h1 + 116 / 75 * h3 + 11088 / 5 * p00 + 245 * p03
    · linear_combination 8 / 5 * mul_nonneg h hu + 12 / 5 * g + 373996 / 625 * h1 + 2124 / 625 * h3 + 14784 / 5 * p00 + 1533 / 5 * p03
    · linear_combination 8 / 5 * mul_nonneg h hu + 9 / 5 * g + 400428 / 625 * h1 + 5504 / 1875 * h3 + 12012 / 5 * p00 + 1456 / 5 * p03

theorem cell1_2_0 {s t a b : ℚ} (h0 : 0 ≤ s - 9467 / 12500) (h1 : 0 ≤ 31 / 40 - s) (h2 : 0 ≤ t - (2)) (h3 : 0 ≤ 44 / 19 - t)
    (hH : HBCond 1 s t a b) (hV : LVCond (jutK 10) 2 s t a) : b * (10 * s + 6) ≤ (90 - 95 * s) * t := by
  have hu : 0 ≤ 10 * s + 6 := by linarith only [h0, h1]
  have p00 := mul_nonneg h0 h0
  have p03 := mul_nonneg h0 h3
  have p11 := mul_nonneg h1 h1
  have hV := (jut_iff 10 _ _ _ _).mp hV
  push_cast at hV
  rcases hV with g | g | g
  · have g := mul_nonneg g hu
    rcases (hbCond_iff _ _ _ _ _).mp hH with h | h | h | h | h | h | h | h | h
    · linear_combination 2 * mul_nonneg h hu + g + 81764 / 625 * h1 + 45127 / 2500 * h2 + 80 * p00 + 95 * p03
    · linear_combination 2 * mul_nonneg h hu + 2 * g + 47646 / 625 * h1 + 45127 / 2500 * h2 + 120 * p00 + 95 * p03
    · linear_combination 2 * mul_nonneg h hu + 5 / 4 * g + 1439893 / 11875 * h1 + 1408 / 125 * h2 + 90 * p00 + 100 * p03
    · linear_combination mul_nonneg h hu + 5 / 2 * g + 50771 / 625 * h1 + 45127 / 2500 * h2 + 120 * p00 + 95 * p03
    · linear_combination mul_nonneg h hu + 3 * g + 33712 / 625 * h1 + 45127 / 2500 * h2 + 140 * p00 + 95 * p03
    · linear_combination mul_nonneg h hu + 21 / 8 * g + 72627 / 950 * h1 + 73287 / 5000 * h2 + 125 * p00 + 195 / 2 * p03
    · linear_combination 8 / 5 * mul_nonneg h hu + 8 / 5 * g + 6783596 / 59375 * h1 + 157767 / 12500 * h2 + 96 * p00 + 99 * p03
    · linear_combination 8 / 5 * mul_nonneg h hu + 12 / 5 * g + 4190628 / 59375 * h1 + 157767 / 12500 * h2 + 128 * p00 + 99 * p03
    · linear_combination 8 / 5 * mul_nonneg h hu + 9 / 5 * g + 4317968 / 41895 * h1 + 89899 / 12500 * h2 + 14675000 / 3695139 * p00 + 103 * p03 + 369619456 / 3695139 * p11
  · have g := mul_nonneg g hu
    rcases (hbCond_iff _ _ _ _ _).mp hH with h | h | h | h | h | h | h | h | h
    · linear_combination 2 * mul_nonneg h hu + g + 1737406 / 59375 * h1 + 11193 / 2500 * h2 + 156 * p00 + 105 * p03
    · linear_combination 2 * mul_nonneg h hu + 2 * g + 7533978 / 59375 * h0 + 22741 / 2500 * h3 + 272 * p00 + 115 * p03
    · linear_combination 2 * mul_nonneg h hu + 5 / 4 * g + 135301 / 23750 * h0 + 5703 / 1000 * h3 + 185 * p00 + 225 / 2 * p03
    · linear_combination mul_nonneg h hu + 5 / 2 * g + 2050438 / 11875 * h0 + 9927 / 625 * h3 + 310 * p00 + 120 * p03
    · linear_combination mul_nonneg h hu + 3 * g + 14887882 / 59375 * h0 + 2267 / 100 * h3 + 368 * p00 + 125 * p03
    · linear_combination mul_nonneg h hu + 21 / 8 * g + 45160077 / 237500 * h0 + 209733 / 10000 * h3 + 649 / 2 * p00 + 495 / 4 * p03
    · linear_combination 8 / 5 * mul_nonneg h hu + 8 / 5 * g + 14323412 / 296875 * h0 + 22741 / 2500 * h3 + 1088 / 5 * p00 + 115 * p03
    · linear_combination 8 / 5 * mul_nonneg h hu + 12 / 5 * g + 51408948 / 296875 * h0 + 249441 / 12500 * h3 + 1552 / 5 * p00 + 123 * p03
    · linear_combination 8 / 5 * mul_nonneg h hu + 9 / 5 * g + 22626046 / 296875 * h0 + 215507 / 12500 * h3 + 1204 / 5 * p00 + 121 * p03
  · have g := mul_nonneg g hu
    rcases (hbCond_iff _ _ _ _ _).mp hH with h | h | h | h | h | h | h | h | h
    · linear_combination 2 * mul_nonneg h hu + g + 23571672 / 11875 * h0 + 11193 / 2500 * h2 + 1640 * p00 + 105 * p03
    · linear_combination 2 * mul_nonneg h hu + 2 * g + 49345102 / 11875 * h0 + 22741 / 2500 * h3 + 3240 * p00 + 115 * p03
    · linear_combination 2 * mul_nonneg h hu + 5 / 4 * g + 29966592 / 11875 * h0 + 5703 / 1000 * h3 + 2040 * p00 + 225 / 2 * p03
    · linear_combination mul_nonneg h hu + 5 / 2 * g + 61848321 / 11875 * h0 + 9927 / 625 * h3 + 4020 * p00 + 120 * p03
    · linear_combination mul_nonneg h hu + 3 * g + 74735036 / 11875 * h0 + 2267 / 100 * h3 + 4820 * p00 + 125 * p03
    · linear_combination mul_nonneg h hu + 21 / 8 * g + 65045781 / 11875 * h0 + 209733 / 10000 * h3 + 4220 * p00 + 495 / 4 * p03
    · linear_combination 8 / 5 * mul_nonneg h hu + 8 / 5 * g + 194217908 / 59375 * h0 + 22741 / 2500 * h3 + 2592 * p00 + 115 * p03
    · linear_combination 8 / 5 * mul_nonneg h hu + 12 / 5 * g + 297311628 / 59375 * h0 + 249441 / 12500 * h3 + 3872 * p00 + 123 * p03
    · linear_combination 8 / 5 * mul_nonneg h hu + 9 / 5 * g + 219797588 / 59375 * h0 + 215507 / 12500 * h3 + 2912 * p00 + 121 * p03

theorem cell1_2_1 {s t a b : ℚ} (h0 : 0 ≤ s - 9467 / 12500) (h1 : 0 ≤ 31 / 40 - s) (h2 : 0 ≤ t - (44 / 19)) (h3 : 0 ≤ 12 / 5 - t)
    (hH : HBCond 2 s t a b) (hV : LVCond (jutK 10) 2 s t a) : b * (10 * s + 6) ≤ (90 - 95 * s) * t := by
  have hu : 0 ≤ 10 * s + 6 := by linarith only [h0, h1]
  have p00 := mul_nonneg h0 h0
  have p03 := mul_nonneg h0 h3
  have hV := (jut_iff 10 _ _ _ _).mp hV
  push_cast at hV
  rcases hV with g | g | g
  · have g := mul_nonneg g hu
    rcases (hbCond_iff _ _ _ _ _).mp hH with h | h | h | h | h | h | h | h | h
    · linear_combination 2 * mul_nonneg h hu + g + 58896 / 625 * h1 + 45127 / 2500 * h2 + 120 * p00 + 95 * p03
    · linear_combination 2 * mul_nonneg h hu + 2 * g + 18528 / 625 * h1 + 45127 / 2500 * h2 + 160 * p00 + 95 * p03
    · linear_combination 2 * mul_nonneg h hu + 5 / 4 * g + 46929 / 625 * h1 + 1408 / 125 * h2 + 130 * p00 + 100 * p03
    · linear_combination mul_nonneg h hu + 5 / 2 * g + 38712 / 625 * h1 + 45127 / 2500 * h2 + 140 * p00 + 95 * p03
    · linear_combination mul_nonneg h hu + 3 * g + 18528 / 625 * h1 + 45127 / 2500 * h2 + 160 * p00 + 95 * p03
    · linear_combination mul_nonneg h hu + 21 / 8 * g + 65457 / 1250 * h1 + 73287 / 5000 * h2 + 145 * p00 + 195 / 2 * p03
    · linear_combination 8 / 5 * mul_nonneg h hu + 8 / 5 * g + 246612 / 3125 * h1 + 157767 / 12500 * h2 + 128 * p00 + 99 * p03
    · linear_combination 8 / 5 * mul_nonneg h hu + 12 / 5 * g + 17028 / 625 * h1 + 157767 / 12500 * h2 + 160 * p00 + 99 * p03
    · linear_combination 8 / 5 * mul_nonneg h hu + 9 / 5 * g + 198744 / 3125 * h1 + 89899 / 12500 * h2 + 136 * p00 + 103 * p03
  · have g := mul_nonneg g hu
    rcases (hbCond_iff _ _ _ _ _).mp hH with h | h | h | h | h | h | h | h | h
    · linear_combination 2 * mul_nonneg h hu + g + 20266 / 3125 * h0 + 11193 / 2500 * h2 + 196 * p00 + 105 * p03
    · linear_combination 2 * mul_nonneg h hu + 2 * g + 536852 / 3125 * h0 + 22741 / 2500 * h3 + 312 * p00 + 115 * p03
    · linear_combination 2 * mul_nonneg h hu + 5 / 4 * g + 12703 / 250 * h0 + 5703 / 1000 * h3 + 225 * p00 + 225 / 2 * p03
    · linear_combination mul_nonneg h hu + 5 / 2 * g + 118661 / 625 * h0 + 9927 / 625 * h3 + 330 * p00 + 120 * p03
    · linear_combination mul_nonneg h hu + 3 * g + 851598 / 3125 * h0 + 2267 / 100 * h3 + 388 * p00 + 125 * p03
    · linear_combination mul_nonneg h hu + 21 / 8 * g + 2650263 / 12500 * h0 + 209733 / 10000 * h3 + 689 / 2 * p00 + 495 / 4 * p03
    · linear_combination 8 / 5 * mul_nonneg h hu + 8 / 5 * g + 1284908 / 15625 * h0 + 22741 / 2500 * h3 + 1248 / 5 * p00 + 115 * p03
    · linear_combination 8 / 5 * mul_nonneg h hu + 12 / 5 * g + 3351252 / 15625 * h0 + 249441 / 12500 * h3 + 1712 / 5 * p00 + 123 * p03
    · linear_combination 8 / 5 * mul_nonneg h hu + 9 / 5 * g + 1838994 / 15625 * h0 + 215507 / 12500 * h3 + 1364 / 5 * p00 + 121 * p03
  · have g := mul_nonneg g hu
    rcases (hbCond_iff _ _ _ _ _).mp hH with h | h | h | h | h | h | h | h | h
    · linear_combination 2 * mul_nonneg h hu + g + 1262956 / 625 * h0 + 11193 / 2500 * h2 + 1680 * p00 + 105 * p03
    · linear_combination 2 * mul_nonneg h hu + 2 * g + 2625176 / 625 * h0 + 22741 / 2500 * h3 + 3280 * p00 + 115 * p03
    · linear_combination 2 * mul_nonneg h hu + 5 / 4 * g + 1605386 / 625 * h0 + 5703 / 1000 * h3 + 2080 * p00 + 225 / 2 * p03
    · linear_combination mul_nonneg h hu + 5 / 2 * g + 3265918 / 625 * h0 + 9927 / 625 * h3 + 4040 * p00 + 120 * p03
    · linear_combination mul_nonneg h hu + 3 * g + 3947028 / 625 * h0 + 2267 / 100 * h3 + 4840 * p00 + 125 * p03
    · linear_combination mul_nonneg h hu + 21 / 8 * g + 3437133 / 625 * h0 + 209733 / 10000 * h3 + 4240 * p00 + 495 / 4 * p03
    · linear_combination 8 / 5 * mul_nonneg h hu + 8 / 5 * g + 10328204 / 3125 * h0 + 22741 / 2500 * h3 + 2624 * p00 + 115 * p03
    · linear_combination 8 / 5 * mul_nonneg h hu + 12 / 5 * g + 15777084 / 3125 * h0 + 249441 / 12500 * h3 + 3904 * p00 + 123 * p03
    · linear_combination 8 / 5 * mul_nonneg h hu + 9 / 5 * g + 11697924 / 3125 * h0 + 215507 / 12500 * h3 + 2944 * p00 + 121 * p03

theorem cell1_2_2 {s t a b : ℚ} (h0 : 0 ≤ s - 9467 / 12500) (h1 : 0 ≤ 31 / 40 - s) (h2 : 0 ≤ t - (12 / 5)) (h3 : 0 ≤ 2 * s + 6 / 5 - t)
    (hH : HBCond 2 s t a b) (hV : LVCond gm 2 s t a) : b * (10 * s + 6) ≤ (90 - 95 * s) * t := by
  have hu : 0 ≤ 10 * s + 6 := by linarith only [h0, h1]
  have p00 := mul_nonneg h0 h0
  have p01 := mul_nonneg h0 h1
  have p03 := mul_nonneg h0 h3
  have hV := (gm_iff _ _ _ _).mp hV
  rcases hV with g | g | g
  · have g := mul_nonneg g hu
    rcases (hbCond_iff _ _ _ _ _).mp hH with h | h | h | h | h | h | h | h | h
    · linear_combination 2 * mul_nonneg h hu + g + 313417 / 2500 * h1 + 45127 / 2500 * h2 + 70 * p01 + 95 * p03
    · linear_combination 2 * mul_nonneg h hu + 2 * g + 150181 / 2500 * h1 + 45127 / 2500 * h2 + 30 * p01 + 95 * p03
    · linear_combination 2 * mul_nonneg h hu + 5 / 4 * g + 269483 / 2500 * h1 + 1408 / 125 * h2 + 70 * p01 + 100 * p03
    · linear_combination mul_nonneg h hu + 5 / 2 * g + 231799 / 2500 * h1 + 45127 / 2500 * h2 + 50 * p01 + 95 * p03
    · linear_combination mul_nonneg h hu + 3 * g + 150181 / 2500 * h1 + 45127 / 2500 * h2 + 30 * p01 + 95 * p03
    · linear_combination mul_nonneg h hu + 21 / 8 * g + 52458 / 625 * h1 + 73287 / 5000 * h2 + 50 * p01 + 195 / 2 * p03
    · linear_combination 8 / 5 * mul_nonneg h hu + 8 / 5 * g + 1391349 / 12500 * h1 + 157767 / 12500 * h2 + 70 * p01 + 99 * p03
    · linear_combination 8 / 5 * mul_nonneg h hu + 12 / 5 * g + 147681 / 2500 * h1 + 157767 / 12500 * h2 + 38 * p01 + 99 * p03
    · linear_combination 8 / 5 * mul_nonneg h hu + 9 / 5 * g + 1215613 / 12500 * h1 + 89899 / 12500 * h2 + 70 * p01 + 103 * p03
  · have g := mul_nonneg g hu
    rcases (hbCond_iff _ _ _ _ _).mp hH with h | h | h | h | h | h | h | h | h
    · linear_combination 2 * mul_nonneg h hu + g + 180181 / 2500 * h1 + 45127 / 2500 * h2 + 30 * p01 + 95 * p03
    · linear_combination 2 * mul_nonneg h hu + 2 * g + 57043 / 1250 * h0 + 45127 / 2500 * h2 + 50 * p00 + 95 * p03
    · linear_combination 2 * mul_nonneg h hu + 5 / 4 * g + 51469 / 1250 * h1 + 1408 / 125 * h2 + 20 * p01 + 100 * p03
    · linear_combination mul_nonneg h hu + 5 / 2 * g + 49543 / 1250 * h0 + 45127 / 2500 * h2 + 50 * p00 + 95 * p03
    · linear_combination mul_nonneg h hu + 3 * g + 122779 / 1250 * h0 + 45127 / 2500 * h2 + 90 * p00 + 95 * p03
    · linear_combination mul_nonneg h hu + 21 / 8 * g + 137487 / 2500 * h0 + 73287 / 5000 * h2 + 55 * p00 + 195 / 2 * p03
    · linear_combination 8 / 5 * mul_nonneg h hu + 8 / 5 * g + 325461 / 12500 * h1 + 157767 / 12500 * h2 + 6 * p01 + 99 * p03
    · linear_combination 8 / 5 * mul_nonneg h hu + 12 / 5 * g + 423819 / 6250 * h0 + 157767 / 12500 * h2 + 58 * p00 + 99 * p03
    · linear_combination 8 / 5 * mul_nonneg h hu + 9 / 5 * g + 1693 / 1250 * h1 + 89899 / 12500 * h2 + 2 * p00 + 103 * p03
  · have g := mul_nonneg g hu
    rcases (hbCond_iff _ _ _ _ _).mp hH with h | h | h | h | h | h | h | h | h
    · linear_combination 2 * mul_nonneg h hu + g + 188931 / 2500 * h1 + 11193 / 2500 * h2 + 50 * p01 + 105 * p03
    · linear_combination 2 * mul_nonneg h hu + 2 * g + 13217 / 625 * h0 + 22741 / 2500 * h3 + 10 * p00 + 115 * p03
    · linear_combination 2 * mul_nonneg h hu + 5 / 4 * g + 284781 / 5000 * h1 + 5703 / 1000 * h3 + 45 * p01 + 225 / 2 * p03
    · linear_combination mul_nonneg h hu + 5 / 2 * g + 9927 / 625 * h3 + 120 * p03
    · linear_combination mul_nonneg h hu + 3 * g + 27151 / 625 * h0 + 2267 / 100 * h3 + 30 * p00 + 125 * p03
    · linear_combination mul_nonneg h hu + 21 / 8 * g + 11967 / 2500 * h0 + 209733 / 10000 * h3 + 5 / 2 * p00 + 495 / 4 * p03
    · linear_combination 8 / 5 * mul_nonneg h hu + 8 / 5 * g + 622871 / 12500 * h1 + 22741 / 2500 * h3 + 38 * p01 + 115 * p03
    · linear_combination 8 / 5 * mul_nonneg h hu + 12 / 5 * g + 12717 / 625 * h0 + 249441 / 12500 * h3 + 10 * p00 + 123 * p03
    · linear_combination 8 / 5 * mul_nonneg h hu + 9 / 5 * g + 526253 / 12500 * h1 + 215507 / 12500 * h3 + 34 * p01 + 121 * p03

theorem cell1_2_3 {s t a b : ℚ} (h0 : 0 ≤ s - 9467 / 12500) (h1 : 0 ≤ 31 / 40 - s) (h2 : 0 ≤ t - (2 * s + 6 / 5)) (h3 : 0 ≤ 18 / 5 - t)
    (hH : HBCond 2 s t a b) (hV : LVCond (jutK 10) 3 s t a) : b * (10 * s + 6) ≤ (90 - 95 * s) * t := by
  have hu : 0 ≤ 10 * s + 6 := by linarith only [h0, h1]
  have p00 := mul_nonneg h0 h0
  have p03 := mul_nonneg h0 h3
  have p12 := mul_nonneg h1 h2
  have hV := (jut_iff 10 _ _ _ _).mp hV
  push_cast at hV
  rcases hV with g | g | g
  · have g := mul_nonneg g hu
    rcases (hbCond_iff _ _ _ _ _).mp hH with h | h | h | h | h | h | h | h | h
    · linear_combination 2 * mul_nonneg h hu + g + 187297 / 1250 * h1 + 45127 / 2500 * h2 + 140 * p00 + 95 * p03
    · linear_combination 2 * mul_nonneg h hu + 2 * g + 78693 / 1250 * h1 + 45127 / 2500 * h2 + 200 * p00 + 95 * p03
    · linear_combination 2 * mul_nonneg h hu + 5 / 4 * g + 180863 / 1250 * h1 + 1408 / 125 * h2 + 155 * p00 + 100 * p03
    · linear_combination mul_nonneg h hu + 5 / 2 * g + 131 / 8 * h2 + 95 * p12
    · linear_combination mul_nonneg h hu + 3 * g + 2033 / 50 * h1 + 45127 / 2500 * h2 + 220 * p00 + 95 * p03
    · linear_combination mul_nonneg h hu + 21 / 8 * g + 10191 / 125 * h1 + 73287 / 5000 * h2 + 395 / 2 * p00 + 195 / 2 * p03
    · linear_combination 8 / 5 * mul_nonneg h hu + 8 / 5 * g + 855013 / 6250 * h1 + 157767 / 12500 * h2 + 160 * p00 + 99 * p03
    · linear_combination 8 / 5 * mul_nonneg h hu + 12 / 5 * g + 420597 / 6250 * h1 + 157767 / 12500 * h2 + 208 * p00 + 99 * p03
    · linear_combination 8 / 5 * mul_nonneg h hu + 9 / 5 * g + 829277 / 6250 * h1 + 89899 / 12500 * h2 + 172 * p00 + 103 * p03
  · have g := mul_nonneg g hu
    rcases (hbCond_iff _ _ _ _ _).mp hH with h | h | h | h | h | h | h | h | h
    · linear_combination 2 * mul_nonneg h hu + g + 161917 / 6250 * h1 + 11193 / 2500 * h2 + 254 * p00 + 105 * p03
    · linear_combination 2 * mul_nonneg h hu + 2 * g + 634688 / 3125 * h0 + 22741 / 2500 * h3 + 428 * p00 + 115 * p03
    · linear_combination 2 * mul_nonneg h hu + 5 / 4 * g + 54073 / 2500 * h0 + 5703 / 1000 * h3 + 595 / 2 * p00 + 225 / 2 * p03
    · linear_combination mul_nonneg h hu + 5 / 2 * g + 64373 / 250 * h0 + 9927 / 625 * h3 + 475 * p00 + 120 * p03
    · linear_combination mul_nonneg h hu + 3 * g + 1176477 / 3125 * h0 + 2267 / 100 * h3 + 562 * p00 + 125 * p03
    · linear_combination mul_nonneg h hu + 21 / 8 * g + 7143429 / 25000 * h0 + 209733 / 10000 * h3 + 1987 / 4 * p00 + 495 / 4 * p03
    · linear_combination 8 / 5 * mul_nonneg h hu + 8 / 5 * g + 1245002 / 15625 * h0 + 22741 / 2500 * h3 + 1712 / 5 * p00 + 115 * p03
    · linear_combination 8 / 5 * mul_nonneg h hu + 12 / 5 * g + 4219518 / 15625 * h0 + 249441 / 12500 * h3 + 2408 / 5 * p00 + 123 * p03
    · linear_combination 8 / 5 * mul_nonneg h hu + 9 / 5 * g + 1951131 / 15625 * h0 + 215507 / 12500 * h3 + 1886 / 5 * p00 + 121 * p03
  · have g := mul_nonneg g hu
    rcases (hbCond_iff _ _ _ _ _).mp hH with h | h | h | h | h | h | h | h | h
    · linear_combination 2 * mul_nonneg h hu + g + 149773 / 50 * h0 + 11193 / 2500 * h2 + 2480 * p00 + 105 * p03
    · linear_combination 2 * mul_nonneg h hu + 2 * g + 3903646 / 625 * h0 + 22741 / 2500 * h3 + 4880 * p00 + 115 * p03
    · linear_combination 2 * mul_nonneg h hu + 5 / 4 * g + 2373961 / 625 * h0 + 5703 / 1000 * h3 + 3080 * p00 + 225 / 2 * p03
    · linear_combination mul_nonneg h hu + 5 / 2 * g + 4881818 / 625 * h0 + 9927 / 625 * h3 + 6040 * p00 + 120 * p03
    · linear_combination mul_nonneg h hu + 3 * g + 5900358 / 625 * h0 + 2267 / 100 * h3 + 7240 * p00 + 125 * p03
    · linear_combination mul_nonneg h hu + 21 / 8 * g + 10271031 / 1250 * h0 + 209733 / 10000 * h3 + 6340 * p00 + 495 / 4 * p03
    · linear_combination 8 / 5 * mul_nonneg h hu + 8 / 5 * g + 15355834 / 3125 * h0 + 22741 / 2500 * h3 + 3904 * p00 + 115 * p03
    · linear_combination 8 / 5 * mul_nonneg h hu + 12 / 5 * g + 23504154 / 3125 * h0 + 249441 / 12500 * h3 + 5824 * p00 + 123 * p03
    · linear_combination 8 / 5 * mul_nonneg h hu + 9 / 5 * g + 17385414 / 3125 * h0 + 215507 / 12500 * h3 + 4384 * p00 + 121 * p03

theorem cell1_2_4 {s t a b : ℚ} (h0 : 0 ≤ s - 9467 / 12500) (h1 : 0 ≤ 31 / 40 - s) (h2 : 0 ≤ t - (18 / 5)) (h3 : 0 ≤ 4 - t)
    (hH : HBCond 3 s t a b) (hV : LVCond gm 3 s t a) : b * (10 * s + 6) ≤ (90 - 95 * s) * t := by
  have hu : 0 ≤ 10 * s + 6 := by linarith only [h0, h1]
  have p00 := mul_nonneg h0 h0
  have p03 := mul_nonneg h0 h3
  have hV := (gm_iff _ _ _ _).mp hV
  rcases hV with g | g | g
  · have g := mul_nonneg g hu
    rcases (hbCond_iff _ _ _ _ _).mp hH with h | h | h | h | h | h | h | h | h
    · linear_combination 2 * mul_nonneg h hu + g + 112094 / 625 * h1 + 45127 / 2500 * h2 + 180 * p00 + 95 * p03
    · linear_combination 2 * mul_nonneg h hu + 2 * g + 51542 / 625 * h1 + 45127 / 2500 * h2 + 240 * p00 + 95 * p03
    · linear_combination 2 * mul_nonneg h hu + 5 / 4 * g + 190787 / 1250 * h1 + 1408 / 125 * h2 + 195 * p00 + 100 * p03
    · linear_combination mul_nonneg h hu + 5 / 2 * g + 81818 / 625 * h1 + 45127 / 2500 * h2 + 210 * p00 + 95 * p03
    · linear_combination mul_nonneg h hu + 3 * g + 51542 / 625 * h1 + 45127 / 2500 * h2 + 240 * p00 + 95 * p03
    · linear_combination mul_nonneg h hu + 21 / 8 * g + 293871 / 2500 * h1 + 73287 / 5000 * h2 + 435 / 2 * p00 + 195 / 2 * p03
    · linear_combination 8 / 5 * mul_nonneg h hu + 8 / 5 * g + 493668 / 3125 * h1 + 157767 / 12500 * h2 + 192 * p00 + 99 * p03
    · linear_combination 8 / 5 * mul_nonneg h hu + 12 / 5 * g + 50292 / 625 * h1 + 157767 / 12500 * h2 + 240 * p00 + 99 * p03
    · linear_combination 8 / 5 * mul_nonneg h hu + 9 / 5 * g + 426866 / 3125 * h1 + 89899 / 12500 * h2 + 204 * p00 + 103 * p03
  · have g := mul_nonneg g hu
    rcases (hbCond_iff _ _ _ _ _).mp hH with h | h | h | h | h | h | h | h | h
    · linear_combination 2 * mul_nonneg h hu + g + 62792 / 625 * h1 + 45127 / 2500 * h2 + 240 * p00 + 95 * p03
    · linear_combination 2 * mul_nonneg h hu + 2 * g + 47062 / 625 * h0 + 45127 / 2500 * h2 + 360 * p00 + 95 * p03
    · linear_combination 2 * mul_nonneg h hu + 5 / 4 * g + 33766 / 625 * h1 + 1408 / 125 * h2 + 270 * p00 + 100 * p03
    · linear_combination mul_nonneg h hu + 5 / 2 * g + 41437 / 625 * h0 + 45127 / 2500 * h2 + 360 * p00 + 95 * p03
    · linear_combination mul_nonneg h hu + 3 * g + 96364 / 625 * h0 + 45127 / 2500 * h2 + 420 * p00 + 95 * p03
    · linear_combination mul_nonneg h hu + 21 / 8 * g + 2238 / 25 * h0 + 73287 / 5000 * h2 + 375 * p00 + 195 / 2 * p03
    · linear_combination 8 / 5 * mul_nonneg h hu + 8 / 5 * g + 99252 / 3125 * h1 + 157767 / 12500 * h2 + 288 * p00 + 99 * p03
    · linear_combination 8 / 5 * mul_nonneg h hu + 12 / 5 * g + 340164 / 3125 * h0 + 157767 / 12500 * h2 + 384 * p00 + 99 * p03
    · linear_combination 8 / 5 * mul_nonneg h hu + 9 / 5 * g + 16852 / 3125 * h0 + 89899 / 12500 * h2 + 312 * p00 + 103 * p03
  · have g := mul_nonneg g hu
    rcases (hbCond_iff _ _ _ _ _).mp hH with h | h | h | h | h | h | h | h | h
    · linear_combination 2 * mul_nonneg h hu + g + 65292 / 625 * h1 + 11193 / 2500 * h2 + 240 * p00 + 105 * p03
    · linear_combination 2 * mul_nonneg h hu + 2 * g + 42062 / 625 * h0 + 22741 / 2500 * h3 + 360 * p00 + 115 * p03
    · linear_combination 2 * mul_nonneg h hu + 5 / 4 * g + 36891 / 625 * h1 + 5703 / 1000 * h3 + 270 * p00 + 225 / 2 * p03
    · linear_combination mul_nonneg h hu + 5 / 2 * g + 35187 / 625 * h0 + 9927 / 625 * h3 + 360 * p00 + 120 * p03
    · linear_combination mul_nonneg h hu + 3 * g + 88864 / 625 * h0 + 2267 / 100 * h3 + 420 * p00 + 125 * p03
    · linear_combination mul_nonneg h hu + 21 / 8 * g + 3951 / 50 * h0 + 209733 / 10000 * h3 + 375 * p00 + 495 / 4 * p03
    · linear_combination 8 / 5 * mul_nonneg h hu + 8 / 5 * g + 119252 / 3125 * h1 + 22741 / 2500 * h3 + 288 * p00 + 115 * p03
    · linear_combination 8 / 5 * mul_nonneg h hu + 12 / 5 * g + 310164 / 3125 * h0 + 249441 / 12500 * h3 + 384 * p00 + 123 * p03
    · linear_combination 8 / 5 * mul_nonneg h hu + 9 / 5 * g + 5648 / 3125 * h1 + 215507 / 12500 * h3 + 312 * p00 + 121 * p03

theorem strip1_0 {s t a b : ℚ} (h0 : 0 ≤ s - 664 / 877) (h1 : 0 ≤ 284 / 375 - s) (t0 : 2 ≤ t) (t1 : t ≤ 4)
    (h : TupleOK [2, 3] LB [] s t a b) : b ≤ w s * t := by
  have hpos : 0 ≤ t := by linarith
  have k0 : (650 * s - 473) / (950 * s - 705) ≤ w s := le_max_of_le_left (le_min (le_rfl) (le01_0 h0 h1))
  have v0 : 0 < 950 * s - 705 := u0 (by linarith) (by linarith)
  by_cases c0 : t ≤ 152 * s - 564 / 5
  · exact (le_quot v0 (cell1_0_0 h0 h1 (by linarith) (by linarith) (tuple_hb powers h (by simp)) (tuple_lv powers h (by simp) (by simp)))).trans (mul_le_mul_of_nonneg_right k0 hpos)
  rw [not_le] at c0
  by_cases c1 : t ≤ 12 / 5
  · exact (le_quot v0 (cell1_0_1 h0 h1 (by linarith) (by linarith) (tuple_hb powers h (by simp)) (tuple_lv powers h (by simp) (by simp)))).trans (mul_le_mul_of_nonneg_right k0 hpos)
  rw [not_le] at c1
  by_cases c2 : t ≤ 19 / 7
  · exact (le_quot v0 (cell1_0_2 h0 h1 (by linarith) (by linarith) (tuple_hb powers h (by simp)) (tuple_lv powers h (by simp) (by simp)))).trans (mul_le_mul_of_nonneg_right k0 hpos)
  rw [not_le] at c2
  by_cases c3 : t ≤ 32 / 9
  · exact (le_quot v0 (cell1_0_3 h0 h1 (by linarith) (by linarith) (tuple_hb powers h (by simp)) (tuple_lv powers h (by simp) (by simp)))).trans (mul_le_mul_of_nonneg_right k0 hpos)
  rw [not_le] at c3
  exact (le_quot v0 (cell1_0_4 h0 h1 (by linarith) (by linarith) (tuple_hb powers h (by simp)) (tuple_lv powers h (by simp) (by simp)))).trans (mul_le_mul_of_nonneg_right k0 hpos)

theorem strip1_1 {s t a b : ℚ} (h0 : 0 ≤ s - 284 / 375) (h1 : 0 ≤ 9467 / 12500 - s) (t0 : 2 ≤ t) (t1 : t ≤ 4)
    (h : TupleOK [2, 3] LB [] s t a b) : b ≤ w s * t := by
  have hpos : 0 ≤ t := by linarith
  have k1 : (72 - 91 * s) / (77 * s - 56) ≤ w s := le_max_of_le_left (le_min (le10_1 h0 h1) (le_rfl))
  have v1 : 0 < 77 * s - 56 := u1 (by linarith) (by linarith)
  have k2 : (90 - 95 * s) / (10 * s + 6) ≤ w s := le_max_of_le_right (le_rfl)
  have v2 : 0 < 10 * s + 6 := u2 (by linarith) (by linarith)
  by_cases c0 : t ≤ 77 * s - 56
  · exact (le_quot v1 (cell1_1_0 h0 h1 (by linarith) (by linarith) (tuple_hb powers h (by simp)) (tuple_lv powers h (by simp) (by simp)))).trans (mul_le_mul_of_nonneg_right k1 hpos)
  rw [not_le] at c0
  by_cases c1 : t ≤ 12 / 5
  · exact (le_quot v1 (cell1_1_1 h0 h1 (by linarith) (by linarith) (tuple_hb powers h (by simp)) (tuple_lv powers h (by simp) (by simp)))).trans (mul_le_mul_of_nonneg_right k1 hpos)
  rw [not_le] at c1
  by_cases c2 : t ≤ 2 * s + 6 / 5
  · exact (le_quot v2 (cell1_1_2 h0 h1 (by linarith) (by linarith) (tuple_hb powers h (by simp)) (tuple_lv powers h (by simp) (by simp)))).trans (mul_le_mul_of_nonneg_right k2 hpos)
  rw [not_le] at c2
  by_cases c3 : t ≤ 18 / 5
  · exact (le_quot v2 (cell1_1_3 h0 h1 (by linarith) (by linarith) (tuple_hb powers h (by simp)) (tuple_lv powers h (by simp) (by simp)))).trans (mul_le_mul_of_nonneg_right k2 hpos)
  rw [not_le] at c3
  exact (le_quot v1 (cell1_1_4 h0 h1 (by linarith) (by linarith) (tuple_hb powers h (by simp)) (tuple_lv powers h (by simp) (by simp)))).trans (mul_le_mul_of_nonneg_right k1 hpos)

theorem strip1_2 {s t a b : ℚ} (h0 : 0 ≤ s - 9467 / 12500) (h1 : 0 ≤ 31 / 40 - s) (t0 : 2 ≤ t) (t1 : t ≤ 4)
    (h : TupleOK [2, 3] LB [] s t a b) : b ≤ w s * t := by
  have hpos : 0 ≤ t := by linarith
  have k2 : (90 - 95 * s) / (10 * s + 6) ≤ w s := le_max_of_le_right (le_rfl)
  have v2 : 0 < 10 * s + 6 := u2 (by linarith) (by linarith)
  by_cases c0 : t ≤ 44 / 19
  · exact (le_quot v2 (cell1_2_0 h0 h1 (by linarith) (by linarith) (tuple_hb powers h (by simp)) (tuple_lv powers h (by simp) (by simp)))).trans (mul_le_mul_of_nonneg_right k2 hpos)
  rw [not_le] at c0
  by_cases c1 : t ≤ 12 / 5
  · exact (le_quot v2 (cell1_2_1 h0 h1 (by linarith) (by linarith) (tuple_hb powers h (by simp)) (tuple_lv powers h (by simp) (by simp)))).trans (mul_le_mul_of_nonneg_right k2 hpos)
  rw [not_le] at c1
  by_cases c2 : t ≤ 2 * s + 6 / 5
  · exact (le_quot v2 (cell1_2_2 h0 h1 (by linarith) (by linarith) (tuple_hb powers h (by simp)) (tuple_lv powers h (by simp) (by simp)))).trans (mul_le_mul_of_nonneg_right k2 hpos)
  rw [not_le] at c2
  by_cases c3 : t ≤ 18 / 5
  · exact (le_quot v2 (cell1_2_3 h0 h1 (by linarith) (by linarith) (tuple_hb powers h (by simp)) (tuple_lv powers h (by simp) (by simp)))).trans (mul_le_mul_of_nonneg_right k2 hpos)
  rw [not_le] at c3
  exact (le_quot v2 (cell1_2_4 h0 h1 (by linarith) (by linarith) (tuple_hb powers h (by simp)) (tuple_lv powers h (by simp) (by simp)))).trans (mul_le_mul_of_nonneg_right k2 hpos)

theorem upper (s t a b : ℚ) (l1 : 664 / 877 ≤ s) (l2 : s < 31 / 40) (h : FeasibleE [2, 3] LB ZB 0 2 s t a b) : b ≤ w s * t := by
  have h : (2 ≤ t ∧ t ≤ 4) ∧ TupleOK [2, 3] LB [] s t a b := by
    rcases h with ⟨⟨i1, i2⟩, h⟩ | ⟨⟨i1, i2⟩, h⟩
    · exact ⟨⟨by linarith, by linarith⟩, h⟩
    · exact ⟨⟨i1, by linarith⟩, tuple_mono h⟩
  obtain ⟨⟨i1, i2⟩, h⟩ := h
  by_cases d0 : s ≤ 284 / 375
  · exact strip1_0 (by linarith) (by linarith) (by linarith) (by linarith) h
  rw [not_le] at d0
  by_cases d1 : s ≤ 9467 / 12500
  · exact strip1_1 (by linarith) (by linarith) (by linarith) (by linarith) h
  rw [not_le] at d1
  exact strip1_2 (by linarith) (by linarith) (by linarith) (by linarith) h

theorem att0 {s : ℚ} (h0 : 664 / 877 ≤ s) (h1 : s ≤ 284 / 375) :
    Inside [2, 3] LB [] 0 2 (2 * 0) (2 * 2) s (152 * s - 564 / 5) (36 / 5 - 8 * s) (104 * s - 1892 / 25) := by
  refine ⟨by linarith, by linarith, by linarith, by linarith, by linarith, by linarith, tuple_of powers ⟨by linarith, by linarith⟩ ⟨by linarith, by linarith⟩ ?_ ?_⟩
  · refine List.forall_mem_cons.mpr ⟨?_, List.forall_mem_cons.mpr ⟨?_, List.forall_mem_cons.mpr ⟨?_, List.forall_mem_nil _⟩⟩⟩
    · exact ⟨(hbCond_iff _ _ _ _ _).mpr (.inr (.inr (.inr (.inr (.inr (.inr (.inr (.inr (by linarith))))))))), List.forall_mem_cons.mpr ⟨(gm_iff _ _ _ _).mpr (.inr (.inr (by linarith))), List.forall_mem_cons.mpr ⟨(jut_iff 10 _ _ _ _).mpr (.inr (.inl (by push_cast; linarith))), List.forall_mem_nil _⟩⟩⟩
    · exact ⟨(hbCond_iff _ _ _ _ _).mpr (.inl (by linarith)), List.forall_mem_cons.mpr ⟨(gm_iff _ _ _ _).mpr (.inr (.inl (by linarith))), List.forall_mem_cons.mpr ⟨(jut_iff 10 _ _ _ _).mpr (.inr (.inr (by push_cast; linarith))), List.forall_mem_nil _⟩⟩⟩
    · exact ⟨(hbCond_iff _ _ _ _ _).mpr (.inl (by linarith)), List.forall_mem_cons.mpr ⟨(gm_iff _ _ _ _).mpr (.inl (by linarith)), List.forall_mem_cons.mpr ⟨(jut_iff 10 _ _ _ _).mpr (.inl (by push_cast; linarith)), List.forall_mem_nil _⟩⟩⟩
  · exact List.forall_mem_nil _

theorem att1 {s : ℚ} (h0 : 284 / 375 ≤ s) (h1 : s ≤ 1364 / 1801) :
    Inside [2, 3] LB [] 0 2 (2 * 0) (2 * 2) s (77 * s - 56) (64 - 83 * s) (72 - 91 * s) := by
  refine ⟨by linarith, by linarith, by linarith, by linarith, by linarith, by linarith, tuple_of powers ⟨by linarith, by linarith⟩ ⟨by linarith, by linarith⟩ ?_ ?_⟩
  · refine List.forall_mem_cons.mpr ⟨?_, List.forall_mem_cons.mpr ⟨?_, List.forall_mem_cons.mpr ⟨?_, List.forall_mem_nil _⟩⟩⟩
    · exact ⟨(hbCond_iff _ _ _ _ _).mpr (.inr (.inr (.inr (.inr (.inr (.inr (.inr (.inr (by linarith))))))))), List.forall_mem_cons.mpr ⟨(gm_iff _ _ _ _).mpr (.inr (.inr (by linarith))), List.forall_mem_cons.mpr ⟨(jut_iff 10 _ _ _ _).mpr (.inr (.inl (by push_cast; linarith))), List.forall_mem_nil _⟩⟩⟩
    · exact ⟨(hbCond_iff _ _ _ _ _).mpr (.inl (by linarith)), List.forall_mem_cons.mpr ⟨(gm_iff _ _ _ _).mpr (.inr (.inl (by linarith))), List.forall_mem_cons.mpr ⟨(jut_iff 10 _ _ _ _).mpr (.inr (.inr (by push_cast; linarith))), List.forall_mem_nil _⟩⟩⟩
    · exact ⟨(hbCond_iff _ _ _ _ _).mpr (.inl (by linarith)), List.forall_mem_cons.mpr ⟨(gm_iff _ _ _ _).mpr (.inl (by linarith)), List.forall_mem_cons.mpr ⟨(jut_iff 10 _ _ _ _).mpr (.inl (by push_cast; linarith)), List.forall_mem_nil _⟩⟩⟩
  · exact List.forall_mem_nil _

theorem att2 {s : ℚ} (h0 : 1982 / 2617 ≤ s) (h1 : s < 31 / 40) :
    Inside [2, 3] LB [] 0 2 (2 * 0) (2 * 2) s (2 * s + 6 / 5) (6 - 6 * s) (18 - 19 * s) := by
  refine ⟨by linarith, by linarith, by linarith, by linarith, by linarith, by linarith, tuple_of powers ⟨by linarith, by linarith⟩ ⟨by linarith, by linarith⟩ ?_ ?_⟩
  · refine List.forall_mem_cons.mpr ⟨?_, List.forall_mem_cons.mpr ⟨?_, List.forall_mem_cons.mpr ⟨?_, List.forall_mem_nil _⟩⟩⟩
    · exact ⟨(hbCond_iff _ _ _ _ _).mpr (.inr (.inr (.inr (.inl (by linarith))))), List.forall_mem_cons.mpr ⟨(gm_iff _ _ _ _).mpr (.inr (.inr (by linarith))), List.forall_mem_cons.mpr ⟨(jut_iff 10 _ _ _ _).mpr (.inr (.inl (by push_cast; linarith))), List.forall_mem_nil _⟩⟩⟩
    · exact ⟨(hbCond_iff _ _ _ _ _).mpr (.inr (.inr (.inr (.inl (by linarith))))), List.forall_mem_cons.mpr ⟨(gm_iff _ _ _ _).mpr (.inr (.inr (by linarith))), List.forall_mem_cons.mpr ⟨(jut_iff 10 _ _ _ _).mpr (.inr (.inl (by push_cast; linarith))), List.forall_mem_nil _⟩⟩⟩
    · exact ⟨(hbCond_iff _ _ _ _ _).mpr (.inl (by linarith)), List.forall_mem_cons.mpr ⟨(gm_iff _ _ _ _).mpr (.inl (by linarith)), List.forall_mem_cons.mpr ⟨(jut_iff 10 _ _ _ _).mpr (.inl (by push_cast; linarith)), List.forall_mem_nil _⟩⟩⟩
  · exact List.forall_mem_nil _

theorem attained (s : ℚ) (l1 : 664 / 877 ≤ s) (l2 : s < 31 / 40) : ∃ t a b, (Inside [2, 3] LB [] 0 2 (2 * 0) (2 * 2) s t a b ∨
    Inside [2, 3] LB ZB 0 2 0 2 s t a b) ∧ b = w s * t := by
  by_cases g0 : s ≤ 284 / 375
  · have h0 : 0 ≤ s - 664 / 877 := by linarith
    have h1 : 0 ≤ 284 / 375 - s := by linarith
    have e : w s = (650 * s - 473) / (950 * s - 705) := le_antisymm (max_le (min_le_of_left_le (le_rfl)) (le20_2 h0 h1)) (le_max_of_le_left (le_min (le_rfl) (le01_0 h0 h1)))
    exact ⟨_, _, _, .inl (att0 (by linarith) (by linarith)), by rw [e]; exact eq_quot (u0 (by linarith) (by linarith)) (by ring)⟩
  rw [not_le] at g0
  rcases le_total ((90 - 95 * s) / (10 * s + 6)) ((72 - 91 * s) / (77 * s - 56)) with hc | hc
  · have hs : s ≤ 1364 / 1801 := cross1 (by linarith) (by linarith) hc
    have h0 : 0 ≤ s - 284 / 375 := by linarith
    have h1 : 0 ≤ 1364 / 1801 - s := by linarith
    have e : w s = (72 - 91 * s) / (77 * s - 56) := le_antisymm (max_le (min_le_of_right_le (le_rfl)) (hc)) (le_max_of_le_left (le_min (le10_3 h0 h1) (le_rfl)))
    exact ⟨_, _, _, .inl (att1 (by linarith) (by linarith)), by rw [e]; exact eq_quot (u1 (by linarith) (by linarith)) (by ring)⟩
  have g1 : 1982 / 2617 ≤ s := cross2 (by linarith) (by linarith) hc
  have h0 : 0 ≤ s - 1982 / 2617 := by linarith
  have h1 : 0 ≤ 31 / 40 - s := by linarith
  have e : w s = (90 - 95 * s) / (10 * s + 6) := le_antisymm (max_le (min_le_of_right_le (hc)) (le_rfl)) (le_max_of_le_right (le_rfl))
  exact ⟨_, _, _, .inl (att2 (by linarith) (by linarith)), by rw [e]; exact eq_quot (u2 (by linarith) (by linarith)) (by ring)⟩

theorem notConvex1 : NotConvex [2, 3] LB [] (664 / 877) (31 / 40) 0 2 (2 * 0) (2 * 2) :=
  ⟨13 / 17, 29 / 10, 141 / 100, 693 / 200, 13 / 17, 33 / 10, 279 / 200, 432 / 125, by decide +kernel⟩

end Case4

variable {eng : Engine} {hrep : List Pt → Mat} {edges : Mat → List (Pt × Pt)} {solve : RF ℝ → RF ℝ → List ℝ} {isZero : Expr ℝ → Bool}
  {orderR : List (Region ℕ) → List (Region ℕ)} {orderK : List ℚ → List ℚ}

/-- **C85** (`prove_zero_density_energy_4`, derived.py:858-874) The function returns pieces which, at every real `sigma` of `[664/877, 31/40)`, give
`A*(sigma) = w(sigma) / (1 - sigma)` with the `w` stated here. -/
theorem C85_energy_4 (C : Contracts eng edges solve isZero orderR orderK) (hh : HRepSpec hrep) (hhz : HRepNoZero hrep) :
    ∃ out, proveEnergy4 eng hrep edges solve isZero orderR orderK = .ok out ∧ IsBoundE (664 / 877) (31 / 40) out
      (fun x => (max (min ((650 * x - 473) / (950 * x - 705)) ((72 - 91 * x) / (77 * x - 56))) ((90 - 95 * x) / (10 * x + 6))) / (1 - x)) := by
  have := deriveE C hh hhz [2, 3] Case4.powers Case4.LB Case4.ZB (List.forall_mem_cons.mpr ⟨good_gm, List.forall_mem_cons.mpr ⟨good_jutK (j := 10) (by norm_num), List.forall_mem_nil _⟩⟩) (List.forall_mem_nil _) 0 2 (664 / 877) (31 / 40)
    (by norm_num) (by norm_num) (by norm_num) (by decide +kernel) (by norm_num) (by norm_num) (by norm_num) (by norm_num) Case4.notConvex1
    (.inl ⟨rfl, rfl⟩) Case4.w (fun x => max (min ((650 * x - 473) / (950 * x - 705)) ((72 - 91 * x) / (77 * x - 56))) ((90 - 95 * x) / (10 * x + 6))) (fun s _ _ => by simp only [Case4.w]; push_cast; rfl) ?_ Case4.attained Case4.upper
  · exact this
  · intro x l1 l2
    push_cast at l1 l2
    have k0 : ContinuousAt (fun x : ℝ => (650 * x - 473) / (950 * x - 705)) x := ContinuousAt.div (by fun_prop) (by fun_prop) (by intro h; linarith)
    have k1 : ContinuousAt (fun x : ℝ => (72 - 91 * x) / (77 * x - 56)) x := ContinuousAt.div (by fun_prop) (by fun_prop) (by intro h; linarith)
    have k2 : ContinuousAt (fun x : ℝ => (90 - 95 * x) / (10 * x + 6)) x := ContinuousAt.div (by fun_prop) (by fun_prop) (by intro h; linarith)
    exact (Filter.Tendsto.max (Filter.Tendsto.min k0 k1) k2)

/-- The value at `13/17`. -/
example : ∃ eng hrep edges solve isZero orderR orderK out, proveEnergy4 eng hrep edges solve isZero orderR orderK = .ok out ∧
    ∃ q ∈ out, q.1.at (13 / 17) = (5015 / 928 : ℝ) := by
  obtain ⟨eng, edges, solve, isZero, orderR, orderK, C⟩ := contracts_satisfiable
  obtain ⟨hrep, hh, hhz⟩ := hRepNoZero_satisfiable
  obtain ⟨out, h1, h2⟩ := C85_energy_4 C hh hhz
  obtain ⟨q, q1, _, _, _, q5⟩ := h2 (13 / 17) (by norm_num) (by norm_num)
  exact ⟨eng, hrep, edges, solve, isZero, orderR, orderK, out, h1, q, q1, by rw [q5]; norm_num⟩

end DerivedEnergy
end Expdb
