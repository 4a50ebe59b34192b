import Verif.Props.DerivedEnergyForms

/-!
# C85: the zero density energy estimate that `prove_zero_density_energy_9` derives

The upper bound is proved on cells of the `(sigma, tau)` plane, with one power of Heath-Brown's relation and one power of one large value
estimate on each cell.
-/

namespace Expdb
namespace DerivedEnergy

open Rational SupRatio Mat Region ZeroDensity DerivedZD

namespace Case9

/-- The bound times `1 - sigma`. -/
def w (s : ℚ) : ℚ := max ((810 * s - 593) / (1150 * s - 855)) ((1064 - 1100 * s) / (275 * s - 35))

/-- The estimates. -/
abbrev LB : List (List (ℚ × ℚ × ℚ)) := [gm, jutK 12]

/-- The zeta large value estimates. -/
abbrev ZB : List (List (ℚ × ℚ × ℚ)) := [tw]

theorem powers : ∀ k ∈ ([2, 3] : List ℚ), 1 ≤ k := by decide +kernel

theorem u0 {s : ℚ} (l1 : 443 / 586 ≤ s) (l2 : s ≤ 373 / 493) : 0 < 1150 * s - 855 := by linarith

theorem u1 {s : ℚ} (l1 : 443 / 586 ≤ s) (l2 : s ≤ 373 / 493) : 0 < 275 * s - 35 := by linarith

theorem le10_0 {s : ℚ} (h0 : 0 ≤ s - 443 / 586) (h1 : 0 ≤ 409 / 541 - s) : (1064 - 1100 * s) / (275 * s - 35) ≤ (810 * s - 593) / (1150 * s - 855) := by
  rw [div_le_div_iff₀ (u1 (by linarith) (by linarith)) (u0 (by linarith) (by linarith))]
  nlinarith [mul_nonneg h0 h1, mul_nonneg h0 h0, mul_nonneg h1 h1]

theorem le01_1 {s : ℚ} (h0 : 0 ≤ s - 409 / 541) (h1 : 0 ≤ 373 / 493 - s) : (810 * s - 593) / (1150 * s - 855) ≤ (1064 - 1100 * s) / (275 * s - 35) := by
  rw [div_le_div_iff₀ (u0 (by linarith) (by linarith)) (u1 (by linarith) (by linarith))]
  nlinarith [mul_nonneg h0 h1, mul_nonneg h0 h0, mul_nonneg h1 h1]

theorem cell1_0_0 {s t a b : ℚ} (h0 : 0 ≤ s - 443 / 586) (h1 : 0 ≤ 409 / 541 - s) (h2 : 0 ≤ t - (2)) (h3 : 0 ≤ 184 * s - 684 / 5 - t)
    (hH : HBCond 1 s t a b) (hV : LVCond (jutK 12) 2 s t a) : b * (1150 * s - 855) ≤ (810 * s - 593) * t := by
  have hu : 0 ≤ 1150 * s - 855 := by linarith only [h0, h1]
  have p00 := mul_nonneg h0 h0
  have p01 := mul_nonneg h0 h1
  have p02 := mul_nonneg h0 h2
  have p03 := mul_nonneg h0 h3
  have hV := (jut_iff 12 _ _ _ _).mp hV
  push_cast at hV
  rcases hV with g | g | g
  · have g := mul_nonneg g hu
    rcases (hbCond_iff _ _ _ _ _).mp hH with h | h | h | h | h | h | h | h | h
    · linear_combination 2 * mul_nonneg h hu + g + 149460 / 293 * h1 + 5666 / 293 * h2 + 9200 * p00 + 810 * p02
    · linear_combination 2 * mul_nonneg h hu + 2 * g + 124570 / 293 * h1 + 5666 / 293 * h2 + 13800 * p00 + 810 * p02
    · linear_combination 2 * mul_nonneg h hu + 5 / 4 * g + 227475 / 293 * h1 + 3561 / 293 * h2 + 10350 * p00 + 235 * p02
    · linear_combination mul_nonneg h hu + 5 / 2 * g + 293045 / 293 * h1 + 5666 / 293 * h2 + 13800 * p00 + 810 * p02
    · linear_combination mul_nonneg h hu + 3 * g + 280600 / 293 * h1 + 5666 / 293 * h2 + 16100 * p00 + 810 * p02
    · linear_combination mul_nonneg h hu + 21 / 8 * g + 664105 / 586 * h1 + 9227 / 586 * h2 + 14375 * p00 + 1045 / 2 * p02
    · linear_combination 8 / 5 * mul_nonneg h hu + 8 / 5 * g + 274284 / 293 * h1 + 3982 / 293 * h2 + 11040 * p00 + 350 * p02
    · linear_combination 8 / 5 * mul_nonneg h hu + 12 / 5 * g + 254372 / 293 * h1 + 3982 / 293 * h2 + 14720 * p00 + 350 * p02
    · linear_combination 8 / 5 * mul_nonneg h hu + 9 / 5 * g + 187411152 / 158513 * h1 + 2298 / 293 * h2 + 8280 * p01 + 110 * p03
  · have g := mul_nonneg g hu
    rcases (hbCond_iff _ _ _ _ _).mp hH with h | h | h | h | h | h | h | h | h
    · linear_combination 2 * mul_nonneg h hu + g + 168648922 / 475539 * h1 + 1456 / 293 * h2 + 133630 / 3 * p01 + 340 * p03
    · linear_combination 2 * mul_nonneg h hu + 2 * g + 994456970 / 475539 * h1 + 2754 / 293 * h3 + 728180 / 3 * p01 + 1490 * p03
    · linear_combination 2 * mul_nonneg h hu + 5 / 4 * g + 1795657645 / 951078 * h1 + 3403 / 586 * h3 + 1199335 / 6 * p01 + 2405 / 2 * p03
    · linear_combination mul_nonneg h hu + 5 / 2 * g + 1918436200 / 475539 * h1 + 4859 / 293 * h3 + 1032355 / 3 * p01 + 2065 * p03
    · linear_combination mul_nonneg h hu + 3 * g + 849581440 / 158513 * h1 + 6964 / 293 * h3 + 443210 * p01 + 2640 * p03
    · linear_combination mul_nonneg h hu + 21 / 8 * g + 3333906995 / 634052 * h1 + 25751 / 1172 * h3 + 1687165 / 4 * p01 + 9985 / 4 * p03
    · linear_combination 8 / 5 * mul_nonneg h hu + 8 / 5 * g + 1286746144 / 475539 * h1 + 2754 / 293 * h3 + 747040 / 3 * p01 + 1490 * p03
    · linear_combination 8 / 5 * mul_nonneg h hu + 12 / 5 * g + 765079712 / 158513 * h1 + 6122 / 293 * h3 + 407560 * p01 + 2410 * p03
    · linear_combination 8 / 5 * mul_nonneg h hu + 9 / 5 * g + 1366566 / 293 * h1 + 5280 / 293 * h3 + 373290 * p01 + 2180 * p03
  · have g := mul_nonneg g hu
    rcases (hbCond_iff _ _ _ _ _).mp hH with h | h | h | h | h | h | h | h | h
    · linear_combination 2 * mul_nonneg h hu + g + 653636 / 293 * h0 + 1456 / 293 * h2 + 162840 * p00 + 340 * p03
    · linear_combination 2 * mul_nonneg h hu + 2 * g + 903930 / 293 * h0 + 2754 / 293 * h3 + 172040 * p00 + 1490 * p03
    · linear_combination 2 * mul_nonneg h hu + 5 / 4 * g + 395210 / 293 * h0 + 3403 / 586 * h3 + 59340 * p00 + 2405 / 2 * p03
    · linear_combination mul_nonneg h hu + 5 / 2 * g + 714205 / 293 * h0 + 4859 / 293 * h3 + 174340 * p00 + 2065 * p03
    · linear_combination mul_nonneg h hu + 3 * g + 705400 / 293 * h0 + 6964 / 293 * h3 + 178940 * p00 + 2640 * p03
    · linear_combination mul_nonneg h hu + 21 / 8 * g + 451040 / 293 * h0 + 25751 / 1172 * h3 + 122590 * p00 + 9985 / 4 * p03
    · linear_combination 8 / 5 * mul_nonneg h hu + 8 / 5 * g + 421064 / 293 * h0 + 2754 / 293 * h3 + 82800 * p00 + 1490 * p03
    · linear_combination 8 / 5 * mul_nonneg h hu + 12 / 5 * g + 406976 / 293 * h0 + 6122 / 293 * h3 + 90160 * p00 + 2410 * p03
    · linear_combination 8 / 5 * mul_nonneg h hu + 9 / 5 * g + 5280 / 293 * h3 + 2180 * p03

theorem cell1_0_1 {s t a b : ℚ} (h0 : 0 ≤ s - 443 / 586) (h1 : 0 ≤ 409 / 541 - s) (h2 : 0 ≤ t - (184 * s - 684 / 5)) (h3 : 0 ≤ 12 / 5 - t)
    (hH : HBCond 1 s t a b) (hV : LVCond gm 2 s t a) : b * (1150 * s - 855) ≤ (810 * s - 593) * t := by
  have hu : 0 ≤ 1150 * s - 855 := by linarith only [h0, h1]
  have p00 := mul_nonneg h0 h0
  have p02 := mul_nonneg h0 h2
  have p03 := mul_nonneg h0 h3
  have p12 := mul_nonneg h1 h2
  have hV := (gm_iff _ _ _ _).mp hV
  rcases hV with g | g | g
  · have g := mul_nonneg g hu
    rcases (hbCond_iff _ _ _ _ _).mp hH with h | h | h | h | h | h | h | h | h
    · linear_combination 2 * mul_nonneg h hu + g + 964040 / 293 * h0 + 5666 / 293 * h2 + 158240 * p00 + 810 * p02
    · linear_combination 2 * mul_nonneg h hu + 2 * g + 988930 / 293 * h0 + 5666 / 293 * h2 + 162840 * p00 + 810 * p02
    · linear_combination 2 * mul_nonneg h hu + 5 / 4 * g + 448335 / 293 * h0 + 3561 / 293 * h2 + 53590 * p00 + 235 * p02
    · linear_combination mul_nonneg h hu + 5 / 2 * g + 820455 / 293 * h0 + 5666 / 293 * h2 + 162840 * p00 + 810 * p02
    · linear_combination mul_nonneg h hu + 3 * g + 832900 / 293 * h0 + 5666 / 293 * h2 + 165140 * p00 + 810 * p02
    · linear_combination mul_nonneg h hu + 21 / 8 * g + 1125205 / 586 * h0 + 9227 / 586 * h2 + 110515 * p00 + 1045 / 2 * p02
    · linear_combination 8 / 5 * mul_nonneg h hu + 8 / 5 * g + 489064 / 293 * h0 + 3982 / 293 * h2 + 75440 * p00 + 350 * p02
    · linear_combination 8 / 5 * mul_nonneg h hu + 12 / 5 * g + 508976 / 293 * h0 + 3982 / 293 * h2 + 79120 * p00 + 350 * p02
    · linear_combination 8 / 5 * mul_nonneg h hu + 9 / 5 * g + 73244 / 293 * h0 + 2298 / 293 * h2 + 11960 * p00 + 110 * p03
  · have g := mul_nonneg g hu
    rcases (hbCond_iff _ _ _ _ _).mp hH with h | h | h | h | h | h | h | h | h
    · linear_combination 2 * mul_nonneg h hu + g + 921540 / 293 * h0 + 5666 / 293 * h2 + 162840 * p00 + 810 * p02
    · linear_combination 2 * mul_nonneg h hu + 2 * g + 903930 / 293 * h0 + 5666 / 293 * h2 + 172040 * p00 + 810 * p02
    · linear_combination 2 * mul_nonneg h hu + 5 / 4 * g + 395210 / 293 * h0 + 3561 / 293 * h2 + 59340 * p00 + 235 * p02
    · linear_combination mul_nonneg h hu + 5 / 2 * g + 714205 / 293 * h0 + 5666 / 293 * h2 + 174340 * p00 + 810 * p02
    · linear_combination mul_nonneg h hu + 3 * g + 705400 / 293 * h0 + 5666 / 293 * h2 + 178940 * p00 + 810 * p02
    · linear_combination mul_nonneg h hu + 21 / 8 * g + 451040 / 293 * h0 + 9227 / 586 * h2 + 122590 * p00 + 1045 / 2 * p02
    · linear_combination 8 / 5 * mul_nonneg h hu + 8 / 5 * g + 421064 / 293 * h0 + 3982 / 293 * h2 + 82800 * p00 + 350 * p02
    · linear_combination 8 / 5 * mul_nonneg h hu + 12 / 5 * g + 406976 / 293 * h0 + 3982 / 293 * h2 + 90160 * p00 + 350 * p02
    · linear_combination 8 / 5 * mul_nonneg h hu + 9 / 5 * g + 4241 / 541 * h2 + 110 * p12
  · have g := mul_nonneg g hu
    rcases (hbCond_iff _ _ _ _ _).mp hH with h | h | h | h | h | h | h | h | h
    · linear_combination 2 * mul_nonneg h hu + g + 170876 / 293 * h0 + 1456 / 293 * h2 + 13800 * p00 + 340 * p03
    · linear_combination 2 * mul_nonneg h hu + 2 * g + 114638 / 293 * h1 + 2754 / 293 * h3 + 23000 * p00 + 1490 * p03
    · linear_combination 2 * mul_nonneg h hu + 5 / 4 * g + 253058 / 293 * h1 + 3403 / 586 * h3 + 16100 * p00 + 2405 / 2 * p03
    · linear_combination mul_nonneg h hu + 5 / 2 * g + 304363 / 293 * h1 + 4859 / 293 * h3 + 25300 * p00 + 2065 * p03
    · linear_combination mul_nonneg h hu + 3 * g + 313168 / 293 * h1 + 6964 / 293 * h3 + 29900 * p00 + 2640 * p03
    · linear_combination mul_nonneg h hu + 21 / 8 * g + 382378 / 293 * h1 + 25751 / 1172 * h3 + 26450 * p00 + 9985 / 4 * p03
    · linear_combination 8 / 5 * mul_nonneg h hu + 8 / 5 * g + 301264 / 293 * h1 + 2754 / 293 * h3 + 18400 * p00 + 1490 * p03
    · linear_combination 8 / 5 * mul_nonneg h hu + 12 / 5 * g + 315352 / 293 * h1 + 6122 / 293 * h3 + 25760 * p00 + 2410 * p03
    · linear_combination 8 / 5 * mul_nonneg h hu + 9 / 5 * g + 426088 / 293 * h1 + 5280 / 293 * h3 + 20240 * p00 + 2180 * p03

theorem cell1_0_2 {s t a b : ℚ} (h0 : 0 ≤ s - 443 / 586) (h1 : 0 ≤ 409 / 541 - s) (h2 : 0 ≤ t - (12 / 5)) (h3 : 0 ≤ 19 / 7 - t)
    (hH : HBCond 2 s t a b) (hV : LVCond gm 2 s t a) : b * (1150 * s - 855) ≤ (810 * s - 593) * t := by
  have hu : 0 ≤ 1150 * s - 855 := by linarith only [h0, h1]
  have p00 := mul_nonneg h0 h0
  have p02 := mul_nonneg h0 h2
  have p03 := mul_nonneg h0 h3
  have hV := (gm_iff _ _ _ _).mp hV
  rcases hV with g | g | g
  · have g := mul_nonneg g hu
    rcases (hbCond_iff _ _ _ _ _).mp hH with h | h | h | h | h | h | h | h | h
    · linear_combination 2 * mul_nonneg h hu + g + 366588 / 293 * h1 + 5666 / 293 * h2 + 13800 * p00 + 810 * p02
    · linear_combination 2 * mul_nonneg h hu + 2 * g + 4748 / 293 * h1 + 5666 / 293 * h2 + 18400 * p00 + 810 * p02
    · linear_combination 2 * mul_nonneg h hu + 5 / 4 * g + 175043 / 293 * h1 + 3561 / 293 * h2 + 14950 * p00 + 235 * p02
    · linear_combination mul_nonneg h hu + 5 / 2 * g + 185668 / 293 * h1 + 5666 / 293 * h2 + 16100 * p00 + 810 * p02
    · linear_combination mul_nonneg h hu + 3 * g + 4748 / 293 * h1 + 5666 / 293 * h2 + 18400 * p00 + 810 * p02
    · linear_combination mul_nonneg h hu + 21 / 8 * g + 179791 / 586 * h1 + 9227 / 586 * h2 + 16675 * p00 + 1045 / 2 * p02
    · linear_combination 8 / 5 * mul_nonneg h hu + 8 / 5 * g + 213352 / 293 * h1 + 3982 / 293 * h2 + 14720 * p00 + 350 * p02
    · linear_combination 8 / 5 * mul_nonneg h hu + 12 / 5 * g + 76120 / 293 * h0 + 3982 / 293 * h2 + 18400 * p00 + 350 * p02
    · linear_combination 8 / 5 * mul_nonneg h hu + 9 / 5 * g + 491718 / 2051 * h1 + 2298 / 293 * h2 + 15640 * p00 + 110 * p03
  · have g := mul_nonneg g hu
    rcases (hbCond_iff _ _ _ _ _).mp hH with h | h | h | h | h | h | h | h | h
    · linear_combination 2 * mul_nonneg h hu + g + 409088 / 293 * h1 + 5666 / 293 * h2 + 18400 * p00 + 810 * p02
    · linear_combination 2 * mul_nonneg h hu + 2 * g + 89748 / 293 * h1 + 5666 / 293 * h2 + 27600 * p00 + 810 * p02
    · linear_combination 2 * mul_nonneg h hu + 5 / 4 * g + 228168 / 293 * h1 + 3561 / 293 * h2 + 20700 * p00 + 235 * p02
    · linear_combination mul_nonneg h hu + 5 / 2 * g + 291918 / 293 * h1 + 5666 / 293 * h2 + 27600 * p00 + 810 * p02
    · linear_combination mul_nonneg h hu + 3 * g + 132248 / 293 * h1 + 5666 / 293 * h2 + 32200 * p00 + 810 * p02
    · linear_combination mul_nonneg h hu + 21 / 8 * g + 201458 / 293 * h1 + 9227 / 586 * h2 + 28750 * p00 + 1045 / 2 * p02
    · linear_combination 8 / 5 * mul_nonneg h hu + 8 / 5 * g + 281352 / 293 * h1 + 3982 / 293 * h2 + 22080 * p00 + 350 * p02
    · linear_combination 8 / 5 * mul_nonneg h hu + 12 / 5 * g + 25880 / 293 * h1 + 3982 / 293 * h2 + 29440 * p00 + 350 * p02
    · linear_combination 8 / 5 * mul_nonneg h hu + 9 / 5 * g + 1027218 / 2051 * h1 + 2298 / 293 * h2 + 23920 * p00 + 110 * p03
  · have g := mul_nonneg g hu
    rcases (hbCond_iff _ _ _ _ _).mp hH with h | h | h | h | h | h | h | h | h
    · linear_combination 2 * mul_nonneg h hu + g + 3082780 / 2051 * h1 + 1456 / 293 * h2 + 18400 * p00 + 340 * p03
    · linear_combination 2 * mul_nonneg h hu + 2 * g + 1588690 / 2051 * h1 + 2754 / 293 * h3 + 27600 * p00 + 1490 * p03
    · linear_combination 2 * mul_nonneg h hu + 5 / 4 * g + 4744615 / 4102 * h1 + 3403 / 586 * h3 + 20700 * p00 + 2405 / 2 * p03
    · linear_combination mul_nonneg h hu + 5 / 2 * g + 482075 / 293 * h1 + 4859 / 293 * h3 + 27600 * p00 + 2065 * p03
    · linear_combination mul_nonneg h hu + 3 * g + 2627480 / 2051 * h1 + 6964 / 293 * h3 + 32200 * p00 + 2640 * p03
    · linear_combination mul_nonneg h hu + 21 / 8 * g + 12077155 / 8204 * h1 + 25751 / 1172 * h3 + 28750 * p00 + 9985 / 4 * p03
    · linear_combination 8 / 5 * mul_nonneg h hu + 8 / 5 * g + 2929918 / 2051 * h1 + 2754 / 293 * h3 + 22080 * p00 + 1490 * p03
    · linear_combination 8 / 5 * mul_nonneg h hu + 12 / 5 * g + 1734646 / 2051 * h1 + 6122 / 293 * h3 + 29440 * p00 + 2410 * p03
    · linear_combination 8 / 5 * mul_nonneg h hu + 9 / 5 * g + 2361540 / 2051 * h1 + 5280 / 293 * h3 + 23920 * p00 + 2180 * p03

theorem cell1_0_3 {s t a b : ℚ} (h0 : 0 ≤ s - 443 / 586) (h1 : 0 ≤ 409 / 541 - s) (h2 : 0 ≤ t - (19 / 7)) (h3 : 0 ≤ 25 / 7 - t)
    (hH : HBCond 2 s t a b) (hV : LVCond (jutK 12) 3 s t a) : b * (1150 * s - 855) ≤ (810 * s - 593) * t := by
  have hu : 0 ≤ 1150 * s - 855 := by linarith only [h0, h1]
  have p00 := mul_nonneg h0 h0
  have p02 := mul_nonneg h0 h2
  have p03 := mul_nonneg h0 h3
  have hV := (jut_iff 12 _ _ _ _).mp hV
  push_cast at hV
  rcases hV with g | g | g
  · have g := mul_nonneg g hu
    rcases (hbCond_iff _ _ _ _ _).mp hH with h | h | h | h | h | h | h | h | h
    · linear_combination 2 * mul_nonneg h hu + g + 3136200 / 2051 * h1 + 5666 / 293 * h2 + 16100 * p00 + 810 * p02
    · linear_combination 2 * mul_nonneg h hu + 2 * g + 1695530 / 2051 * h1 + 5666 / 293 * h2 + 23000 * p00 + 810 * p02
    · linear_combination 2 * mul_nonneg h hu + 5 / 4 * g + 4878165 / 4102 * h1 + 3561 / 293 * h2 + 17825 * p00 + 235 * p02
    · linear_combination mul_nonneg h hu + 5 / 2 * g + 3508075 / 2051 * h1 + 5666 / 293 * h2 + 21850 * p00 + 810 * p02
    · linear_combination mul_nonneg h hu + 3 * g + 2787740 / 2051 * h1 + 5666 / 293 * h2 + 25300 * p00 + 810 * p02
    · linear_combination mul_nonneg h hu + 21 / 8 * g + 12638065 / 8204 * h1 + 9227 / 586 * h2 + 45425 / 2 * p00 + 1045 / 2 * p02
    · linear_combination 8 / 5 * mul_nonneg h hu + 8 / 5 * g + 430770 / 293 * h1 + 3982 / 293 * h2 + 18400 * p00 + 350 * p02
    · linear_combination 8 / 5 * mul_nonneg h hu + 12 / 5 * g + 266122 / 293 * h1 + 3982 / 293 * h2 + 23920 * p00 + 350 * p02
    · linear_combination 8 / 5 * mul_nonneg h hu + 9 / 5 * g + 2651076 / 2051 * h1 + 2298 / 293 * h2 + 19780 * p00 + 110 * p03
  · have g := mul_nonneg g hu
    rcases (hbCond_iff _ _ _ _ _).mp hH with h | h | h | h | h | h | h | h | h
    · linear_combination 2 * mul_nonneg h hu + g + 4528555 / 4102 * h1 + 1456 / 293 * h2 + 29325 * p00 + 340 * p03
    · linear_combination 2 * mul_nonneg h hu + 2 * g + 1375665 / 2051 * h1 + 2754 / 293 * h3 + 49450 * p00 + 1490 * p03
    · linear_combination 2 * mul_nonneg h hu + 5 / 4 * g + 21728195 / 16408 * h1 + 3403 / 586 * h3 + 137425 / 4 * p00 + 2405 / 2 * p03
    · linear_combination mul_nonneg h hu + 5 / 2 * g + 1979565 / 1172 * h1 + 4859 / 293 * h3 + 109825 / 2 * p00 + 2065 * p03
    · linear_combination mul_nonneg h hu + 3 * g + 6039865 / 4102 * h1 + 6964 / 293 * h3 + 64975 * p00 + 2640 * p03
    · linear_combination mul_nonneg h hu + 21 / 8 * g + 59041795 / 32816 * h1 + 25751 / 1172 * h3 + 459425 / 8 * p00 + 9985 / 4 * p03
    · linear_combination 8 / 5 * mul_nonneg h hu + 8 / 5 * g + 3283382 / 2051 * h1 + 2754 / 293 * h3 + 39560 * p00 + 1490 * p03
    · linear_combination 8 / 5 * mul_nonneg h hu + 12 / 5 * g + 2572492 / 2051 * h1 + 6122 / 293 * h3 + 55660 * p00 + 2410 * p03
    · linear_combination 8 / 5 * mul_nonneg h hu + 9 / 5 * g + 7289559 / 4102 * h1 + 5280 / 293 * h3 + 43585 * p00 + 2180 * p03
  · have g := mul_nonneg g hu
    rcases (hbCond_iff _ _ _ _ _).mp hH with h | h | h | h | h | h | h | h | h
    · linear_combination 2 * mul_nonneg h hu + g + 5685220 / 2051 * h0 + 1456 / 293 * h2 + 340400 * p00 + 340 * p03
    · linear_combination 2 * mul_nonneg h hu + 2 * g + 14523330 / 2051 * h0 + 2754 / 293 * h3 + 671600 * p00 + 1490 * p03
    · linear_combination 2 * mul_nonneg h hu + 5 / 4 * g + 14441695 / 4102 * h0 + 3403 / 586 * h3 + 423200 * p00 + 2405 / 2 * p03
    · linear_combination mul_nonneg h hu + 5 / 2 * g + 2344215 / 293 * h0 + 4859 / 293 * h3 + 832600 * p00 + 2065 * p03
    · linear_combination mul_nonneg h hu + 3 * g + 20828560 / 2051 * h0 + 6964 / 293 * h3 + 998200 * p00 + 2640 * p03
    · linear_combination mul_nonneg h hu + 21 / 8 * g + 68709275 / 8204 * h0 + 25751 / 1172 * h3 + 874000 * p00 + 9985 / 4 * p03
    · linear_combination 8 / 5 * mul_nonneg h hu + 8 / 5 * g + 9435814 / 2051 * h0 + 2754 / 293 * h3 + 537280 * p00 + 1490 * p03
    · linear_combination 8 / 5 * mul_nonneg h hu + 12 / 5 * g + 16506302 / 2051 * h0 + 6122 / 293 * h3 + 802240 * p00 + 2410 * p03
    · linear_combination 8 / 5 * mul_nonneg h hu + 9 / 5 * g + 10664316 / 2051 * h0 + 5280 / 293 * h3 + 603520 * p00 + 2180 * p03

theorem cell1_0_4 {s t a b : ℚ} (h0 : 0 ≤ s - 443 / 586) (h1 : 0 ≤ 409 / 541 - s) (h2 : 0 ≤ t - (25 / 7)) (h3 : 0 ≤ 4 - t)
    (hH : HBCond 3 s t a b) (hV : LVCond gm 3 s t a) : b * (1150 * s - 855) ≤ (810 * s - 593) * t := by
  have hu : 0 ≤ 1150 * s - 855 := by linarith only [h0, h1]
  have p00 := mul_nonneg h0 h0
  have p02 := mul_nonneg h0 h2
  have p03 := mul_nonneg h0 h3
  have hV := (gm_iff _ _ _ _).mp hV
  rcases hV with g | g | g
  · have g := mul_nonneg g hu
    rcases (hbCond_iff _ _ _ _ _).mp hH with h | h | h | h | h | h | h | h | h
    · linear_combination 2 * mul_nonneg h hu + g + 3896640 / 2051 * h1 + 5666 / 293 * h2 + 20700 * p00 + 810 * p02
    · linear_combination 2 * mul_nonneg h hu + 2 * g + 97320 / 2051 * h1 + 5666 / 293 * h2 + 27600 * p00 + 810 * p02
    · linear_combination 2 * mul_nonneg h hu + 5 / 4 * g + 3703445 / 4102 * h1 + 3561 / 293 * h2 + 22425 * p00 + 235 * p02
    · linear_combination mul_nonneg h hu + 5 / 2 * g + 1996980 / 2051 * h1 + 5666 / 293 * h2 + 24150 * p00 + 810 * p02
    · linear_combination mul_nonneg h hu + 3 * g + 97320 / 2051 * h1 + 5666 / 293 * h2 + 27600 * p00 + 810 * p02
    · linear_combination mul_nonneg h hu + 21 / 8 * g + 3898085 / 8204 * h1 + 9227 / 586 * h2 + 50025 / 2 * p00 + 1045 / 2 * p02
    · linear_combination 8 / 5 * mul_nonneg h hu + 8 / 5 * g + 322958 / 293 * h1 + 3982 / 293 * h2 + 22080 * p00 + 350 * p02
    · linear_combination 8 / 5 * mul_nonneg h hu + 12 / 5 * g + 111250 / 293 * h0 + 3982 / 293 * h2 + 27600 * p00 + 350 * p02
    · linear_combination 8 / 5 * mul_nonneg h hu + 9 / 5 * g + 103066 / 293 * h1 + 2298 / 293 * h2 + 23460 * p00 + 110 * p03
  · have g := mul_nonneg g hu
    rcases (hbCond_iff _ _ _ _ _).mp hH with h | h | h | h | h | h | h | h | h
    · linear_combination 2 * mul_nonneg h hu + g + 4342890 / 2051 * h1 + 5666 / 293 * h2 + 27600 * p00 + 810 * p02
    · linear_combination 2 * mul_nonneg h hu + 2 * g + 989820 / 2051 * h1 + 5666 / 293 * h2 + 41400 * p00 + 810 * p02
    · linear_combination 2 * mul_nonneg h hu + 5 / 4 * g + 2409535 / 2051 * h1 + 3561 / 293 * h2 + 31050 * p00 + 235 * p02
    · linear_combination mul_nonneg h hu + 5 / 2 * g + 3112605 / 2051 * h1 + 5666 / 293 * h2 + 41400 * p00 + 810 * p02
    · linear_combination mul_nonneg h hu + 3 * g + 1436070 / 2051 * h1 + 5666 / 293 * h2 + 48300 * p00 + 810 * p02
    · linear_combination mul_nonneg h hu + 21 / 8 * g + 4291855 / 4102 * h1 + 9227 / 586 * h2 + 43125 * p00 + 1045 / 2 * p02
    · linear_combination 8 / 5 * mul_nonneg h hu + 8 / 5 * g + 424958 / 293 * h1 + 3982 / 293 * h2 + 33120 * p00 + 350 * p02
    · linear_combination 8 / 5 * mul_nonneg h hu + 12 / 5 * g + 41750 / 293 * h1 + 3982 / 293 * h2 + 44160 * p00 + 350 * p02
    · linear_combination 8 / 5 * mul_nonneg h hu + 9 / 5 * g + 217816 / 293 * h1 + 2298 / 293 * h2 + 35880 * p00 + 110 * p03
  · have g := mul_nonneg g hu
    rcases (hbCond_iff _ _ _ _ _).mp hH with h | h | h | h | h | h | h | h | h
    · linear_combination 2 * mul_nonneg h hu + g + 653480 / 293 * h1 + 1456 / 293 * h2 + 27600 * p00 + 340 * p03
    · linear_combination 2 * mul_nonneg h hu + 2 * g + 309250 / 293 * h1 + 2754 / 293 * h3 + 41400 * p00 + 1490 * p03
    · linear_combination 2 * mul_nonneg h hu + 5 / 4 * g + 483185 / 293 * h1 + 3403 / 586 * h3 + 31050 * p00 + 2405 / 2 * p03
    · linear_combination mul_nonneg h hu + 5 / 2 * g + 679895 / 293 * h1 + 4859 / 293 * h3 + 41400 * p00 + 2065 * p03
    · linear_combination mul_nonneg h hu + 3 * g + 507780 / 293 * h1 + 6964 / 293 * h3 + 48300 * p00 + 2640 * p03
    · linear_combination mul_nonneg h hu + 21 / 8 * g + 1189495 / 586 * h1 + 25751 / 1172 * h3 + 43125 * p00 + 9985 / 4 * p03
    · linear_combination 8 / 5 * mul_nonneg h hu + 8 / 5 * g + 596656 / 293 * h1 + 2754 / 293 * h3 + 33120 * p00 + 1490 * p03
    · linear_combination 8 / 5 * mul_nonneg h hu + 12 / 5 * g + 321272 / 293 * h1 + 6122 / 293 * h3 + 44160 * p00 + 2410 * p03
    · linear_combination 8 / 5 * mul_nonneg h hu + 9 / 5 * g + 460420 / 293 * h1 + 5280 / 293 * h3 + 35880 * p00 + 2180 * p03

theorem cell1_1_0 {s t a b : ℚ} (h0 : 0 ≤ s - 409 / 541) (h1 : 0 ≤ 373 / 493 - s) (h2 : 0 ≤ t - (2)) (h3 : 0 ≤ 11 / 3 * s - 7 / 15 - t)
    (hH : HBCond 1 s t a b) (hV : LVCond (jutK 12) 2 s t a) : b * (275 * s - 35) ≤ (1064 - 1100 * s) * t := by
  have hu : 0 ≤ 275 * s - 35 := by linarith only [h0, h1]
  have p00 := mul_nonneg h0 h0
  have p01 := mul_nonneg h0 h1
  have p03 := mul_nonneg h0 h3
  have hV := (jut_iff 12 _ _ _ _).mp hV
  push_cast at hV
  rcases hV with g | g | g
  · have g := mul_nonneg g hu
    rcases (hbCond_iff _ _ _ _ _).mp hH with h | h | h | h | h | h | h | h | h
    · linear_combination 2 * mul_nonneg h hu + g + 450888000 / 266713 * h1 + 125724 / 541 * h2 + 5500 / 3 * p01 + 1100 * p03
    · linear_combination 2 * mul_nonneg h hu + 2 * g + 264493045 / 266713 * h1 + 125724 / 541 * h2 + 2200 / 3 * p01 + 1100 * p03
    · linear_combination 2 * mul_nonneg h hu + 5 / 4 * g + 433902925 / 266713 * h1 + 78954 / 541 * h2 + 4125 / 2 * p01 + 2475 / 2 * p03
    · linear_combination mul_nonneg h hu + 5 / 2 * g + 602332165 / 533426 * h1 + 125724 / 541 * h2 + 2200 / 3 * p01 + 1100 * p03
    · linear_combination mul_nonneg h hu + 3 * g + 207968605 / 266713 * h1 + 125724 / 541 * h2 + 550 / 3 * p01 + 1100 * p03
    · linear_combination mul_nonneg h hu + 21 / 8 * g + 292673545 / 266713 * h1 + 102339 / 541 * h2 + 10175 / 12 * p01 + 4675 / 4 * p03
    · linear_combination 8 / 5 * mul_nonneg h hu + 8 / 5 * g + 414690164 / 266713 * h1 + 88308 / 541 * h2 + 5390 / 3 * p01 + 1210 * p03
    · linear_combination 8 / 5 * mul_nonneg h hu + 12 / 5 * g + 265574200 / 266713 * h1 + 88308 / 541 * h2 + 2750 / 3 * p01 + 1210 * p03
    · linear_combination 8 / 5 * mul_nonneg h hu + 9 / 5 * g + 401102104 / 266713 * h1 + 50892 / 541 * h2 + 1980 * p01 + 1320 * p03
  · have g := mul_nonneg g hu
    rcases (hbCond_iff _ _ _ _ _).mp hH with h | h | h | h | h | h | h | h | h
    · linear_combination 2 * mul_nonneg h hu + g + 110073120 / 266713 * h1 + 32184 / 541 * h2 + 2200 / 3 * p01 + 1375 * p03
    · linear_combination 2 * mul_nonneg h hu + 2 * g + 620683 / 541 * h0 + 61356 / 541 * h3 + 4400 / 3 * p00 + 1650 * p03
    · linear_combination 2 * mul_nonneg h hu + 5 / 4 * g + 76523236 / 266713 * h1 + 37971 / 541 * h3 + 1375 / 2 * p01 + 6325 / 4 * p03
    · linear_combination mul_nonneg h hu + 5 / 2 * g + 1440571 / 1082 * h0 + 108126 / 541 * h3 + 6050 / 3 * p00 + 3575 / 2 * p03
    · linear_combination mul_nonneg h hu + 3 * g + 1083143 / 541 * h0 + 154896 / 541 * h3 + 9350 / 3 * p00 + 1925 * p03
    · linear_combination mul_nonneg h hu + 21 / 8 * g + 1390601 / 1082 * h0 + 286407 / 1082 * h3 + 24475 / 12 * p00 + 15125 / 8 * p03
    · linear_combination 8 / 5 * mul_nonneg h hu + 8 / 5 * g + 19702448 / 266713 * h0 + 61356 / 541 * h3 + 110 / 3 * p01 + 1650 * p03
    · linear_combination 8 / 5 * mul_nonneg h hu + 12 / 5 * g + 620548 / 541 * h0 + 136188 / 541 * h3 + 5170 / 3 * p00 + 1870 * p03
    · linear_combination 8 / 5 * mul_nonneg h hu + 9 / 5 * g + 117480 / 541 * h3 + 1815 * p03
  · have g := mul_nonneg g hu
    rcases (hbCond_iff _ _ _ _ _).mp hH with h | h | h | h | h | h | h | h | h
    · linear_combination 2 * mul_nonneg h hu + g + 16645340 / 541 * h0 + 32184 / 541 * h2 + 146575 / 3 * p00 + 1375 * p03
    · linear_combination 2 * mul_nonneg h hu + 2 * g + 34357443 / 541 * h0 + 61356 / 541 * h3 + 100650 * p00 + 1650 * p03
    · linear_combination 2 * mul_nonneg h hu + 5 / 4 * g + 20930473 / 541 * h0 + 37971 / 541 * h3 + 735625 / 12 * p00 + 6325 / 4 * p03
    · linear_combination mul_nonneg h hu + 5 / 2 * g + 85782471 / 1082 * h0 + 108126 / 541 * h3 + 755975 / 6 * p00 + 3575 / 2 * p03
    · linear_combination mul_nonneg h hu + 3 * g + 51688283 / 541 * h0 + 154896 / 541 * h3 + 455675 / 3 * p00 + 1925 * p03
    · linear_combination mul_nonneg h hu + 21 / 8 * g + 44974798 / 541 * h0 + 286407 / 1082 * h3 + 3173225 / 24 * p00 + 15125 / 8 * p03
    · linear_combination 8 / 5 * mul_nonneg h hu + 8 / 5 * g + 27029384 / 541 * h0 + 61356 / 541 * h3 + 79310 * p00 + 1650 * p03
    · linear_combination 8 / 5 * mul_nonneg h hu + 12 / 5 * g + 41104660 / 541 * h0 + 136188 / 541 * h3 + 362230 / 3 * p00 + 1870 * p03
    · linear_combination 8 / 5 * mul_nonneg h hu + 9 / 5 * g + 56124 * h0 + 117480 / 541 * h3 + 89265 * p00 + 1815 * p03

theorem cell1_1_1 {s t a b : ℚ} (h0 : 0 ≤ s - 409 / 541) (h1 : 0 ≤ 373 / 493 - s) (h2 : 0 ≤ t - (11 / 3 * s - 7 / 15)) (h3 : 0 ≤ 12 / 5 - t)
    (hH : HBCond 1 s t a b) (hV : LVCond gm 2 s t a) : b * (275 * s - 35) ≤ (1064 - 1100 * s) * t := by
  have hu : 0 ≤ 275 * s - 35 := by linarith only [h0, h1]
  have p00 := mul_nonneg h0 h0
  have p03 := mul_nonneg h0 h3
  have p12 := mul_nonneg h1 h2
  have hV := (gm_iff _ _ _ _).mp hV
  rcases hV with g | g | g
  · have g := mul_nonneg g hu
    rcases (hbCond_iff _ _ _ _ _).mp hH with h | h | h | h | h | h | h | h | h
    · linear_combination 2 * mul_nonneg h hu + g + 509332 / 541 * h1 + 125724 / 541 * h2 + 2200 * p00 + 1100 * p03
    · linear_combination 2 * mul_nonneg h hu + 2 * g + 131597 / 541 * h1 + 125724 / 541 * h2 + 3300 * p00 + 1100 * p03
    · linear_combination 2 * mul_nonneg h hu + 5 / 4 * g + 653337 / 541 * h1 + 78954 / 541 * h2 + 2475 * p00 + 2475 / 2 * p03
    · linear_combination mul_nonneg h hu + 5 / 2 * g + 411969 / 1082 * h1 + 125724 / 541 * h2 + 3300 * p00 + 1100 * p03
    · linear_combination mul_nonneg h hu + 3 * g + 17117 / 541 * h1 + 125724 / 541 * h2 + 3850 * p00 + 1100 * p03
    · linear_combination mul_nonneg h hu + 21 / 8 * g + 277987 / 541 * h1 + 102339 / 541 * h2 + 6875 / 2 * p00 + 4675 / 4 * p03
    · linear_combination 8 / 5 * mul_nonneg h hu + 8 / 5 * g + 578744 / 541 * h1 + 88308 / 541 * h2 + 2640 * p00 + 1210 * p03
    · linear_combination 8 / 5 * mul_nonneg h hu + 12 / 5 * g + 276556 / 541 * h1 + 88308 / 541 * h2 + 3520 * p00 + 1210 * p03
    · linear_combination 8 / 5 * mul_nonneg h hu + 9 / 5 * g + 693948 / 541 * h1 + 50892 / 541 * h2 + 2860 * p00 + 1320 * p03
  · have g := mul_nonneg g hu
    rcases (hbCond_iff _ _ _ _ _).mp hH with h | h | h | h | h | h | h | h | h
    · linear_combination 2 * mul_nonneg h hu + g + 161352 / 541 * h1 + 125724 / 541 * h2 + 3300 * p00 + 1100 * p03
    · linear_combination 2 * mul_nonneg h hu + 2 * g + 564363 / 541 * h0 + 125724 / 541 * h2 + 5500 * p00 + 1100 * p03
    · linear_combination 2 * mul_nonneg h hu + 5 / 4 * g + 218362 / 541 * h1 + 78954 / 541 * h2 + 3850 * p00 + 2475 / 2 * p03
    · linear_combination mul_nonneg h hu + 5 / 2 * g + 1327931 / 1082 * h0 + 125724 / 541 * h2 + 6050 * p00 + 1100 * p03
    · linear_combination mul_nonneg h hu + 3 * g + 1026823 / 541 * h0 + 125724 / 541 * h2 + 7150 * p00 + 1100 * p03
    · linear_combination mul_nonneg h hu + 21 / 8 * g + 1270921 / 1082 * h0 + 102339 / 541 * h2 + 6325 * p00 + 4675 / 4 * p03
    · linear_combination 8 / 5 * mul_nonneg h hu + 8 / 5 * g + 21976 / 541 * h1 + 88308 / 541 * h2 + 4400 * p00 + 1210 * p03
    · linear_combination 8 / 5 * mul_nonneg h hu + 12 / 5 * g + 558596 / 541 * h0 + 88308 / 541 * h2 + 6160 * p00 + 1210 * p03
    · linear_combination 8 / 5 * mul_nonneg h hu + 9 / 5 * g + 45996 / 493 * h2 + 1320 * p12
  · have g := mul_nonneg g hu
    rcases (hbCond_iff _ _ _ _ _).mp hH with h | h | h | h | h | h | h | h | h
    · linear_combination 2 * mul_nonneg h hu + g + 504332 / 541 * h1 + 32184 / 541 * h2 + 3300 * p00 + 1375 * p03
    · linear_combination 2 * mul_nonneg h hu + 2 * g + 103375 / 541 * h0 + 61356 / 541 * h3 + 5500 * p00 + 1650 * p03
    · linear_combination 2 * mul_nonneg h hu + 5 / 4 * g + 507860 / 541 * h1 + 37971 / 541 * h3 + 3850 * p00 + 6325 / 4 * p03
    · linear_combination mul_nonneg h hu + 5 / 2 * g + 405955 / 1082 * h0 + 108126 / 541 * h3 + 6050 * p00 + 3575 / 2 * p03
    · linear_combination mul_nonneg h hu + 3 * g + 565835 / 541 * h0 + 154896 / 541 * h3 + 7150 * p00 + 1925 * p03
    · linear_combination mul_nonneg h hu + 21 / 8 * g + 520435 / 1082 * h0 + 286407 / 1082 * h3 + 6325 * p00 + 15125 / 8 * p03
    · linear_combination 8 / 5 * mul_nonneg h hu + 8 / 5 * g + 345772 / 541 * h1 + 61356 / 541 * h3 + 4400 * p00 + 1650 * p03
    · linear_combination 8 / 5 * mul_nonneg h hu + 12 / 5 * g + 234800 / 541 * h0 + 136188 / 541 * h3 + 6160 * p00 + 1870 * p03
    · linear_combination 8 / 5 * mul_nonneg h hu + 9 / 5 * g + 254188 / 541 * h1 + 117480 / 541 * h3 + 4840 * p00 + 1815 * p03

theorem cell1_1_2 {s t a b : ℚ} (h0 : 0 ≤ s - 409 / 541) (h1 : 0 ≤ 373 / 493 - s) (h2 : 0 ≤ t - (12 / 5)) (h3 : 0 ≤ 19 / 7 - t)
    (hH : HBCond 2 s t a b) (hV : LVCond gm 2 s t a) : b * (275 * s - 35) ≤ (1064 - 1100 * s) * t := by
  have hu : 0 ≤ 275 * s - 35 := by linarith only [h0, h1]
  have p00 := mul_nonneg h0 h0
  have p03 := mul_nonneg h0 h3
  have hV := (gm_iff _ _ _ _).mp hV
  rcases hV with g | g | g
  · have g := mul_nonneg g hu
    rcases (hbCond_iff _ _ _ _ _).mp hH with h | h | h | h | h | h | h | h | h
    · linear_combination 2 * mul_nonneg h hu + g + 6498740 / 3787 * h1 + 125724 / 541 * h2 + 3300 * p00 + 1100 * p03
    · linear_combination 2 * mul_nonneg h hu + 2 * g + 2813170 / 3787 * h1 + 125724 / 541 * h2 + 4400 * p00 + 1100 * p03
    · linear_combination 2 * mul_nonneg h hu + 5 / 4 * g + 10857145 / 7574 * h1 + 78954 / 541 * h2 + 3575 * p00 + 2475 / 2 * p03
    · linear_combination mul_nonneg h hu + 5 / 2 * g + 4655955 / 3787 * h1 + 125724 / 541 * h2 + 3850 * p00 + 1100 * p03
    · linear_combination mul_nonneg h hu + 3 * g + 2813170 / 3787 * h1 + 125724 / 541 * h2 + 4400 * p00 + 1100 * p03
    · linear_combination mul_nonneg h hu + 21 / 8 * g + 16483485 / 15148 * h1 + 102339 / 541 * h2 + 7975 / 2 * p00 + 4675 / 4 * p03
    · linear_combination 8 / 5 * mul_nonneg h hu + 8 / 5 * g + 5642606 / 3787 * h1 + 88308 / 541 * h2 + 3520 * p00 + 1210 * p03
    · linear_combination 8 / 5 * mul_nonneg h hu + 12 / 5 * g + 2694150 / 3787 * h1 + 88308 / 541 * h2 + 4400 * p00 + 1210 * p03
    · linear_combination 8 / 5 * mul_nonneg h hu + 9 / 5 * g + 4786472 / 3787 * h1 + 50892 / 541 * h2 + 3740 * p00 + 1320 * p03
  · have g := mul_nonneg g hu
    rcases (hbCond_iff _ _ _ _ _).mp hH with h | h | h | h | h | h | h | h | h
    · linear_combination 2 * mul_nonneg h hu + g + 4062880 / 3787 * h1 + 125724 / 541 * h2 + 4400 * p00 + 1100 * p03
    · linear_combination 2 * mul_nonneg h hu + 2 * g + 2058550 / 3787 * h0 + 125724 / 541 * h2 + 6600 * p00 + 1100 * p03
    · linear_combination 2 * mul_nonneg h hu + 5 / 4 * g + 4767495 / 7574 * h1 + 78954 / 541 * h2 + 4950 * p00 + 2475 / 2 * p03
    · linear_combination mul_nonneg h hu + 5 / 2 * g + 1433695 / 3787 * h0 + 125724 / 541 * h2 + 6600 * p00 + 1100 * p03
    · linear_combination mul_nonneg h hu + 3 * g + 4494410 / 3787 * h0 + 125724 / 541 * h2 + 7700 * p00 + 1100 * p03
    · linear_combination mul_nonneg h hu + 21 / 8 * g + 9093045 / 15148 * h0 + 102339 / 541 * h2 + 6875 * p00 + 4675 / 4 * p03
    · linear_combination 8 / 5 * mul_nonneg h hu + 8 / 5 * g + 1745230 / 3787 * h1 + 88308 / 541 * h2 + 5280 * p00 + 1210 * p03
    · linear_combination 8 / 5 * mul_nonneg h hu + 12 / 5 * g + 3151914 / 3787 * h0 + 88308 / 541 * h2 + 7040 * p00 + 1210 * p03
    · linear_combination 8 / 5 * mul_nonneg h hu + 9 / 5 * g + 401924 / 3787 * h1 + 50892 / 541 * h2 + 5720 * p00 + 1320 * p03
  · have g := mul_nonneg g hu
    rcases (hbCond_iff _ _ _ _ _).mp hH with h | h | h | h | h | h | h | h | h
    · linear_combination 2 * mul_nonneg h hu + g + 4390185 / 3787 * h1 + 32184 / 541 * h2 + 4400 * p00 + 1375 * p03
    · linear_combination 2 * mul_nonneg h hu + 2 * g + 1403940 / 3787 * h0 + 61356 / 541 * h3 + 6600 * p00 + 1650 * p03
    · linear_combination 2 * mul_nonneg h hu + 5 / 4 * g + 11171515 / 15148 * h1 + 37971 / 541 * h3 + 4950 * p00 + 6325 / 4 * p03
    · linear_combination mul_nonneg h hu + 5 / 2 * g + 1230865 / 7574 * h0 + 108126 / 541 * h3 + 6600 * p00 + 3575 / 2 * p03
    · linear_combination mul_nonneg h hu + 3 * g + 501785 / 541 * h0 + 154896 / 541 * h3 + 7700 * p00 + 1925 * p03
    · linear_combination mul_nonneg h hu + 21 / 8 * g + 11312685 / 30296 * h0 + 286407 / 1082 * h3 + 6875 * p00 + 15125 / 8 * p03
    · linear_combination 8 / 5 * mul_nonneg h hu + 8 / 5 * g + 2268918 / 3787 * h1 + 61356 / 541 * h3 + 5280 * p00 + 1650 * p03
    · linear_combination 8 / 5 * mul_nonneg h hu + 12 / 5 * g + 2366382 / 3787 * h0 + 136188 / 541 * h3 + 7040 * p00 + 1870 * p03
    · linear_combination 8 / 5 * mul_nonneg h hu + 9 / 5 * g + 991073 / 3787 * h1 + 117480 / 541 * h3 + 5720 * p00 + 1815 * p03

theorem cell1_1_3 {s t a b : ℚ} (h0 : 0 ≤ s - 409 / 541) (h1 : 0 ≤ 373 / 493 - s) (h2 : 0 ≤ t - (19 / 7)) (h3 : 0 ≤ 25 / 7 - t)
    (hH : HBCond 2 s t a b) (hV : LVCond (jutK 12) 3 s t a) : b * (275 * s - 35) ≤ (1064 - 1100 * s) * t := by
  have hu : 0 ≤ 275 * s - 35 := by linarith only [h0, h1]
  have p00 := mul_nonneg h0 h0
  have p03 := mul_nonneg h0 h3
  have hV := (jut_iff 12 _ _ _ _).mp hV
  push_cast at hV
  rcases hV with g | g | g
  · have g := mul_nonneg g hu
    rcases (hbCond_iff _ _ _ _ _).mp hH with h | h | h | h | h | h | h | h | h
    · linear_combination 2 * mul_nonneg h hu + g + 9267980 / 3787 * h1 + 125724 / 541 * h2 + 3850 * p00 + 1100 * p03
    · linear_combination 2 * mul_nonneg h hu + 2 * g + 4781050 / 3787 * h1 + 125724 / 541 * h2 + 5500 * p00 + 1100 * p03
    · linear_combination 2 * mul_nonneg h hu + 5 / 4 * g + 16887595 / 7574 * h1 + 78954 / 541 * h2 + 8525 / 2 * p00 + 2475 / 2 * p03
    · linear_combination mul_nonneg h hu + 5 / 2 * g + 6223155 / 3787 * h1 + 125724 / 541 * h2 + 5225 * p00 + 1100 * p03
    · linear_combination mul_nonneg h hu + 3 * g + 3979690 / 3787 * h1 + 125724 / 541 * h2 + 6050 * p00 + 1100 * p03
    · linear_combination mul_nonneg h hu + 21 / 8 * g + 23244255 / 15148 * h1 + 102339 / 541 * h2 + 21725 / 4 * p00 + 4675 / 4 * p03
    · linear_combination 8 / 5 * mul_nonneg h hu + 8 / 5 * g + 8288090 / 3787 * h1 + 88308 / 541 * h2 + 4400 * p00 + 1210 * p03
    · linear_combination 8 / 5 * mul_nonneg h hu + 12 / 5 * g + 4698546 / 3787 * h1 + 88308 / 541 * h2 + 5720 * p00 + 1210 * p03
    · linear_combination 8 / 5 * mul_nonneg h hu + 9 / 5 * g + 7628744 / 3787 * h1 + 50892 / 541 * h2 + 4730 * p00 + 1320 * p03
  · have g := mul_nonneg g hu
    rcases (hbCond_iff _ _ _ _ _).mp hH with h | h | h | h | h | h | h | h | h
    · linear_combination 2 * mul_nonneg h hu + g + 2130985 / 3787 * h1 + 32184 / 541 * h2 + 14025 / 2 * p00 + 1375 * p03
    · linear_combination 2 * mul_nonneg h hu + 2 * g + 9492940 / 3787 * h0 + 61356 / 541 * h3 + 11825 * p00 + 1650 * p03
    · linear_combination 2 * mul_nonneg h hu + 5 / 4 * g + 1909785 / 15148 * h0 + 37971 / 541 * h3 + 65725 / 8 * p00 + 6325 / 4 * p03
    · linear_combination mul_nonneg h hu + 5 / 2 * g + 23238665 / 7574 * h0 + 108126 / 541 * h3 + 52525 / 4 * p00 + 3575 / 2 * p03
    · linear_combination mul_nonneg h hu + 3 * g + 2490185 / 541 * h0 + 154896 / 541 * h3 + 31075 / 2 * p00 + 1925 * p03
    · linear_combination mul_nonneg h hu + 21 / 8 * g + 103388385 / 30296 * h0 + 286407 / 1082 * h3 + 219725 / 16 * p00 + 15125 / 8 * p03
    · linear_combination 8 / 5 * mul_nonneg h hu + 8 / 5 * g + 3131102 / 3787 * h0 + 61356 / 541 * h3 + 9460 * p00 + 1650 * p03
    · linear_combination 8 / 5 * mul_nonneg h hu + 12 / 5 * g + 12430242 / 3787 * h0 + 136188 / 541 * h3 + 13310 * p00 + 1870 * p03
    · linear_combination 8 / 5 * mul_nonneg h hu + 9 / 5 * g + 5217847 / 3787 * h0 + 117480 / 541 * h3 + 20845 / 2 * p00 + 1815 * p03
  · have g := mul_nonneg g hu
    rcases (hbCond_iff _ _ _ _ _).mp hH with h | h | h | h | h | h | h | h | h
    · linear_combination 2 * mul_nonneg h hu + g + 174987005 / 3787 * h0 + 32184 / 541 * h2 + 81400 * p00 + 1375 * p03
    · linear_combination 2 * mul_nonneg h hu + 2 * g + 363728920 / 3787 * h0 + 61356 / 541 * h3 + 160600 * p00 + 1650 * p03
    · linear_combination 2 * mul_nonneg h hu + 5 / 4 * g + 887499735 / 15148 * h0 + 37971 / 541 * h3 + 101200 * p00 + 6325 / 4 * p03
    · linear_combination mul_nonneg h hu + 5 / 2 * g + 908828615 / 7574 * h0 + 108126 / 541 * h3 + 199100 * p00 + 3575 / 2 * p03
    · linear_combination mul_nonneg h hu + 3 * g + 78397895 / 541 * h0 + 154896 / 541 * h3 + 238700 * p00 + 1925 * p03
    · linear_combination mul_nonneg h hu + 21 / 8 * g + 3822866175 / 30296 * h0 + 286407 / 1082 * h3 + 209000 * p00 + 15125 / 8 * p03
    · linear_combination 8 / 5 * mul_nonneg h hu + 8 / 5 * g + 286519886 / 3787 * h0 + 61356 / 541 * h3 + 128480 * p00 + 1650 * p03
    · linear_combination 8 / 5 * mul_nonneg h hu + 12 / 5 * g + 437513418 / 3787 * h0 + 136188 / 541 * h3 + 191840 * p00 + 1870 * p03
    · linear_combination 8 / 5 * mul_nonneg h hu + 9 / 5 * g + 324030229 / 3787 * h0 + 117480 / 541 * h3 + 144320 * p00 + 1815 * p03

theorem cell1_1_4 {s t a b : ℚ} (h0 : 0 ≤ s - 409 / 541) (h1 : 0 ≤ 373 / 493 - s) (h2 : 0 ≤ t - (25 / 7)) (h3 : 0 ≤ 4 - t)
    (hH : HBCond 3 s t a b) (hV : LVCond gm 3 s t a) : b * (275 * s - 35) ≤ (1064 - 1100 * s) * t := by
  have hu : 0 ≤ 275 * s - 35 := by linarith only [h0, h1]
  have p00 := mul_nonneg h0 h0
  have p03 := mul_nonneg h0 h3
  have hV := (gm_iff _ _ _ _).mp hV
  rcases hV with g | g | g
  · have g := mul_nonneg g hu
    rcases (hbCond_iff _ _ _ _ _).mp hH with h | h | h | h | h | h | h | h | h
    · linear_combination 2 * mul_nonneg h hu + g + 1350080 / 541 * h1 + 125724 / 541 * h2 + 4950 * p00 + 1100 * p03
    · linear_combination 2 * mul_nonneg h hu + 2 * g + 560315 / 541 * h1 + 125724 / 541 * h2 + 6600 * p00 + 1100 * p03
    · linear_combination 2 * mul_nonneg h hu + 5 / 4 * g + 1115445 / 541 * h1 + 78954 / 541 * h2 + 10725 / 2 * p00 + 2475 / 2 * p03
    · linear_combination mul_nonneg h hu + 5 / 2 * g + 1910395 / 1082 * h1 + 125724 / 541 * h2 + 5775 * p00 + 1100 * p03
    · linear_combination mul_nonneg h hu + 3 * g + 560315 / 541 * h1 + 125724 / 541 * h2 + 6600 * p00 + 1100 * p03
    · linear_combination mul_nonneg h hu + 21 / 8 * g + 837880 / 541 * h1 + 102339 / 541 * h2 + 23925 / 4 * p00 + 4675 / 4 * p03
    · linear_combination 8 / 5 * mul_nonneg h hu + 8 / 5 * g + 1162372 / 541 * h1 + 88308 / 541 * h2 + 5280 * p00 + 1210 * p03
    · linear_combination 8 / 5 * mul_nonneg h hu + 12 / 5 * g + 530560 / 541 * h1 + 88308 / 541 * h2 + 6600 * p00 + 1210 * p03
    · linear_combination 8 / 5 * mul_nonneg h hu + 9 / 5 * g + 974664 / 541 * h1 + 50892 / 541 * h2 + 5610 * p00 + 1320 * p03
  · have g := mul_nonneg g hu
    rcases (hbCond_iff _ _ _ _ _).mp hH with h | h | h | h | h | h | h | h | h
    · linear_combination 2 * mul_nonneg h hu + g + 828110 / 541 * h1 + 125724 / 541 * h2 + 6600 * p00 + 1100 * p03
    · linear_combination 2 * mul_nonneg h hu + 2 * g + 483625 / 541 * h0 + 125724 / 541 * h2 + 9900 * p00 + 1100 * p03
    · linear_combination 2 * mul_nonneg h hu + 5 / 4 * g + 925965 / 1082 * h1 + 78954 / 541 * h2 + 7425 * p00 + 2475 / 2 * p03
    · linear_combination mul_nonneg h hu + 5 / 2 * g + 699455 / 1082 * h0 + 125724 / 541 * h2 + 9900 * p00 + 1100 * p03
    · linear_combination mul_nonneg h hu + 3 * g + 1005595 / 541 * h0 + 125724 / 541 * h2 + 11550 * p00 + 1100 * p03
    · linear_combination mul_nonneg h hu + 21 / 8 * g + 2129165 / 2164 * h0 + 102339 / 541 * h2 + 20625 / 2 * p00 + 4675 / 4 * p03
    · linear_combination 8 / 5 * mul_nonneg h hu + 8 / 5 * g + 327220 / 541 * h1 + 88308 / 541 * h2 + 7920 * p00 + 1210 * p03
    · linear_combination 8 / 5 * mul_nonneg h hu + 12 / 5 * g + 722168 / 541 * h0 + 88308 / 541 * h2 + 10560 * p00 + 1210 * p03
    · linear_combination 8 / 5 * mul_nonneg h hu + 9 / 5 * g + 35118 / 541 * h1 + 50892 / 541 * h2 + 8580 * p00 + 1320 * p03
  · have g := mul_nonneg g hu
    rcases (hbCond_iff _ _ _ _ _).mp hH with h | h | h | h | h | h | h | h | h
    · linear_combination 2 * mul_nonneg h hu + g + 887620 / 541 * h1 + 32184 / 541 * h2 + 6600 * p00 + 1375 * p03
    · linear_combination 2 * mul_nonneg h hu + 2 * g + 364605 / 541 * h0 + 61356 / 541 * h3 + 9900 * p00 + 1650 * p03
    · linear_combination 2 * mul_nonneg h hu + 5 / 4 * g + 537370 / 541 * h1 + 37971 / 541 * h3 + 7425 * p00 + 6325 / 4 * p03
    · linear_combination mul_nonneg h hu + 5 / 2 * g + 401905 / 1082 * h0 + 108126 / 541 * h3 + 9900 * p00 + 3575 / 2 * p03
    · linear_combination mul_nonneg h hu + 3 * g + 827065 / 541 * h0 + 154896 / 541 * h3 + 11550 * p00 + 1925 * p03
    · linear_combination mul_nonneg h hu + 21 / 8 * g + 752155 / 1082 * h0 + 286407 / 1082 * h3 + 20625 / 2 * p00 + 15125 / 8 * p03
    · linear_combination 8 / 5 * mul_nonneg h hu + 8 / 5 * g + 422436 / 541 * h1 + 61356 / 541 * h3 + 7920 * p00 + 1650 * p03
    · linear_combination 8 / 5 * mul_nonneg h hu + 12 / 5 * g + 579344 / 541 * h0 + 136188 / 541 * h3 + 10560 * p00 + 1870 * p03
    · linear_combination 8 / 5 * mul_nonneg h hu + 9 / 5 * g + 142236 / 541 * h1 + 117480 / 541 * h3 + 8580 * p00 + 1815 * p03

theorem strip1_0 {s t a b : ℚ} (h0 : 0 ≤ s - 443 / 586) (h1 : 0 ≤ 409 / 541 - s) (t0 : 2 ≤ t) (t1 : t ≤ 4)
    (h : TupleOK [2, 3] LB [] s t a b) : b ≤ w s * t := by
  have hpos : 0 ≤ t := by linarith
  have k0 : (810 * s - 593) / (1150 * s - 855) ≤ w s := le_max_of_le_left (le_rfl)
  have v0 : 0 < 1150 * s - 855 := u0 (by linarith) (by linarith)
  by_cases c0 : t ≤ 184 * s - 684 / 5
  · exact (le_quot v0 (cell1_0_0 h0 h1 (by linarith) (by linarith) (tuple_hb powers h (by simp)) (tuple_lv powers h (by simp) (by simp)))).trans (mul_le_mul_of_nonneg_right k0 hpos)
  rw [not_le] at c0
  by_cases c1 : t ≤ 12 / 5
  · exact (le_quot v0 (cell1_0_1 h0 h1 (by linarith) (by linarith) (tuple_hb powers h (by simp)) (tuple_lv powers h (by simp) (by simp)))).trans (mul_le_mul_of_nonneg_right k0 hpos)
  rw [not_le] at c1
  by_cases c2 : t ≤ 19 / 7
  · exact (le_quot v0 (cell1_0_2 h0 h1 (by linarith) (by linarith) (tuple_hb powers h (by simp)) (tuple_lv powers h (by simp) (by simp)))).trans (mul_le_mul_of_nonneg_right k0 hpos)
  rw [not_le] at c2
  by_cases c3 : t ≤ 25 / 7
  · exact (le_quot v0 (cell1_0_3 h0 h1 (by linarith) (by linarith) (tuple_hb powers h (by simp)) (tuple_lv powers h (by simp) (by simp)))).trans (mul_le_mul_of_nonneg_right k0 hpos)
  rw [not_le] at c3
  exact (le_quot v0 (cell1_0_4 h0 h1 (by linarith) (by linarith) (tuple_hb powers h (by simp)) (tuple_lv powers h (by simp) (by simp)))).trans (mul_le_mul_of_nonneg_right k0 hpos)

theorem strip1_1 {s t a b : ℚ} (h0 : 0 ≤ s - 409 / 541) (h1 : 0 ≤ 373 / 493 - s) (t0 : 2 ≤ t) (t1 : t ≤ 4)
    (h : TupleOK [2, 3] LB [] s t a b) : b ≤ w s * t := by
  have hpos : 0 ≤ t := by linarith
  have k1 : (1064 - 1100 * s) / (275 * s - 35) ≤ w s := le_max_of_le_right (le_rfl)
  have v1 : 0 < 275 * s - 35 := u1 (by linarith) (by linarith)
  by_cases c0 : t ≤ 11 / 3 * s - 7 / 15
  · exact (le_quot v1 (cell1_1_0 h0 h1 (by linarith) (by linarith) (tuple_hb powers h (by simp)) (tuple_lv powers h (by simp) (by simp)))).trans (mul_le_mul_of_nonneg_right k1 hpos)
  rw [not_le] at c0
  by_cases c1 : t ≤ 12 / 5
  · exact (le_quot v1 (cell1_1_1 h0 h1 (by linarith) (by linarith) (tuple_hb powers h (by simp)) (tuple_lv powers h (by simp) (by simp)))).trans (mul_le_mul_of_nonneg_right k1 hpos)
  rw [not_le] at c1
  by_cases c2 : t ≤ 19 / 7
  · exact (le_quot v1 (cell1_1_2 h0 h1 (by linarith) (by linarith) (tuple_hb powers h (by simp)) (tuple_lv powers h (by simp) (by simp)))).trans (mul_le_mul_of_nonneg_right k1 hpos)
  rw [not_le] at c2
  by_cases c3 : t ≤ 25 / 7
  · exact (le_quot v1 (cell1_1_3 h0 h1 (by linarith) (by linarith) (tuple_hb powers h (by simp)) (tuple_lv powers h (by simp) (by simp)))).trans (mul_le_mul_of_nonneg_right k1 hpos)
  rw [not_le] at c3
  exact (le_quot v1 (cell1_1_4 h0 h1 (by linarith) (by linarith) (tuple_hb powers h (by simp)) (tuple_lv powers h (by simp) (by simp)))).trans (mul_le_mul_of_nonneg_right k1 hpos)

theorem upper (s t a b : ℚ) (l1 : 443 / 586 ≤ s) (l2 : s < 373 / 493) (h : FeasibleE [2, 3] LB ZB 0 2 s t a b) : b ≤ w s * t := by
  have h : (2 ≤ t ∧ t ≤ 4) ∧ TupleOK [2, 3] LB [] s t a b := by
    rcases h with ⟨⟨i1, i2⟩, h⟩ | ⟨⟨i1, i2⟩, h⟩
    · exact ⟨⟨by linarith, by linarith⟩, h⟩
    · exact ⟨⟨i1, by linarith⟩, tuple_mono h⟩
  obtain ⟨⟨i1, i2⟩, h⟩ := h
  by_cases d0 : s ≤ 409 / 541
  · exact strip1_0 (by linarith) (by linarith) (by linarith) (by linarith) h
  rw [not_le] at d0
  exact strip1_1 (by linarith) (by linarith) (by linarith) (by linarith) h

theorem att0 {s : ℚ} (h0 : 443 / 586 ≤ s) (h1 : s ≤ 409 / 541) :
    Inside [2, 3] LB [] 0 2 (2 * 0) (2 * 2) s (184 * s - 684 / 5) (36 / 5 - 8 * s) (648 / 5 * s - 2372 / 25) := by
  refine ⟨by linarith, by linarith, by linarith, by linarith, by linarith, by linarith, tuple_of powers ⟨by linarith, by linarith⟩ ⟨by linarith, by linarith⟩ ?_ ?_⟩
  · refine List.forall_mem_cons.mpr ⟨?_, List.forall_mem_cons.mpr ⟨?_, List.forall_mem_cons.mpr ⟨?_, List.forall_mem_nil _⟩⟩⟩
    · exact ⟨(hbCond_iff _ _ _ _ _).mpr (.inr (.inr (.inr (.inr (.inr (.inr (.inr (.inr (by linarith))))))))), List.forall_mem_cons.mpr ⟨(gm_iff _ _ _ _).mpr (.inr (.inr (by linarith))), List.forall_mem_cons.mpr ⟨(jut_iff 12 _ _ _ _).mpr (.inr (.inl (by push_cast; linarith))), List.forall_mem_nil _⟩⟩⟩
    · exact ⟨(hbCond_iff _ _ _ _ _).mpr (.inl (by linarith)), List.forall_mem_cons.mpr ⟨(gm_iff _ _ _ _).mpr (.inr (.inl (by linarith))), List.forall_mem_cons.mpr ⟨(jut_iff 12 _ _ _ _).mpr (.inr (.inr (by push_cast; linarith))), List.forall_mem_nil _⟩⟩⟩
    · exact ⟨(hbCond_iff _ _ _ _ _).mpr (.inl (by linarith)), List.forall_mem_cons.mpr ⟨(gm_iff _ _ _ _).mpr (.inl (by linarith)), List.forall_mem_cons.mpr ⟨(jut_iff 12 _ _ _ _).mpr (.inl (by push_cast; linarith)), List.forall_mem_nil _⟩⟩⟩
  · exact List.forall_mem_nil _

theorem att1 {s : ℚ} (h0 : 409 / 541 ≤ s) (h1 : s < 373 / 493) :
    Inside [2, 3] LB [] 0 2 (2 * 0) (2 * 2) s (11 / 3 * s - 7 / 15) (36 / 5 - 8 * s) (1064 / 75 - 44 / 3 * s) := by
  refine ⟨by linarith, by linarith, by linarith, by linarith, by linarith, by linarith, tuple_of powers ⟨by linarith, by linarith⟩ ⟨by linarith, by linarith⟩ ?_ ?_⟩
  · refine List.forall_mem_cons.mpr ⟨?_, List.forall_mem_cons.mpr ⟨?_, List.forall_mem_cons.mpr ⟨?_, List.forall_mem_nil _⟩⟩⟩
    · exact ⟨(hbCond_iff _ _ _ _ _).mpr (.inr (.inr (.inr (.inr (.inr (.inr (.inr (.inr (by linarith))))))))), List.forall_mem_cons.mpr ⟨(gm_iff _ _ _ _).mpr (.inr (.inr (by linarith))), List.forall_mem_cons.mpr ⟨(jut_iff 12 _ _ _ _).mpr (.inr (.inl (by push_cast; linarith))), List.forall_mem_nil _⟩⟩⟩
    · exact ⟨(hbCond_iff _ _ _ _ _).mpr (.inl (by linarith)), List.forall_mem_cons.mpr ⟨(gm_iff _ _ _ _).mpr (.inr (.inl (by linarith))), List.forall_mem_cons.mpr ⟨(jut_iff 12 _ _ _ _).mpr (.inr (.inl (by push_cast; linarith))), List.forall_mem_nil _⟩⟩⟩
    · exact ⟨(hbCond_iff _ _ _ _ _).mpr (.inl (by linarith)), List.forall_mem_cons.mpr ⟨(gm_iff _ _ _ _).mpr (.inl (by linarith)), List.forall_mem_cons.mpr ⟨(jut_iff 12 _ _ _ _).mpr (.inl (by push_cast; linarith)), List.forall_mem_nil _⟩⟩⟩
  · exact List.forall_mem_nil _

theorem attained (s : ℚ) (l1 : 443 / 586 ≤ s) (l2 : s < 373 / 493) : ∃ t a b, (Inside [2, 3] LB [] 0 2 (2 * 0) (2 * 2) s t a b ∨
    Inside [2, 3] LB ZB 0 2 0 2 s t a b) ∧ b = w s * t := by
  by_cases g0 : s ≤ 409 / 541
  · have h0 : 0 ≤ s - 443 / 586 := by linarith
    have h1 : 0 ≤ 409 / 541 - s := by linarith
    have e : w s = (810 * s - 593) / (1150 * s - 855) := le_antisymm (max_le (le_rfl) (le10_0 h0 h1)) (le_max_of_le_left (le_rfl))
    exact ⟨_, _, _, .inl (att0 (by linarith) (by linarith)), by rw [e]; exact eq_quot (u0 (by linarith) (by linarith)) (by ring)⟩
  rw [not_le] at g0
  have h0 : 0 ≤ s - 409 / 541 := by linarith
  have h1 : 0 ≤ 373 / 493 - s := by linarith
  have e : w s = (1064 - 1100 * s) / (275 * s - 35) := le_antisymm (max_le (le01_1 h0 h1) (le_rfl)) (le_max_of_le_right (le_rfl))
  exact ⟨_, _, _, .inl (att1 (by linarith) (by linarith)), by rw [e]; exact eq_quot (u1 (by linarith) (by linarith)) (by ring)⟩

theorem notConvex1 : NotConvex [2, 3] LB [] (443 / 586) (373 / 493) 0 2 (2 * 0) (2 * 2) :=
  ⟨90 / 119, 12 / 5, 287 / 250, 387 / 125, 90 / 119, 19 / 5, 323 / 200, 861 / 200, by decide +kernel⟩

end Case9

variable {eng : Engine} {hrep : List Pt → Mat} {edges : Mat → List (Pt × Pt)} {solve : RF ℝ → RF ℝ → List ℝ} {isZero : Expr ℝ → Bool}
  {orderR : List (Region ℕ) → List (Region ℕ)} {orderK : List ℚ → List ℚ}

/-- **C85** (`prove_zero_density_energy_9`, derived.py:947-966) The function returns pieces which, at every real `sigma` of `[443/586, 373/493)`, give
`A*(sigma) = w(sigma) / (1 - sigma)` with the `w` stated here. -/
theorem C85_energy_9 (C : Contracts eng edges solve isZero orderR orderK) (hh : HRepSpec hrep) (hhz : HRepNoZero hrep) :
    ∃ out, proveEnergy9 eng hrep edges solve isZero orderR orderK = .ok out ∧ IsBoundE (443 / 586) (373 / 493) out
      (fun x => (max ((810 * x - 593) / (1150 * x - 855)) ((1064 - 1100 * x) / (275 * x - 35))) / (1 - x)) := by
  have := deriveE C hh hhz [2, 3] Case9.powers Case9.LB Case9.ZB (List.forall_mem_cons.mpr ⟨good_gm, List.forall_mem_cons.mpr ⟨good_jutK (j := 12) (by norm_num), List.forall_mem_nil _⟩⟩) (List.forall_mem_cons.mpr ⟨good_tw, List.forall_mem_nil _⟩) 0 2 (443 / 586) (373 / 493)
    (by norm_num) (by norm_num) (by norm_num) (by decide +kernel) (by norm_num) (by norm_num) (by norm_num) (by norm_num) Case9.notConvex1
    (.inl ⟨rfl, rfl⟩) Case9.w (fun x => max ((810 * x - 593) / (1150 * x - 855)) ((1064 - 1100 * x) / (275 * x - 35))) (fun s _ _ => by simp only [Case9.w]; push_cast; rfl) ?_ Case9.attained Case9.upper
  · exact this
  · intro x l1 l2
    push_cast at l1 l2
    have k0 : ContinuousAt (fun x : ℝ => (810 * x - 593) / (1150 * x - 855)) x := ContinuousAt.div (by fun_prop) (by fun_prop) (by intro h; linarith)
    have k1 : ContinuousAt (fun x : ℝ => (1064 - 1100 * x) / (275 * x - 35)) x := ContinuousAt.div (by fun_prop) (by fun_prop) (by intro h; linarith)
    exact (Filter.Tendsto.max k0 k1)

/-- The value at `90/119`. -/
example : ∃ eng hrep edges solve isZero orderR orderK out, proveEnergy9 eng hrep edges solve isZero orderR orderK = .ok out ∧
    ∃ q ∈ out, q.1.at (90 / 119) = (3286304 / 596965 : ℝ) := by
  obtain ⟨eng, edges, solve, isZero, orderR, orderK, C⟩ := contracts_satisfiable
  obtain ⟨hrep, hh, hhz⟩ := hRepNoZero_satisfiable
  obtain ⟨out, h1, h2⟩ := C85_energy_9 C hh hhz
  obtain ⟨q, q1, _, _, _, q5⟩ := h2 (90 / 119) (by norm_num) (by norm_num)
  exact ⟨eng, hrep, edges, solve, isZero, orderR, orderK, out, h1, q, q1, by rw [q5]; norm_num⟩

end DerivedEnergy
end Expdb
