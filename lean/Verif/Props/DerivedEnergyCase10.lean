import Verif.Props.DerivedEnergyForms

/-!
# C85: the zero density energy estimate that `prove_zero_density_energy_10` derives

The upper bound is proved on cells of the `(sigma, tau)` plane, with one power of Heath-Brown's relation and one power of one large value
estimate on each cell.
-/

namespace Expdb
namespace DerivedEnergy

open Rational SupRatio Mat Region ZeroDensity DerivedZD

namespace Case10

/-- The bound times `1 - sigma`. -/
def w (s : ℚ) : ℚ := max (min ((730 * s - 533) / (1050 * s - 780)) ((78 - 99 * s) / (85 * s - 62))) ((174 - 185 * s) / (31 * s + 2))

/-- The estimates. -/
abbrev LB : List (List (ℚ × ℚ × ℚ)) := [gm, jutK 11]

/-- The zeta large value estimates. -/
abbrev ZB : List (List (ℚ × ℚ × ℚ)) := []

theorem powers : ∀ k ∈ ([2, 3] : List ℚ), 1 ≤ k := by decide +kernel

theorem u0 {s : ℚ} (l1 : 373 / 493 ≤ s) (l2 : s ≤ 103 / 136) : 0 < 1050 * s - 780 := by linarith

theorem u1 {s : ℚ} (l1 : 373 / 493 ≤ s) (l2 : s ≤ 103 / 136) : 0 < 85 * s - 62 := by linarith

theorem u2 {s : ℚ} (l1 : 373 / 493 ≤ s) (l2 : s ≤ 103 / 136) : 0 < 31 * s + 2 := by linarith

theorem le01_0 {s : ℚ} (h0 : 0 ≤ s - 373 / 493) (h1 : 0 ≤ 314 / 415 - s) : (730 * s - 533) / (1050 * s - 780) ≤ (78 - 99 * s) / (85 * s - 62) := by
  rw [div_le_div_iff₀ (u0 (by linarith) (by linarith)) (u1 (by linarith) (by linarith))]
  nlinarith [mul_nonneg h0 h1, mul_nonneg h0 h0, mul_nonneg h1 h1]

theorem le10_1 {s : ℚ} (h0 : 0 ≤ s - 314 / 415) (h1 : 0 ≤ 171 / 226 - s) : (78 - 99 * s) / (85 * s - 62) ≤ (730 * s - 533) / (1050 * s - 780) := by
  rw [div_le_div_iff₀ (u1 (by linarith) (by linarith)) (u0 (by linarith) (by linarith))]
  nlinarith [mul_nonneg h0 h1, mul_nonneg h0 h0, mul_nonneg h1 h1]

theorem le20_2 {s : ℚ} (h0 : 0 ≤ s - 373 / 493) (h1 : 0 ≤ 314 / 415 - s) : (174 - 185 * s) / (31 * s + 2) ≤ (730 * s - 533) / (1050 * s - 780) := by
  rw [div_le_div_iff₀ (u2 (by linarith) (by linarith)) (u0 (by linarith) (by linarith))]
  nlinarith [mul_nonneg h0 h1, mul_nonneg h0 h0, mul_nonneg h1 h1]

theorem le21_3 {s : ℚ} (h0 : 0 ≤ s - 314 / 415) (h1 : 0 ≤ 171 / 226 - s) : (174 - 185 * s) / (31 * s + 2) ≤ (78 - 99 * s) / (85 * s - 62) := by
  rw [div_le_div_iff₀ (u2 (by linarith) (by linarith)) (u1 (by linarith) (by linarith))]
  nlinarith [mul_nonneg h0 h1, mul_nonneg h0 h0, mul_nonneg h1 h1]

theorem le12_4 {s : ℚ} (h0 : 0 ≤ s - 171 / 226) (h1 : 0 ≤ 103 / 136 - s) : (78 - 99 * s) / (85 * s - 62) ≤ (174 - 185 * s) / (31 * s + 2) := by
  rw [div_le_div_iff₀ (u1 (by linarith) (by linarith)) (u2 (by linarith) (by linarith))]
  nlinarith [mul_nonneg h0 h1, mul_nonneg h0 h0, mul_nonneg h1 h1]

theorem cell1_0_0 {s t a b : ℚ} (h0 : 0 ≤ s - 373 / 493) (h1 : 0 ≤ 314 / 415 - s) (h2 : 0 ≤ t - (2)) (h3 : 0 ≤ 168 * s - 624 / 5 - t)
    (hH : HBCond 1 s t a b) (hV : LVCond (jutK 11) 2 s t a) : b * (1050 * s - 780) ≤ (730 * s - 533) * t := by
  have hu : 0 ≤ 1050 * s - 780 := by linarith only [h0, h1]
  have p00 := mul_nonneg h0 h0
  have p01 := mul_nonneg h0 h1
  have p02 := mul_nonneg h0 h2
  have p03 := mul_nonneg h0 h3
  have hV := (jut_iff 11 _ _ _ _).mp hV
  push_cast at hV
  rcases hV with g | g | g
  · have g := mul_nonneg g hu
    rcases (hbCond_iff _ _ _ _ _).mp hH with h | h | h | h | h | h | h | h | h
    · linear_combination 2 * mul_nonneg h hu + g + 231340 / 493 * h1 + 9521 / 493 * h2 + 8400 * p00 + 730 * p02
    · linear_combination 2 * mul_nonneg h hu + 2 * g + 189250 / 493 * h1 + 9521 / 493 * h2 + 12600 * p00 + 730 * p02
    · linear_combination 2 * mul_nonneg h hu + 5 / 4 * g + 350230 / 493 * h1 + 5966 / 493 * h2 + 9450 * p00 + 205 * p02
    · linear_combination mul_nonneg h hu + 5 / 2 * g + 448075 / 493 * h1 + 9521 / 493 * h2 + 12600 * p00 + 730 * p02
    · linear_combination mul_nonneg h hu + 3 * g + 427030 / 493 * h1 + 9521 / 493 * h2 + 14700 * p00 + 730 * p02
    · linear_combination mul_nonneg h hu + 21 / 8 * g + 507520 / 493 * h1 + 911 / 58 * h2 + 13125 * p00 + 935 / 2 * p02
    · linear_combination 8 / 5 * mul_nonneg h hu + 8 / 5 * g + 421564 / 493 * h1 + 6677 / 493 * h2 + 10080 * p00 + 310 * p02
    · linear_combination 8 / 5 * mul_nonneg h hu + 12 / 5 * g + 387892 / 493 * h1 + 6677 / 493 * h2 + 13440 * p00 + 310 * p02
    · linear_combination 8 / 5 * mul_nonneg h hu + 9 / 5 * g + 44278800 / 40919 * h1 + 3833 / 493 * h2 + 7560 * p01 + 110 * p03
  · have g := mul_nonneg g hu
    rcases (hbCond_iff _ _ _ _ _).mp hH with h | h | h | h | h | h | h | h | h
    · linear_combination 2 * mul_nonneg h hu + g + 139752120 / 450109 * h1 + 2411 / 493 * h2 + 410760 / 11 * p01 + 320 * p03
    · linear_combination 2 * mul_nonneg h hu + 2 * g + 29434734 / 15521 * h1 + 4699 / 493 * h3 + 2216760 / 11 * p01 + 1370 * p03
    · linear_combination 2 * mul_nonneg h hu + 5 / 4 * g + 778316976 / 450109 * h1 + 5843 / 986 * h3 + 1832460 / 11 * p01 + 2215 / 2 * p03
    · linear_combination mul_nonneg h hu + 5 / 2 * g + 1650992931 / 450109 * h1 + 8254 / 493 * h3 + 3142860 / 11 * p01 + 1895 * p03
    · linear_combination mul_nonneg h hu + 3 * g + 2192824926 / 450109 * h1 + 11809 / 493 * h3 + 4045860 / 11 * p01 + 2420 * p03
    · linear_combination mul_nonneg h hu + 21 / 8 * g + 2155179771 / 450109 * h1 + 43681 / 1972 * h3 + 3853710 / 11 * p01 + 9155 / 4 * p03
    · linear_combination 8 / 5 * mul_nonneg h hu + 8 / 5 * g + 1112329296 / 450109 * h1 + 4699 / 493 * h3 + 2279760 / 11 * p01 + 1370 * p03
    · linear_combination 8 / 5 * mul_nonneg h hu + 12 / 5 * g + 1979260488 / 450109 * h1 + 611 / 29 * h3 + 3724560 / 11 * p01 + 2210 * p03
    · linear_combination 8 / 5 * mul_nonneg h hu + 9 / 5 * g + 1919028240 / 450109 * h1 + 8965 / 493 * h3 + 3417120 / 11 * p01 + 2000 * p03
  · have g := mul_nonneg g hu
    rcases (hbCond_iff _ _ _ _ _).mp hH with h | h | h | h | h | h | h | h | h
    · linear_combination 2 * mul_nonneg h hu + g + 1012368 / 493 * h0 + 2411 / 493 * h2 + 135240 * p00 + 320 * p03
    · linear_combination 2 * mul_nonneg h hu + 2 * g + 1398066 / 493 * h0 + 4699 / 493 * h3 + 143640 * p00 + 1370 * p03
    · linear_combination 2 * mul_nonneg h hu + 5 / 4 * g + 606336 / 493 * h0 + 5843 / 986 * h3 + 49140 * p00 + 2215 / 2 * p03
    · linear_combination mul_nonneg h hu + 5 / 2 * g + 1108521 / 493 * h0 + 8254 / 493 * h3 + 145740 * p00 + 1895 * p03
    · linear_combination mul_nonneg h hu + 3 * g + 64638 / 29 * h0 + 11809 / 493 * h3 + 149940 * p00 + 2420 * p03
    · linear_combination mul_nonneg h hu + 21 / 8 * g + 702981 / 493 * h0 + 43681 / 1972 * h3 + 102690 * p00 + 9155 / 4 * p03
    · linear_combination 8 / 5 * mul_nonneg h hu + 8 / 5 * g + 648864 / 493 * h0 + 4699 / 493 * h3 + 68880 * p00 + 1370 * p03
    · linear_combination 8 / 5 * mul_nonneg h hu + 12 / 5 * g + 633384 / 493 * h0 + 611 / 29 * h3 + 75600 * p00 + 2210 * p03
    · linear_combination 8 / 5 * mul_nonneg h hu + 9 / 5 * g + 8965 / 493 * h3 + 2000 * p03

theorem cell1_0_1 {s t a b : ℚ} (h0 : 0 ≤ s - 373 / 493) (h1 : 0 ≤ 314 / 415 - s) (h2 : 0 ≤ t - (168 * s - 624 / 5)) (h3 : 0 ≤ 12 / 5 - t)
    (hH : HBCond 1 s t a b) (hV : LVCond gm 2 s t a) : b * (1050 * s - 780) ≤ (730 * s - 533) * t := by
  have hu : 0 ≤ 1050 * s - 780 := by linarith only [h0, h1]
  have p00 := mul_nonneg h0 h0
  have p02 := mul_nonneg h0 h2
  have p03 := mul_nonneg h0 h3
  have p12 := mul_nonneg h1 h2
  have hV := (gm_iff _ _ _ _).mp hV
  rcases hV with g | g | g
  · have g := mul_nonneg g hu
    rcases (hbCond_iff _ _ _ _ _).mp hH with h | h | h | h | h | h | h | h | h
    · linear_combination 2 * mul_nonneg h hu + g + 1478856 / 493 * h0 + 9521 / 493 * h2 + 131040 * p00 + 730 * p02
    · linear_combination 2 * mul_nonneg h hu + 2 * g + 1520946 / 493 * h0 + 9521 / 493 * h2 + 135240 * p00 + 730 * p02
    · linear_combination 2 * mul_nonneg h hu + 5 / 4 * g + 683136 / 493 * h0 + 5966 / 493 * h2 + 43890 * p00 + 205 * p02
    · linear_combination mul_nonneg h hu + 5 / 2 * g + 1262121 / 493 * h0 + 9521 / 493 * h2 + 135240 * p00 + 730 * p02
    · linear_combination mul_nonneg h hu + 3 * g + 1283166 / 493 * h0 + 9521 / 493 * h2 + 137340 * p00 + 730 * p02
    · linear_combination mul_nonneg h hu + 21 / 8 * g + 864261 / 493 * h0 + 911 / 58 * h2 + 91665 * p00 + 935 / 2 * p02
    · linear_combination 8 / 5 * mul_nonneg h hu + 8 / 5 * g + 747168 / 493 * h0 + 6677 / 493 * h2 + 62160 * p00 + 310 * p02
    · linear_combination 8 / 5 * mul_nonneg h hu + 12 / 5 * g + 780840 / 493 * h0 + 6677 / 493 * h2 + 65520 * p00 + 310 * p02
    · linear_combination 8 / 5 * mul_nonneg h hu + 9 / 5 * g + 105576 / 493 * h0 + 3833 / 493 * h2 + 10920 * p00 + 110 * p03
  · have g := mul_nonneg g hu
    rcases (hbCond_iff _ _ _ _ _).mp hH with h | h | h | h | h | h | h | h | h
    · linear_combination 2 * mul_nonneg h hu + g + 1417416 / 493 * h0 + 9521 / 493 * h2 + 135240 * p00 + 730 * p02
    · linear_combination 2 * mul_nonneg h hu + 2 * g + 1398066 / 493 * h0 + 9521 / 493 * h2 + 143640 * p00 + 730 * p02
    · linear_combination 2 * mul_nonneg h hu + 5 / 4 * g + 606336 / 493 * h0 + 5966 / 493 * h2 + 49140 * p00 + 205 * p02
    · linear_combination mul_nonneg h hu + 5 / 2 * g + 1108521 / 493 * h0 + 9521 / 493 * h2 + 145740 * p00 + 730 * p02
    · linear_combination mul_nonneg h hu + 3 * g + 64638 / 29 * h0 + 9521 / 493 * h2 + 149940 * p00 + 730 * p02
    · linear_combination mul_nonneg h hu + 21 / 8 * g + 702981 / 493 * h0 + 911 / 58 * h2 + 102690 * p00 + 935 / 2 * p02
    · linear_combination 8 / 5 * mul_nonneg h hu + 8 / 5 * g + 648864 / 493 * h0 + 6677 / 493 * h2 + 68880 * p00 + 310 * p02
    · linear_combination 8 / 5 * mul_nonneg h hu + 12 / 5 * g + 633384 / 493 * h0 + 6677 / 493 * h2 + 75600 * p00 + 310 * p02
    · linear_combination 8 / 5 * mul_nonneg h hu + 9 / 5 * g + 645 / 83 * h2 + 110 * p12
  · have g := mul_nonneg g hu
    rcases (hbCond_iff _ _ _ _ _).mp hH with h | h | h | h | h | h | h | h | h
    · linear_combination 2 * mul_nonneg h hu + g + 15072 / 29 * h0 + 2411 / 493 * h2 + 12600 * p00 + 320 * p03
    · linear_combination 2 * mul_nonneg h hu + 2 * g + 168174 / 493 * h1 + 4699 / 493 * h3 + 21000 * p00 + 1370 * p03
    · linear_combination 2 * mul_nonneg h hu + 5 / 4 * g + 386604 / 493 * h1 + 5843 / 986 * h3 + 14700 * p00 + 2215 / 2 * p03
    · linear_combination mul_nonneg h hu + 5 / 2 * g + 457719 / 493 * h1 + 8254 / 493 * h3 + 23100 * p00 + 1895 * p03
    · linear_combination mul_nonneg h hu + 3 * g + 467394 / 493 * h1 + 11809 / 493 * h3 + 27300 * p00 + 2420 * p03
    · linear_combination mul_nonneg h hu + 21 / 8 * g + 576609 / 493 * h1 + 43681 / 1972 * h3 + 24150 * p00 + 9155 / 4 * p03
    · linear_combination 8 / 5 * mul_nonneg h hu + 8 / 5 * g + 458736 / 493 * h1 + 4699 / 493 * h3 + 16800 * p00 + 1370 * p03
    · linear_combination 8 / 5 * mul_nonneg h hu + 12 / 5 * g + 474216 / 493 * h1 + 611 / 29 * h3 + 23520 * p00 + 2210 * p03
    · linear_combination 8 / 5 * mul_nonneg h hu + 9 / 5 * g + 648960 / 493 * h1 + 8965 / 493 * h3 + 18480 * p00 + 2000 * p03

theorem cell1_0_2 {s t a b : ℚ} (h0 : 0 ≤ s - 373 / 493) (h1 : 0 ≤ 314 / 415 - s) (h2 : 0 ≤ t - (12 / 5)) (h3 : 0 ≤ 19 / 7 - t)
    (hH : HBCond 2 s t a b) (hV : LVCond gm 2 s t a) : b * (1050 * s - 780) ≤ (730 * s - 533) * t := by
  have hu : 0 ≤ 1050 * s - 780 := by linarith only [h0, h1]
  have p00 := mul_nonneg h0 h0
  have p02 := mul_nonneg h0 h2
  have p03 := mul_nonneg h0 h3
  have hV := (gm_iff _ _ _ _).mp hV
  rcases hV with g | g | g
  · have g := mul_nonneg g hu
    rcases (hbCond_iff _ _ _ _ _).mp hH with h | h | h | h | h | h | h | h | h
    · linear_combination 2 * mul_nonneg h hu + g + 562944 / 493 * h1 + 9521 / 493 * h2 + 12600 * p00 + 730 * p02
    · linear_combination 2 * mul_nonneg h hu + 2 * g + 3204 / 493 * h1 + 9521 / 493 * h2 + 16800 * p00 + 730 * p02
    · linear_combination 2 * mul_nonneg h hu + 5 / 4 * g + 267714 / 493 * h1 + 5966 / 493 * h2 + 13650 * p00 + 205 * p02
    · linear_combination mul_nonneg h hu + 5 / 2 * g + 283074 / 493 * h1 + 9521 / 493 * h2 + 14700 * p00 + 730 * p02
    · linear_combination mul_nonneg h hu + 3 * g + 3204 / 493 * h1 + 9521 / 493 * h2 + 16800 * p00 + 730 * p02
    · linear_combination mul_nonneg h hu + 21 / 8 * g + 4671 / 17 * h1 + 911 / 58 * h2 + 15225 * p00 + 935 / 2 * p02
    · linear_combination 8 / 5 * mul_nonneg h hu + 8 / 5 * g + 326760 / 493 * h1 + 6677 / 493 * h2 + 13440 * p00 + 310 * p02
    · linear_combination 8 / 5 * mul_nonneg h hu + 12 / 5 * g + 121032 / 493 * h0 + 6677 / 493 * h2 + 16800 * p00 + 310 * p02
    · linear_combination 8 / 5 * mul_nonneg h hu + 9 / 5 * g + 44314 / 203 * h1 + 3833 / 493 * h2 + 14280 * p00 + 110 * p03
  · have g := mul_nonneg g hu
    rcases (hbCond_iff _ _ _ _ _).mp hH with h | h | h | h | h | h | h | h | h
    · linear_combination 2 * mul_nonneg h hu + g + 624384 / 493 * h1 + 9521 / 493 * h2 + 16800 * p00 + 730 * p02
    · linear_combination 2 * mul_nonneg h hu + 2 * g + 126084 / 493 * h1 + 9521 / 493 * h2 + 25200 * p00 + 730 * p02
    · linear_combination 2 * mul_nonneg h hu + 5 / 4 * g + 344514 / 493 * h1 + 5966 / 493 * h2 + 18900 * p00 + 205 * p02
    · linear_combination mul_nonneg h hu + 5 / 2 * g + 436674 / 493 * h1 + 9521 / 493 * h2 + 25200 * p00 + 730 * p02
    · linear_combination mul_nonneg h hu + 3 * g + 187524 / 493 * h1 + 9521 / 493 * h2 + 29400 * p00 + 730 * p02
    · linear_combination mul_nonneg h hu + 21 / 8 * g + 296739 / 493 * h1 + 911 / 58 * h2 + 26250 * p00 + 935 / 2 * p02
    · linear_combination 8 / 5 * mul_nonneg h hu + 8 / 5 * g + 425064 / 493 * h1 + 6677 / 493 * h2 + 20160 * p00 + 310 * p02
    · linear_combination 8 / 5 * mul_nonneg h hu + 12 / 5 * g + 26424 / 493 * h1 + 6677 / 493 * h2 + 26880 * p00 + 310 * p02
    · linear_combination 8 / 5 * mul_nonneg h hu + 9 / 5 * g + 1527482 / 3451 * h1 + 3833 / 493 * h2 + 21840 * p00 + 110 * p03
  · have g := mul_nonneg g hu
    rcases (hbCond_iff _ _ _ _ _).mp hH with h | h | h | h | h | h | h | h | h
    · linear_combination 2 * mul_nonneg h hu + g + 4717760 / 3451 * h1 + 2411 / 493 * h2 + 16800 * p00 + 320 * p03
    · linear_combination 2 * mul_nonneg h hu + 2 * g + 2368490 / 3451 * h1 + 4699 / 493 * h3 + 25200 * p00 + 1370 * p03
    · linear_combination 2 * mul_nonneg h hu + 5 / 4 * g + 7225585 / 6902 * h1 + 5843 / 986 * h3 + 18900 * p00 + 2215 / 2 * p03
    · linear_combination mul_nonneg h hu + 5 / 2 * g + 5112035 / 3451 * h1 + 8254 / 493 * h3 + 25200 * p00 + 1895 * p03
    · linear_combination mul_nonneg h hu + 3 * g + 3937400 / 3451 * h1 + 11809 / 493 * h3 + 29400 * p00 + 2420 * p03
    · linear_combination mul_nonneg h hu + 21 / 8 * g + 18238205 / 13804 * h1 + 43681 / 1972 * h3 + 26250 * p00 + 9155 / 4 * p03
    · linear_combination 8 / 5 * mul_nonneg h hu + 8 / 5 * g + 4461350 / 3451 * h1 + 4699 / 493 * h3 + 20160 * p00 + 1370 * p03
    · linear_combination 8 / 5 * mul_nonneg h hu + 12 / 5 * g + 2581934 / 3451 * h1 + 611 / 29 * h3 + 26880 * p00 + 2210 * p03
    · linear_combination 8 / 5 * mul_nonneg h hu + 9 / 5 * g + 3577376 / 3451 * h1 + 8965 / 493 * h3 + 21840 * p00 + 2000 * p03

theorem cell1_0_3 {s t a b : ℚ} (h0 : 0 ≤ s - 373 / 493) (h1 : 0 ≤ 314 / 415 - s) (h2 : 0 ≤ t - (19 / 7)) (h3 : 0 ≤ 25 / 7 - t)
    (hH : HBCond 2 s t a b) (hV : LVCond (jutK 11) 3 s t a) : b * (1050 * s - 780) ≤ (730 * s - 533) * t := by
  have hu : 0 ≤ 1050 * s - 780 := by linarith only [h0, h1]
  have p00 := mul_nonneg h0 h0
  have p02 := mul_nonneg h0 h2
  have p03 := mul_nonneg h0 h3
  have hV := (jut_iff 11 _ _ _ _).mp hV
  push_cast at hV
  rcases hV with g | g | g
  · have g := mul_nonneg g hu
    rcases (hbCond_iff _ _ _ _ _).mp hH with h | h | h | h | h | h | h | h | h
    · linear_combination 2 * mul_nonneg h hu + g + 4813310 / 3451 * h1 + 9521 / 493 * h2 + 14700 * p00 + 730 * p02
    · linear_combination 2 * mul_nonneg h hu + 2 * g + 2559590 / 3451 * h1 + 9521 / 493 * h2 + 21000 * p00 + 730 * p02
    · linear_combination 2 * mul_nonneg h hu + 5 / 4 * g + 3732230 / 3451 * h1 + 5966 / 493 * h2 + 16275 * p00 + 205 * p02
    · linear_combination mul_nonneg h hu + 5 / 2 * g + 5350910 / 3451 * h1 + 9521 / 493 * h2 + 19950 * p00 + 730 * p02
    · linear_combination mul_nonneg h hu + 3 * g + 4224050 / 3451 * h1 + 9521 / 493 * h2 + 23100 * p00 + 730 * p02
    · linear_combination mul_nonneg h hu + 21 / 8 * g + 4810370 / 3451 * h1 + 911 / 58 * h2 + 41475 / 2 * p00 + 935 / 2 * p02
    · linear_combination 8 / 5 * mul_nonneg h hu + 8 / 5 * g + 4614230 / 3451 * h1 + 6677 / 493 * h2 + 16800 * p00 + 310 * p02
    · linear_combination 8 / 5 * mul_nonneg h hu + 12 / 5 * g + 2811254 / 3451 * h1 + 6677 / 493 * h2 + 21840 * p00 + 310 * p02
    · linear_combination 8 / 5 * mul_nonneg h hu + 9 / 5 * g + 4074746 / 3451 * h1 + 3833 / 493 * h2 + 18060 * p00 + 110 * p03
  · have g := mul_nonneg g hu
    rcases (hbCond_iff _ _ _ _ _).mp hH with h | h | h | h | h | h | h | h | h
    · linear_combination 2 * mul_nonneg h hu + g + 37254100 / 37961 * h1 + 2411 / 493 * h2 + 294000 / 11 * p00 + 320 * p03
    · linear_combination 2 * mul_nonneg h hu + 2 * g + 20523610 / 37961 * h1 + 4699 / 493 * h3 + 495600 / 11 * p00 + 1370 * p03
    · linear_combination 2 * mul_nonneg h hu + 5 / 4 * g + 88919555 / 75922 * h1 + 5843 / 986 * h3 + 344400 / 11 * p00 + 2215 / 2 * p03
    · linear_combination mul_nonneg h hu + 5 / 2 * g + 55258345 / 37961 * h1 + 8254 / 493 * h3 + 550200 / 11 * p00 + 1895 * p03
    · linear_combination mul_nonneg h hu + 3 * g + 46893100 / 37961 * h1 + 11809 / 493 * h3 + 651000 / 11 * p00 + 2420 * p03
    · linear_combination mul_nonneg h hu + 21 / 8 * g + 235444735 / 151844 * h1 + 43681 / 1972 * h3 + 575400 / 11 * p00 + 9155 / 4 * p03
    · linear_combination 8 / 5 * mul_nonneg h hu + 8 / 5 * g + 53566438 / 37961 * h1 + 4699 / 493 * h3 + 396480 / 11 * p00 + 1370 * p03
    · linear_combination 8 / 5 * mul_nonneg h hu + 12 / 5 * g + 40182046 / 37961 * h1 + 611 / 29 * h3 + 557760 / 11 * p00 + 2210 * p03
    · linear_combination 8 / 5 * mul_nonneg h hu + 9 / 5 * g + 59330980 / 37961 * h1 + 8965 / 493 * h3 + 436800 / 11 * p00 + 2000 * p03
  · have g := mul_nonneg g hu
    rcases (hbCond_iff _ _ _ _ _).mp hH with h | h | h | h | h | h | h | h | h
    · linear_combination 2 * mul_nonneg h hu + g + 520220 / 203 * h0 + 2411 / 493 * h2 + 285600 * p00 + 320 * p03
    · linear_combination 2 * mul_nonneg h hu + 2 * g + 22595170 / 3451 * h0 + 4699 / 493 * h3 + 562800 * p00 + 1370 * p03
    · linear_combination 2 * mul_nonneg h hu + 5 / 4 * g + 22492595 / 6902 * h0 + 5843 / 986 * h3 + 354900 * p00 + 2215 / 2 * p03
    · linear_combination mul_nonneg h hu + 5 / 2 * g + 25552705 / 3451 * h0 + 8254 / 493 * h3 + 697200 * p00 + 1895 * p03
    · linear_combination mul_nonneg h hu + 3 * g + 32428420 / 3451 * h0 + 11809 / 493 * h3 + 835800 * p00 + 2420 * p03
    · linear_combination mul_nonneg h hu + 21 / 8 * g + 6295055 / 812 * h0 + 43681 / 1972 * h3 + 731850 * p00 + 9155 / 4 * p03
    · linear_combination 8 / 5 * mul_nonneg h hu + 8 / 5 * g + 14699086 / 3451 * h0 + 4699 / 493 * h3 + 450240 * p00 + 1370 * p03
    · linear_combination 8 / 5 * mul_nonneg h hu + 12 / 5 * g + 25700230 / 3451 * h0 + 611 / 29 * h3 + 672000 * p00 + 2210 * p03
    · linear_combination 8 / 5 * mul_nonneg h hu + 9 / 5 * g + 16621132 / 3451 * h0 + 8965 / 493 * h3 + 505680 * p00 + 2000 * p03

theorem cell1_0_4 {s t a b : ℚ} (h0 : 0 ≤ s - 373 / 493) (h1 : 0 ≤ 314 / 415 - s) (h2 : 0 ≤ t - (25 / 7)) (h3 : 0 ≤ 4 - t)
    (hH : HBCond 3 s t a b) (hV : LVCond gm 3 s t a) : b * (1050 * s - 780) ≤ (730 * s - 533) * t := by
  have hu : 0 ≤ 1050 * s - 780 := by linarith only [h0, h1]
  have p00 := mul_nonneg h0 h0
  have p02 := mul_nonneg h0 h2
  have p03 := mul_nonneg h0 h3
  have hV := (gm_iff _ _ _ _).mp hV
  rcases hV with g | g | g
  · have g := mul_nonneg g hu
    rcases (hbCond_iff _ _ _ _ _).mp hH with h | h | h | h | h | h | h | h | h
    · linear_combination 2 * mul_nonneg h hu + g + 5982890 / 3451 * h1 + 9521 / 493 * h2 + 18900 * p00 + 730 * p02
    · linear_combination 2 * mul_nonneg h hu + 2 * g + 105620 / 3451 * h1 + 9521 / 493 * h2 + 25200 * p00 + 730 * p02
    · linear_combination 2 * mul_nonneg h hu + 5 / 4 * g + 2831210 / 3451 * h1 + 5966 / 493 * h2 + 20475 * p00 + 205 * p02
    · linear_combination mul_nonneg h hu + 5 / 2 * g + 3044255 / 3451 * h1 + 9521 / 493 * h2 + 22050 * p00 + 730 * p02
    · linear_combination mul_nonneg h hu + 3 * g + 105620 / 3451 * h1 + 9521 / 493 * h2 + 25200 * p00 + 730 * p02
    · linear_combination mul_nonneg h hu + 21 / 8 * g + 50635 / 119 * h1 + 911 / 58 * h2 + 45675 / 2 * p00 + 935 / 2 * p02
    · linear_combination 8 / 5 * mul_nonneg h hu + 8 / 5 * g + 3461546 / 3451 * h1 + 6677 / 493 * h2 + 20160 * p00 + 310 * p02
    · linear_combination 8 / 5 * mul_nonneg h hu + 12 / 5 * g + 1240270 / 3451 * h0 + 6677 / 493 * h2 + 25200 * p00 + 310 * p02
    · linear_combination 8 / 5 * mul_nonneg h hu + 9 / 5 * g + 9268 / 29 * h1 + 3833 / 493 * h2 + 21420 * p00 + 110 * p03
  · have g := mul_nonneg g hu
    rcases (hbCond_iff _ _ _ _ _).mp hH with h | h | h | h | h | h | h | h | h
    · linear_combination 2 * mul_nonneg h hu + g + 6628010 / 3451 * h1 + 9521 / 493 * h2 + 25200 * p00 + 730 * p02
    · linear_combination 2 * mul_nonneg h hu + 2 * g + 1395860 / 3451 * h1 + 9521 / 493 * h2 + 37800 * p00 + 730 * p02
    · linear_combination 2 * mul_nonneg h hu + 5 / 4 * g + 3637610 / 3451 * h1 + 5966 / 493 * h2 + 28350 * p00 + 205 * p02
    · linear_combination mul_nonneg h hu + 5 / 2 * g + 4657055 / 3451 * h1 + 9521 / 493 * h2 + 37800 * p00 + 730 * p02
    · linear_combination mul_nonneg h hu + 3 * g + 2040980 / 3451 * h1 + 9521 / 493 * h2 + 44100 * p00 + 730 * p02
    · linear_combination mul_nonneg h hu + 21 / 8 * g + 3161855 / 3451 * h1 + 911 / 58 * h2 + 39375 * p00 + 935 / 2 * p02
    · linear_combination 8 / 5 * mul_nonneg h hu + 8 / 5 * g + 4493738 / 3451 * h1 + 6677 / 493 * h2 + 30240 * p00 + 310 * p02
    · linear_combination 8 / 5 * mul_nonneg h hu + 12 / 5 * g + 308018 / 3451 * h1 + 6677 / 493 * h2 + 40320 * p00 + 310 * p02
    · linear_combination 8 / 5 * mul_nonneg h hu + 9 / 5 * g + 323444 / 493 * h1 + 3833 / 493 * h2 + 32760 * p00 + 110 * p03
  · have g := mul_nonneg g hu
    rcases (hbCond_iff _ _ _ _ _).mp hH with h | h | h | h | h | h | h | h | h
    · linear_combination 2 * mul_nonneg h hu + g + 999680 / 493 * h1 + 2411 / 493 * h2 + 25200 * p00 + 320 * p03
    · linear_combination 2 * mul_nonneg h hu + 2 * g + 459290 / 493 * h1 + 4699 / 493 * h3 + 37800 * p00 + 1370 * p03
    · linear_combination 2 * mul_nonneg h hu + 5 / 4 * g + 735170 / 493 * h1 + 5843 / 986 * h3 + 28350 * p00 + 2215 / 2 * p03
    · linear_combination mul_nonneg h hu + 5 / 2 * g + 1028705 / 493 * h1 + 8254 / 493 * h3 + 37800 * p00 + 1895 * p03
    · linear_combination mul_nonneg h hu + 3 * g + 758510 / 493 * h1 + 11809 / 493 * h3 + 44100 * p00 + 2420 * p03
    · linear_combination mul_nonneg h hu + 21 / 8 * g + 896450 / 493 * h1 + 43681 / 1972 * h3 + 39375 * p00 + 9155 / 4 * p03
    · linear_combination 8 / 5 * mul_nonneg h hu + 8 / 5 * g + 907760 / 493 * h1 + 4699 / 493 * h3 + 30240 * p00 + 1370 * p03
    · linear_combination 8 / 5 * mul_nonneg h hu + 12 / 5 * g + 475448 / 493 * h1 + 611 / 29 * h3 + 40320 * p00 + 2210 * p03
    · linear_combination 8 / 5 * mul_nonneg h hu + 9 / 5 * g + 696152 / 493 * h1 + 8965 / 493 * h3 + 32760 * p00 + 2000 * p03

theorem cell1_1_0 {s t a b : ℚ} (h0 : 0 ≤ s - 314 / 415) (h1 : 0 ≤ 171 / 226 - s) (h2 : 0 ≤ t - (2)) (h3 : 0 ≤ 85 * s - 62 - t)
    (hH : HBCond 1 s t a b) (hV : LVCond (jutK 11) 2 s t a) : b * (85 * s - 62) ≤ (78 - 99 * s) * t := by
  have hu : 0 ≤ 85 * s - 62 := by linarith only [h0, h1]
  have p00 := mul_nonneg h0 h0
  have p01 := mul_nonneg h0 h1
  have p03 := mul_nonneg h0 h3
  have hV := (jut_iff 11 _ _ _ _).mp hV
  push_cast at hV
  rcases hV with g | g | g
  · have g := mul_nonneg g hu
    rcases (hbCond_iff _ _ _ _ _).mp hH with h | h | h | h | h | h | h | h | h
    · linear_combination 2 * mul_nonneg h hu + g + 7054555 / 18758 * h1 + 1284 / 415 * h2 + 7735 * p01 + 99 * p03
    · linear_combination 2 * mul_nonneg h hu + 2 * g + 6838657 / 18758 * h1 + 1284 / 415 * h2 + 7395 * p01 + 99 * p03
    · linear_combination 2 * mul_nonneg h hu + 5 / 4 * g + 15299281 / 37516 * h1 + 804 / 415 * h2 + 22525 / 2 * p01 + 283 / 2 * p03
    · linear_combination mul_nonneg h hu + 5 / 2 * g + 3817936 / 9379 * h1 + 1284 / 415 * h2 + 7395 * p01 + 99 * p03
    · linear_combination mul_nonneg h hu + 3 * g + 7527923 / 18758 * h1 + 1284 / 415 * h2 + 7225 * p01 + 99 * p03
    · linear_combination mul_nonneg h hu + 21 / 8 * g + 31733659 / 75032 * h1 + 1044 / 415 * h2 + 36635 / 4 * p01 + 481 / 4 * p03
    · linear_combination 8 / 5 * mul_nonneg h hu + 8 / 5 * g + 39031649 / 93790 * h1 + 180 / 83 * h2 + 10489 * p01 + 133 * p03
    · linear_combination 8 / 5 * mul_nonneg h hu + 12 / 5 * g + 38168057 / 93790 * h1 + 180 / 83 * h2 + 10217 * p01 + 133 * p03
    · linear_combination 8 / 5 * mul_nonneg h hu + 9 / 5 * g + 41411991 / 93790 * h1 + 516 / 415 * h2 + 13311 * p01 + 167 * p03
  · have g := mul_nonneg g hu
    rcases (hbCond_iff _ _ _ _ _).mp hH with h | h | h | h | h | h | h | h | h
    · linear_combination 2 * mul_nonneg h hu + g + 38490886 / 103169 * h1 + 324 / 415 * h2 + 157420 / 11 * p01 + 184 * p03
    · linear_combination 2 * mul_nonneg h hu + 2 * g + 100867193 / 206338 * h1 + 636 / 415 * h3 + 226015 / 11 * p01 + 269 * p03
    · linear_combination 2 * mul_nonneg h hu + 5 / 4 * g + 400435525 / 825352 * h1 + 396 / 415 * h3 + 857225 / 44 * p01 + 991 / 4 * p03
    · linear_combination mul_nonneg h hu + 5 / 2 * g + 259226303 / 412676 * h1 + 1116 / 415 * h3 + 524365 / 22 * p01 + 623 / 2 * p03
    · linear_combination mul_nonneg h hu + 3 * g + 74201153 / 103169 * h1 + 1596 / 415 * h3 + 296480 / 11 * p01 + 354 * p03
    · linear_combination mul_nonneg h hu + 21 / 8 * g + 1184185201 / 1650704 * h1 + 1476 / 415 * h3 + 2325005 / 88 * p01 + 2747 / 8 * p03
    · linear_combination 8 / 5 * mul_nonneg h hu + 8 / 5 * g + 111758927 / 206338 * h1 + 636 / 415 * h3 + 231115 / 11 * p01 + 269 * p03
    · linear_combination 8 / 5 * mul_nonneg h hu + 12 / 5 * g + 709107871 / 1031690 * h1 + 1404 / 415 * h3 + 285991 / 11 * p01 + 337 * p03
    · linear_combination 8 / 5 * mul_nonneg h hu + 9 / 5 * g + 3124224 / 4565 * h1 + 1212 / 415 * h3 + 276624 / 11 * p01 + 320 * p03
  · have g := mul_nonneg g hu
    rcases (hbCond_iff _ _ _ _ _).mp hH with h | h | h | h | h | h | h | h | h
    · linear_combination 2 * mul_nonneg h hu + g + 66862 / 9379 * h0 + 324 / 415 * h2 + 340 * p01 + 184 * p03
    · linear_combination 2 * mul_nonneg h hu + 2 * g + 22535 / 83 * h0 + 636 / 415 * h3 + 7395 * p00 + 269 * p03
    · linear_combination 2 * mul_nonneg h hu + 5 / 4 * g + 742895 / 75032 * h1 + 396 / 415 * h3 + 8075 / 4 * p01 + 991 / 4 * p03
    · linear_combination mul_nonneg h hu + 5 / 2 * g + 53495 / 166 * h0 + 1116 / 415 * h3 + 22185 / 2 * p00 + 623 / 2 * p03
    · linear_combination mul_nonneg h hu + 3 * g + 34965 / 83 * h0 + 1596 / 415 * h3 + 14960 * p00 + 354 * p03
    · linear_combination mul_nonneg h hu + 21 / 8 * g + 46575 / 166 * h0 + 1476 / 415 * h3 + 82025 / 8 * p00 + 2747 / 8 * p03
    · linear_combination 8 / 5 * mul_nonneg h hu + 8 / 5 * g + 5536 / 83 * h0 + 636 / 415 * h3 + 1343 * p00 + 269 * p03
    · linear_combination 8 / 5 * mul_nonneg h hu + 12 / 5 * g + 18684 / 83 * h0 + 1404 / 415 * h3 + 7531 * p00 + 337 * p03
    · linear_combination 8 / 5 * mul_nonneg h hu + 9 / 5 * g + 1212 / 415 * h3 + 320 * p03

theorem cell1_1_1 {s t a b : ℚ} (h0 : 0 ≤ s - 314 / 415) (h1 : 0 ≤ 171 / 226 - s) (h2 : 0 ≤ t - (85 * s - 62)) (h3 : 0 ≤ 12 / 5 - t)
    (hH : HBCond 2 s t a b) (hV : LVCond (jutK 11) 2 s t a) : b * (85 * s - 62) ≤ (78 - 99 * s) * t := by
  have hu : 0 ≤ 85 * s - 62 := by linarith only [h0, h1]
  have p00 := mul_nonneg h0 h0
  have p01 := mul_nonneg h0 h1
  have p03 := mul_nonneg h0 h3
  have p12 := mul_nonneg h1 h2
  have hV := (jut_iff 11 _ _ _ _).mp hV
  push_cast at hV
  rcases hV with g | g | g
  · have g := mul_nonneg g hu
    rcases (hbCond_iff _ _ _ _ _).mp hH with h | h | h | h | h | h | h | h | h
    · linear_combination 2 * mul_nonneg h hu + g + 80964 / 415 * h1 + 1284 / 415 * h2 + 1020 * p00 + 99 * p03
    · linear_combination 2 * mul_nonneg h hu + 2 * g + 40914 / 415 * h1 + 1284 / 415 * h2 + 1360 * p00 + 99 * p03
    · linear_combination 2 * mul_nonneg h hu + 5 / 4 * g + 101169 / 415 * h1 + 804 / 415 * h2 + 1105 * p00 + 283 / 2 * p03
    · linear_combination mul_nonneg h hu + 5 / 2 * g + 60939 / 415 * h1 + 1284 / 415 * h2 + 1190 * p00 + 99 * p03
    · linear_combination mul_nonneg h hu + 3 * g + 40914 / 415 * h1 + 1284 / 415 * h2 + 1360 * p00 + 99 * p03
    · linear_combination mul_nonneg h hu + 21 / 8 * g + 142083 / 830 * h1 + 1044 / 415 * h2 + 2465 / 2 * p00 + 481 / 4 * p03
    · linear_combination 8 / 5 * mul_nonneg h hu + 8 / 5 * g + 97128 / 415 * h1 + 180 / 83 * h2 + 1088 * p00 + 133 * p03
    · linear_combination 8 / 5 * mul_nonneg h hu + 12 / 5 * g + 65088 / 415 * h1 + 180 / 83 * h2 + 1360 * p00 + 133 * p03
    · linear_combination 8 / 5 * mul_nonneg h hu + 9 / 5 * g + 113292 / 415 * h1 + 516 / 415 * h2 + 1156 * p00 + 167 * p03
  · have g := mul_nonneg g hu
    rcases (hbCond_iff _ _ _ _ _).mp hH with h | h | h | h | h | h | h | h | h
    · linear_combination 2 * mul_nonneg h hu + g + 347136 / 913 * h1 + 88 / 113 * h2 + 153680 / 11 * p01 + 184 * p12
    · linear_combination 2 * mul_nonneg h hu + 2 * g + 1689914 / 4565 * h1 + 636 / 415 * h3 + 29240 / 11 * p00 + 269 * p03
    · linear_combination 2 * mul_nonneg h hu + 5 / 4 * g + 1889174 / 4565 * h1 + 396 / 415 * h3 + 21080 / 11 * p00 + 991 / 4 * p03
    · linear_combination mul_nonneg h hu + 5 / 2 * g + 1920019 / 4565 * h1 + 1116 / 415 * h3 + 30940 / 11 * p00 + 623 / 2 * p03
    · linear_combination mul_nonneg h hu + 3 * g + 1709574 / 4565 * h1 + 1596 / 415 * h3 + 36380 / 11 * p00 + 354 * p03
    · linear_combination mul_nonneg h hu + 21 / 8 * g + 1809204 / 4565 * h1 + 1476 / 415 * h3 + 32300 / 11 * p00 + 2747 / 8 * p03
    · linear_combination 8 / 5 * mul_nonneg h hu + 8 / 5 * g + 1941364 / 4565 * h1 + 636 / 415 * h3 + 23392 / 11 * p00 + 269 * p03
    · linear_combination 8 / 5 * mul_nonneg h hu + 12 / 5 * g + 1604652 / 4565 * h1 + 1404 / 415 * h3 + 32096 / 11 * p00 + 337 * p03
    · linear_combination 8 / 5 * mul_nonneg h hu + 9 / 5 * g + 352812 / 913 * h1 + 1212 / 415 * h3 + 25568 / 11 * p00 + 320 * p03
  · have g := mul_nonneg g hu
    rcases (hbCond_iff _ _ _ _ _).mp hH with h | h | h | h | h | h | h | h | h
    · linear_combination 2 * mul_nonneg h hu + g + 88 / 113 * h2 + 184 * p12
    · linear_combination 2 * mul_nonneg h hu + 2 * g + 161826 / 415 * h0 + 636 / 415 * h3 + 30600 * p00 + 269 * p03
    · linear_combination 2 * mul_nonneg h hu + 5 / 4 * g + 25416 / 415 * h0 + 396 / 415 * h3 + 19380 * p00 + 991 / 4 * p03
    · linear_combination mul_nonneg h hu + 5 / 2 * g + 219771 / 415 * h0 + 1116 / 415 * h3 + 37740 * p00 + 623 / 2 * p03
    · linear_combination mul_nonneg h hu + 3 * g + 317766 / 415 * h0 + 1596 / 415 * h3 + 45220 * p00 + 354 * p03
    · linear_combination mul_nonneg h hu + 21 / 8 * g + 249561 / 415 * h0 + 1476 / 415 * h3 + 39610 * p00 + 2747 / 8 * p03
    · linear_combination 8 / 5 * mul_nonneg h hu + 8 / 5 * g + 75876 / 415 * h0 + 636 / 415 * h3 + 24480 * p00 + 269 * p03
    · linear_combination 8 / 5 * mul_nonneg h hu + 12 / 5 * g + 232668 / 415 * h0 + 1404 / 415 * h3 + 36448 * p00 + 337 * p03
    · linear_combination 8 / 5 * mul_nonneg h hu + 9 / 5 * g + 24708 / 83 * h0 + 1212 / 415 * h3 + 27472 * p00 + 320 * p03

theorem cell1_1_2 {s t a b : ℚ} (h0 : 0 ≤ s - 314 / 415) (h1 : 0 ≤ 171 / 226 - s) (h2 : 0 ≤ t - (12 / 5)) (h3 : 0 ≤ 19 / 7 - t)
    (hH : HBCond 2 s t a b) (hV : LVCond gm 2 s t a) : b * (85 * s - 62) ≤ (78 - 99 * s) * t := by
  have hu : 0 ≤ 85 * s - 62 := by linarith only [h0, h1]
  have p00 := mul_nonneg h0 h0
  have p03 := mul_nonneg h0 h3
  have hV := (gm_iff _ _ _ _).mp hV
  rcases hV with g | g | g
  · have g := mul_nonneg g hu
    rcases (hbCond_iff _ _ _ _ _).mp hH with h | h | h | h | h | h | h | h | h
    · linear_combination 2 * mul_nonneg h hu + g + 284223 / 581 * h1 + 1284 / 415 * h2 + 1020 * p00 + 99 * p03
    · linear_combination 2 * mul_nonneg h hu + 2 * g + 228153 / 581 * h1 + 1284 / 415 * h2 + 1360 * p00 + 99 * p03
    · linear_combination 2 * mul_nonneg h hu + 5 / 4 * g + 526301 / 1162 * h1 + 804 / 415 * h2 + 1105 * p00 + 283 / 2 * p03
    · linear_combination mul_nonneg h hu + 5 / 2 * g + 256188 / 581 * h1 + 1284 / 415 * h2 + 1190 * p00 + 99 * p03
    · linear_combination mul_nonneg h hu + 3 * g + 228153 / 581 * h1 + 1284 / 415 * h2 + 1360 * p00 + 99 * p03
    · linear_combination mul_nonneg h hu + 21 / 8 * g + 982607 / 2324 * h1 + 1044 / 415 * h2 + 2465 / 2 * p00 + 481 / 4 * p03
    · linear_combination 8 / 5 * mul_nonneg h hu + 8 / 5 * g + 38195 / 83 * h1 + 180 / 83 * h2 + 1088 * p00 + 133 * p03
    · linear_combination 8 / 5 * mul_nonneg h hu + 12 / 5 * g + 31787 / 83 * h1 + 180 / 83 * h2 + 1360 * p00 + 133 * p03
    · linear_combination 8 / 5 * mul_nonneg h hu + 9 / 5 * g + 250507 / 581 * h1 + 516 / 415 * h2 + 1156 * p00 + 167 * p03
  · have g := mul_nonneg g hu
    rcases (hbCond_iff _ _ _ _ _).mp hH with h | h | h | h | h | h | h | h | h
    · linear_combination 2 * mul_nonneg h hu + g + 287415 / 581 * h1 + 1284 / 415 * h2 + 1360 * p00 + 99 * p03
    · linear_combination 2 * mul_nonneg h hu + 2 * g + 234537 / 581 * h1 + 1284 / 415 * h2 + 2040 * p00 + 99 * p03
    · linear_combination 2 * mul_nonneg h hu + 5 / 4 * g + 534281 / 1162 * h1 + 804 / 415 * h2 + 1530 * p00 + 283 / 2 * p03
    · linear_combination mul_nonneg h hu + 5 / 2 * g + 264168 / 581 * h1 + 1284 / 415 * h2 + 2040 * p00 + 99 * p03
    · linear_combination mul_nonneg h hu + 3 * g + 237729 / 581 * h1 + 1284 / 415 * h2 + 2380 * p00 + 99 * p03
    · linear_combination mul_nonneg h hu + 21 / 8 * g + 1016123 / 2324 * h1 + 1044 / 415 * h2 + 2125 * p00 + 481 / 4 * p03
    · linear_combination 8 / 5 * mul_nonneg h hu + 8 / 5 * g + 194623 / 415 * h1 + 180 / 83 * h2 + 1632 * p00 + 133 * p03
    · linear_combination 8 / 5 * mul_nonneg h hu + 12 / 5 * g + 164407 / 415 * h1 + 180 / 83 * h2 + 2176 * p00 + 133 * p03
    · linear_combination 8 / 5 * mul_nonneg h hu + 9 / 5 * g + 1281263 / 2905 * h1 + 516 / 415 * h2 + 1768 * p00 + 167 * p03
  · have g := mul_nonneg g hu
    rcases (hbCond_iff _ _ _ _ _).mp hH with h | h | h | h | h | h | h | h | h
    · linear_combination 2 * mul_nonneg h hu + g + 302936 / 581 * h1 + 324 / 415 * h2 + 1360 * p00 + 184 * p03
    · linear_combination 2 * mul_nonneg h hu + 2 * g + 265579 / 581 * h1 + 636 / 415 * h3 + 2040 * p00 + 269 * p03
    · linear_combination 2 * mul_nonneg h hu + 5 / 4 * g + 1146167 / 2324 * h1 + 396 / 415 * h3 + 1530 * p00 + 991 / 4 * p03
    · linear_combination mul_nonneg h hu + 5 / 2 * g + 86563 / 166 * h1 + 1116 / 415 * h3 + 2040 * p00 + 623 / 2 * p03
    · linear_combination mul_nonneg h hu + 3 * g + 284292 / 581 * h1 + 1596 / 415 * h3 + 2380 * p00 + 354 * p03
    · linear_combination mul_nonneg h hu + 21 / 8 * g + 2358187 / 4648 * h1 + 1476 / 415 * h3 + 2125 * p00 + 2747 / 8 * p03
    · linear_combination 8 / 5 * mul_nonneg h hu + 8 / 5 * g + 1486529 / 2905 * h1 + 636 / 415 * h3 + 1632 * p00 + 269 * p03
    · linear_combination 8 / 5 * mul_nonneg h hu + 12 / 5 * g + 1337101 / 2905 * h1 + 1404 / 415 * h3 + 2176 * p00 + 337 * p03
    · linear_combination 8 / 5 * mul_nonneg h hu + 9 / 5 * g + 1420952 / 2905 * h1 + 1212 / 415 * h3 + 1768 * p00 + 320 * p03

theorem cell1_1_3 {s t a b : ℚ} (h0 : 0 ≤ s - 314 / 415) (h1 : 0 ≤ 171 / 226 - s) (h2 : 0 ≤ t - (19 / 7)) (h3 : 0 ≤ 18 / 5 - t)
    (hH : HBCond 2 s t a b) (hV : LVCond (jutK 11) 3 s t a) : b * (85 * s - 62) ≤ (78 - 99 * s) * t := by
  have hu : 0 ≤ 85 * s - 62 := by linarith only [h0, h1]
  have p00 := mul_nonneg h0 h0
  have p03 := mul_nonneg h0 h3
  have hV := (jut_iff 11 _ _ _ _).mp hV
  push_cast at hV
  rcases hV with g | g | g
  · have g := mul_nonneg g hu
    rcases (hbCond_iff _ _ _ _ _).mp hH with h | h | h | h | h | h | h | h | h
    · linear_combination 2 * mul_nonneg h hu + g + 254656 / 415 * h1 + 1284 / 415 * h2 + 1190 * p00 + 99 * p03
    · linear_combination 2 * mul_nonneg h hu + 2 * g + 229856 / 415 * h1 + 1284 / 415 * h2 + 1700 * p00 + 99 * p03
    · linear_combination 2 * mul_nonneg h hu + 5 / 4 * g + 518077 / 830 * h1 + 804 / 415 * h2 + 2635 / 2 * p00 + 283 / 2 * p03
    · linear_combination mul_nonneg h hu + 5 / 2 * g + 257506 / 415 * h1 + 1284 / 415 * h2 + 1615 * p00 + 99 * p03
    · linear_combination mul_nonneg h hu + 3 * g + 245106 / 415 * h1 + 1284 / 415 * h2 + 1870 * p00 + 99 * p03
    · linear_combination mul_nonneg h hu + 21 / 8 * g + 1038789 / 1660 * h1 + 1044 / 415 * h2 + 6715 / 4 * p00 + 481 / 4 * p03
    · linear_combination 8 / 5 * mul_nonneg h hu + 8 / 5 * g + 264262 / 415 * h1 + 180 / 83 * h2 + 1360 * p00 + 133 * p03
    · linear_combination 8 / 5 * mul_nonneg h hu + 12 / 5 * g + 244422 / 415 * h1 + 180 / 83 * h2 + 1768 * p00 + 133 * p03
    · linear_combination 8 / 5 * mul_nonneg h hu + 9 / 5 * g + 267768 / 415 * h1 + 516 / 415 * h2 + 1462 * p00 + 167 * p03
  · have g := mul_nonneg g hu
    rcases (hbCond_iff _ _ _ _ _).mp hH with h | h | h | h | h | h | h | h | h
    · linear_combination 2 * mul_nonneg h hu + g + 2830706 / 4565 * h1 + 324 / 415 * h2 + 23800 / 11 * p00 + 184 * p03
    · linear_combination 2 * mul_nonneg h hu + 2 * g + 2587396 / 4565 * h1 + 636 / 415 * h3 + 40120 / 11 * p00 + 269 * p03
    · linear_combination 2 * mul_nonneg h hu + 5 / 4 * g + 2886286 / 4565 * h1 + 396 / 415 * h3 + 27880 / 11 * p00 + 991 / 4 * p03
    · linear_combination mul_nonneg h hu + 5 / 2 * g + 2906291 / 4565 * h1 + 1116 / 415 * h3 + 44540 / 11 * p00 + 623 / 2 * p03
    · linear_combination mul_nonneg h hu + 3 * g + 2784636 / 4565 * h1 + 1596 / 415 * h3 + 52700 / 11 * p00 + 354 * p03
    · linear_combination mul_nonneg h hu + 21 / 8 * g + 2934081 / 4565 * h1 + 1476 / 415 * h3 + 46580 / 11 * p00 + 2747 / 8 * p03
    · linear_combination 8 / 5 * mul_nonneg h hu + 8 / 5 * g + 2954066 / 4565 * h1 + 636 / 415 * h3 + 32096 / 11 * p00 + 269 * p03
    · linear_combination 8 / 5 * mul_nonneg h hu + 12 / 5 * g + 33246 / 55 * h1 + 1404 / 415 * h3 + 45152 / 11 * p00 + 337 * p03
    · linear_combination 8 / 5 * mul_nonneg h hu + 9 / 5 * g + 599706 / 913 * h1 + 1212 / 415 * h3 + 35360 / 11 * p00 + 320 * p03
  · have g := mul_nonneg g hu
    rcases (hbCond_iff _ _ _ _ _).mp hH with h | h | h | h | h | h | h | h | h
    · linear_combination 2 * mul_nonneg h hu + g + 20746 / 415 * h1 + 324 / 415 * h2 + 23120 * p00 + 184 * p03
    · linear_combination 2 * mul_nonneg h hu + 2 * g + 237964 / 415 * h0 + 636 / 415 * h3 + 45560 * p00 + 269 * p03
    · linear_combination 2 * mul_nonneg h hu + 5 / 4 * g + 33349 / 415 * h0 + 396 / 415 * h3 + 28730 * p00 + 991 / 4 * p03
    · linear_combination mul_nonneg h hu + 5 / 2 * g + 3943 / 5 * h0 + 1116 / 415 * h3 + 56440 * p00 + 623 / 2 * p03
    · linear_combination mul_nonneg h hu + 3 * g + 456624 / 415 * h0 + 1596 / 415 * h3 + 67660 * p00 + 354 * p03
    · linear_combination mul_nonneg h hu + 21 / 8 * g + 708633 / 830 * h0 + 1476 / 415 * h3 + 59245 * p00 + 2747 / 8 * p03
    · linear_combination 8 / 5 * mul_nonneg h hu + 8 / 5 * g + 109994 / 415 * h0 + 636 / 415 * h3 + 36448 * p00 + 269 * p03
    · linear_combination 8 / 5 * mul_nonneg h hu + 12 / 5 * g + 316962 / 415 * h0 + 1404 / 415 * h3 + 54400 * p00 + 337 * p03
    · linear_combination 8 / 5 * mul_nonneg h hu + 9 / 5 * g + 30654 / 83 * h0 + 1212 / 415 * h3 + 40936 * p00 + 320 * p03

theorem cell1_1_4 {s t a b : ℚ} (h0 : 0 ≤ s - 314 / 415) (h1 : 0 ≤ 171 / 226 - s) (h2 : 0 ≤ t - (18 / 5)) (h3 : 0 ≤ 4 - t)
    (hH : HBCond 3 s t a b) (hV : LVCond gm 3 s t a) : b * (85 * s - 62) ≤ (78 - 99 * s) * t := by
  have hu : 0 ≤ 85 * s - 62 := by linarith only [h0, h1]
  have p00 := mul_nonneg h0 h0
  have p03 := mul_nonneg h0 h3
  have hV := (gm_iff _ _ _ _).mp hV
  rcases hV with g | g | g
  · have g := mul_nonneg g hu
    rcases (hbCond_iff _ _ _ _ _).mp hH with h | h | h | h | h | h | h | h | h
    · linear_combination 2 * mul_nonneg h hu + g + 60318 / 83 * h1 + 1284 / 415 * h2 + 1530 * p00 + 99 * p03
    · linear_combination 2 * mul_nonneg h hu + 2 * g + 48303 / 83 * h1 + 1284 / 415 * h2 + 2040 * p00 + 99 * p03
    · linear_combination 2 * mul_nonneg h hu + 5 / 4 * g + 111101 / 166 * h1 + 804 / 415 * h2 + 3315 / 2 * p00 + 283 / 2 * p03
    · linear_combination mul_nonneg h hu + 5 / 2 * g + 108621 / 166 * h1 + 1284 / 415 * h2 + 1785 * p00 + 99 * p03
    · linear_combination mul_nonneg h hu + 3 * g + 48303 / 83 * h1 + 1284 / 415 * h2 + 2040 * p00 + 99 * p03
    · linear_combination mul_nonneg h hu + 21 / 8 * g + 207707 / 332 * h1 + 1044 / 415 * h2 + 7395 / 4 * p00 + 481 / 4 * p03
    · linear_combination 8 / 5 * mul_nonneg h hu + 8 / 5 * g + 56504 / 83 * h1 + 180 / 83 * h2 + 1632 * p00 + 133 * p03
    · linear_combination 8 / 5 * mul_nonneg h hu + 12 / 5 * g + 46892 / 83 * h1 + 180 / 83 * h2 + 2040 * p00 + 133 * p03
    · linear_combination 8 / 5 * mul_nonneg h hu + 9 / 5 * g + 52690 / 83 * h1 + 516 / 415 * h2 + 1734 * p00 + 167 * p03
  · have g := mul_nonneg g hu
    rcases (hbCond_iff _ _ _ _ _).mp hH with h | h | h | h | h | h | h | h | h
    · linear_combination 2 * mul_nonneg h hu + g + 61002 / 83 * h1 + 1284 / 415 * h2 + 2040 * p00 + 99 * p03
    · linear_combination 2 * mul_nonneg h hu + 2 * g + 49671 / 83 * h1 + 1284 / 415 * h2 + 3060 * p00 + 99 * p03
    · linear_combination 2 * mul_nonneg h hu + 5 / 4 * g + 112811 / 166 * h1 + 804 / 415 * h2 + 2295 * p00 + 283 / 2 * p03
    · linear_combination mul_nonneg h hu + 5 / 2 * g + 112041 / 166 * h1 + 1284 / 415 * h2 + 3060 * p00 + 99 * p03
    · linear_combination mul_nonneg h hu + 3 * g + 50355 / 83 * h1 + 1284 / 415 * h2 + 3570 * p00 + 99 * p03
    · linear_combination mul_nonneg h hu + 21 / 8 * g + 214889 / 332 * h1 + 1044 / 415 * h2 + 6375 / 2 * p00 + 481 / 4 * p03
    · linear_combination 8 / 5 * mul_nonneg h hu + 8 / 5 * g + 287992 / 415 * h1 + 180 / 83 * h2 + 2448 * p00 + 133 * p03
    · linear_combination 8 / 5 * mul_nonneg h hu + 12 / 5 * g + 242668 / 415 * h1 + 180 / 83 * h2 + 3264 * p00 + 133 * p03
    · linear_combination 8 / 5 * mul_nonneg h hu + 9 / 5 * g + 269606 / 415 * h1 + 516 / 415 * h2 + 2652 * p00 + 167 * p03
  · have g := mul_nonneg g hu
    rcases (hbCond_iff _ _ _ _ _).mp hH with h | h | h | h | h | h | h | h | h
    · linear_combination 2 * mul_nonneg h hu + g + 63824 / 83 * h1 + 324 / 415 * h2 + 2040 * p00 + 184 * p03
    · linear_combination 2 * mul_nonneg h hu + 2 * g + 55315 / 83 * h1 + 636 / 415 * h3 + 3060 * p00 + 269 * p03
    · linear_combination 2 * mul_nonneg h hu + 5 / 4 * g + 59933 / 83 * h1 + 396 / 415 * h3 + 2295 * p00 + 991 / 4 * p03
    · linear_combination mul_nonneg h hu + 5 / 2 * g + 126151 / 166 * h1 + 1116 / 415 * h3 + 3060 * p00 + 623 / 2 * p03
    · linear_combination mul_nonneg h hu + 3 * g + 58821 / 83 * h1 + 1596 / 415 * h3 + 3570 * p00 + 354 * p03
    · linear_combination mul_nonneg h hu + 21 / 8 * g + 61130 / 83 * h1 + 1476 / 415 * h3 + 6375 / 2 * p00 + 2747 / 8 * p03
    · linear_combination 8 / 5 * mul_nonneg h hu + 8 / 5 * g + 310568 / 415 * h1 + 636 / 415 * h3 + 2448 * p00 + 269 * p03
    · linear_combination 8 / 5 * mul_nonneg h hu + 12 / 5 * g + 276532 / 415 * h1 + 1404 / 415 * h3 + 3264 * p00 + 337 * p03
    · linear_combination 8 / 5 * mul_nonneg h hu + 9 / 5 * g + 295004 / 415 * h1 + 1212 / 415 * h3 + 2652 * p00 + 320 * p03

theorem cell1_2_0 {s t a b : ℚ} (h0 : 0 ≤ s - 171 / 226) (h1 : 0 ≤ 103 / 136 - s) (h2 : 0 ≤ t - (2)) (h3 : 0 ≤ 31 / 11 * s + 2 / 11 - t)
    (hH : HBCond 1 s t a b) (hV : LVCond (jutK 11) 2 s t a) : b * (31 * s + 2) ≤ (174 - 185 * s) * t := by
  have hu : 0 ≤ 31 * s + 2 := by linarith only [h0, h1]
  have p00 := mul_nonneg h0 h0
  have p01 := mul_nonneg h0 h1
  have p03 := mul_nonneg h0 h3
  have hV := (jut_iff 11 _ _ _ _).mp hV
  push_cast at hV
  rcases hV with g | g | g
  · have g := mul_nonneg g hu
    rcases (hbCond_iff _ _ _ _ _).mp hH with h | h | h | h | h | h | h | h | h
    · linear_combination 2 * mul_nonneg h hu + g + 4380235 / 15368 * h1 + 7689 / 226 * h2 + 3007 / 11 * p01 + 185 * p03
    · linear_combination 2 * mul_nonneg h hu + 2 * g + 2801407 / 15368 * h1 + 7689 / 226 * h2 + 1643 / 11 * p01 + 185 * p03
    · linear_combination 2 * mul_nonneg h hu + 5 / 4 * g + 8359889 / 30736 * h1 + 9625 / 452 * h2 + 6293 / 22 * p01 + 401 / 2 * p03
    · linear_combination mul_nonneg h hu + 5 / 2 * g + 3039611 / 15368 * h1 + 7689 / 226 * h2 + 1643 / 11 * p01 + 185 * p03
    · linear_combination mul_nonneg h hu + 3 * g + 2250197 / 15368 * h1 + 7689 / 226 * h2 + 961 / 11 * p01 + 185 * p03
    · linear_combination mul_nonneg h hu + 21 / 8 * g + 691639 / 3616 * h1 + 25003 / 904 * h2 + 6851 / 44 * p01 + 771 / 4 * p03
    · linear_combination 8 / 5 * mul_nonneg h hu + 8 / 5 * g + 1176329 / 4520 * h1 + 26939 / 1130 * h2 + 14229 / 55 * p01 + 987 / 5 * p03
    · linear_combination 8 / 5 * mul_nonneg h hu + 12 / 5 * g + 13682281 / 76840 * h1 + 26939 / 1130 * h2 + 8773 / 55 * p01 + 987 / 5 * p03
    · linear_combination 8 / 5 * mul_nonneg h hu + 9 / 5 * g + 19196431 / 76840 * h1 + 15433 / 1130 * h2 + 14787 / 55 * p01 + 1049 / 5 * p03
  · have g := mul_nonneg g hu
    rcases (hbCond_iff _ _ _ _ _).mp hH with h | h | h | h | h | h | h | h | h
    · linear_combination 2 * mul_nonneg h hu + g + 368357 / 3842 * h1 + 968 / 113 * h2 + 124 * p01 + 216 * p03
    · linear_combination 2 * mul_nonneg h hu + 2 * g + 16758 / 113 * h0 + 3817 / 226 * h3 + 1643 / 11 * p00 + 247 * p03
    · linear_combination 2 * mul_nonneg h hu + 5 / 4 * g + 4009163 / 61472 * h1 + 9515 / 904 * h3 + 4371 / 44 * p01 + 957 / 4 * p03
    · linear_combination mul_nonneg h hu + 5 / 2 * g + 21634 / 113 * h0 + 13387 / 452 * h3 + 4929 / 22 * p00 + 525 / 2 * p03
    · linear_combination mul_nonneg h hu + 3 * g + 34061 / 113 * h0 + 4785 / 113 * h3 + 3968 / 11 * p00 + 278 * p03
    · linear_combination mul_nonneg h hu + 21 / 8 * g + 176009 / 904 * h0 + 70807 / 1808 * h3 + 1891 / 8 * p00 + 2193 / 8 * p03
    · linear_combination 8 / 5 * mul_nonneg h hu + 8 / 5 * g + 400517 / 76840 * h1 + 3817 / 226 * h3 + 217 / 11 * p01 + 247 * p03
    · linear_combination 8 / 5 * mul_nonneg h hu + 12 / 5 * g + 96479 / 565 * h0 + 42097 / 1130 * h3 + 10943 / 55 * p00 + 1359 / 5 * p03
    · linear_combination 8 / 5 * mul_nonneg h hu + 9 / 5 * g + 18172 / 565 * h3 + 1328 / 5 * p03
  · have g := mul_nonneg g hu
    rcases (hbCond_iff _ _ _ _ _).mp hH with h | h | h | h | h | h | h | h | h
    · linear_combination 2 * mul_nonneg h hu + g + 461968 / 113 * h0 + 968 / 113 * h2 + 54684 / 11 * p00 + 216 * p03
    · linear_combination 2 * mul_nonneg h hu + 2 * g + 962342 / 113 * h0 + 3817 / 226 * h3 + 113739 / 11 * p00 + 247 * p03
    · linear_combination 2 * mul_nonneg h hu + 5 / 4 * g + 2334513 / 452 * h0 + 9515 / 904 * h3 + 25079 / 4 * p00 + 957 / 4 * p03
    · linear_combination mul_nonneg h hu + 5 / 2 * g + 1203614 / 113 * h0 + 13387 / 452 * h3 + 285169 / 22 * p00 + 525 / 2 * p03
    · linear_combination mul_nonneg h hu + 3 * g + 1452437 / 113 * h0 + 4785 / 113 * h3 + 172112 / 11 * p00 + 278 * p03
    · linear_combination mul_nonneg h hu + 21 / 8 * g + 10104641 / 904 * h0 + 70807 / 1808 * h3 + 1197809 / 88 * p00 + 2193 / 8 * p03
    · linear_combination 8 / 5 * mul_nonneg h hu + 8 / 5 * g + 3779399 / 565 * h0 + 3817 / 226 * h3 + 447299 / 55 * p00 + 247 * p03
    · linear_combination 8 / 5 * mul_nonneg h hu + 12 / 5 * g + 5769983 / 565 * h0 + 42097 / 1130 * h3 + 683519 / 55 * p00 + 1359 / 5 * p03
    · linear_combination 8 / 5 * mul_nonneg h hu + 9 / 5 * g + 37656 / 5 * h0 + 18172 / 565 * h3 + 504432 / 55 * p00 + 1328 / 5 * p03

theorem cell1_2_1 {s t a b : ℚ} (h0 : 0 ≤ s - 171 / 226) (h1 : 0 ≤ 103 / 136 - s) (h2 : 0 ≤ t - (31 / 11 * s + 2 / 11)) (h3 : 0 ≤ 12 / 5 - t)
    (hH : HBCond 2 s t a b) (hV : LVCond (jutK 11) 2 s t a) : b * (31 * s + 2) ≤ (174 - 185 * s) * t := by
  have hu : 0 ≤ 31 * s + 2 := by linarith only [h0, h1]
  have p00 := mul_nonneg h0 h0
  have p03 := mul_nonneg h0 h3
  have p12 := mul_nonneg h1 h2
  have hV := (jut_iff 11 _ _ _ _).mp hV
  push_cast at hV
  rcases hV with g | g | g
  · have g := mul_nonneg g hu
    rcases (hbCond_iff _ _ _ _ _).mp hH with h | h | h | h | h | h | h | h | h
    · linear_combination 2 * mul_nonneg h hu + g + 30099 / 226 * h1 + 7689 / 226 * h2 + 372 * p00 + 185 * p03
    · linear_combination 2 * mul_nonneg h hu + 2 * g + 105 / 226 * h0 + 7689 / 226 * h2 + 496 * p00 + 185 * p03
    · linear_combination 2 * mul_nonneg h hu + 5 / 4 * g + 285527 / 2260 * h1 + 9625 / 452 * h2 + 403 * p00 + 401 / 2 * p03
    · linear_combination mul_nonneg h hu + 5 / 2 * g + 14997 / 226 * h1 + 7689 / 226 * h2 + 434 * p00 + 185 * p03
    · linear_combination mul_nonneg h hu + 3 * g + 105 / 226 * h0 + 7689 / 226 * h2 + 496 * p00 + 185 * p03
    · linear_combination mul_nonneg h hu + 21 / 8 * g + 284477 / 4520 * h1 + 25003 / 904 * h2 + 899 / 2 * p00 + 771 / 4 * p03
    · linear_combination 8 / 5 * mul_nonneg h hu + 8 / 5 * g + 721549 / 5650 * h1 + 26939 / 1130 * h2 + 1984 / 5 * p00 + 987 / 5 * p03
    · linear_combination 8 / 5 * mul_nonneg h hu + 12 / 5 * g + 117469 / 5650 * h1 + 26939 / 1130 * h2 + 496 * p00 + 987 / 5 * p03
    · linear_combination 8 / 5 * mul_nonneg h hu + 9 / 5 * g + 690623 / 5650 * h1 + 15433 / 1130 * h2 + 2108 / 5 * p00 + 1049 / 5 * p03
  · have g := mul_nonneg g hu
    rcases (hbCond_iff _ _ _ _ _).mp hH with h | h | h | h | h | h | h | h | h
    · linear_combination 2 * mul_nonneg h hu + g + 143 / 17 * h2 + 216 * p12
    · linear_combination 2 * mul_nonneg h hu + 2 * g + 156698 / 565 * h0 + 3817 / 226 * h3 + 10664 / 11 * p00 + 247 * p03
    · linear_combination 2 * mul_nonneg h hu + 5 / 4 * g + 26342 / 565 * h0 + 9515 / 904 * h3 + 7688 / 11 * p00 + 957 / 4 * p03
    · linear_combination mul_nonneg h hu + 5 / 2 * g + 34319 / 113 * h0 + 13387 / 452 * h3 + 11284 / 11 * p00 + 525 / 2 * p03
    · linear_combination mul_nonneg h hu + 3 * g + 262002 / 565 * h0 + 4785 / 113 * h3 + 13268 / 11 * p00 + 278 * p03
    · linear_combination mul_nonneg h hu + 21 / 8 * g + 196824 / 565 * h0 + 70807 / 1808 * h3 + 11780 / 11 * p00 + 2193 / 8 * p03
    · linear_combination 8 / 5 * mul_nonneg h hu + 8 / 5 * g + 58372 / 565 * h0 + 3817 / 226 * h3 + 42656 / 55 * p00 + 247 * p03
    · linear_combination 8 / 5 * mul_nonneg h hu + 12 / 5 * g + 1015116 / 2825 * h0 + 42097 / 1130 * h3 + 58528 / 55 * p00 + 1359 / 5 * p03
    · linear_combination 8 / 5 * mul_nonneg h hu + 9 / 5 * g + 493692 / 2825 * h0 + 18172 / 565 * h3 + 46624 / 55 * p00 + 1328 / 5 * p03
  · have g := mul_nonneg g hu
    rcases (hbCond_iff _ _ _ _ _).mp hH with h | h | h | h | h | h | h | h | h
    · linear_combination 2 * mul_nonneg h hu + g + 2353484 / 565 * h0 + 968 / 113 * h2 + 5704 * p00 + 216 * p03
    · linear_combination 2 * mul_nonneg h hu + 2 * g + 4884618 / 565 * h0 + 3817 / 226 * h3 + 11160 * p00 + 247 * p03
    · linear_combination 2 * mul_nonneg h hu + 5 / 4 * g + 2981292 / 565 * h0 + 9515 / 904 * h3 + 7068 * p00 + 957 / 4 * p03
    · linear_combination mul_nonneg h hu + 5 / 2 * g + 1216299 / 113 * h0 + 13387 / 452 * h3 + 13764 * p00 + 525 / 2 * p03
    · linear_combination mul_nonneg h hu + 3 * g + 7353882 / 565 * h0 + 4785 / 113 * h3 + 16492 * p00 + 278 * p03
    · linear_combination mul_nonneg h hu + 21 / 8 * g + 6402219 / 565 * h0 + 70807 / 1808 * h3 + 14446 * p00 + 2193 / 8 * p03
    · linear_combination 8 / 5 * mul_nonneg h hu + 8 / 5 * g + 3840708 / 565 * h0 + 3817 / 226 * h3 + 8928 * p00 + 247 * p03
    · linear_combination 8 / 5 * mul_nonneg h hu + 12 / 5 * g + 29382636 / 2825 * h0 + 42097 / 1130 * h3 + 66464 / 5 * p00 + 1359 / 5 * p03
    · linear_combination 8 / 5 * mul_nonneg h hu + 9 / 5 * g + 21769332 / 2825 * h0 + 18172 / 565 * h3 + 50096 / 5 * p00 + 1328 / 5 * p03

theorem cell1_2_2 {s t a b : ℚ} (h0 : 0 ≤ s - 171 / 226) (h1 : 0 ≤ 103 / 136 - s) (h2 : 0 ≤ t - (12 / 5)) (h3 : 0 ≤ 543 / 200 - t)
    (hH : HBCond 2 s t a b) (hV : LVCond gm 2 s t a) : b * (31 * s + 2) ≤ (174 - 185 * s) * t := by
  have hu : 0 ≤ 31 * s + 2 := by linarith only [h0, h1]
  have p00 := mul_nonneg h0 h0
  have p03 := mul_nonneg h0 h3
  have hV := (gm_iff _ _ _ _).mp hV
  rcases hV with g | g | g
  · have g := mul_nonneg g hu
    rcases (hbCond_iff _ _ _ _ _).mp hH with h | h | h | h | h | h | h | h | h
    · linear_combination 2 * mul_nonneg h hu + g + 1298763 / 4520 * h1 + 7689 / 226 * h2 + 372 * p00 + 185 * p03
    · linear_combination 2 * mul_nonneg h hu + 2 * g + 694683 / 4520 * h1 + 7689 / 226 * h2 + 496 * p00 + 185 * p03
    · linear_combination 2 * mul_nonneg h hu + 5 / 4 * g + 11277759 / 45200 * h1 + 9625 / 452 * h2 + 403 * p00 + 401 / 2 * p03
    · linear_combination mul_nonneg h hu + 5 / 2 * g + 996723 / 4520 * h1 + 7689 / 226 * h2 + 434 * p00 + 185 * p03
    · linear_combination mul_nonneg h hu + 3 * g + 694683 / 4520 * h1 + 7689 / 226 * h2 + 496 * p00 + 185 * p03
    · linear_combination mul_nonneg h hu + 21 / 8 * g + 18224589 / 90400 * h1 + 25003 / 904 * h2 + 899 / 2 * p00 + 771 / 4 * p03
    · linear_combination 8 / 5 * mul_nonneg h hu + 8 / 5 * g + 29049333 / 113000 * h1 + 26939 / 1130 * h2 + 1984 / 5 * p00 + 987 / 5 * p03
    · linear_combination 8 / 5 * mul_nonneg h hu + 12 / 5 * g + 16967733 / 113000 * h1 + 26939 / 1130 * h2 + 496 * p00 + 987 / 5 * p03
    · linear_combination 8 / 5 * mul_nonneg h hu + 9 / 5 * g + 25629591 / 113000 * h1 + 15433 / 1130 * h2 + 2108 / 5 * p00 + 1049 / 5 * p03
  · have g := mul_nonneg g hu
    rcases (hbCond_iff _ _ _ _ _).mp hH with h | h | h | h | h | h | h | h | h
    · linear_combination 2 * mul_nonneg h hu + g + 862827 / 4520 * h1 + 7689 / 226 * h2 + 496 * p00 + 185 * p03
    · linear_combination 2 * mul_nonneg h hu + 2 * g + 177189 / 4520 * h0 + 7689 / 226 * h2 + 744 * p00 + 185 * p03
    · linear_combination 2 * mul_nonneg h hu + 5 / 4 * g + 5828559 / 45200 * h1 + 9625 / 452 * h2 + 558 * p00 + 401 / 2 * p03
    · linear_combination mul_nonneg h hu + 5 / 2 * g + 93117 / 4520 * h0 + 7689 / 226 * h2 + 744 * p00 + 185 * p03
    · linear_combination mul_nonneg h hu + 3 * g + 122625 / 904 * h0 + 7689 / 226 * h2 + 868 * p00 + 185 * p03
    · linear_combination mul_nonneg h hu + 21 / 8 * g + 4662051 / 90400 * h0 + 25003 / 904 * h2 + 775 * p00 + 771 / 4 * p03
    · linear_combination 8 / 5 * mul_nonneg h hu + 8 / 5 * g + 11611893 / 113000 * h1 + 26939 / 1130 * h2 + 2976 / 5 * p00 + 987 / 5 * p03
    · linear_combination 8 / 5 * mul_nonneg h hu + 12 / 5 * g + 9188427 / 113000 * h0 + 26939 / 1130 * h2 + 3968 / 5 * p00 + 987 / 5 * p03
    · linear_combination 8 / 5 * mul_nonneg h hu + 9 / 5 * g + 6012471 / 113000 * h1 + 15433 / 1130 * h2 + 3224 / 5 * p00 + 1049 / 5 * p03
  · have g := mul_nonneg g hu
    rcases (hbCond_iff _ _ _ _ _).mp hH with h | h | h | h | h | h | h | h | h
    · linear_combination 2 * mul_nonneg h hu + g + 566853 / 2825 * h1 + 968 / 113 * h2 + 496 * p00 + 216 * p03
    · linear_combination 2 * mul_nonneg h hu + 2 * g + 444567 / 22600 * h0 + 3817 / 226 * h3 + 744 * p00 + 247 * p03
    · linear_combination 2 * mul_nonneg h hu + 5 / 4 * g + 12760563 / 90400 * h1 + 9515 / 904 * h3 + 558 * p00 + 957 / 4 * p03
    · linear_combination mul_nonneg h hu + 5 / 2 * g + 6891 / 1808 * h1 + 13387 / 452 * h3 + 744 * p00 + 525 / 2 * p03
    · linear_combination mul_nonneg h hu + 3 * g + 1201779 / 11300 * h0 + 4785 / 113 * h3 + 868 * p00 + 278 * p03
    · linear_combination mul_nonneg h hu + 21 / 8 * g + 4689633 / 180800 * h0 + 70807 / 1808 * h3 + 775 * p00 + 2193 / 8 * p03
    · linear_combination 8 / 5 * mul_nonneg h hu + 8 / 5 * g + 2675481 / 22600 * h1 + 3817 / 226 * h3 + 2976 / 5 * p00 + 247 * p03
    · linear_combination 8 / 5 * mul_nonneg h hu + 12 / 5 * g + 6540159 / 113000 * h0 + 42097 / 1130 * h3 + 3968 / 5 * p00 + 1359 / 5 * p03
    · linear_combination 8 / 5 * mul_nonneg h hu + 9 / 5 * g + 999834 / 14125 * h1 + 18172 / 565 * h3 + 3224 / 5 * p00 + 1328 / 5 * p03

theorem cell1_2_3 {s t a b : ℚ} (h0 : 0 ≤ s - 171 / 226) (h1 : 0 ≤ 103 / 136 - s) (h2 : 0 ≤ t - (543 / 200)) (h3 : 0 ≤ 18 / 5 - t)
    (hH : HBCond 2 s t a b) (hV : LVCond (jutK 11) 3 s t a) : b * (31 * s + 2) ≤ (174 - 185 * s) * t := by
  have hu : 0 ≤ 31 * s + 2 := by linarith only [h0, h1]
  have p00 := mul_nonneg h0 h0
  have p03 := mul_nonneg h0 h3
  have p11 := mul_nonneg h1 h1
  have p12 := mul_nonneg h1 h2
  have hV := (jut_iff 11 _ _ _ _).mp hV
  push_cast at hV
  rcases hV with g | g | g
  · have g := mul_nonneg g hu
    rcases (hbCond_iff _ _ _ _ _).mp hH with h | h | h | h | h | h | h | h | h
    · linear_combination 2 * mul_nonneg h hu + g + 46922 / 113 * h1 + 7689 / 226 * h2 + 434 * p00 + 185 * p03
    · linear_combination 2 * mul_nonneg h hu + 2 * g + 27772 / 113 * h1 + 7689 / 226 * h2 + 620 * p00 + 185 * p03
    · linear_combination 2 * mul_nonneg h hu + 5 / 4 * g + 215927 / 565 * h1 + 9625 / 452 * h2 + 961 / 2 * p00 + 401 / 2 * p03
    · linear_combination mul_nonneg h hu + 5 / 2 * g + 573917 / 3400 * h1 + 4627095 / 136408 * h2 + 43844 / 1003 * p03 + 589 * p11 + 141711 / 1003 * p12
    · linear_combination mul_nonneg h hu + 3 * g + 23724 / 113 * h1 + 7689 / 226 * h2 + 682 * p00 + 185 * p03
    · linear_combination mul_nonneg h hu + 21 / 8 * g + 314307 / 1130 * h1 + 25003 / 904 * h2 + 2449 / 4 * p00 + 771 / 4 * p03
    · linear_combination 8 / 5 * mul_nonneg h hu + 8 / 5 * g + 1057838 / 2825 * h1 + 26939 / 1130 * h2 + 496 * p00 + 987 / 5 * p03
    · linear_combination 8 / 5 * mul_nonneg h hu + 12 / 5 * g + 674838 / 2825 * h1 + 26939 / 1130 * h2 + 3224 / 5 * p00 + 987 / 5 * p03
    · linear_combination 8 / 5 * mul_nonneg h hu + 9 / 5 * g + 983106 / 2825 * h1 + 15433 / 1130 * h2 + 2666 / 5 * p00 + 1049 / 5 * p03
  · have g := mul_nonneg g hu
    rcases (hbCond_iff _ _ _ _ _).mp hH with h | h | h | h | h | h | h | h | h
    · linear_combination 2 * mul_nonneg h hu + g + 76654 / 565 * h1 + 968 / 113 * h2 + 8680 / 11 * p00 + 216 * p03
    · linear_combination 2 * mul_nonneg h hu + 2 * g + 177052 / 565 * h0 + 3817 / 226 * h3 + 14632 / 11 * p00 + 247 * p03
    · linear_combination 2 * mul_nonneg h hu + 5 / 4 * g + 18482 / 565 * h1 + 9515 / 904 * h3 + 10168 / 11 * p00 + 957 / 4 * p03
    · linear_combination mul_nonneg h hu + 5 / 2 * g + 45679 / 113 * h0 + 13387 / 452 * h3 + 16244 / 11 * p00 + 525 / 2 * p03
    · linear_combination mul_nonneg h hu + 3 * g + 355248 / 565 * h0 + 4785 / 113 * h3 + 19220 / 11 * p00 + 278 * p03
    · linear_combination mul_nonneg h hu + 21 / 8 * g + 257481 / 565 * h0 + 70807 / 1808 * h3 + 16988 / 11 * p00 + 2193 / 8 * p03
    · linear_combination 8 / 5 * mul_nonneg h hu + 8 / 5 * g + 41162 / 565 * h0 + 3817 / 226 * h3 + 58528 / 55 * p00 + 247 * p03
    · linear_combination 8 / 5 * mul_nonneg h hu + 12 / 5 * g + 1220634 / 2825 * h0 + 42097 / 1130 * h3 + 82336 / 55 * p00 + 1359 / 5 * p03
    · linear_combination 8 / 5 * mul_nonneg h hu + 9 / 5 * g + 438498 / 2825 * h0 + 18172 / 565 * h3 + 12896 / 11 * p00 + 1328 / 5 * p03
  · have g := mul_nonneg g hu
    rcases (hbCond_iff _ _ _ _ _).mp hH with h | h | h | h | h | h | h | h | h
    · linear_combination 2 * mul_nonneg h hu + g + 3469286 / 565 * h0 + 968 / 113 * h2 + 8432 * p00 + 216 * p03
    · linear_combination 2 * mul_nonneg h hu + 2 * g + 7268932 / 565 * h0 + 3817 / 226 * h3 + 16616 * p00 + 247 * p03
    · linear_combination 2 * mul_nonneg h hu + 5 / 4 * g + 4413943 / 565 * h0 + 9515 / 904 * h3 + 10478 * p00 + 957 / 4 * p03
    · linear_combination mul_nonneg h hu + 5 / 2 * g + 1818649 / 113 * h0 + 13387 / 452 * h3 + 20584 * p00 + 525 / 2 * p03
    · linear_combination mul_nonneg h hu + 3 * g + 10993068 / 565 * h0 + 4785 / 113 * h3 + 24676 * p00 + 278 * p03
    · linear_combination mul_nonneg h hu + 21 / 8 * g + 19131147 / 1130 * h0 + 70807 / 1808 * h3 + 21607 * p00 + 2193 / 8 * p03
    · linear_combination 8 / 5 * mul_nonneg h hu + 8 / 5 * g + 5714666 / 565 * h0 + 3817 / 226 * h3 + 66464 / 5 * p00 + 247 * p03
    · linear_combination 8 / 5 * mul_nonneg h hu + 12 / 5 * g + 43771914 / 2825 * h0 + 42097 / 1130 * h3 + 19840 * p00 + 1359 / 5 * p03
    · linear_combination 8 / 5 * mul_nonneg h hu + 9 / 5 * g + 32351958 / 2825 * h0 + 18172 / 565 * h3 + 74648 / 5 * p00 + 1328 / 5 * p03

theorem cell1_2_4 {s t a b : ℚ} (h0 : 0 ≤ s - 171 / 226) (h1 : 0 ≤ 103 / 136 - s) (h2 : 0 ≤ t - (18 / 5)) (h3 : 0 ≤ 4 - t)
    (hH : HBCond 3 s t a b) (hV : LVCond gm 3 s t a) : b * (31 * s + 2) ≤ (174 - 185 * s) * t := by
  have hu : 0 ≤ 31 * s + 2 := by linarith only [h0, h1]
  have p00 := mul_nonneg h0 h0
  have p03 := mul_nonneg h0 h3
  have hV := (gm_iff _ _ _ _).mp hV
  rcases hV with g | g | g
  · have g := mul_nonneg g hu
    rcases (hbCond_iff _ _ _ _ _).mp hH with h | h | h | h | h | h | h | h | h
    · linear_combination 2 * mul_nonneg h hu + g + 47188 / 113 * h1 + 7689 / 226 * h2 + 558 * p00 + 185 * p03
    · linear_combination 2 * mul_nonneg h hu + 2 * g + 24535 / 113 * h1 + 7689 / 226 * h2 + 744 * p00 + 185 * p03
    · linear_combination 2 * mul_nonneg h hu + 5 / 4 * g + 40649 / 113 * h1 + 9625 / 452 * h2 + 1209 / 2 * p00 + 401 / 2 * p03
    · linear_combination mul_nonneg h hu + 5 / 2 * g + 71723 / 226 * h1 + 7689 / 226 * h2 + 651 * p00 + 185 * p03
    · linear_combination mul_nonneg h hu + 3 * g + 24535 / 113 * h1 + 7689 / 226 * h2 + 744 * p00 + 185 * p03
    · linear_combination mul_nonneg h hu + 21 / 8 * g + 32592 / 113 * h1 + 25003 / 904 * h2 + 2697 / 4 * p00 + 771 / 4 * p03
    · linear_combination 8 / 5 * mul_nonneg h hu + 8 / 5 * g + 209784 / 565 * h1 + 26939 / 1130 * h2 + 2976 / 5 * p00 + 987 / 5 * p03
    · linear_combination 8 / 5 * mul_nonneg h hu + 12 / 5 * g + 119172 / 565 * h1 + 26939 / 1130 * h2 + 744 * p00 + 987 / 5 * p03
    · linear_combination 8 / 5 * mul_nonneg h hu + 9 / 5 * g + 183628 / 565 * h1 + 15433 / 1130 * h2 + 3162 / 5 * p00 + 1049 / 5 * p03
  · have g := mul_nonneg g hu
    rcases (hbCond_iff _ _ _ _ _).mp hH with h | h | h | h | h | h | h | h | h
    · linear_combination 2 * mul_nonneg h hu + g + 154202 / 565 * h1 + 7689 / 226 * h2 + 744 * p00 + 185 * p03
    · linear_combination 2 * mul_nonneg h hu + 2 * g + 40801 / 565 * h0 + 7689 / 226 * h2 + 1116 * p00 + 185 * p03
    · linear_combination 2 * mul_nonneg h hu + 5 / 4 * g + 40429 / 226 * h1 + 9625 / 452 * h2 + 837 * p00 + 401 / 2 * p03
    · linear_combination mul_nonneg h hu + 5 / 2 * g + 10015 / 226 * h0 + 7689 / 226 * h2 + 1116 * p00 + 185 * p03
    · linear_combination mul_nonneg h hu + 3 * g + 122539 / 565 * h0 + 7689 / 226 * h2 + 1302 * p00 + 185 * p03
    · linear_combination mul_nonneg h hu + 21 / 8 * g + 206409 / 2260 * h0 + 25003 / 904 * h2 + 2325 / 2 * p00 + 771 / 4 * p03
    · linear_combination 8 / 5 * mul_nonneg h hu + 8 / 5 * g + 395016 / 2825 * h1 + 26939 / 1130 * h2 + 4464 / 5 * p00 + 987 / 5 * p03
    · linear_combination 8 / 5 * mul_nonneg h hu + 12 / 5 * g + 384996 / 2825 * h0 + 26939 / 1130 * h2 + 5952 / 5 * p00 + 987 / 5 * p03
    · linear_combination 8 / 5 * mul_nonneg h hu + 9 / 5 * g + 182498 / 2825 * h1 + 15433 / 1130 * h2 + 4836 / 5 * p00 + 1049 / 5 * p03
  · have g := mul_nonneg g hu
    rcases (hbCond_iff _ _ _ _ _).mp hH with h | h | h | h | h | h | h | h | h
    · linear_combination 2 * mul_nonneg h hu + g + 161208 / 565 * h1 + 968 / 113 * h2 + 744 * p00 + 216 * p03
    · linear_combination 2 * mul_nonneg h hu + 2 * g + 26789 / 565 * h0 + 3817 / 226 * h3 + 1116 * p00 + 247 * p03
    · linear_combination 2 * mul_nonneg h hu + 5 / 4 * g + 21966 / 113 * h1 + 9515 / 904 * h3 + 837 * p00 + 957 / 4 * p03
    · linear_combination mul_nonneg h hu + 5 / 2 * g + 3009 / 226 * h0 + 13387 / 452 * h3 + 1116 * p00 + 525 / 2 * p03
    · linear_combination mul_nonneg h hu + 3 * g + 101521 / 565 * h0 + 4785 / 113 * h3 + 1302 * p00 + 278 * p03
    · linear_combination mul_nonneg h hu + 21 / 8 * g + 66423 / 1130 * h0 + 70807 / 1808 * h3 + 2325 / 2 * p00 + 2193 / 8 * p03
    · linear_combination 8 / 5 * mul_nonneg h hu + 8 / 5 * g + 451064 / 2825 * h1 + 3817 / 226 * h3 + 4464 / 5 * p00 + 247 * p03
    · linear_combination 8 / 5 * mul_nonneg h hu + 12 / 5 * g + 300924 / 2825 * h0 + 42097 / 1130 * h3 + 5952 / 5 * p00 + 1359 / 5 * p03
    · linear_combination 8 / 5 * mul_nonneg h hu + 9 / 5 * g + 245552 / 2825 * h1 + 18172 / 565 * h3 + 4836 / 5 * p00 + 1328 / 5 * p03

theorem strip1_0 {s t a b : ℚ} (h0 : 0 ≤ s - 373 / 493) (h1 : 0 ≤ 314 / 415 - s) (t0 : 2 ≤ t) (t1 : t ≤ 4)
    (h : TupleOK [2, 3] LB [] s t a b) : b ≤ w s * t := by
  have hpos : 0 ≤ t := by linarith
  have k0 : (730 * s - 533) / (1050 * s - 780) ≤ w s := le_max_of_le_left (le_min (le_rfl) (le01_0 h0 h1))
  have v0 : 0 < 1050 * s - 780 := u0 (by linarith) (by linarith)
  by_cases c0 : t ≤ 168 * s - 624 / 5
  · exact (le_quot v0 (cell1_0_0 h0 h1 (by linarith) (by linarith) (tuple_hb powers h (by simp)) (tuple_lv powers h (by simp) (by simp)))).trans (mul_le_mul_of_nonneg_right k0 hpos)
  rw [not_le] at c0
  by_cases c1 : t ≤ 12 / 5
  · exact (le_quot v0 (cell1_0_1 h0 h1 (by linarith) (by linarith) (tuple_hb powers h (by simp)) (tuple_lv powers h (by simp) (by simp)))).trans (mul_le_mul_of_nonneg_right k0 hpos)
  rw [not_le] at c1
  by_cases c2 : t ≤ 19 / 7
  · exact (le_quot v0 (cell1_0_2 h0 h1 (by linarith) (by linarith) (tuple_hb powers h (by simp)) (tuple_lv powers h (by simp) (by simp)))).trans (mul_le_mul_of_nonneg_right k0 hpos)
  rw [not_le] at c2
  by_cases c3 : t ≤ 25 / 7
  · exact (le_quot v0 (cell1_0_3 h0 h1 (by linarith) (by linarith) (tuple_hb powers h (by simp)) (tuple_lv powers h (by simp) (by simp)))).trans (mul_le_mul_of_nonneg_right k0 hpos)
  rw [not_le] at c3
  exact (le_quot v0 (cell1_0_4 h0 h1 (by linarith) (by linarith) (tuple_hb powers h (by simp)) (tuple_lv powers h (by simp) (by simp)))).trans (mul_le_mul_of_nonneg_right k0 hpos)

theorem strip1_1 {s t a b : ℚ} (h0 : 0 ≤ s - 314 / 415) (h1 : 0 ≤ 171 / 226 - s) (t0 : 2 ≤ t) (t1 : t ≤ 4)
    (h : TupleOK [2, 3] LB [] s t a b) : b ≤ w s * t := by
  have hpos : 0 ≤ t := by linarith
  have k1 : (78 - 99 * s) / (85 * s - 62) ≤ w s := le_max_of_le_left (le_min (le10_1 h0 h1) (le_rfl))
  have v1 : 0 < 85 * s - 62 := u1 (by linarith) (by linarith)
  by_cases c0 : t ≤ 85 * s - 62
  · exact (le_quot v1 (cell1_1_0 h0 h1 (by linarith) (by linarith) (tuple_hb powers h (by simp)) (tuple_lv powers h (by simp) (by simp)))).trans (mul_le_mul_of_nonneg_right k1 hpos)
  rw [not_le] at c0
  by_cases c1 : t ≤ 12 / 5
  · exact (le_quot v1 (cell1_1_1 h0 h1 (by linarith) (by linarith) (tuple_hb powers h (by simp)) (tuple_lv powers h (by simp) (by simp)))).trans (mul_le_mul_of_nonneg_right k1 hpos)
  rw [not_le] at c1
  by_cases c2 : t ≤ 19 / 7
  · exact (le_quot v1 (cell1_1_2 h0 h1 (by linarith) (by linarith) (tuple_hb powers h (by simp)) (tuple_lv powers h (by simp) (by simp)))).trans (mul_le_mul_of_nonneg_right k1 hpos)
  rw [not_le] at c2
  by_cases c3 : t ≤ 18 / 5
  · exact (le_quot v1 (cell1_1_3 h0 h1 (by linarith) (by linarith) (tuple_hb powers h (by simp)) (tuple_lv powers h (by simp) (by simp)))).trans (mul_le_mul_of_nonneg_right k1 hpos)
  rw [not_le] at c3
  exact (le_quot v1 (cell1_1_4 h0 h1 (by linarith) (by linarith) (tuple_hb powers h (by simp)) (tuple_lv powers h (by simp) (by simp)))).trans (mul_le_mul_of_nonneg_right k1 hpos)

theorem strip1_2 {s t a b : ℚ} (h0 : 0 ≤ s - 171 / 226) (h1 : 0 ≤ 103 / 136 - s) (t0 : 2 ≤ t) (t1 : t ≤ 4)
    (h : TupleOK [2, 3] LB [] s t a b) : b ≤ w s * t := by
  have hpos : 0 ≤ t := by linarith
  have k2 : (174 - 185 * s) / (31 * s + 2) ≤ w s := le_max_of_le_right (le_rfl)
  have v2 : 0 < 31 * s + 2 := u2 (by linarith) (by linarith)
  by_cases c0 : t ≤ 31 / 11 * s + 2 / 11
  · exact (le_quot v2 (cell1_2_0 h0 h1 (by linarith) (by linarith) (tuple_hb powers h (by simp)) (tuple_lv powers h (by simp) (by simp)))).trans (mul_le_mul_of_nonneg_right k2 hpos)
  rw [not_le] at c0
  by_cases c1 : t ≤ 12 / 5
  · exact (le_quot v2 (cell1_2_1 h0 h1 (by linarith) (by linarith) (tuple_hb powers h (by simp)) (tuple_lv powers h (by simp) (by simp)))).trans (mul_le_mul_of_nonneg_right k2 hpos)
  rw [not_le] at c1
  by_cases c2 : t ≤ 543 / 200
  · exact (le_quot v2 (cell1_2_2 h0 h1 (by linarith) (by linarith) (tuple_hb powers h (by simp)) (tuple_lv powers h (by simp) (by simp)))).trans (mul_le_mul_of_nonneg_right k2 hpos)
  rw [not_le] at c2
  by_cases c3 : t ≤ 18 / 5
  · exact (le_quot v2 (cell1_2_3 h0 h1 (by linarith) (by linarith) (tuple_hb powers h (by simp)) (tuple_lv powers h (by simp) (by simp)))).trans (mul_le_mul_of_nonneg_right k2 hpos)
  rw [not_le] at c3
  exact (le_quot v2 (cell1_2_4 h0 h1 (by linarith) (by linarith) (tuple_hb powers h (by simp)) (tuple_lv powers h (by simp) (by simp)))).trans (mul_le_mul_of_nonneg_right k2 hpos)

theorem upper (s t a b : ℚ) (l1 : 373 / 493 ≤ s) (l2 : s < 103 / 136) (h : FeasibleE [2, 3] LB ZB 0 2 s t a b) : b ≤ w s * t := by
  have h : (2 ≤ t ∧ t ≤ 4) ∧ TupleOK [2, 3] LB [] s t a b := by
    rcases h with ⟨⟨i1, i2⟩, h⟩ | ⟨⟨i1, i2⟩, h⟩
    · exact ⟨⟨by linarith, by linarith⟩, h⟩
    · exact ⟨⟨i1, by linarith⟩, tuple_mono h⟩
  obtain ⟨⟨i1, i2⟩, h⟩ := h
  by_cases d0 : s ≤ 314 / 415
  · exact strip1_0 (by linarith) (by linarith) (by linarith) (by linarith) h
  rw [not_le] at d0
  by_cases d1 : s ≤ 171 / 226
  · exact strip1_1 (by linarith) (by linarith) (by linarith) (by linarith) h
  rw [not_le] at d1
  exact strip1_2 (by linarith) (by linarith) (by linarith) (by linarith) h

theorem att0 {s : ℚ} (h0 : 373 / 493 ≤ s) (h1 : s ≤ 314 / 415) :
    Inside [2, 3] LB [] 0 2 (2 * 0) (2 * 2) s (168 * s - 624 / 5) (36 / 5 - 8 * s) (584 / 5 * s - 2132 / 25) := by
  refine ⟨by linarith, by linarith, by linarith, by linarith, by linarith, by linarith, tuple_of powers ⟨by linarith, by linarith⟩ ⟨by linarith, by linarith⟩ ?_ ?_⟩
  · refine List.forall_mem_cons.mpr ⟨?_, List.forall_mem_cons.mpr ⟨?_, List.forall_mem_cons.mpr ⟨?_, List.forall_mem_nil _⟩⟩⟩
    · exact ⟨(hbCond_iff _ _ _ _ _).mpr (.inr (.inr (.inr (.inr (.inr (.inr (.inr (.inr (by linarith))))))))), List.forall_mem_cons.mpr ⟨(gm_iff _ _ _ _).mpr (.inr (.inr (by linarith))), List.forall_mem_cons.mpr ⟨(jut_iff 11 _ _ _ _).mpr (.inr (.inl (by push_cast; linarith))), List.forall_mem_nil _⟩⟩⟩
    · exact ⟨(hbCond_iff _ _ _ _ _).mpr (.inl (by linarith)), List.forall_mem_cons.mpr ⟨(gm_iff _ _ _ _).mpr (.inr (.inl (by linarith))), List.forall_mem_cons.mpr ⟨(jut_iff 11 _ _ _ _).mpr (.inr (.inr (by push_cast; linarith))), List.forall_mem_nil _⟩⟩⟩
    · exact ⟨(hbCond_iff _ _ _ _ _).mpr (.inl (by linarith)), List.forall_mem_cons.mpr ⟨(gm_iff _ _ _ _).mpr (.inl (by linarith)), List.forall_mem_cons.mpr ⟨(jut_iff 11 _ _ _ _).mpr (.inl (by push_cast; linarith)), List.forall_mem_nil _⟩⟩⟩
  · exact List.forall_mem_nil _

theorem att1 {s : ℚ} (h0 : 314 / 415 ≤ s) (h1 : s ≤ 171 / 226) :
    Inside [2, 3] LB [] 0 2 (2 * 0) (2 * 2) s (85 * s - 62) (70 - 91 * s) (78 - 99 * s) := by
  refine ⟨by linarith, by linarith, by linarith, by linarith, by linarith, by linarith, tuple_of powers ⟨by linarith, by linarith⟩ ⟨by linarith, by linarith⟩ ?_ ?_⟩
  · refine List.forall_mem_cons.mpr ⟨?_, List.forall_mem_cons.mpr ⟨?_, List.forall_mem_cons.mpr ⟨?_, List.forall_mem_nil _⟩⟩⟩
    · exact ⟨(hbCond_iff _ _ _ _ _).mpr (.inr (.inr (.inr (.inr (.inr (.inr (.inr (.inr (by linarith))))))))), List.forall_mem_cons.mpr ⟨(gm_iff _ _ _ _).mpr (.inr (.inr (by linarith))), List.forall_mem_cons.mpr ⟨(jut_iff 11 _ _ _ _).mpr (.inr (.inl (by push_cast; linarith))), List.forall_mem_nil _⟩⟩⟩
    · exact ⟨(hbCond_iff _ _ _ _ _).mpr (.inl (by linarith)), List.forall_mem_cons.mpr ⟨(gm_iff _ _ _ _).mpr (.inr (.inl (by linarith))), List.forall_mem_cons.mpr ⟨(jut_iff 11 _ _ _ _).mpr (.inr (.inr (by push_cast; linarith))), List.forall_mem_nil _⟩⟩⟩
    · exact ⟨(hbCond_iff _ _ _ _ _).mpr (.inl (by linarith)), List.forall_mem_cons.mpr ⟨(gm_iff _ _ _ _).mpr (.inl (by linarith)), List.forall_mem_cons.mpr ⟨(jut_iff 11 _ _ _ _).mpr (.inl (by push_cast; linarith)), List.forall_mem_nil _⟩⟩⟩
  · exact List.forall_mem_nil _

theorem att2 {s : ℚ} (h0 : 171 / 226 ≤ s) (h1 : s < 103 / 136) :
    Inside [2, 3] LB [] 0 2 (2 * 0) (2 * 2) s (31 / 11 * s + 2 / 11) (86 / 11 - 97 / 11 * s) (174 / 11 - 185 / 11 * s) := by
  refine ⟨by linarith, by linarith, by linarith, by linarith, by linarith, by linarith, tuple_of powers ⟨by linarith, by linarith⟩ ⟨by linarith, by linarith⟩ ?_ ?_⟩
  · refine List.forall_mem_cons.mpr ⟨?_, List.forall_mem_cons.mpr ⟨?_, List.forall_mem_cons.mpr ⟨?_, List.forall_mem_nil _⟩⟩⟩
    · exact ⟨(hbCond_iff _ _ _ _ _).mpr (.inr (.inr (.inr (.inr (.inr (.inr (.inr (.inr (by linarith))))))))), List.forall_mem_cons.mpr ⟨(gm_iff _ _ _ _).mpr (.inr (.inr (by linarith))), List.forall_mem_cons.mpr ⟨(jut_iff 11 _ _ _ _).mpr (.inr (.inl (by push_cast; linarith))), List.forall_mem_nil _⟩⟩⟩
    · exact ⟨(hbCond_iff _ _ _ _ _).mpr (.inl (by linarith)), List.forall_mem_cons.mpr ⟨(gm_iff _ _ _ _).mpr (.inr (.inl (by linarith))), List.forall_mem_cons.mpr ⟨(jut_iff 11 _ _ _ _).mpr (.inr (.inl (by push_cast; linarith))), List.forall_mem_nil _⟩⟩⟩
    · exact ⟨(hbCond_iff _ _ _ _ _).mpr (.inl (by linarith)), List.forall_mem_cons.mpr ⟨(gm_iff _ _ _ _).mpr (.inl (by linarith)), List.forall_mem_cons.mpr ⟨(jut_iff 11 _ _ _ _).mpr (.inl (by push_cast; linarith)), List.forall_mem_nil _⟩⟩⟩
  · exact List.forall_mem_nil _

theorem attained (s : ℚ) (l1 : 373 / 493 ≤ s) (l2 : s < 103 / 136) : ∃ t a b, (Inside [2, 3] LB [] 0 2 (2 * 0) (2 * 2) s t a b ∨
    Inside [2, 3] LB ZB 0 2 0 2 s t a b) ∧ b = w s * t := by
  by_cases g0 : s ≤ 314 / 415
  · have h0 : 0 ≤ s - 373 / 493 := by linarith
    have h1 : 0 ≤ 314 / 415 - s := by linarith
    have e : w s = (730 * s - 533) / (1050 * s - 780) := le_antisymm (max_le (min_le_of_left_le (le_rfl)) (le20_2 h0 h1)) (le_max_of_le_left (le_min (le_rfl) (le01_0 h0 h1)))
    exact ⟨_, _, _, .inl (att0 (by linarith) (by linarith)), by rw [e]; exact eq_quot (u0 (by linarith) (by linarith)) (by ring)⟩
  rw [not_le] at g0
  by_cases g1 : s ≤ 171 / 226
  · have h0 : 0 ≤ s - 314 / 415 := by linarith
    have h1 : 0 ≤ 171 / 226 - s := by linarith
    have e : w s = (78 - 99 * s) / (85 * s - 62) := le_antisymm (max_le (min_le_of_right_le (le_rfl)) (le21_3 h0 h1)) (le_max_of_le_left (le_min (le10_1 h0 h1) (le_rfl)))
    exact ⟨_, _, _, .inl (att1 (by linarith) (by linarith)), by rw [e]; exact eq_quot (u1 (by linarith) (by linarith)) (by ring)⟩
  rw [not_le] at g1
  have h0 : 0 ≤ s - 171 / 226 := by linarith
  have h1 : 0 ≤ 103 / 136 - s := by linarith
  have e : w s = (174 - 185 * s) / (31 * s + 2) := le_antisymm (max_le (min_le_of_right_le (le12_4 h0 h1)) (le_rfl)) (le_max_of_le_right (le_rfl))
  exact ⟨_, _, _, .inl (att2 (by linarith) (by linarith)), by rw [e]; exact eq_quot (u2 (by linarith) (by linarith)) (by ring)⟩

theorem notConvex1 : NotConvex [2, 3] LB [] (373 / 493) (103 / 136) 0 2 (2 * 0) (2 * 2) :=
  ⟨81 / 107, 14 / 5, 182 / 125, 361 / 100, 81 / 107, 17 / 5, 41 / 25, 33 / 8, by decide +kernel⟩

end Case10

variable {eng : Engine} {hrep : List Pt → Mat} {edges : Mat → List (Pt × Pt)} {solve : RF ℝ → RF ℝ → List ℝ} {isZero : Expr ℝ → Bool}
  {orderR : List (Region ℕ) → List (Region ℕ)} {orderK : List ℚ → List ℚ}

/-- **C85** (`prove_zero_density_energy_10`, derived.py:968-984) The function returns pieces which, at every real `sigma` of `[373/493, 103/136)`, give
`A*(sigma) = w(sigma) / (1 - sigma)` with the `w` stated here. -/
theorem C85_energy_10 (C : Contracts eng edges solve isZero orderR orderK) (hh : HRepSpec hrep) (hhz : HRepNoZero hrep) :
    ∃ out, proveEnergy10 eng hrep edges solve isZero orderR orderK = .ok out ∧ IsBoundE (373 / 493) (103 / 136) out
      (fun x => (max (min ((730 * x - 533) / (1050 * x - 780)) ((78 - 99 * x) / (85 * x - 62))) ((174 - 185 * x) / (31 * x + 2))) / (1 - x)) := by
  have := deriveE C hh hhz [2, 3] Case10.powers Case10.LB Case10.ZB (List.forall_mem_cons.mpr ⟨good_gm, List.forall_mem_cons.mpr ⟨good_jutK (j := 11) (by norm_num), List.forall_mem_nil _⟩⟩) (List.forall_mem_nil _) 0 2 (373 / 493) (103 / 136)
    (by norm_num) (by norm_num) (by norm_num) (by decide +kernel) (by norm_num) (by norm_num) (by norm_num) (by norm_num) Case10.notConvex1
    (.inl ⟨rfl, rfl⟩) Case10.w (fun x => max (min ((730 * x - 533) / (1050 * x - 780)) ((78 - 99 * x) / (85 * x - 62))) ((174 - 185 * x) / (31 * x + 2))) (fun s _ _ => by simp only [Case10.w]; push_cast; rfl) ?_ Case10.attained Case10.upper
  · exact this
  · intro x l1 l2
    push_cast at l1 l2
    have k0 : ContinuousAt (fun x : ℝ => (730 * x - 533) / (1050 * x - 780)) x := ContinuousAt.div (by fun_prop) (by fun_prop) (by intro h; linarith)
    have k1 : ContinuousAt (fun x : ℝ => (78 - 99 * x) / (85 * x - 62)) x := ContinuousAt.div (by fun_prop) (by fun_prop) (by intro h; linarith)
    have k2 : ContinuousAt (fun x : ℝ => (174 - 185 * x) / (31 * x + 2)) x := ContinuousAt.div (by fun_prop) (by fun_prop) (by intro h; linarith)
    exact (Filter.Tendsto.max (Filter.Tendsto.min k0 k1) k2)

/-- The value at `81/107`. -/
example : ∃ eng hrep edges solve isZero orderR orderK out, proveEnergy10 eng hrep edges solve isZero orderR orderK = .ok out ∧
    ∃ q ∈ out, q.1.at (81 / 107) = (388731 / 70850 : ℝ) := by
  obtain ⟨eng, edges, solve, isZero, orderR, orderK, C⟩ := contracts_satisfiable
  obtain ⟨hrep, hh, hhz⟩ := hRepNoZero_satisfiable
  obtain ⟨out, h1, h2⟩ := C85_energy_10 C hh hhz
  obtain ⟨q, q1, _, _, _, q5⟩ := h2 (81 / 107) (by norm_num) (by norm_num)
  exact ⟨eng, hrep, edges, solve, isZero, orderR, orderK, out, h1, q, q1, by rw [q5]; norm_num⟩

end DerivedEnergy
end Expdb
