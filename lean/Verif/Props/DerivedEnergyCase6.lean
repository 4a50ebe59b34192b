import Verif.Props.DerivedEnergyForms

/-!
# C85: the zero density energy estimate that `prove_zero_density_energy_6` derives

The upper bound is proved on cells of the `(sigma, tau)` plane, with one power of Heath-Brown's relation and one power of one large value
estimate on each cell.
-/

namespace Expdb
namespace DerivedEnergy

open Rational SupRatio Mat Region ZeroDensity DerivedZD

namespace Case6

/-- The bound times `1 - sigma`. -/
def w (s : ℚ) : ℚ := max ((18 - 19 * s) / (74 * s - 54)) ((90 - 95 * s) / (26 * s - 6))

/-- The estimates. -/
abbrev LB : List (List (ℚ × ℚ × ℚ)) := [jutK 5]

/-- The zeta large value estimates. -/
abbrev ZB : List (List (ℚ × ℚ × ℚ)) := []

theorem powers : ∀ k ∈ ([2, 3] : List ℚ), 1 ≤ k := by decide +kernel

theorem u0 {s : ℚ} (l1 : 79 / 103 ≤ s) (l2 : s ≤ 84 / 109) : 0 < 74 * s - 54 := by linarith

theorem u1 {s : ℚ} (l1 : 79 / 103 ≤ s) (l2 : s ≤ 84 / 109) : 0 < 26 * s - 6 := by linarith

theorem le10_0 {s : ℚ} (h0 : 0 ≤ s - 79 / 103) (h1 : 0 ≤ 33 / 43 - s) : (90 - 95 * s) / (26 * s - 6) ≤ (18 - 19 * s) / (74 * s - 54) := by
  rw [div_le_div_iff₀ (u1 (by linarith) (by linarith)) (u0 (by linarith) (by linarith))]
  nlinarith [mul_nonneg h0 h1, mul_nonneg h0 h0, mul_nonneg h1 h1]

theorem le01_1 {s : ℚ} (h0 : 0 ≤ s - 33 / 43) (h1 : 0 ≤ 84 / 109 - s) : (18 - 19 * s) / (74 * s - 54) ≤ (90 - 95 * s) / (26 * s - 6) := by
  rw [div_le_div_iff₀ (u0 (by linarith) (by linarith)) (u1 (by linarith) (by linarith))]
  nlinarith [mul_nonneg h0 h1, mul_nonneg h0 h0, mul_nonneg h1 h1]

theorem cell1_0_0 {s t a b : ℚ} (h0 : 0 ≤ s - 79 / 103) (h1 : 0 ≤ 33 / 43 - s) (h2 : 0 ≤ t - (2)) (h3 : 0 ≤ 7 / 3 - t)
    (hH : HBCond 1 s t a b) (hV : LVCond (jutK 5) 2 s t a) : b * (74 * s - 54) ≤ (18 - 19 * s) * t := by
  have hu : 0 ≤ 74 * s - 54 := by linarith only [h0, h1]
  have p00 := mul_nonneg h0 h0
  have p03 := mul_nonneg h0 h3
  have hV := (jut_iff 5 _ _ _ _).mp hV
  push_cast at hV
  rcases hV with g | g | g
  · have g := mul_nonneg g hu
    rcases (hbCond_iff _ _ _ _ _).mp hH with h | h | h | h | h | h | h | h | h
    · linear_combination 2 * mul_nonneg h hu + g + 49507 / 309 * h1 + 353 / 103 * h2 + 592 * p00 + 19 * p03
    · linear_combination 2 * mul_nonneg h hu + 2 * g + 44545 / 309 * h1 + 353 / 103 * h2 + 888 * p00 + 19 * p03
    · linear_combination 2 * mul_nonneg h hu + 5 / 4 * g + 57794 / 309 * h1 + 211 / 103 * h2 + 666 * p00 + 56 * p03
    · linear_combination mul_nonneg h hu + 5 / 2 * g + 55978 / 309 * h1 + 353 / 103 * h2 + 888 * p00 + 19 * p03
    · linear_combination mul_nonneg h hu + 3 * g + 53497 / 309 * h1 + 353 / 103 * h2 + 1036 * p00 + 19 * p03
    · linear_combination mul_nonneg h hu + 21 / 8 * g + 40081 / 206 * h1 + 282 / 103 * h2 + 925 * p00 + 75 / 2 * p03
    · linear_combination 8 / 5 * mul_nonneg h hu + 8 / 5 * g + 99529 / 515 * h1 + 1197 / 515 * h2 + 3552 / 5 * p00 + 243 / 5 * p03
    · linear_combination 8 / 5 * mul_nonneg h hu + 12 / 5 * g + 92913 / 515 * h1 + 1197 / 515 * h2 + 4736 / 5 * p00 + 243 / 5 * p03
    · linear_combination 8 / 5 * mul_nonneg h hu + 9 / 5 * g + 66347 / 309 * h1 + 629 / 515 * h2 + 3848 / 5 * p00 + 391 / 5 * p03
  · have g := mul_nonneg g hu
    rcases (hbCond_iff _ _ _ _ _).mp hH with h | h | h | h | h | h | h | h | h
    · linear_combination 2 * mul_nonneg h hu + g + 72707 / 515 * h1 + 69 / 103 * h2 + 5624 / 5 * p00 + 93 * p03
    · linear_combination 2 * mul_nonneg h hu + 2 * g + 163897 / 1545 * h1 + 215 / 103 * h3 + 9768 / 5 * p00 + 167 * p03
    · linear_combination 2 * mul_nonneg h hu + 5 / 4 * g + 33627 / 206 * h1 + 144 / 103 * h3 + 1332 * p00 + 297 / 2 * p03
    · linear_combination mul_nonneg h hu + 5 / 2 * g + 13757 / 103 * h1 + 357 / 103 * h3 + 2220 * p00 + 204 * p03
    · linear_combination mul_nonneg h hu + 3 * g + 179243 / 1545 * h1 + 499 / 103 * h3 + 13172 / 5 * p00 + 241 * p03
    · linear_combination mul_nonneg h hu + 21 / 8 * g + 297861 / 2060 * h1 + 9 / 2 * h3 + 11618 / 5 * p00 + 927 / 4 * p03
    · linear_combination 8 / 5 * mul_nonneg h hu + 8 / 5 * g + 1257623 / 7725 * h1 + 215 / 103 * h3 + 39072 / 25 * p00 + 167 * p03
    · linear_combination 8 / 5 * mul_nonneg h hu + 12 / 5 * g + 346909 / 2575 * h1 + 2211 / 515 * h3 + 55648 / 25 * p00 + 1131 / 5 * p03
    · linear_combination 8 / 5 * mul_nonneg h hu + 9 / 5 * g + 1393949 / 7725 * h1 + 1927 / 515 * h3 + 43216 / 25 * p00 + 1057 / 5 * p03
  · have g := mul_nonneg g hu
    rcases (hbCond_iff _ _ _ _ _).mp hH with h | h | h | h | h | h | h | h | h
    · linear_combination 2 * mul_nonneg h hu + g + 4761 / 103 * h0 + 69 / 103 * h2 + 6216 * p00 + 93 * p03
    · linear_combination 2 * mul_nonneg h hu + 2 * g + 83035 / 309 * h0 + 215 / 103 * h3 + 12136 * p00 + 167 * p03
    · linear_combination 2 * mul_nonneg h hu + 5 / 4 * g + 14629 / 206 * h0 + 144 / 103 * h3 + 7696 * p00 + 297 / 2 * p03
    · linear_combination mul_nonneg h hu + 5 / 2 * g + 34499 / 103 * h0 + 357 / 103 * h3 + 14948 * p00 + 204 * p03
    · linear_combination mul_nonneg h hu + 3 * g + 137873 / 309 * h0 + 499 / 103 * h3 + 17908 * p00 + 241 * p03
    · linear_combination mul_nonneg h hu + 21 / 8 * g + 143103 / 412 * h0 + 9 / 2 * h3 + 15688 * p00 + 927 / 4 * p03
    · linear_combination 8 / 5 * mul_nonneg h hu + 8 / 5 * g + 211733 / 1545 * h0 + 215 / 103 * h3 + 48544 / 5 * p00 + 167 * p03
    · linear_combination 8 / 5 * mul_nonneg h hu + 12 / 5 * g + 162247 / 515 * h0 + 2211 / 515 * h3 + 72224 / 5 * p00 + 1131 / 5 * p03
    · linear_combination 8 / 5 * mul_nonneg h hu + 9 / 5 * g + 48475 / 309 * h0 + 1927 / 515 * h3 + 54464 / 5 * p00 + 1057 / 5 * p03

theorem cell1_0_1 {s t a b : ℚ} (h0 : 0 ≤ s - 79 / 103) (h1 : 0 ≤ 33 / 43 - s) (h2 : 0 ≤ t - (7 / 3)) (h3 : 0 ≤ 74 * s - 54 - t)
    (hH : HBCond 2 s t a b) (hV : LVCond (jutK 5) 2 s t a) : b * (74 * s - 54) ≤ (18 - 19 * s) * t := by
  have hu : 0 ≤ 74 * s - 54 := by linarith only [h0, h1]
  have p00 := mul_nonneg h0 h0
  have p01 := mul_nonneg h0 h1
  have p03 := mul_nonneg h0 h3
  have hV := (jut_iff 5 _ _ _ _).mp hV
  push_cast at hV
  rcases hV with g | g | g
  · have g := mul_nonneg g hu
    rcases (hbCond_iff _ _ _ _ _).mp hH with h | h | h | h | h | h | h | h | h
    · linear_combination 2 * mul_nonneg h hu + g + 1002936 / 4429 * h1 + 353 / 103 * h2 + 518 * p01 + 19 * p03
    · linear_combination 2 * mul_nonneg h hu + 2 * g + 603476 / 4429 * h1 + 353 / 103 * h2 + 222 * p01 + 19 * p03
    · linear_combination 2 * mul_nonneg h hu + 5 / 4 * g + 20204 / 103 * h1 + 211 / 103 * h2 + 3182 * p01 + 56 * p03
    · linear_combination mul_nonneg h hu + 5 / 2 * g + 803206 / 4429 * h1 + 353 / 103 * h2 + 370 * p01 + 19 * p03
    · linear_combination mul_nonneg h hu + 3 * g + 603476 / 4429 * h1 + 353 / 103 * h2 + 222 * p01 + 19 * p03
    · linear_combination mul_nonneg h hu + 21 / 8 * g + 736124 / 4429 * h1 + 282 / 103 * h2 + 1702 * p01 + 75 / 2 * p03
    · linear_combination 8 / 5 * mul_nonneg h hu + 8 / 5 * g + 4478024 / 22145 * h1 + 1197 / 515 * h2 + 13246 / 5 * p01 + 243 / 5 * p03
    · linear_combination 8 / 5 * mul_nonneg h hu + 12 / 5 * g + 2880184 / 22145 * h1 + 1197 / 515 * h2 + 12062 / 5 * p01 + 243 / 5 * p03
    · linear_combination 8 / 5 * mul_nonneg h hu + 9 / 5 * g + 3941368 / 22145 * h1 + 629 / 515 * h2 + 23902 / 5 * p01 + 391 / 5 * p03
  · have g := mul_nonneg g hu
    rcases (hbCond_iff _ _ _ _ _).mp hH with h | h | h | h | h | h | h | h | h
    · linear_combination 2 * mul_nonneg h hu + g + 5337248 / 22145 * h1 + 69 / 103 * h2 + 27306 / 5 * p01 + 93 * p03
    · linear_combination 2 * mul_nonneg h hu + 2 * g + 7083166 / 22145 * h1 + 215 / 103 * h3 + 50542 / 5 * p01 + 167 * p03
    · linear_combination 2 * mul_nonneg h hu + 5 / 4 * g + 1407622 / 4429 * h1 + 144 / 103 * h3 + 9361 * p01 + 297 / 2 * p03
    · linear_combination mul_nonneg h hu + 5 / 2 * g + 48848 / 103 * h1 + 357 / 103 * h3 + 12728 * p01 + 204 * p03
    · linear_combination mul_nonneg h hu + 3 * g + 11924174 / 22145 * h1 + 499 / 103 * h3 + 75258 / 5 * p01 + 241 * p03
    · linear_combination mul_nonneg h hu + 21 / 8 * g + 11901646 / 22145 * h1 + 9 / 2 * h3 + 146779 / 10 * p01 + 927 / 4 * p03
    · linear_combination 8 / 5 * mul_nonneg h hu + 8 / 5 * g + 42073914 / 110725 * h1 + 215 / 103 * h3 + 263958 / 25 * p01 + 167 * p03
    · linear_combination 8 / 5 * mul_nonneg h hu + 12 / 5 * g + 53448746 / 110725 * h1 + 2211 / 515 * h3 + 356902 / 25 * p01 + 1131 / 5 * p03
    · linear_combination 8 / 5 * mul_nonneg h hu + 9 / 5 * g + 53268522 / 110725 * h1 + 1927 / 515 * h3 + 341954 / 25 * p01 + 1057 / 5 * p03
  · have g := mul_nonneg g hu
    rcases (hbCond_iff _ _ _ _ _).mp hH with h | h | h | h | h | h | h | h | h
    · linear_combination 2 * mul_nonneg h hu + g + 227264 / 4429 * h1 + 69 / 103 * h2 + 370 * p01 + 93 * p03
    · linear_combination 2 * mul_nonneg h hu + 2 * g + 6130 / 103 * h0 + 215 / 103 * h3 + 74 * p00 + 167 * p03
    · linear_combination 2 * mul_nonneg h hu + 5 / 4 * g + 357390 / 4429 * h1 + 144 / 103 * h3 + 2997 * p01 + 297 / 2 * p03
    · linear_combination mul_nonneg h hu + 5 / 2 * g + 357 / 103 * h3 + 204 * p03
    · linear_combination mul_nonneg h hu + 3 * g + 3146 / 103 * h0 + 499 / 103 * h3 + 222 * p00 + 241 * p03
    · linear_combination mul_nonneg h hu + 21 / 8 * g + 174842 / 4429 * h1 + 9 / 2 * h3 + 2627 / 2 * p01 + 927 / 4 * p03
    · linear_combination 8 / 5 * mul_nonneg h hu + 8 / 5 * g + 1693298 / 22145 * h1 + 215 / 103 * h3 + 12062 / 5 * p01 + 167 * p03
    · linear_combination 8 / 5 * mul_nonneg h hu + 12 / 5 * g + 607522 / 22145 * h1 + 2211 / 515 * h3 + 10286 / 5 * p01 + 1131 / 5 * p03
    · linear_combination 8 / 5 * mul_nonneg h hu + 9 / 5 * g + 3092034 / 22145 * h1 + 1927 / 515 * h3 + 4514 * p01 + 1057 / 5 * p03

theorem cell1_0_2 {s t a b : ℚ} (h0 : 0 ≤ s - 79 / 103) (h1 : 0 ≤ 33 / 43 - s) (h2 : 0 ≤ t - (74 * s - 54)) (h3 : 0 ≤ 11 / 3 - t)
    (hH : HBCond 2 s t a b) (hV : LVCond (jutK 5) 3 s t a) : b * (74 * s - 54) ≤ (18 - 19 * s) * t := by
  have hu : 0 ≤ 74 * s - 54 := by linarith only [h0, h1]
  have p00 := mul_nonneg h0 h0
  have p03 := mul_nonneg h0 h3
  have p12 := mul_nonneg h1 h2
  have hV := (jut_iff 5 _ _ _ _).mp hV
  push_cast at hV
  rcases hV with g | g | g
  · have g := mul_nonneg g hu
    rcases (hbCond_iff _ _ _ _ _).mp hH with h | h | h | h | h | h | h | h | h
    · linear_combination 2 * mul_nonneg h hu + g + 5825 / 309 * h1 + 353 / 103 * h2 + 1036 * p00 + 19 * p03
    · linear_combination 2 * mul_nonneg h hu + 2 * g + 13051 / 309 * h0 + 353 / 103 * h2 + 1480 * p00 + 19 * p03
    · linear_combination 2 * mul_nonneg h hu + 5 / 4 * g + 40252 / 309 * h1 + 211 / 103 * h2 + 1147 * p00 + 56 * p03
    · linear_combination mul_nonneg h hu + 5 / 2 * g + 147 / 43 * h2 + 19 * p12
    · linear_combination mul_nonneg h hu + 3 * g + 4099 / 309 * h0 + 353 / 103 * h2 + 1628 * p00 + 19 * p03
    · linear_combination mul_nonneg h hu + 21 / 8 * g + 15035 / 206 * h1 + 282 / 103 * h2 + 2923 / 2 * p00 + 75 / 2 * p03
    · linear_combination 8 / 5 * mul_nonneg h hu + 8 / 5 * g + 61579 / 515 * h1 + 1197 / 515 * h2 + 1184 * p00 + 243 / 5 * p03
    · linear_combination 8 / 5 * mul_nonneg h hu + 12 / 5 * g + 36411 / 515 * h1 + 1197 / 515 * h2 + 7696 / 5 * p00 + 243 / 5 * p03
    · linear_combination 8 / 5 * mul_nonneg h hu + 9 / 5 * g + 64489 / 309 * h1 + 629 / 515 * h2 + 6364 / 5 * p00 + 391 / 5 * p03
  · have g := mul_nonneg g hu
    rcases (hbCond_iff _ _ _ _ _).mp hH with h | h | h | h | h | h | h | h | h
    · linear_combination 2 * mul_nonneg h hu + g + 106433 / 515 * h1 + 69 / 103 * h2 + 9176 / 5 * p00 + 93 * p03
    · linear_combination 2 * mul_nonneg h hu + 2 * g + 276443 / 1545 * h1 + 215 / 103 * h3 + 15392 / 5 * p00 + 167 * p03
    · linear_combination 2 * mul_nonneg h hu + 5 / 4 * g + 53885 / 206 * h1 + 144 / 103 * h3 + 2146 * p00 + 297 / 2 * p03
    · linear_combination mul_nonneg h hu + 5 / 2 * g + 23724 / 103 * h1 + 357 / 103 * h3 + 3404 * p00 + 204 * p03
    · linear_combination mul_nonneg h hu + 3 * g + 296137 / 1545 * h1 + 499 / 103 * h3 + 20128 / 5 * p00 + 241 * p03
    · linear_combination mul_nonneg h hu + 21 / 8 * g + 479979 / 2060 * h1 + 9 / 2 * h3 + 17797 / 5 * p00 + 927 / 4 * p03
    · linear_combination 8 / 5 * mul_nonneg h hu + 8 / 5 * g + 2051827 / 7725 * h1 + 215 / 103 * h3 + 61568 / 25 * p00 + 167 * p03
    · linear_combination 8 / 5 * mul_nonneg h hu + 12 / 5 * g + 524681 / 2575 * h1 + 2211 / 515 * h3 + 86432 / 25 * p00 + 1131 / 5 * p03
    · linear_combination 8 / 5 * mul_nonneg h hu + 9 / 5 * g + 2084821 / 7725 * h1 + 1927 / 515 * h3 + 67784 / 25 * p00 + 1057 / 5 * p03
  · have g := mul_nonneg g hu
    rcases (hbCond_iff _ _ _ _ _).mp hH with h | h | h | h | h | h | h | h | h
    · linear_combination 2 * mul_nonneg h hu + g + 7667 / 103 * h0 + 69 / 103 * h2 + 9472 * p00 + 93 * p03
    · linear_combination 2 * mul_nonneg h hu + 2 * g + 118433 / 309 * h0 + 215 / 103 * h3 + 18352 * p00 + 167 * p03
    · linear_combination 2 * mul_nonneg h hu + 5 / 4 * g + 18499 / 206 * h0 + 144 / 103 * h3 + 11692 * p00 + 297 / 2 * p03
    · linear_combination mul_nonneg h hu + 5 / 2 * g + 48660 / 103 * h0 + 357 / 103 * h3 + 22496 * p00 + 204 * p03
    · linear_combination mul_nonneg h hu + 3 * g + 201355 / 309 * h0 + 499 / 103 * h3 + 26936 * p00 + 241 * p03
    · linear_combination mul_nonneg h hu + 21 / 8 * g + 208017 / 412 * h0 + 9 / 2 * h3 + 23606 * p00 + 927 / 4 * p03
    · linear_combination 8 / 5 * mul_nonneg h hu + 8 / 5 * g + 284521 / 1545 * h0 + 215 / 103 * h3 + 73408 / 5 * p00 + 167 * p03
    · linear_combination 8 / 5 * mul_nonneg h hu + 12 / 5 * g + 242507 / 515 * h0 + 2211 / 515 * h3 + 108928 / 5 * p00 + 1131 / 5 * p03
    · linear_combination 8 / 5 * mul_nonneg h hu + 9 / 5 * g + 364783 / 1545 * h0 + 1927 / 515 * h3 + 82288 / 5 * p00 + 1057 / 5 * p03

theorem cell1_0_3 {s t a b : ℚ} (h0 : 0 ≤ s - 79 / 103) (h1 : 0 ≤ 33 / 43 - s) (h2 : 0 ≤ t - (11 / 3)) (h3 : 0 ≤ 4 - t)
    (hH : HBCond 3 s t a b) (hV : LVCond (jutK 5) 3 s t a) : b * (74 * s - 54) ≤ (18 - 19 * s) * t := by
  have hu : 0 ≤ 74 * s - 54 := by linarith only [h0, h1]
  have p00 := mul_nonneg h0 h0
  have p03 := mul_nonneg h0 h3
  have hV := (jut_iff 5 _ _ _ _).mp hV
  push_cast at hV
  rcases hV with g | g | g
  · have g := mul_nonneg g hu
    rcases (hbCond_iff _ _ _ _ _).mp hH with h | h | h | h | h | h | h | h | h
    · linear_combination 2 * mul_nonneg h hu + g + 34684 / 103 * h1 + 353 / 103 * h2 + 1332 * p00 + 19 * p03
    · linear_combination 2 * mul_nonneg h hu + 2 * g + 20770 / 103 * h1 + 353 / 103 * h2 + 1776 * p00 + 19 * p03
    · linear_combination 2 * mul_nonneg h hu + 5 / 4 * g + 29300 / 103 * h1 + 211 / 103 * h2 + 1443 * p00 + 56 * p03
    · linear_combination mul_nonneg h hu + 5 / 2 * g + 27727 / 103 * h1 + 353 / 103 * h2 + 1554 * p00 + 19 * p03
    · linear_combination mul_nonneg h hu + 3 * g + 20770 / 103 * h1 + 353 / 103 * h2 + 1776 * p00 + 19 * p03
    · linear_combination mul_nonneg h hu + 21 / 8 * g + 25035 / 103 * h1 + 282 / 103 * h2 + 3219 / 2 * p00 + 75 / 2 * p03
    · linear_combination 8 / 5 * mul_nonneg h hu + 8 / 5 * g + 151884 / 515 * h1 + 1197 / 515 * h2 + 7104 / 5 * p00 + 243 / 5 * p03
    · linear_combination 8 / 5 * mul_nonneg h hu + 12 / 5 * g + 96228 / 515 * h1 + 1197 / 515 * h2 + 1776 * p00 + 243 / 5 * p03
    · linear_combination 8 / 5 * mul_nonneg h hu + 9 / 5 * g + 130348 / 515 * h1 + 629 / 515 * h2 + 7548 / 5 * p00 + 391 / 5 * p03
  · have g := mul_nonneg g hu
    rcases (hbCond_iff _ _ _ _ _).mp hH with h | h | h | h | h | h | h | h | h
    · linear_combination 2 * mul_nonneg h hu + g + 177768 / 515 * h1 + 69 / 103 * h2 + 10656 / 5 * p00 + 93 * p03
    · linear_combination 2 * mul_nonneg h hu + 2 * g + 112546 / 515 * h1 + 215 / 103 * h3 + 16872 / 5 * p00 + 167 * p03
    · linear_combination 2 * mul_nonneg h hu + 5 / 4 * g + 30387 / 103 * h1 + 144 / 103 * h3 + 2442 * p00 + 297 / 2 * p03
    · linear_combination mul_nonneg h hu + 5 / 2 * g + 29901 / 103 * h1 + 357 / 103 * h3 + 3552 * p00 + 204 * p03
    · linear_combination mul_nonneg h hu + 3 * g + 116894 / 515 * h1 + 499 / 103 * h3 + 20868 / 5 * p00 + 241 * p03
    · linear_combination mul_nonneg h hu + 21 / 8 * g + 273177 / 1030 * h1 + 9 / 2 * h3 + 18537 / 5 * p00 + 927 / 4 * p03
    · linear_combination 8 / 5 * mul_nonneg h hu + 8 / 5 * g + 794204 / 2575 * h1 + 215 / 103 * h3 + 67488 / 25 * p00 + 167 * p03
    · linear_combination 8 / 5 * mul_nonneg h hu + 12 / 5 * g + 533316 / 2575 * h1 + 2211 / 515 * h3 + 92352 / 25 * p00 + 1131 / 5 * p03
    · linear_combination 8 / 5 * mul_nonneg h hu + 9 / 5 * g + 690872 / 2575 * h1 + 1927 / 515 * h3 + 73704 / 25 * p00 + 1057 / 5 * p03
  · have g := mul_nonneg g hu
    rcases (hbCond_iff _ _ _ _ _).mp hH with h | h | h | h | h | h | h | h | h
    · linear_combination 2 * mul_nonneg h hu + g + 6600 / 103 * h1 + 69 / 103 * h2 + 9768 * p00 + 93 * p03
    · linear_combination 2 * mul_nonneg h hu + 2 * g + 35398 / 103 * h0 + 215 / 103 * h3 + 18648 * p00 + 167 * p03
    · linear_combination 2 * mul_nonneg h hu + 5 / 4 * g + 5805 / 103 * h0 + 144 / 103 * h3 + 11988 * p00 + 297 / 2 * p03
    · linear_combination mul_nonneg h hu + 5 / 2 * g + 42483 / 103 * h0 + 357 / 103 * h3 + 22644 * p00 + 204 * p03
    · linear_combination mul_nonneg h hu + 3 * g + 63482 / 103 * h0 + 499 / 103 * h3 + 27084 * p00 + 241 * p03
    · linear_combination mul_nonneg h hu + 21 / 8 * g + 97371 / 206 * h0 + 9 / 2 * h3 + 23754 * p00 + 927 / 4 * p03
    · linear_combination 8 / 5 * mul_nonneg h hu + 8 / 5 * g + 72788 / 515 * h0 + 215 / 103 * h3 + 74592 / 5 * p00 + 167 * p03
    · linear_combination 8 / 5 * mul_nonneg h hu + 12 / 5 * g + 48156 / 103 * h0 + 2211 / 515 * h3 + 110112 / 5 * p00 + 1131 / 5 * p03
    · linear_combination 8 / 5 * mul_nonneg h hu + 9 / 5 * g + 122408 / 515 * h0 + 1927 / 515 * h3 + 83472 / 5 * p00 + 1057 / 5 * p03

theorem cell1_1_0 {s t a b : ℚ} (h0 : 0 ≤ s - 33 / 43) (h1 : 0 ≤ 84 / 109 - s) (h2 : 0 ≤ t - (2)) (h3 : 0 ≤ 12 / 5 - t)
    (hH : HBCond 1 s t a b) (hV : LVCond (jutK 5) 2 s t a) : b * (26 * s - 6) ≤ (90 - 95 * s) * t := by
  have hu : 0 ≤ 26 * s - 6 := by linarith only [h0, h1]
  have p00 := mul_nonneg h0 h0
  have p03 := mul_nonneg h0 h3
  have p11 := mul_nonneg h1 h1
  have p12 := mul_nonneg h1 h2
  have hV := (jut_iff 5 _ _ _ _).mp hV
  push_cast at hV
  rcases hV with g | g | g
  · have g := mul_nonneg g hu
    rcases (hbCond_iff _ _ _ _ _).mp hH with h | h | h | h | h | h | h | h | h
    · linear_combination 2 * mul_nonneg h hu + g + 7084 / 43 * h1 + 735 / 43 * h2 + 208 * p00 + 95 * p03
    · linear_combination 2 * mul_nonneg h hu + 2 * g + 4606 / 43 * h1 + 735 / 43 * h2 + 312 * p00 + 95 * p03
    · linear_combination 2 * mul_nonneg h hu + 5 / 4 * g + 34838 / 215 * h1 + 435 / 43 * h2 + 234 * p00 + 108 * p03
    · linear_combination mul_nonneg h hu + 5 / 2 * g + 5165 / 43 * h1 + 735 / 43 * h2 + 312 * p00 + 95 * p03
    · linear_combination mul_nonneg h hu + 3 * g + 3926 / 43 * h1 + 735 / 43 * h2 + 364 * p00 + 95 * p03
    · linear_combination mul_nonneg h hu + 21 / 8 * g + 25534 / 215 * h1 + 585 / 43 * h2 + 325 * p00 + 203 / 2 * p03
    · linear_combination 8 / 5 * mul_nonneg h hu + 8 / 5 * g + 167972 / 1075 * h1 + 495 / 43 * h2 + 1248 / 5 * p00 + 527 / 5 * p03
    · linear_combination 8 / 5 * mul_nonneg h hu + 12 / 5 * g + 118412 / 1075 * h1 + 495 / 43 * h2 + 1664 / 5 * p00 + 527 / 5 * p03
    · linear_combination 8 / 5 * mul_nonneg h hu + 9 / 5 * g + 14826 / 109 * h1 + 68904 / 11881 * h2 + 8170 / 109 * p03 + 1352 / 5 * p11 + 22261 / 545 * p12
  · have g := mul_nonneg g hu
    rcases (hbCond_iff _ _ _ _ _).mp hH with h | h | h | h | h | h | h | h | h
    · linear_combination 2 * mul_nonneg h hu + g + 14236 / 215 * h1 + 135 / 43 * h2 + 1976 / 5 * p00 + 121 * p03
    · linear_combination 2 * mul_nonneg h hu + 2 * g + 19338 / 215 * h0 + 465 / 43 * h3 + 3432 / 5 * p00 + 147 * p03
    · linear_combination 2 * mul_nonneg h hu + 5 / 4 * g + 8358 / 215 * h1 + 315 / 43 * h3 + 468 * p00 + 281 / 2 * p03
    · linear_combination mul_nonneg h hu + 5 / 2 * g + 5427 / 43 * h0 + 765 / 43 * h3 + 780 * p00 + 160 * p03
    · linear_combination mul_nonneg h hu + 3 * g + 43922 / 215 * h0 + 1065 / 43 * h3 + 4628 / 5 * p00 + 173 * p03
    · linear_combination mul_nonneg h hu + 21 / 8 * g + 30074 / 215 * h0 + 990 / 43 * h3 + 4082 / 5 * p00 + 679 / 4 * p03
    · linear_combination 8 / 5 * mul_nonneg h hu + 8 / 5 * g + 60 / 43 * h0 + 465 / 43 * h3 + 13728 / 25 * p00 + 147 * p03
    · linear_combination 8 / 5 * mul_nonneg h hu + 12 / 5 * g + 135796 / 1075 * h0 + 945 / 43 * h3 + 19552 / 25 * p00 + 839 / 5 * p03
    · linear_combination 8 / 5 * mul_nonneg h hu + 9 / 5 * g + 25012 / 1075 * h0 + 825 / 43 * h3 + 15184 / 25 * p00 + 813 / 5 * p03
  · have g := mul_nonneg g hu
    rcases (hbCond_iff _ _ _ _ _).mp hH with h | h | h | h | h | h | h | h | h
    · linear_combination 2 * mul_nonneg h hu + g + 192164 / 215 * h0 + 135 / 43 * h2 + 2184 * p00 + 121 * p03
    · linear_combination 2 * mul_nonneg h hu + 2 * g + 432138 / 215 * h0 + 465 / 43 * h3 + 4264 * p00 + 147 * p03
    · linear_combination 2 * mul_nonneg h hu + 5 / 4 * g + 249642 / 215 * h0 + 315 / 43 * h3 + 2704 * p00 + 281 / 2 * p03
    · linear_combination mul_nonneg h hu + 5 / 2 * g + 108627 / 43 * h0 + 765 / 43 * h3 + 5252 * p00 + 160 * p03
    · linear_combination mul_nonneg h hu + 3 * g + 663122 / 215 * h0 + 1065 / 43 * h3 + 6292 * p00 + 173 * p03
    · linear_combination mul_nonneg h hu + 21 / 8 * g + 571874 / 215 * h0 + 990 / 43 * h3 + 5512 * p00 + 679 / 4 * p03
    · linear_combination 8 / 5 * mul_nonneg h hu + 8 / 5 * g + 66108 / 43 * h0 + 465 / 43 * h3 + 17056 / 5 * p00 + 147 * p03
    · linear_combination 8 / 5 * mul_nonneg h hu + 12 / 5 * g + 2612596 / 1075 * h0 + 945 / 43 * h3 + 25376 / 5 * p00 + 839 / 5 * p03
    · linear_combination 8 / 5 * mul_nonneg h hu + 9 / 5 * g + 1882612 / 1075 * h0 + 825 / 43 * h3 + 19136 / 5 * p00 + 813 / 5 * p03

theorem cell1_1_1 {s t a b : ℚ} (h0 : 0 ≤ s - 33 / 43) (h1 : 0 ≤ 84 / 109 - s) (h2 : 0 ≤ t - (12 / 5)) (h3 : 0 ≤ 26 / 5 * s - 6 / 5 - t)
    (hH : HBCond 2 s t a b) (hV : LVCond (jutK 5) 2 s t a) : b * (26 * s - 6) ≤ (90 - 95 * s) * t := by
  have hu : 0 ≤ 26 * s - 6 := by linarith only [h0, h1]
  have p00 := mul_nonneg h0 h0
  have p01 := mul_nonneg h0 h1
  have p03 := mul_nonneg h0 h3
  have hV := (jut_iff 5 _ _ _ _).mp hV
  push_cast at hV
  rcases hV with g | g | g
  · have g := mul_nonneg g hu
    rcases (hbCond_iff _ _ _ _ _).mp hH with h | h | h | h | h | h | h | h | h
    · linear_combination 2 * mul_nonneg h hu + g + 800610 / 4687 * h1 + 735 / 43 * h2 + 182 * p01 + 95 * p03
    · linear_combination 2 * mul_nonneg h hu + 2 * g + 407086 / 4687 * h1 + 735 / 43 * h2 + 78 * p01 + 95 * p03
    · linear_combination 2 * mul_nonneg h hu + 5 / 4 * g + 690490 / 4687 * h1 + 435 / 43 * h2 + 1118 / 5 * p01 + 108 * p03
    · linear_combination mul_nonneg h hu + 5 / 2 * g + 603848 / 4687 * h1 + 735 / 43 * h2 + 130 * p01 + 95 * p03
    · linear_combination mul_nonneg h hu + 3 * g + 407086 / 4687 * h1 + 735 / 43 * h2 + 78 * p01 + 95 * p03
    · linear_combination mul_nonneg h hu + 21 / 8 * g + 548788 / 4687 * h1 + 585 / 43 * h2 + 754 / 5 * p01 + 203 / 2 * p03
    · linear_combination 8 / 5 * mul_nonneg h hu + 8 / 5 * g + 712514 / 4687 * h1 + 495 / 43 * h2 + 5382 / 25 * p01 + 527 / 5 * p03
    · linear_combination 8 / 5 * mul_nonneg h hu + 12 / 5 * g + 1988474 / 23435 * h1 + 495 / 43 * h2 + 3302 / 25 * p01 + 527 / 5 * p03
    · linear_combination 8 / 5 * mul_nonneg h hu + 9 / 5 * g + 624418 / 4687 * h1 + 255 / 43 * h2 + 6214 / 25 * p01 + 579 / 5 * p03
  · have g := mul_nonneg g hu
    rcases (hbCond_iff _ _ _ _ _).mp hH with h | h | h | h | h | h | h | h | h
    · linear_combination 2 * mul_nonneg h hu + g + 385630 / 4687 * h1 + 135 / 43 * h2 + 130 * p01 + 121 * p03
    · linear_combination 2 * mul_nonneg h hu + 2 * g + 1458 / 43 * h0 + 465 / 43 * h3 + 26 * p00 + 147 * p03
    · linear_combination 2 * mul_nonneg h hu + 5 / 4 * g + 350307 / 4687 * h1 + 315 / 43 * h3 + 793 / 5 * p01 + 281 / 2 * p03
    · linear_combination mul_nonneg h hu + 5 / 2 * g + 765 / 43 * h3 + 160 * p03
    · linear_combination mul_nonneg h hu + 3 * g + 2138 / 43 * h0 + 1065 / 43 * h3 + 78 * p00 + 173 * p03
    · linear_combination mul_nonneg h hu + 21 / 8 * g + 41195 / 9374 * h1 + 990 / 43 * h3 + 143 / 10 * p01 + 679 / 4 * p03
    · linear_combination 8 / 5 * mul_nonneg h hu + 8 / 5 * g + 312108 / 4687 * h1 + 465 / 43 * h3 + 3302 / 25 * p01 + 147 * p03
    · linear_combination 8 / 5 * mul_nonneg h hu + 12 / 5 * g + 313156 / 23435 * h0 + 945 / 43 * h3 + 182 / 25 * p01 + 839 / 5 * p03
    · linear_combination 8 / 5 * mul_nonneg h hu + 9 / 5 * g + 345064 / 4687 * h1 + 825 / 43 * h3 + 3874 / 25 * p01 + 813 / 5 * p03
  · have g := mul_nonneg g hu
    rcases (hbCond_iff _ _ _ _ _).mp hH with h | h | h | h | h | h | h | h | h
    · linear_combination 2 * mul_nonneg h hu + g + 37760 / 43 * h0 + 135 / 43 * h2 + 8294 / 5 * p00 + 121 * p03
    · linear_combination 2 * mul_nonneg h hu + 2 * g + 84018 / 43 * h0 + 465 / 43 * h3 + 18018 / 5 * p00 + 147 * p03
    · linear_combination 2 * mul_nonneg h hu + 5 / 4 * g + 48408 / 43 * h0 + 315 / 43 * h3 + 10387 / 5 * p00 + 281 / 2 * p03
    · linear_combination mul_nonneg h hu + 5 / 2 * g + 2400 * h0 + 765 / 43 * h3 + 4472 * p00 + 160 * p03
    · linear_combination mul_nonneg h hu + 3 * g + 125978 / 43 * h0 + 1065 / 43 * h3 + 27222 / 5 * p00 + 173 * p03
    · linear_combination mul_nonneg h hu + 21 / 8 * g + 108173 / 43 * h0 + 990 / 43 * h3 + 46813 / 10 * p00 + 679 / 4 * p03
    · linear_combination 8 / 5 * mul_nonneg h hu + 8 / 5 * g + 316014 / 215 * h0 + 465 / 43 * h3 + 2730 * p00 + 147 * p03
    · linear_combination 8 / 5 * mul_nonneg h hu + 12 / 5 * g + 498238 / 215 * h0 + 945 / 43 * h3 + 107146 / 25 * p00 + 839 / 5 * p03
    · linear_combination 8 / 5 * mul_nonneg h hu + 9 / 5 * g + 355798 / 215 * h0 + 825 / 43 * h3 + 76622 / 25 * p00 + 813 / 5 * p03

theorem cell1_1_2 {s t a b : ℚ} (h0 : 0 ≤ s - 33 / 43) (h1 : 0 ≤ 84 / 109 - s) (h2 : 0 ≤ t - (26 / 5 * s - 6 / 5)) (h3 : 0 ≤ 11 / 3 - t)
    (hH : HBCond 2 s t a b) (hV : LVCond (jutK 5) 3 s t a) : b * (26 * s - 6) ≤ (90 - 95 * s) * t := by
  have hu : 0 ≤ 26 * s - 6 := by linarith only [h0, h1]
  have p00 := mul_nonneg h0 h0
  have p03 := mul_nonneg h0 h3
  have p12 := mul_nonneg h1 h2
  have hV := (jut_iff 5 _ _ _ _).mp hV
  push_cast at hV
  rcases hV with g | g | g
  · have g := mul_nonneg g hu
    rcases (hbCond_iff _ _ _ _ _).mp hH with h | h | h | h | h | h | h | h | h
    · linear_combination 2 * mul_nonneg h hu + g + 19189 / 129 * h1 + 735 / 43 * h2 + 364 * p00 + 95 * p03
    · linear_combination 2 * mul_nonneg h hu + 2 * g + 6361 / 129 * h1 + 735 / 43 * h2 + 520 * p00 + 95 * p03
    · linear_combination 2 * mul_nonneg h hu + 5 / 4 * g + 7260 / 43 * h1 + 435 / 43 * h2 + 403 * p00 + 108 * p03
    · linear_combination mul_nonneg h hu + 5 / 2 * g + 1830 / 109 * h2 + 95 * p12
    · linear_combination mul_nonneg h hu + 3 * g + 4321 / 129 * h1 + 735 / 43 * h2 + 572 * p00 + 95 * p03
    · linear_combination mul_nonneg h hu + 21 / 8 * g + 24061 / 258 * h1 + 585 / 43 * h2 + 1027 / 2 * p00 + 203 / 2 * p03
    · linear_combination 8 / 5 * mul_nonneg h hu + 8 / 5 * g + 102229 / 645 * h1 + 495 / 43 * h2 + 416 * p00 + 527 / 5 * p03
    · linear_combination 8 / 5 * mul_nonneg h hu + 12 / 5 * g + 50917 / 645 * h1 + 495 / 43 * h2 + 2704 / 5 * p00 + 527 / 5 * p03
    · linear_combination 8 / 5 * mul_nonneg h hu + 9 / 5 * g + 37531 / 215 * h1 + 255 / 43 * h2 + 2236 / 5 * p00 + 579 / 5 * p03
  · have g := mul_nonneg g hu
    rcases (hbCond_iff _ _ _ _ _).mp hH with h | h | h | h | h | h | h | h | h
    · linear_combination 2 * mul_nonneg h hu + g + 9707 / 129 * h1 + 135 / 43 * h2 + 3224 / 5 * p00 + 121 * p03
    · linear_combination 2 * mul_nonneg h hu + 2 * g + 6619 / 43 * h0 + 465 / 43 * h3 + 5408 / 5 * p00 + 147 * p03
    · linear_combination 2 * mul_nonneg h hu + 5 / 4 * g + 10027 / 258 * h1 + 315 / 43 * h3 + 754 * p00 + 281 / 2 * p03
    · linear_combination mul_nonneg h hu + 5 / 2 * g + 24904 / 129 * h0 + 765 / 43 * h3 + 1196 * p00 + 160 * p03
    · linear_combination mul_nonneg h hu + 3 * g + 40739 / 129 * h0 + 1065 / 43 * h3 + 7072 / 5 * p00 + 173 * p03
    · linear_combination mul_nonneg h hu + 21 / 8 * g + 113215 / 516 * h0 + 990 / 43 * h3 + 6253 / 5 * p00 + 679 / 4 * p03
    · linear_combination 8 / 5 * mul_nonneg h hu + 8 / 5 * g + 3299 / 215 * h0 + 465 / 43 * h3 + 21632 / 25 * p00 + 147 * p03
    · linear_combination 8 / 5 * mul_nonneg h hu + 12 / 5 * g + 136577 / 645 * h0 + 945 / 43 * h3 + 30368 / 25 * p00 + 839 / 5 * p03
    · linear_combination 8 / 5 * mul_nonneg h hu + 9 / 5 * g + 2473 / 43 * h0 + 825 / 43 * h3 + 23816 / 25 * p00 + 813 / 5 * p03
  · have g := mul_nonneg g hu
    rcases (hbCond_iff _ _ _ _ _).mp hH with h | h | h | h | h | h | h | h | h
    · linear_combination 2 * mul_nonneg h hu + g + 176053 / 129 * h0 + 135 / 43 * h2 + 3328 * p00 + 121 * p03
    · linear_combination 2 * mul_nonneg h hu + 2 * g + 130459 / 43 * h0 + 465 / 43 * h3 + 6448 * p00 + 147 * p03
    · linear_combination 2 * mul_nonneg h hu + 5 / 4 * g + 454373 / 258 * h0 + 315 / 43 * h3 + 4108 * p00 + 281 / 2 * p03
    · linear_combination mul_nonneg h hu + 5 / 2 * g + 489304 / 129 * h0 + 765 / 43 * h3 + 7904 * p00 + 160 * p03
    · linear_combination mul_nonneg h hu + 3 * g + 598019 / 129 * h0 + 1065 / 43 * h3 + 9464 * p00 + 173 * p03
    · linear_combination mul_nonneg h hu + 21 / 8 * g + 2063695 / 516 * h0 + 990 / 43 * h3 + 8294 * p00 + 679 / 4 * p03
    · linear_combination 8 / 5 * mul_nonneg h hu + 8 / 5 * g + 498659 / 215 * h0 + 465 / 43 * h3 + 25792 / 5 * p00 + 147 * p03
    · linear_combination 8 / 5 * mul_nonneg h hu + 12 / 5 * g + 2365697 / 645 * h0 + 945 / 43 * h3 + 38272 / 5 * p00 + 839 / 5 * p03
    · linear_combination 8 / 5 * mul_nonneg h hu + 9 / 5 * g + 113929 / 43 * h0 + 825 / 43 * h3 + 28912 / 5 * p00 + 813 / 5 * p03

theorem cell1_1_3 {s t a b : ℚ} (h0 : 0 ≤ s - 33 / 43) (h1 : 0 ≤ 84 / 109 - s) (h2 : 0 ≤ t - (11 / 3)) (h3 : 0 ≤ 4 - t)
    (hH : HBCond 3 s t a b) (hV : LVCond (jutK 5) 3 s t a) : b * (26 * s - 6) ≤ (90 - 95 * s) * t := by
  have hu : 0 ≤ 26 * s - 6 := by linarith only [h0, h1]
  have p00 := mul_nonneg h0 h0
  have p03 := mul_nonneg h0 h3
  have hV := (jut_iff 5 _ _ _ _).mp hV
  push_cast at hV
  rcases hV with g | g | g
  · have g := mul_nonneg g hu
    rcases (hbCond_iff _ _ _ _ _).mp hH with h | h | h | h | h | h | h | h | h
    · linear_combination 2 * mul_nonneg h hu + g + 10220 / 43 * h1 + 735 / 43 * h2 + 468 * p00 + 95 * p03
    · linear_combination 2 * mul_nonneg h hu + 2 * g + 4826 / 43 * h1 + 735 / 43 * h2 + 624 * p00 + 95 * p03
    · linear_combination 2 * mul_nonneg h hu + 5 / 4 * g + 8592 / 43 * h1 + 435 / 43 * h2 + 507 * p00 + 108 * p03
    · linear_combination mul_nonneg h hu + 5 / 2 * g + 7523 / 43 * h1 + 735 / 43 * h2 + 546 * p00 + 95 * p03
    · linear_combination mul_nonneg h hu + 3 * g + 4826 / 43 * h1 + 735 / 43 * h2 + 624 * p00 + 95 * p03
    · linear_combination mul_nonneg h hu + 21 / 8 * g + 6709 / 43 * h1 + 585 / 43 * h2 + 1131 / 2 * p00 + 203 / 2 * p03
    · linear_combination 8 / 5 * mul_nonneg h hu + 8 / 5 * g + 44588 / 215 * h1 + 495 / 43 * h2 + 2496 / 5 * p00 + 527 / 5 * p03
    · linear_combination 8 / 5 * mul_nonneg h hu + 12 / 5 * g + 23012 / 215 * h1 + 495 / 43 * h2 + 624 * p00 + 527 / 5 * p03
    · linear_combination 8 / 5 * mul_nonneg h hu + 9 / 5 * g + 38076 / 215 * h1 + 255 / 43 * h2 + 2652 / 5 * p00 + 579 / 5 * p03
  · have g := mul_nonneg g hu
    rcases (hbCond_iff _ _ _ _ _).mp hH with h | h | h | h | h | h | h | h | h
    · linear_combination 2 * mul_nonneg h hu + g + 4312 / 43 * h1 + 135 / 43 * h2 + 3744 / 5 * p00 + 121 * p03
    · linear_combination 2 * mul_nonneg h hu + 2 * g + 6990 / 43 * h0 + 465 / 43 * h3 + 5928 / 5 * p00 + 147 * p03
    · linear_combination 2 * mul_nonneg h hu + 5 / 4 * g + 1207 / 43 * h1 + 315 / 43 * h3 + 858 * p00 + 281 / 2 * p03
    · linear_combination mul_nonneg h hu + 5 / 2 * g + 7247 / 43 * h0 + 765 / 43 * h3 + 1248 * p00 + 160 * p03
    · linear_combination mul_nonneg h hu + 3 * g + 12898 / 43 * h0 + 1065 / 43 * h3 + 7332 / 5 * p00 + 173 * p03
    · linear_combination mul_nonneg h hu + 21 / 8 * g + 17599 / 86 * h0 + 990 / 43 * h3 + 6513 / 5 * p00 + 679 / 4 * p03
    · linear_combination 8 / 5 * mul_nonneg h hu + 8 / 5 * g + 2676 / 215 * h0 + 465 / 43 * h3 + 23712 / 25 * p00 + 147 * p03
    · linear_combination 8 / 5 * mul_nonneg h hu + 12 / 5 * g + 47884 / 215 * h0 + 945 / 43 * h3 + 32448 / 25 * p00 + 839 / 5 * p03
    · linear_combination 8 / 5 * mul_nonneg h hu + 9 / 5 * g + 15096 / 215 * h0 + 825 / 43 * h3 + 25896 / 25 * p00 + 813 / 5 * p03
  · have g := mul_nonneg g hu
    rcases (hbCond_iff _ _ _ _ _).mp hH with h | h | h | h | h | h | h | h | h
    · linear_combination 2 * mul_nonneg h hu + g + 57608 / 43 * h0 + 135 / 43 * h2 + 3432 * p00 + 121 * p03
    · linear_combination 2 * mul_nonneg h hu + 2 * g + 130830 / 43 * h0 + 465 / 43 * h3 + 6552 * p00 + 147 * p03
    · linear_combination 2 * mul_nonneg h hu + 5 / 4 * g + 76193 / 43 * h0 + 315 / 43 * h3 + 4212 * p00 + 281 / 2 * p03
    · linear_combination mul_nonneg h hu + 5 / 2 * g + 162047 / 43 * h0 + 765 / 43 * h3 + 7956 * p00 + 160 * p03
    · linear_combination mul_nonneg h hu + 3 * g + 198658 / 43 * h0 + 1065 / 43 * h3 + 9516 * p00 + 173 * p03
    · linear_combination mul_nonneg h hu + 21 / 8 * g + 342679 / 86 * h0 + 990 / 43 * h3 + 8346 * p00 + 679 / 4 * p03
    · linear_combination 8 / 5 * mul_nonneg h hu + 8 / 5 * g + 498036 / 215 * h0 + 465 / 43 * h3 + 26208 / 5 * p00 + 147 * p03
    · linear_combination 8 / 5 * mul_nonneg h hu + 12 / 5 * g + 790924 / 215 * h0 + 945 / 43 * h3 + 38688 / 5 * p00 + 839 / 5 * p03
    · linear_combination 8 / 5 * mul_nonneg h hu + 9 / 5 * g + 572376 / 215 * h0 + 825 / 43 * h3 + 29328 / 5 * p00 + 813 / 5 * p03

theorem strip1_0 {s t a b : ℚ} (h0 : 0 ≤ s - 79 / 103) (h1 : 0 ≤ 33 / 43 - s) (t0 : 2 ≤ t) (t1 : t ≤ 4)
    (h : TupleOK [2, 3] LB [] s t a b) : b ≤ w s * t := by
  have hpos : 0 ≤ t := by linarith
  have k0 : (18 - 19 * s) / (74 * s - 54) ≤ w s := le_max_of_le_left (le_rfl)
  have v0 : 0 < 74 * s - 54 := u0 (by linarith) (by linarith)
  by_cases c0 : t ≤ 7 / 3
  · exact (le_quot v0 (cell1_0_0 h0 h1 (by linarith) (by linarith) (tuple_hb powers h (by simp)) (tuple_lv powers h (by simp) (by simp)))).trans (mul_le_mul_of_nonneg_right k0 hpos)
  rw [not_le] at c0
  by_cases c1 : t ≤ 74 * s - 54
  · exact (le_quot v0 (cell1_0_1 h0 h1 (by linarith) (by linarith) (tuple_hb powers h (by simp)) (tuple_lv powers h (by simp) (by simp)))).trans (mul_le_mul_of_nonneg_right k0 hpos)
  rw [not_le] at c1
  by_cases c2 : t ≤ 11 / 3
  · exact (le_quot v0 (cell1_0_2 h0 h1 (by linarith) (by linarith) (tuple_hb powers h (by simp)) (tuple_lv powers h (by simp) (by simp)))).trans (mul_le_mul_of_nonneg_right k0 hpos)
  rw [not_le] at c2
  exact (le_quot v0 (cell1_0_3 h0 h1 (by linarith) (by linarith) (tuple_hb powers h (by simp)) (tuple_lv powers h (by simp) (by simp)))).trans (mul_le_mul_of_nonneg_right k0 hpos)

theorem strip1_1 {s t a b : ℚ} (h0 : 0 ≤ s - 33 / 43) (h1 : 0 ≤ 84 / 109 - s) (t0 : 2 ≤ t) (t1 : t ≤ 4)
    (h : TupleOK [2, 3] LB [] s t a b) : b ≤ w s * t := by
  have hpos : 0 ≤ t := by linarith
  have k1 : (90 - 95 * s) / (26 * s - 6) ≤ w s := le_max_of_le_right (le_rfl)
  have v1 : 0 < 26 * s - 6 := u1 (by linarith) (by linarith)
  by_cases c0 : t ≤ 12 / 5
  · exact (le_quot v1 (cell1_1_0 h0 h1 (by linarith) (by linarith) (tuple_hb powers h (by simp)) (tuple_lv powers h (by simp) (by simp)))).trans (mul_le_mul_of_nonneg_right k1 hpos)
  rw [not_le] at c0
  by_cases c1 : t ≤ 26 / 5 * s - 6 / 5
  · exact (le_quot v1 (cell1_1_1 h0 h1 (by linarith) (by linarith) (tuple_hb powers h (by simp)) (tuple_lv powers h (by simp) (by simp)))).trans (mul_le_mul_of_nonneg_right k1 hpos)
  rw [not_le] at c1
  by_cases c2 : t ≤ 11 / 3
  · exact (le_quot v1 (cell1_1_2 h0 h1 (by linarith) (by linarith) (tuple_hb powers h (by simp)) (tuple_lv powers h (by simp) (by simp)))).trans (mul_le_mul_of_nonneg_right k1 hpos)
  rw [not_le] at c2
  exact (le_quot v1 (cell1_1_3 h0 h1 (by linarith) (by linarith) (tuple_hb powers h (by simp)) (tuple_lv powers h (by simp) (by simp)))).trans (mul_le_mul_of_nonneg_right k1 hpos)

theorem upper (s t a b : ℚ) (l1 : 79 / 103 ≤ s) (l2 : s < 84 / 109) (h : FeasibleE [2, 3] LB ZB 0 2 s t a b) : b ≤ w s * t := by
  have h : (2 ≤ t ∧ t ≤ 4) ∧ TupleOK [2, 3] LB [] s t a b := by
    rcases h with ⟨⟨i1, i2⟩, h⟩ | ⟨⟨i1, i2⟩, h⟩
    · exact ⟨⟨by linarith, by linarith⟩, h⟩
    · exact ⟨⟨i1, by linarith⟩, tuple_mono h⟩
  obtain ⟨⟨i1, i2⟩, h⟩ := h
  by_cases d0 : s ≤ 33 / 43
  · exact strip1_0 (by linarith) (by linarith) (by linarith) (by linarith) h
  rw [not_le] at d0
  exact strip1_1 (by linarith) (by linarith) (by linarith) (by linarith) h

theorem att0 {s : ℚ} (h0 : 79 / 103 ≤ s) (h1 : s ≤ 33 / 43) :
    Inside [2, 3] LB [] 0 2 (2 * 0) (2 * 2) s (74 * s - 54) (6 - 6 * s) (18 - 19 * s) := by
  refine ⟨by linarith, by linarith, by linarith, by linarith, by linarith, by linarith, tuple_of powers ⟨by linarith, by linarith⟩ ⟨by linarith, by linarith⟩ ?_ ?_⟩
  · refine List.forall_mem_cons.mpr ⟨?_, List.forall_mem_cons.mpr ⟨?_, List.forall_mem_cons.mpr ⟨?_, List.forall_mem_nil _⟩⟩⟩
    · exact ⟨(hbCond_iff _ _ _ _ _).mpr (.inr (.inr (.inr (.inl (by linarith))))), List.forall_mem_cons.mpr ⟨(jut_iff 5 _ _ _ _).mpr (.inr (.inl (by push_cast; linarith))), List.forall_mem_nil _⟩⟩
    · exact ⟨(hbCond_iff _ _ _ _ _).mpr (.inr (.inr (.inr (.inl (by linarith))))), List.forall_mem_cons.mpr ⟨(jut_iff 5 _ _ _ _).mpr (.inr (.inr (by push_cast; linarith))), List.forall_mem_nil _⟩⟩
    · exact ⟨(hbCond_iff _ _ _ _ _).mpr (.inl (by linarith)), List.forall_mem_cons.mpr ⟨(jut_iff 5 _ _ _ _).mpr (.inl (by push_cast; linarith)), List.forall_mem_nil _⟩⟩
  · exact List.forall_mem_nil _

theorem att1 {s : ℚ} (h0 : 33 / 43 ≤ s) (h1 : s < 84 / 109) :
    Inside [2, 3] LB [] 0 2 (2 * 0) (2 * 2) s (26 / 5 * s - 6 / 5) (6 - 6 * s) (18 - 19 * s) := by
  refine ⟨by linarith, by linarith, by linarith, by linarith, by linarith, by linarith, tuple_of powers ⟨by linarith, by linarith⟩ ⟨by linarith, by linarith⟩ ?_ ?_⟩
  · refine List.forall_mem_cons.mpr ⟨?_, List.forall_mem_cons.mpr ⟨?_, List.forall_mem_cons.mpr ⟨?_, List.forall_mem_nil _⟩⟩⟩
    · exact ⟨(hbCond_iff _ _ _ _ _).mpr (.inr (.inr (.inr (.inl (by linarith))))), List.forall_mem_cons.mpr ⟨(jut_iff 5 _ _ _ _).mpr (.inr (.inl (by push_cast; linarith))), List.forall_mem_nil _⟩⟩
    · exact ⟨(hbCond_iff _ _ _ _ _).mpr (.inr (.inr (.inr (.inl (by linarith))))), List.forall_mem_cons.mpr ⟨(jut_iff 5 _ _ _ _).mpr (.inr (.inl (by push_cast; linarith))), List.forall_mem_nil _⟩⟩
    · exact ⟨(hbCond_iff _ _ _ _ _).mpr (.inl (by linarith)), List.forall_mem_cons.mpr ⟨(jut_iff 5 _ _ _ _).mpr (.inl (by push_cast; linarith)), List.forall_mem_nil _⟩⟩
  · exact List.forall_mem_nil _

theorem attained (s : ℚ) (l1 : 79 / 103 ≤ s) (l2 : s < 84 / 109) : ∃ t a b, (Inside [2, 3] LB [] 0 2 (2 * 0) (2 * 2) s t a b ∨
    Inside [2, 3] LB ZB 0 2 0 2 s t a b) ∧ b = w s * t := by
  by_cases g0 : s ≤ 33 / 43
  · have h0 : 0 ≤ s - 79 / 103 := by linarith
    have h1 : 0 ≤ 33 / 43 - s := by linarith
    have e : w s = (18 - 19 * s) / (74 * s - 54) := le_antisymm (max_le (le_rfl) (le10_0 h0 h1)) (le_max_of_le_left (le_rfl))
    exact ⟨_, _, _, .inl (att0 (by linarith) (by linarith)), by rw [e]; exact eq_quot (u0 (by linarith) (by linarith)) (by ring)⟩
  rw [not_le] at g0
  have h0 : 0 ≤ s - 33 / 43 := by linarith
  have h1 : 0 ≤ 84 / 109 - s := by linarith
  have e : w s = (90 - 95 * s) / (26 * s - 6) := le_antisymm (max_le (le01_1 h0 h1) (le_rfl)) (le_max_of_le_right (le_rfl))
  exact ⟨_, _, _, .inl (att1 (by linarith) (by linarith)), by rw [e]; exact eq_quot (u1 (by linarith) (by linarith)) (by ring)⟩

theorem notConvex1 : NotConvex [2, 3] LB [] (79 / 103) (84 / 109) 0 2 (2 * 0) (2 * 2) :=
  ⟨83 / 108, 5 / 2, 17 / 40, 238 / 125, 83 / 108, 37 / 10, 59 / 40, 779 / 200, by decide +kernel⟩

end Case6

variable {eng : Engine} {hrep : List Pt → Mat} {edges : Mat → List (Pt × Pt)} {solve : RF ℝ → RF ℝ → List ℝ} {isZero : Expr ℝ → Bool}
  {orderR : List (Region ℕ) → List (Region ℕ)} {orderK : List ℚ → List ℚ}

/-- **C85** (`prove_zero_density_energy_6`, derived.py:893-908) The function returns pieces which, at every real `sigma` of `[79/103, 84/109)`, give
`A*(sigma) = w(sigma) / (1 - sigma)` with the `w` stated here. -/
theorem C85_energy_6 (C : Contracts eng edges solve isZero orderR orderK) (hh : HRepSpec hrep) (hhz : HRepNoZero hrep) :
    ∃ out, proveEnergy6 eng hrep edges solve isZero orderR orderK = .ok out ∧ IsBoundE (79 / 103) (84 / 109) out
      (fun x => (max ((18 - 19 * x) / (74 * x - 54)) ((90 - 95 * x) / (26 * x - 6))) / (1 - x)) := by
  have := deriveE C hh hhz [2, 3] Case6.powers Case6.LB Case6.ZB (List.forall_mem_cons.mpr ⟨good_jutK (j := 5) (by norm_num), List.forall_mem_nil _⟩) (List.forall_mem_nil _) 0 2 (79 / 103) (84 / 109)
    (by norm_num) (by norm_num) (by norm_num) (by decide +kernel) (by norm_num) (by norm_num) (by norm_num) (by norm_num) Case6.notConvex1
    (.inl ⟨rfl, rfl⟩) Case6.w (fun x => max ((18 - 19 * x) / (74 * x - 54)) ((90 - 95 * x) / (26 * x - 6))) (fun s _ _ => by simp only [Case6.w]; push_cast; rfl) ?_ Case6.attained Case6.upper
  · exact this
  · intro x l1 l2
    push_cast at l1 l2
    have k0 : ContinuousAt (fun x : ℝ => (18 - 19 * x) / (74 * x - 54)) x := ContinuousAt.div (by fun_prop) (by fun_prop) (by intro h; linarith)
    have k1 : ContinuousAt (fun x : ℝ => (90 - 95 * x) / (26 * x - 6)) x := ContinuousAt.div (by fun_prop) (by fun_prop) (by intro h; linarith)
    exact (Filter.Tendsto.max k0 k1)

/-- The value at `83/108`. -/
example : ∃ eng hrep edges solve isZero orderR orderK out, proveEnergy6 eng hrep edges solve isZero orderR orderK = .ok out ∧
    ∃ q ∈ out, q.1.at (83 / 108) = (19818 / 3775 : ℝ) := by
  obtain ⟨eng, edges, solve, isZero, orderR, orderK, C⟩ := contracts_satisfiable
  obtain ⟨hrep, hh, hhz⟩ := hRepNoZero_satisfiable
  obtain ⟨out, h1, h2⟩ := C85_energy_6 C hh hhz
  obtain ⟨q, q1, _, _, _, q5⟩ := h2 (83 / 108) (by norm_num) (by norm_num)
  exact ⟨eng, hrep, edges, solve, isZero, orderR, orderK, out, h1, q, q1, by rw [q5]; norm_num⟩

end DerivedEnergy
end Expdb
