import Verif.Props.DerivedEnergyForms

/-!
# C85: the zero density energy estimate that `prove_zero_density_energy_3` derives

The upper bound is proved on cells of the `(sigma, tau)` plane, with one power of Heath-Brown's relation and one power of one large value
estimate on each cell.
-/

namespace Expdb
namespace DerivedEnergy

open Rational SupRatio Mat Region ZeroDensity DerivedZD

namespace Case3

/-- The bound times `1 - sigma`. -/
def w (s : ℚ) : ℚ := max ((197 - 220 * s) / (40 * s - 8)) (max ((87 - 90 * s) / (25 * s - 5)) ((40 - 36 * s) / (20 * s - 5)))

/-- The estimates. -/
abbrev LB : List (List (ℚ × ℚ × ℚ)) := [hux, gm]

/-- The zeta large value estimates. -/
abbrev ZB : List (List (ℚ × ℚ × ℚ)) := [tw]

theorem powers : ∀ k ∈ ([2, 3, 4] : List ℚ), 1 ≤ k := by decide +kernel

theorem u0 {s : ℚ} (l1 : 3 / 4 ≤ s) (l2 : s ≤ 4 / 5) : 0 < 40 * s - 8 := by linarith

theorem u1 {s : ℚ} (l1 : 3 / 4 ≤ s) (l2 : s ≤ 4 / 5) : 0 < 25 * s - 5 := by linarith

theorem u2 {s : ℚ} (l1 : 3 / 4 ≤ s) (l2 : s ≤ 4 / 5) : 0 < 20 * s - 5 := by linarith

theorem le10_0 {s : ℚ} (h0 : 0 ≤ s - 3 / 4) (h1 : 0 ≤ 289 / 380 - s) : (87 - 90 * s) / (25 * s - 5) ≤ (197 - 220 * s) / (40 * s - 8) := by
  rw [div_le_div_iff₀ (u1 (by linarith) (by linarith)) (u0 (by linarith) (by linarith))]
  nlinarith [mul_nonneg h0 h1, mul_nonneg h0 h0, mul_nonneg h1 h1]

theorem le20_1 {s : ℚ} (h0 : 0 ≤ s - 3 / 4) (h1 : 0 ≤ 289 / 380 - s) : (40 - 36 * s) / (20 * s - 5) ≤ (197 - 220 * s) / (40 * s - 8) := by
  rw [div_le_div_iff₀ (u2 (by linarith) (by linarith)) (u0 (by linarith) (by linarith))]
  nlinarith [mul_nonneg h0 h1, mul_nonneg h0 h0, mul_nonneg h1 h1]

theorem le01_2 {s : ℚ} (h0 : 0 ≤ s - 289 / 380) (h1 : 0 ≤ 96 / 121 - s) : (197 - 220 * s) / (40 * s - 8) ≤ (87 - 90 * s) / (25 * s - 5) := by
  rw [div_le_div_iff₀ (u0 (by linarith) (by linarith)) (u1 (by linarith) (by linarith))]
  nlinarith [mul_nonneg h0 h1, mul_nonneg h0 h0, mul_nonneg h1 h1]

theorem le02_3 {s : ℚ} (h0 : 0 ≤ s - 42 / 53) (h1 : 0 ≤ 4 / 5 - s) : (197 - 220 * s) / (40 * s - 8) ≤ (40 - 36 * s) / (20 * s - 5) := by
  rw [div_le_div_iff₀ (u0 (by linarith) (by linarith)) (u2 (by linarith) (by linarith))]
  nlinarith [mul_nonneg h0 h1, mul_nonneg h0 h0, mul_nonneg h1 h1]

theorem cross1 {s : ℚ} (l1 : 3 / 4 ≤ s) (l2 : s ≤ 4 / 5) (hc : (40 - 36 * s) / (20 * s - 5) ≤ (87 - 90 * s) / (25 * s - 5)) : s ≤ 96 / 121 := by
  rw [div_le_div_iff₀ (u2 l1 l2) (u1 l1 l2)] at hc
  by_contra h
  rw [not_le] at h
  nlinarith [mul_pos (sub_pos.mpr h) (sub_pos.mpr h), mul_nonneg (sub_nonneg.mpr l2) (sub_pos.mpr h).le]

theorem cross2 {s : ℚ} (l1 : 3 / 4 ≤ s) (l2 : s ≤ 4 / 5) (hc : (87 - 90 * s) / (25 * s - 5) ≤ (40 - 36 * s) / (20 * s - 5)) : 42 / 53 ≤ s := by
  rw [div_le_div_iff₀ (u1 l1 l2) (u2 l1 l2)] at hc
  by_contra h
  rw [not_le] at h
  nlinarith [mul_pos (sub_pos.mpr h) (sub_pos.mpr h), mul_nonneg (sub_nonneg.mpr l1) (sub_pos.mpr h).le]

theorem cell1_0_0 {s t a b : ℚ} (h0 : 0 ≤ s - 3 / 4) (h1 : 0 ≤ 289 / 380 - s) (h2 : 0 ≤ t - (8 * s - 4)) (h3 : 0 ≤ 4 * s - 4 / 5 - t)
    (hH : HBCond 1 s t a b) (hV : LVCond hux 2 s t a) : b * (40 * s - 8) ≤ (197 - 220 * s) * t := by
  have hu : 0 ≤ 40 * s - 8 := by linarith only [h0, h1]
  have p00 := mul_nonneg h0 h0
  have p01 := mul_nonneg h0 h1
  have p03 := mul_nonneg h0 h3
  have hV := (hux_iff _ _ _ _).mp hV
  rcases hV with g | g
  · have g := mul_nonneg g hu
    rcases (hbCond_iff _ _ _ _ _).mp hH with h | h | h | h | h | h | h | h | h
    · linear_combination 2 * mul_nonneg h hu + g + 2620 / 19 * h1 + 32 * h2 + 560 * p01 + 220 * p03
    · linear_combination 2 * mul_nonneg h hu + 2 * g + 916 / 19 * h1 + 32 * h2 + 400 * p01 + 220 * p03
    · linear_combination 2 * mul_nonneg h hu + 5 / 4 * g + 4148 / 19 * h1 + 21 * h2 + 600 * p01 + 240 * p03
    · linear_combination mul_nonneg h hu + 5 / 2 * g + 1296 / 19 * h1 + 32 * h2 + 400 * p01 + 220 * p03
    · linear_combination mul_nonneg h hu + 3 * g + 444 / 19 * h1 + 32 * h2 + 320 * p01 + 220 * p03
    · linear_combination mul_nonneg h hu + 21 / 8 * g + 2060 / 19 * h1 + 53 / 2 * h2 + 420 * p01 + 230 * p03
    · linear_combination 8 / 5 * mul_nonneg h hu + 8 / 5 * g + 18268 / 95 * h1 + 116 / 5 * h2 + 560 * p01 + 236 * p03
    · linear_combination 8 / 5 * mul_nonneg h hu + 12 / 5 * g + 11452 / 95 * h1 + 116 / 5 * h2 + 432 * p01 + 236 * p03
    · linear_combination 8 / 5 * mul_nonneg h hu + 9 / 5 * g + 4876 / 19 * h1 + 72 / 5 * h2 + 592 * p01 + 252 * p03
  · have g := mul_nonneg g hu
    rcases (hbCond_iff _ _ _ _ _).mp hH with h | h | h | h | h | h | h | h | h
    · linear_combination 2 * mul_nonneg h hu + g + 2740 / 19 * h1 + 10 * h2 + 400 * p01 + 260 * p03
    · linear_combination 2 * mul_nonneg h hu + 2 * g + 244 / 19 * h1 + 12 * h3 + 80 * p01 + 300 * p03
    · linear_combination 2 * mul_nonneg h hu + 5 / 4 * g + 3804 / 19 * h1 + 13 / 2 * h3 + 400 * p01 + 290 * p03
    · linear_combination mul_nonneg h hu + 5 / 2 * g + 8 * h0 + 23 * h3 + 320 * p03
    · linear_combination mul_nonneg h hu + 3 * g + 92 * h0 + 34 * h3 + 160 * p00 + 340 * p03
    · linear_combination mul_nonneg h hu + 21 / 8 * g + 125 / 4 * h3 + 335 * p03
    · linear_combination 8 / 5 * mul_nonneg h hu + 8 / 5 * g + 772 / 5 * h1 + 12 * h3 + 304 * p01 + 300 * p03
    · linear_combination 8 / 5 * mul_nonneg h hu + 12 / 5 * g + 1644 / 95 * h1 + 148 / 5 * h3 + 48 * p01 + 332 * p03
    · linear_combination 8 / 5 * mul_nonneg h hu + 9 / 5 * g + 836 / 5 * h1 + 126 / 5 * h3 + 304 * p01 + 324 * p03

theorem cell1_0_1 {s t a b : ℚ} (h0 : 0 ≤ s - 3 / 4) (h1 : 0 ≤ 289 / 380 - s) (h2 : 0 ≤ t - (4 * s - 4 / 5)) (h3 : 0 ≤ 12 / 5 - t)
    (hH : HBCond 1 s t a b) (hV : LVCond gm 2 s t a) : b * (40 * s - 8) ≤ (197 - 220 * s) * t := by
  have hu : 0 ≤ 40 * s - 8 := by linarith only [h0, h1]
  have p00 := mul_nonneg h0 h0
  have p01 := mul_nonneg h0 h1
  have p03 := mul_nonneg h0 h3
  have p12 := mul_nonneg h1 h2
  have hV := (gm_iff _ _ _ _).mp hV
  rcases hV with g | g | g
  · have g := mul_nonneg g hu
    rcases (hbCond_iff _ _ _ _ _).mp hH with h | h | h | h | h | h | h | h | h
    · linear_combination 2 * mul_nonneg h hu + g + 304 * h1 + 32 * h2 + 320 * p00 + 220 * p03
    · linear_combination 2 * mul_nonneg h hu + 2 * g + 216 * h1 + 32 * h2 + 480 * p00 + 220 * p03
    · linear_combination 2 * mul_nonneg h hu + 5 / 4 * g + 344 * h1 + 21 * h2 + 360 * p00 + 240 * p03
    · linear_combination mul_nonneg h hu + 5 / 2 * g + 236 * h1 + 32 * h2 + 480 * p00 + 220 * p03
    · linear_combination mul_nonneg h hu + 3 * g + 192 * h1 + 32 * h2 + 560 * p00 + 220 * p03
    · linear_combination mul_nonneg h hu + 21 / 8 * g + 256 * h1 + 53 / 2 * h2 + 500 * p00 + 230 * p03
    · linear_combination 8 / 5 * mul_nonneg h hu + 8 / 5 * g + 1632 / 5 * h1 + 116 / 5 * h2 + 384 * p00 + 236 * p03
    · linear_combination 8 / 5 * mul_nonneg h hu + 12 / 5 * g + 256 * h1 + 116 / 5 * h2 + 512 * p00 + 236 * p03
    · linear_combination 8 / 5 * mul_nonneg h hu + 9 / 5 * g + 1792 / 5 * h1 + 72 / 5 * h2 + 416 * p00 + 252 * p03
  · have g := mul_nonneg g hu
    rcases (hbCond_iff _ _ _ _ _).mp hH with h | h | h | h | h | h | h | h | h
    · linear_combination 2 * mul_nonneg h hu + g + 224 * h1 + 32 * h2 + 480 * p00 + 220 * p03
    · linear_combination 2 * mul_nonneg h hu + 2 * g + 56 * h1 + 32 * h2 + 800 * p00 + 220 * p03
    · linear_combination 2 * mul_nonneg h hu + 5 / 4 * g + 244 * h1 + 21 * h2 + 560 * p00 + 240 * p03
    · linear_combination mul_nonneg h hu + 5 / 2 * g + 36 * h1 + 32 * h2 + 880 * p00 + 220 * p03
    · linear_combination mul_nonneg h hu + 3 * g + 48 * h0 + 32 * h2 + 1040 * p00 + 220 * p03
    · linear_combination mul_nonneg h hu + 21 / 8 * g + 915 / 38 * h2 + 230 * p12
    · linear_combination 8 / 5 * mul_nonneg h hu + 8 / 5 * g + 992 / 5 * h1 + 116 / 5 * h2 + 640 * p00 + 236 * p03
    · linear_combination 8 / 5 * mul_nonneg h hu + 12 / 5 * g + 64 * h1 + 116 / 5 * h2 + 896 * p00 + 236 * p03
    · linear_combination 8 / 5 * mul_nonneg h hu + 9 / 5 * g + 836 / 5 * h1 + 1116 / 95 * h2 + 304 * p01 + 252 * p12
  · have g := mul_nonneg g hu
    rcases (hbCond_iff _ _ _ _ _).mp hH with h | h | h | h | h | h | h | h | h
    · linear_combination 2 * mul_nonneg h hu + g + 312 * h1 + 10 * h2 + 480 * p00 + 260 * p03
    · linear_combination 2 * mul_nonneg h hu + 2 * g + 184 * h1 + 12 * h3 + 800 * p00 + 300 * p03
    · linear_combination 2 * mul_nonneg h hu + 5 / 4 * g + 328 * h1 + 13 / 2 * h3 + 560 * p00 + 290 * p03
    · linear_combination mul_nonneg h hu + 5 / 2 * g + 164 * h1 + 23 * h3 + 880 * p00 + 320 * p03
    · linear_combination mul_nonneg h hu + 3 * g + 80 * h1 + 34 * h3 + 1040 * p00 + 340 * p03
    · linear_combination mul_nonneg h hu + 21 / 8 * g + 152 * h1 + 125 / 4 * h3 + 920 * p00 + 335 * p03
    · linear_combination 8 / 5 * mul_nonneg h hu + 8 / 5 * g + 1456 / 5 * h1 + 12 * h3 + 640 * p00 + 300 * p03
    · linear_combination 8 / 5 * mul_nonneg h hu + 12 / 5 * g + 784 / 5 * h1 + 148 / 5 * h3 + 896 * p00 + 332 * p03
    · linear_combination 8 / 5 * mul_nonneg h hu + 9 / 5 * g + 272 * h1 + 126 / 5 * h3 + 704 * p00 + 324 * p03

theorem cell1_0_2 {s t a b : ℚ} (h0 : 0 ≤ s - 3 / 4) (h1 : 0 ≤ 289 / 380 - s) (h2 : 0 ≤ t - (12 / 5)) (h3 : 0 ≤ 19 / 7 - t)
    (hH : HBCond 2 s t a b) (hV : LVCond gm 2 s t a) : b * (40 * s - 8) ≤ (197 - 220 * s) * t := by
  have hu : 0 ≤ 40 * s - 8 := by linarith only [h0, h1]
  have p00 := mul_nonneg h0 h0
  have p03 := mul_nonneg h0 h3
  have hV := (gm_iff _ _ _ _).mp hV
  rcases hV with g | g | g
  · have g := mul_nonneg g hu
    rcases (hbCond_iff _ _ _ _ _).mp hH with h | h | h | h | h | h | h | h | h
    · linear_combination 2 * mul_nonneg h hu + g + 3172 / 7 * h1 + 32 * h2 + 480 * p00 + 220 * p03
    · linear_combination 2 * mul_nonneg h hu + 2 * g + 2276 / 7 * h1 + 32 * h2 + 640 * p00 + 220 * p03
    · linear_combination 2 * mul_nonneg h hu + 5 / 4 * g + 2908 / 7 * h1 + 21 * h2 + 520 * p00 + 240 * p03
    · linear_combination mul_nonneg h hu + 5 / 2 * g + 2724 / 7 * h1 + 32 * h2 + 560 * p00 + 220 * p03
    · linear_combination mul_nonneg h hu + 3 * g + 2276 / 7 * h1 + 32 * h2 + 640 * p00 + 220 * p03
    · linear_combination mul_nonneg h hu + 21 / 8 * g + 2592 / 7 * h1 + 53 / 2 * h2 + 580 * p00 + 230 * p03
    · linear_combination 8 / 5 * mul_nonneg h hu + 8 / 5 * g + 14804 / 35 * h1 + 116 / 5 * h2 + 512 * p00 + 236 * p03
    · linear_combination 8 / 5 * mul_nonneg h hu + 12 / 5 * g + 2244 / 7 * h1 + 116 / 5 * h2 + 640 * p00 + 236 * p03
    · linear_combination 8 / 5 * mul_nonneg h hu + 9 / 5 * g + 1964 / 5 * h1 + 72 / 5 * h2 + 544 * p00 + 252 * p03
  · have g := mul_nonneg g hu
    rcases (hbCond_iff _ _ _ _ _).mp hH with h | h | h | h | h | h | h | h | h
    · linear_combination 2 * mul_nonneg h hu + g + 2612 / 7 * h1 + 32 * h2 + 640 * p00 + 220 * p03
    · linear_combination 2 * mul_nonneg h hu + 2 * g + 1156 / 7 * h1 + 32 * h2 + 960 * p00 + 220 * p03
    · linear_combination 2 * mul_nonneg h hu + 5 / 4 * g + 2208 / 7 * h1 + 21 * h2 + 720 * p00 + 240 * p03
    · linear_combination mul_nonneg h hu + 5 / 2 * g + 1324 / 7 * h1 + 32 * h2 + 960 * p00 + 220 * p03
    · linear_combination mul_nonneg h hu + 3 * g + 596 / 7 * h1 + 32 * h2 + 1120 * p00 + 220 * p03
    · linear_combination mul_nonneg h hu + 21 / 8 * g + 1122 / 7 * h1 + 53 / 2 * h2 + 1000 * p00 + 230 * p03
    · linear_combination 8 / 5 * mul_nonneg h hu + 8 / 5 * g + 10324 / 35 * h1 + 116 / 5 * h2 + 768 * p00 + 236 * p03
    · linear_combination 8 / 5 * mul_nonneg h hu + 12 / 5 * g + 900 / 7 * h1 + 116 / 5 * h2 + 1024 * p00 + 236 * p03
    · linear_combination 8 / 5 * mul_nonneg h hu + 9 / 5 * g + 1244 / 5 * h1 + 72 / 5 * h2 + 832 * p00 + 252 * p03
  · have g := mul_nonneg g hu
    rcases (hbCond_iff _ _ _ _ _).mp hH with h | h | h | h | h | h | h | h | h
    · linear_combination 2 * mul_nonneg h hu + g + 2700 / 7 * h1 + 10 * h2 + 640 * p00 + 260 * p03
    · linear_combination 2 * mul_nonneg h hu + 2 * g + 1332 / 7 * h1 + 12 * h3 + 960 * p00 + 300 * p03
    · linear_combination 2 * mul_nonneg h hu + 5 / 4 * g + 2318 / 7 * h1 + 13 / 2 * h3 + 720 * p00 + 290 * p03
    · linear_combination mul_nonneg h hu + 5 / 2 * g + 1544 / 7 * h1 + 23 * h3 + 960 * p00 + 320 * p03
    · linear_combination mul_nonneg h hu + 3 * g + 860 / 7 * h1 + 34 * h3 + 1120 * p00 + 340 * p03
    · linear_combination mul_nonneg h hu + 21 / 8 * g + 1353 / 7 * h1 + 125 / 4 * h3 + 1000 * p00 + 335 * p03
    · linear_combination 8 / 5 * mul_nonneg h hu + 8 / 5 * g + 11028 / 35 * h1 + 12 * h3 + 768 * p00 + 300 * p03
    · linear_combination 8 / 5 * mul_nonneg h hu + 12 / 5 * g + 5556 / 35 * h1 + 148 / 5 * h3 + 1024 * p00 + 332 * p03
    · linear_combination 8 / 5 * mul_nonneg h hu + 9 / 5 * g + 1900 / 7 * h1 + 126 / 5 * h3 + 832 * p00 + 324 * p03

theorem cell1_0_3 {s t a b : ℚ} (h0 : 0 ≤ s - 3 / 4) (h1 : 0 ≤ 289 / 380 - s) (h2 : 0 ≤ t - (19 / 7)) (h3 : 0 ≤ 10 / 3 - t)
    (hH : HBCond 2 s t a b) (hV : LVCond hux 3 s t a) : b * (40 * s - 8) ≤ (197 - 220 * s) * t := by
  have hu : 0 ≤ 40 * s - 8 := by linarith only [h0, h1]
  have p00 := mul_nonneg h0 h0
  have p03 := mul_nonneg h0 h3
  have p11 := mul_nonneg h1 h1
  have p12 := mul_nonneg h1 h2
  have hV := (hux_iff _ _ _ _).mp hV
  rcases hV with g | g
  · have g := mul_nonneg g hu
    rcases (hbCond_iff _ _ _ _ _).mp hH with h | h | h | h | h | h | h | h | h
    · linear_combination 2 * mul_nonneg h hu + g + 1696 / 3 * h1 + 32 * h2 + 560 * p00 + 220 * p03
    · linear_combination 2 * mul_nonneg h hu + 2 * g + 1240 / 3 * h1 + 32 * h2 + 800 * p00 + 220 * p03
    · linear_combination 2 * mul_nonneg h hu + 5 / 4 * g + 534 * h1 + 21 * h2 + 620 * p00 + 240 * p03
    · linear_combination mul_nonneg h hu + 5 / 2 * g + 5683 / 14 * h1 + 77217 / 2470 * h2 + 3897 / 26 * p03 + 760 * p11 + 1823 / 26 * p12
    · linear_combination mul_nonneg h hu + 3 * g + 1168 / 3 * h1 + 32 * h2 + 880 * p00 + 220 * p03
    · linear_combination mul_nonneg h hu + 21 / 8 * g + 1349 / 3 * h1 + 53 / 2 * h2 + 790 * p00 + 230 * p03
    · linear_combination 8 / 5 * mul_nonneg h hu + 8 / 5 * g + 1592 / 3 * h1 + 116 / 5 * h2 + 640 * p00 + 236 * p03
    · linear_combination 8 / 5 * mul_nonneg h hu + 12 / 5 * g + 6136 / 15 * h1 + 116 / 5 * h2 + 832 * p00 + 236 * p03
    · linear_combination 8 / 5 * mul_nonneg h hu + 9 / 5 * g + 2528 / 5 * h1 + 72 / 5 * h2 + 688 * p00 + 252 * p03
  · have g := mul_nonneg g hu
    rcases (hbCond_iff _ _ _ _ _).mp hH with h | h | h | h | h | h | h | h | h
    · linear_combination 2 * mul_nonneg h hu + g + 944 / 3 * h1 + 10 * h2 + 1040 * p00 + 260 * p03
    · linear_combination 2 * mul_nonneg h hu + 2 * g + 88 * h0 + 12 * h3 + 1760 * p00 + 300 * p03
    · linear_combination 2 * mul_nonneg h hu + 5 / 4 * g + 662 / 3 * h1 + 13 / 2 * h3 + 1220 * p00 + 290 * p03
    · linear_combination mul_nonneg h hu + 5 / 2 * g + 484 / 3 * h0 + 23 * h3 + 1960 * p00 + 320 * p03
    · linear_combination mul_nonneg h hu + 3 * g + 1088 / 3 * h0 + 34 * h3 + 2320 * p00 + 340 * p03
    · linear_combination mul_nonneg h hu + 21 / 8 * g + 625 / 3 * h0 + 125 / 4 * h3 + 2050 * p00 + 335 * p03
    · linear_combination 8 / 5 * mul_nonneg h hu + 8 / 5 * g + 648 / 5 * h1 + 12 * h3 + 1408 * p00 + 300 * p03
    · linear_combination 8 / 5 * mul_nonneg h hu + 12 / 5 * g + 2888 / 15 * h0 + 148 / 5 * h3 + 1984 * p00 + 332 * p03
    · linear_combination 8 / 5 * mul_nonneg h hu + 9 / 5 * g + 272 / 5 * h1 + 126 / 5 * h3 + 1552 * p00 + 324 * p03

theorem cell1_0_4 {s t a b : ℚ} (h0 : 0 ≤ s - 3 / 4) (h1 : 0 ≤ 289 / 380 - s) (h2 : 0 ≤ t - (10 / 3)) (h3 : 0 ≤ 19 / 5 - t)
    (hH : HBCond 2 s t a b) (hV : LVCond gm 3 s t a) : b * (40 * s - 8) ≤ (197 - 220 * s) * t := by
  have hu : 0 ≤ 40 * s - 8 := by linarith only [h0, h1]
  have p00 := mul_nonneg h0 h0
  have p03 := mul_nonneg h0 h3
  have hV := (gm_iff _ _ _ _).mp hV
  rcases hV with g | g | g
  · have g := mul_nonneg g hu
    rcases (hbCond_iff _ _ _ _ _).mp hH with h | h | h | h | h | h | h | h | h
    · linear_combination 2 * mul_nonneg h hu + g + 668 * h1 + 32 * h2 + 560 * p00 + 220 * p03
    · linear_combination 2 * mul_nonneg h hu + 2 * g + 516 * h1 + 32 * h2 + 800 * p00 + 220 * p03
    · linear_combination 2 * mul_nonneg h hu + 5 / 4 * g + 646 * h1 + 21 * h2 + 620 * p00 + 240 * p03
    · linear_combination mul_nonneg h hu + 5 / 2 * g + 568 * h1 + 32 * h2 + 760 * p00 + 220 * p03
    · linear_combination mul_nonneg h hu + 3 * g + 492 * h1 + 32 * h2 + 880 * p00 + 220 * p03
    · linear_combination mul_nonneg h hu + 21 / 8 * g + 557 * h1 + 53 / 2 * h2 + 790 * p00 + 230 * p03
    · linear_combination 8 / 5 * mul_nonneg h hu + 8 / 5 * g + 3204 / 5 * h1 + 116 / 5 * h2 + 640 * p00 + 236 * p03
    · linear_combination 8 / 5 * mul_nonneg h hu + 12 / 5 * g + 2596 / 5 * h1 + 116 / 5 * h2 + 832 * p00 + 236 * p03
    · linear_combination 8 / 5 * mul_nonneg h hu + 9 / 5 * g + 3116 / 5 * h1 + 72 / 5 * h2 + 688 * p00 + 252 * p03
  · have g := mul_nonneg g hu
    rcases (hbCond_iff _ _ _ _ _).mp hH with h | h | h | h | h | h | h | h | h
    · linear_combination 2 * mul_nonneg h hu + g + 548 * h1 + 32 * h2 + 800 * p00 + 220 * p03
    · linear_combination 2 * mul_nonneg h hu + 2 * g + 276 * h1 + 32 * h2 + 1280 * p00 + 220 * p03
    · linear_combination 2 * mul_nonneg h hu + 5 / 4 * g + 496 * h1 + 21 * h2 + 920 * p00 + 240 * p03
    · linear_combination mul_nonneg h hu + 5 / 2 * g + 268 * h1 + 32 * h2 + 1360 * p00 + 220 * p03
    · linear_combination mul_nonneg h hu + 3 * g + 132 * h1 + 32 * h2 + 1600 * p00 + 220 * p03
    · linear_combination mul_nonneg h hu + 21 / 8 * g + 242 * h1 + 53 / 2 * h2 + 1420 * p00 + 230 * p03
    · linear_combination 8 / 5 * mul_nonneg h hu + 8 / 5 * g + 2244 / 5 * h1 + 116 / 5 * h2 + 1024 * p00 + 236 * p03
    · linear_combination 8 / 5 * mul_nonneg h hu + 12 / 5 * g + 1156 / 5 * h1 + 116 / 5 * h2 + 1408 * p00 + 236 * p03
    · linear_combination 8 / 5 * mul_nonneg h hu + 9 / 5 * g + 2036 / 5 * h1 + 72 / 5 * h2 + 1120 * p00 + 252 * p03
  · have g := mul_nonneg g hu
    rcases (hbCond_iff _ _ _ _ _).mp hH with h | h | h | h | h | h | h | h | h
    · linear_combination 2 * mul_nonneg h hu + g + 556 * h1 + 10 * h2 + 800 * p00 + 260 * p03
    · linear_combination 2 * mul_nonneg h hu + 2 * g + 292 * h1 + 12 * h3 + 1280 * p00 + 300 * p03
    · linear_combination 2 * mul_nonneg h hu + 5 / 4 * g + 506 * h1 + 13 / 2 * h3 + 920 * p00 + 290 * p03
    · linear_combination mul_nonneg h hu + 5 / 2 * g + 288 * h1 + 23 * h3 + 1360 * p00 + 320 * p03
    · linear_combination mul_nonneg h hu + 3 * g + 156 * h1 + 34 * h3 + 1600 * p00 + 340 * p03
    · linear_combination mul_nonneg h hu + 21 / 8 * g + 263 * h1 + 125 / 4 * h3 + 1420 * p00 + 335 * p03
    · linear_combination 8 / 5 * mul_nonneg h hu + 8 / 5 * g + 2308 / 5 * h1 + 12 * h3 + 1024 * p00 + 300 * p03
    · linear_combination 8 / 5 * mul_nonneg h hu + 12 / 5 * g + 1252 / 5 * h1 + 148 / 5 * h3 + 1408 * p00 + 332 * p03
    · linear_combination 8 / 5 * mul_nonneg h hu + 9 / 5 * g + 2108 / 5 * h1 + 126 / 5 * h3 + 1120 * p00 + 324 * p03

theorem cell1_0_5 {s t a b : ℚ} (h0 : 0 ≤ s - 3 / 4) (h1 : 0 ≤ 289 / 380 - s) (h2 : 0 ≤ t - (19 / 5)) (h3 : 0 ≤ 16 * s - 8 - t)
    (hH : HBCond 2 s t a b) (hV : LVCond hux 4 s t a) : b * (40 * s - 8) ≤ (197 - 220 * s) * t := by
  have hu : 0 ≤ 40 * s - 8 := by linarith only [h0, h1]
  have p01 := mul_nonneg h0 h1
  have p03 := mul_nonneg h0 h3
  have hV := (hux_iff _ _ _ _).mp hV
  rcases hV with g | g
  · have g := mul_nonneg g hu
    rcases (hbCond_iff _ _ _ _ _).mp hH with h | h | h | h | h | h | h | h | h
    · linear_combination 2 * mul_nonneg h hu + g + 13648 / 19 * h1 + 32 * h2 + 2880 * p01 + 220 * p03
    · linear_combination 2 * mul_nonneg h hu + 2 * g + 10240 / 19 * h1 + 32 * h2 + 2560 * p01 + 220 * p03
    · linear_combination 2 * mul_nonneg h hu + 5 / 4 * g + 13240 / 19 * h1 + 21 * h2 + 3120 * p01 + 240 * p03
    · linear_combination mul_nonneg h hu + 5 / 2 * g + 11000 / 19 * h1 + 32 * h2 + 2560 * p01 + 220 * p03
    · linear_combination mul_nonneg h hu + 3 * g + 9296 / 19 * h1 + 32 * h2 + 2400 * p01 + 220 * p03
    · linear_combination mul_nonneg h hu + 21 / 8 * g + 10796 / 19 * h1 + 53 / 2 * h2 + 2680 * p01 + 230 * p03
    · linear_combination 8 / 5 * mul_nonneg h hu + 8 / 5 * g + 12944 / 19 * h1 + 116 / 5 * h2 + 3008 * p01 + 236 * p03
    · linear_combination 8 / 5 * mul_nonneg h hu + 12 / 5 * g + 51088 / 95 * h1 + 116 / 5 * h2 + 2752 * p01 + 236 * p03
    · linear_combination 8 / 5 * mul_nonneg h hu + 9 / 5 * g + 63088 / 95 * h1 + 72 / 5 * h2 + 3200 * p01 + 252 * p03
  · have g := mul_nonneg g hu
    rcases (hbCond_iff _ _ _ _ _).mp hH with h | h | h | h | h | h | h | h | h
    · linear_combination 2 * mul_nonneg h hu + g + 6960 / 19 * h1 + 10 * h2 + 2880 * p01 + 260 * p03
    · linear_combination 2 * mul_nonneg h hu + 2 * g + 512 / 19 * h1 + 12 * h3 + 2560 * p01 + 300 * p03
    · linear_combination 2 * mul_nonneg h hu + 5 / 4 * g + 6856 / 19 * h1 + 13 / 2 * h3 + 3120 * p01 + 290 * p03
    · linear_combination mul_nonneg h hu + 5 / 2 * g + 1272 / 19 * h1 + 23 * h3 + 2560 * p01 + 320 * p03
    · linear_combination mul_nonneg h hu + 3 * g + 432 / 19 * h0 + 34 * h3 + 2400 * p01 + 340 * p03
    · linear_combination mul_nonneg h hu + 21 / 8 * g + 2740 / 19 * h1 + 125 / 4 * h3 + 2680 * p01 + 335 * p03
    · linear_combination 8 / 5 * mul_nonneg h hu + 8 / 5 * g + 29456 / 95 * h1 + 12 * h3 + 3008 * p01 + 300 * p03
    · linear_combination 8 / 5 * mul_nonneg h hu + 12 / 5 * g + 15824 / 95 * h1 + 148 / 5 * h3 + 2752 * p01 + 332 * p03
    · linear_combination 8 / 5 * mul_nonneg h hu + 9 / 5 * g + 8240 / 19 * h1 + 126 / 5 * h3 + 3200 * p01 + 324 * p03

theorem cell1_1_0 {s t a b : ℚ} (h0 : 0 ≤ s - 289 / 380) (h1 : 0 ≤ 4 / 5 - s) (h2 : 0 ≤ t - (8 * s - 4)) (h3 : 0 ≤ 4 * s - 4 / 5 - t)
    (hH : HBCond 1 s t a b) (hV : LVCond hux 2 s t a) : b * (25 * s - 5) ≤ (87 - 90 * s) * t := by
  have hu : 0 ≤ 25 * s - 5 := by linarith only [h0, h1]
  have p00 := mul_nonneg h0 h0
  have p01 := mul_nonneg h0 h1
  have p03 := mul_nonneg h0 h3
  have hV := (hux_iff _ _ _ _).mp hV
  rcases hV with g | g
  · have g := mul_nonneg g hu
    rcases (hbCond_iff _ _ _ _ _).mp hH with h | h | h | h | h | h | h | h | h
    · linear_combination 2 * mul_nonneg h hu + g + 86 / 19 * h0 + 705 / 38 * h2 + 160 * p01 + 90 * p03
    · linear_combination 2 * mul_nonneg h hu + 2 * g + 1246 / 19 * h0 + 705 / 38 * h2 + 60 * p01 + 90 * p03
    · linear_combination 2 * mul_nonneg h hu + 5 / 4 * g + 3611 / 76 * h1 + 1755 / 152 * h2 + 185 * p01 + 205 / 2 * p03
    · linear_combination mul_nonneg h hu + 5 / 2 * g + 2017 / 38 * h0 + 705 / 38 * h2 + 60 * p01 + 90 * p03
    · linear_combination mul_nonneg h hu + 3 * g + 3177 / 38 * h0 + 705 / 38 * h2 + 10 * p01 + 90 * p03
    · linear_combination mul_nonneg h hu + 21 / 8 * g + 4113 / 152 * h0 + 4575 / 304 * h2 + 145 / 2 * p01 + 385 / 4 * p03
    · linear_combination 8 / 5 * mul_nonneg h hu + 8 / 5 * g + 568 / 19 * h1 + 246 / 19 * h2 + 160 * p01 + 100 * p03
    · linear_combination 8 / 5 * mul_nonneg h hu + 12 / 5 * g + 360 / 19 * h0 + 246 / 19 * h2 + 80 * p01 + 100 * p03
    · linear_combination 8 / 5 * mul_nonneg h hu + 9 / 5 * g + 1359 / 19 * h1 + 279 / 38 * h2 + 180 * p01 + 110 * p03
  · have g := mul_nonneg g hu
    rcases (hbCond_iff _ _ _ _ _).mp hH with h | h | h | h | h | h | h | h | h
    · linear_combination 2 * mul_nonneg h hu + g + 86 / 19 * h0 + 345 / 76 * h2 + 60 * p01 + 115 * p03
    · linear_combination 2 * mul_nonneg h hu + 2 * g + 1861 / 19 * h0 + 180 / 19 * h3 + 140 * p00 + 140 * p03
    · linear_combination 2 * mul_nonneg h hu + 5 / 4 * g + 449 / 19 * h1 + 1815 / 304 * h3 + 60 * p01 + 535 / 4 * p03
    · linear_combination mul_nonneg h hu + 5 / 2 * g + 223 / 2 * h0 + 2505 / 152 * h3 + 190 * p00 + 305 / 2 * p03
    · linear_combination mul_nonneg h hu + 3 * g + 3156 / 19 * h0 + 1785 / 76 * h3 + 290 * p00 + 165 * p03
    · linear_combination mul_nonneg h hu + 21 / 8 * g + 213 / 2 * h0 + 13215 / 608 * h3 + 190 * p00 + 1295 / 8 * p03
    · linear_combination 8 / 5 * mul_nonneg h hu + 8 / 5 * g + 8 * h0 + 180 / 19 * h3 + 140 * p03
    · linear_combination 8 / 5 * mul_nonneg h hu + 12 / 5 * g + 1812 / 19 * h0 + 393 / 19 * h3 + 160 * p00 + 160 * p03
    · linear_combination 8 / 5 * mul_nonneg h hu + 9 / 5 * g + 1359 / 76 * h3 + 155 * p03

theorem cell1_1_1 {s t a b : ℚ} (h0 : 0 ≤ s - 289 / 380) (h1 : 0 ≤ 4 / 5 - s) (h2 : 0 ≤ t - (4 * s - 4 / 5)) (h3 : 0 ≤ 12 / 5 - t)
    (hH : HBCond 1 s t a b) (hV : LVCond gm 2 s t a) : b * (25 * s - 5) ≤ (87 - 90 * s) * t := by
  have hu : 0 ≤ 25 * s - 5 := by linarith only [h0, h1]
  have p00 := mul_nonneg h0 h0
  have p03 := mul_nonneg h0 h3
  have p11 := mul_nonneg h1 h1
  have p12 := mul_nonneg h1 h2
  have hV := (gm_iff _ _ _ _).mp hV
  rcases hV with g | g | g
  · have g := mul_nonneg g hu
    rcases (hbCond_iff _ _ _ _ _).mp hH with h | h | h | h | h | h | h | h | h
    · linear_combination 2 * mul_nonneg h hu + g + 1474 / 19 * h1 + 705 / 38 * h2 + 200 * p00 + 90 * p03
    · linear_combination 2 * mul_nonneg h hu + 2 * g + 389 / 19 * h1 + 705 / 38 * h2 + 300 * p00 + 90 * p03
    · linear_combination 2 * mul_nonneg h hu + 5 / 4 * g + 1949 / 19 * h1 + 1755 / 152 * h2 + 225 * p00 + 205 / 2 * p03
    · linear_combination mul_nonneg h hu + 5 / 2 * g + 1253 / 38 * h1 + 705 / 38 * h2 + 300 * p00 + 90 * p03
    · linear_combination mul_nonneg h hu + 3 * g + 84 / 19 * h1 + 705 / 38 * h2 + 350 * p00 + 90 * p03
    · linear_combination mul_nonneg h hu + 21 / 8 * g + 864 / 19 * h1 + 4575 / 304 * h2 + 625 / 2 * p00 + 385 / 4 * p03
    · linear_combination 8 / 5 * mul_nonneg h hu + 8 / 5 * g + 1732 / 19 * h1 + 246 / 19 * h2 + 240 * p00 + 100 * p03
    · linear_combination 8 / 5 * mul_nonneg h hu + 12 / 5 * g + 864 / 19 * h1 + 246 / 19 * h2 + 320 * p00 + 100 * p03
    · linear_combination 8 / 5 * mul_nonneg h hu + 9 / 5 * g + 1722 / 19 * h1 + 279 / 38 * h2 + 110 * p03 + 260 * p11
  · have g := mul_nonneg g hu
    rcases (hbCond_iff _ _ _ _ _).mp hH with h | h | h | h | h | h | h | h | h
    · linear_combination 2 * mul_nonneg h hu + g + 484 / 19 * h1 + 705 / 38 * h2 + 300 * p00 + 90 * p03
    · linear_combination 2 * mul_nonneg h hu + 2 * g + 1591 / 19 * h0 + 705 / 38 * h2 + 500 * p00 + 90 * p03
    · linear_combination 2 * mul_nonneg h hu + 5 / 4 * g + 1423 / 38 * h1 + 1755 / 152 * h2 + 350 * p00 + 205 / 2 * p03
    · linear_combination mul_nonneg h hu + 5 / 2 * g + 3697 / 38 * h0 + 705 / 38 * h2 + 550 * p00 + 90 * p03
    · linear_combination mul_nonneg h hu + 3 * g + 2886 / 19 * h0 + 705 / 38 * h2 + 650 * p00 + 90 * p03
    · linear_combination mul_nonneg h hu + 21 / 8 * g + 6939 / 76 * h0 + 4575 / 304 * h2 + 575 * p00 + 385 / 4 * p03
    · linear_combination 8 / 5 * mul_nonneg h hu + 8 / 5 * g + 148 / 19 * h1 + 246 / 19 * h2 + 400 * p00 + 100 * p03
    · linear_combination 8 / 5 * mul_nonneg h hu + 12 / 5 * g + 1512 / 19 * h0 + 246 / 19 * h2 + 560 * p00 + 100 * p03
    · linear_combination 8 / 5 * mul_nonneg h hu + 9 / 5 * g + 3 * h2 + 110 * p12
  · have g := mul_nonneg g hu
    rcases (hbCond_iff _ _ _ _ _).mp hH with h | h | h | h | h | h | h | h | h
    · linear_combination 2 * mul_nonneg h hu + g + 1549 / 19 * h1 + 345 / 76 * h2 + 300 * p00 + 115 * p03
    · linear_combination 2 * mul_nonneg h hu + 2 * g + 181 / 19 * h0 + 180 / 19 * h3 + 500 * p00 + 140 * p03
    · linear_combination 2 * mul_nonneg h hu + 5 / 4 * g + 1589 / 19 * h1 + 1815 / 304 * h3 + 350 * p00 + 535 / 4 * p03
    · linear_combination mul_nonneg h hu + 5 / 2 * g + 877 / 38 * h0 + 2505 / 152 * h3 + 550 * p00 + 305 / 2 * p03
    · linear_combination mul_nonneg h hu + 3 * g + 1476 / 19 * h0 + 1785 / 76 * h3 + 650 * p00 + 165 * p03
    · linear_combination mul_nonneg h hu + 21 / 8 * g + 591 / 19 * h0 + 13215 / 608 * h3 + 575 * p00 + 1295 / 8 * p03
    · linear_combination 8 / 5 * mul_nonneg h hu + 8 / 5 * g + 1132 / 19 * h1 + 180 / 19 * h3 + 400 * p00 + 140 * p03
    · linear_combination 8 / 5 * mul_nonneg h hu + 12 / 5 * g + 528 / 19 * h0 + 393 / 19 * h3 + 560 * p00 + 160 * p03
    · linear_combination 8 / 5 * mul_nonneg h hu + 9 / 5 * g + 12 * h1 + 1359 / 76 * h3 + 155 * p03 + 440 * p11

theorem cell1_1_2 {s t a b : ℚ} (h0 : 0 ≤ s - 289 / 380) (h1 : 0 ≤ 4 / 5 - s) (h2 : 0 ≤ t - (12 / 5)) (h3 : 0 ≤ 2 * s + 6 / 5 - t)
    (hH : HBCond 2 s t a b) (hV : LVCond gm 2 s t a) : b * (25 * s - 5) ≤ (87 - 90 * s) * t := by
  have hu : 0 ≤ 25 * s - 5 := by linarith only [h0, h1]
  have p00 := mul_nonneg h0 h0
  have p03 := mul_nonneg h0 h3
  have p11 := mul_nonneg h1 h1
  have p12 := mul_nonneg h1 h2
  have hV := (gm_iff _ _ _ _).mp hV
  rcases hV with g | g | g
  · have g := mul_nonneg g hu
    rcases (hbCond_iff _ _ _ _ _).mp hH with h | h | h | h | h | h | h | h | h
    · linear_combination 2 * mul_nonneg h hu + g + 96 * h1 + 15 * h2 + 300 * p11 + 90 * p12
    · linear_combination 2 * mul_nonneg h hu + 2 * g + 1263 / 19 * h1 + 705 / 38 * h2 + 220 * p00 + 90 * p03
    · linear_combination 2 * mul_nonneg h hu + 5 / 4 * g + 9467 / 76 * h1 + 1755 / 152 * h2 + 120 * p00 + 205 / 2 * p03
    · linear_combination mul_nonneg h hu + 5 / 2 * g + 2043 / 19 * h1 + 705 / 38 * h2 + 170 * p00 + 90 * p03
    · linear_combination mul_nonneg h hu + 3 * g + 1263 / 19 * h1 + 705 / 38 * h2 + 220 * p00 + 90 * p03
    · linear_combination mul_nonneg h hu + 21 / 8 * g + 14519 / 152 * h1 + 4575 / 304 * h2 + 170 * p00 + 385 / 4 * p03
    · linear_combination 8 / 5 * mul_nonneg h hu + 8 / 5 * g + 2458 / 19 * h1 + 246 / 19 * h2 + 120 * p00 + 100 * p03
    · linear_combination 8 / 5 * mul_nonneg h hu + 12 / 5 * g + 1210 / 19 * h1 + 246 / 19 * h2 + 200 * p00 + 100 * p03
    · linear_combination 8 / 5 * mul_nonneg h hu + 9 / 5 * g + 2093 / 19 * h1 + 279 / 38 * h2 + 120 * p00 + 110 * p03
  · have g := mul_nonneg g hu
    rcases (hbCond_iff _ _ _ _ _).mp hH with h | h | h | h | h | h | h | h | h
    · linear_combination 2 * mul_nonneg h hu + g + 36 * h1 + 15 * h2 + 400 * p11 + 90 * p12
    · linear_combination 2 * mul_nonneg h hu + 2 * g + 717 / 19 * h0 + 705 / 38 * h2 + 420 * p00 + 90 * p03
    · linear_combination 2 * mul_nonneg h hu + 5 / 4 * g + 4517 / 76 * h1 + 1755 / 152 * h2 + 245 * p00 + 205 / 2 * p03
    · linear_combination mul_nonneg h hu + 5 / 2 * g + 432 / 19 * h0 + 705 / 38 * h2 + 420 * p00 + 90 * p03
    · linear_combination mul_nonneg h hu + 3 * g + 1707 / 19 * h0 + 705 / 38 * h2 + 520 * p00 + 90 * p03
    · linear_combination mul_nonneg h hu + 21 / 8 * g + 6271 / 152 * h0 + 4575 / 304 * h2 + 865 / 2 * p00 + 385 / 4 * p03
    · linear_combination 8 / 5 * mul_nonneg h hu + 8 / 5 * g + 46 * h1 + 246 / 19 * h2 + 280 * p00 + 100 * p03
    · linear_combination 8 / 5 * mul_nonneg h hu + 12 / 5 * g + 1166 / 19 * h0 + 246 / 19 * h2 + 440 * p00 + 100 * p03
    · linear_combination 8 / 5 * mul_nonneg h hu + 9 / 5 * g + 311 / 19 * h1 + 279 / 38 * h2 + 300 * p00 + 110 * p03
  · have g := mul_nonneg g hu
    rcases (hbCond_iff _ _ _ _ _).mp hH with h | h | h | h | h | h | h | h | h
    · linear_combination 2 * mul_nonneg h hu + g + 36 * h1 + 400 * p11 + 115 * p12
    · linear_combination 2 * mul_nonneg h hu + 2 * g + 52 / 19 * h0 + 180 / 19 * h3 + 320 * p00 + 140 * p03
    · linear_combination 2 * mul_nonneg h hu + 5 / 4 * g + 6187 / 76 * h1 + 1815 / 304 * h3 + 365 / 2 * p00 + 535 / 4 * p03
    · linear_combination mul_nonneg h hu + 5 / 2 * g + 7 * h1 + 2505 / 152 * h3 + 305 / 2 * p03 + 295 * p11
    · linear_combination mul_nonneg h hu + 3 * g + 357 / 19 * h0 + 1785 / 76 * h3 + 370 * p00 + 165 * p03
    · linear_combination mul_nonneg h hu + 21 / 8 * g + 3539 / 152 * h1 + 13215 / 608 * h3 + 1205 / 4 * p00 + 1295 / 8 * p03
    · linear_combination 8 / 5 * mul_nonneg h hu + 8 / 5 * g + 1478 / 19 * h1 + 180 / 19 * h3 + 200 * p00 + 140 * p03
    · linear_combination 8 / 5 * mul_nonneg h hu + 12 / 5 * g + 14 / 19 * h0 + 393 / 19 * h3 + 320 * p00 + 160 * p03
    · linear_combination 8 / 5 * mul_nonneg h hu + 9 / 5 * g + 1265 / 19 * h1 + 1359 / 76 * h3 + 210 * p00 + 155 * p03

theorem cell1_1_3 {s t a b : ℚ} (h0 : 0 ≤ s - 289 / 380) (h1 : 0 ≤ 4 / 5 - s) (h2 : 0 ≤ t - (2 * s + 6 / 5)) (h3 : 0 ≤ 5 * s - 1 / 3 - t)
    (hH : HBCond 2 s t a b) (hV : LVCond hux 3 s t a) : b * (25 * s - 5) ≤ (87 - 90 * s) * t := by
  have hu : 0 ≤ 25 * s - 5 := by linarith only [h0, h1]
  have p00 := mul_nonneg h0 h0
  have p01 := mul_nonneg h0 h1
  have p03 := mul_nonneg h0 h3
  have p11 := mul_nonneg h1 h1
  have p12 := mul_nonneg h1 h2
  have hV := (hux_iff _ _ _ _).mp hV
  rcases hV with g | g
  · have g := mul_nonneg g hu
    rcases (hbCond_iff _ _ _ _ _).mp hH with h | h | h | h | h | h | h | h | h
    · linear_combination 2 * mul_nonneg h hu + g + 82 * h1 + 15 * h2 + 170 * p11 + 90 * p12
    · linear_combination 2 * mul_nonneg h hu + 2 * g + 2455 / 38 * h1 + 705 / 38 * h2 + 50 * p00 + 90 * p03
    · linear_combination 2 * mul_nonneg h hu + 5 / 4 * g + 74345 / 456 * h1 + 1755 / 152 * h2 + 125 * p01 + 205 / 2 * p03
    · linear_combination mul_nonneg h hu + 5 / 2 * g + 7 * h1 + 15 * h2 + 295 * p11 + 90 * p12
    · linear_combination mul_nonneg h hu + 3 * g + 1845 / 38 * h1 + 705 / 38 * h2 + 100 * p00 + 90 * p03
    · linear_combination mul_nonneg h hu + 21 / 8 * g + 3343 / 52 * h1 + 180 / 13 * h2 + 855 / 13 * p03 + 5405 / 52 * p11 + 1585 / 52 * p12
    · linear_combination 8 / 5 * mul_nonneg h hu + 8 / 5 * g + 9528 / 95 * h1 + 165105 / 16207 * h2 + 93632 / 853 * p00 + 25656 / 853 * p03 + 59644 / 853 * p12
    · linear_combination 8 / 5 * mul_nonneg h hu + 12 / 5 * g + 4223 / 57 * h1 + 246 / 19 * h2 + 20 * p00 + 100 * p03
    · linear_combination 8 / 5 * mul_nonneg h hu + 9 / 5 * g + 17513 / 114 * h1 + 279 / 38 * h2 + 120 * p01 + 110 * p03
  · have g := mul_nonneg g hu
    rcases (hbCond_iff _ _ _ _ _).mp hH with h | h | h | h | h | h | h | h | h
    · linear_combination 2 * mul_nonneg h hu + g + 7115 / 228 * h1 + 345 / 76 * h2 + 75 * p00 + 115 * p03
    · linear_combination 2 * mul_nonneg h hu + 2 * g + 9695 / 57 * h0 + 180 / 19 * h3 + 400 * p00 + 140 * p03
    · linear_combination 2 * mul_nonneg h hu + 5 / 4 * g + 5275 / 456 * h1 + 1815 / 304 * h3 + 375 / 4 * p00 + 535 / 4 * p03
    · linear_combination mul_nonneg h hu + 5 / 2 * g + 41455 / 228 * h0 + 2505 / 152 * h3 + 925 / 2 * p00 + 305 / 2 * p03
    · linear_combination mul_nonneg h hu + 3 * g + 10475 / 38 * h0 + 1785 / 76 * h3 + 625 * p00 + 165 * p03
    · linear_combination mul_nonneg h hu + 21 / 8 * g + 168565 / 912 * h0 + 13215 / 608 * h3 + 3775 / 8 * p00 + 1295 / 8 * p03
    · linear_combination 8 / 5 * mul_nonneg h hu + 8 / 5 * g + 1679 / 57 * h0 + 180 / 19 * h3 + 180 * p00 + 140 * p03
    · linear_combination 8 / 5 * mul_nonneg h hu + 12 / 5 * g + 10237 / 57 * h0 + 393 / 19 * h3 + 440 * p00 + 160 * p03
    · linear_combination 8 / 5 * mul_nonneg h hu + 9 / 5 * g + 3907 / 114 * h0 + 1359 / 76 * h3 + 195 * p00 + 155 * p03

theorem cell1_1_4 {s t a b : ℚ} (h0 : 0 ≤ s - 289 / 380) (h1 : 0 ≤ 4 / 5 - s) (h2 : 0 ≤ t - (5 * s - 1 / 3)) (h3 : 0 ≤ 41 / 10 - t)
    (hH : HBCond 3 s t a b) (hV : LVCond gm 3 s t a) : b * (25 * s - 5) ≤ (87 - 90 * s) * t := by
  have hu : 0 ≤ 25 * s - 5 := by linarith only [h0, h1]
  have p00 := mul_nonneg h0 h0
  have p03 := mul_nonneg h0 h3
  have p11 := mul_nonneg h1 h1
  have p12 := mul_nonneg h1 h2
  have hV := (gm_iff _ _ _ _).mp hV
  rcases hV with g | g | g
  · have g := mul_nonneg g hu
    rcases (hbCond_iff _ _ _ _ _).mp hH with h | h | h | h | h | h | h | h | h
    · linear_combination 2 * mul_nonneg h hu + g + 3463 / 39 * h1 + 225 / 13 * h2 + 760 / 13 * p03 + 3800 / 13 * p11 + 410 / 13 * p12
    · linear_combination 2 * mul_nonneg h hu + 2 * g + 327 / 38 * h1 + 705 / 38 * h2 + 600 * p00 + 90 * p03
    · linear_combination 2 * mul_nonneg h hu + 5 / 4 * g + 19913 / 152 * h1 + 1755 / 152 * h2 + 975 / 2 * p00 + 205 / 2 * p03
    · linear_combination mul_nonneg h hu + 5 / 2 * g + 2667 / 38 * h1 + 705 / 38 * h2 + 525 * p00 + 90 * p03
    · linear_combination mul_nonneg h hu + 3 * g + 327 / 38 * h1 + 705 / 38 * h2 + 600 * p00 + 90 * p03
    · linear_combination mul_nonneg h hu + 21 / 8 * g + 21221 / 304 * h1 + 4575 / 304 * h2 + 2175 / 4 * p00 + 385 / 4 * p03
    · linear_combination 8 / 5 * mul_nonneg h hu + 8 / 5 * g + 2492 / 19 * h1 + 246 / 19 * h2 + 480 * p00 + 100 * p03
    · linear_combination 8 / 5 * mul_nonneg h hu + 12 / 5 * g + 620 / 19 * h1 + 246 / 19 * h2 + 600 * p00 + 100 * p03
    · linear_combination 8 / 5 * mul_nonneg h hu + 9 / 5 * g + 4961 / 38 * h1 + 279 / 38 * h2 + 510 * p00 + 110 * p03
  · have g := mul_nonneg g hu
    rcases (hbCond_iff _ _ _ _ _).mp hH with h | h | h | h | h | h | h | h | h
    · linear_combination 2 * mul_nonneg h hu + g + 1786 / 675 * h0 + 256 / 15 * h2 + 2356 / 45 * p03 + 3706 / 9 * p11 + 1694 / 45 * p12
    · linear_combination 2 * mul_nonneg h hu + 2 * g + 5613 / 38 * h0 + 705 / 38 * h2 + 900 * p00 + 90 * p03
    · linear_combination 2 * mul_nonneg h hu + 5 / 4 * g + 5063 / 152 * h1 + 1755 / 152 * h2 + 675 * p00 + 205 / 2 * p03
    · linear_combination mul_nonneg h hu + 5 / 2 * g + 2379 / 19 * h0 + 705 / 38 * h2 + 900 * p00 + 90 * p03
    · linear_combination mul_nonneg h hu + 3 * g + 8583 / 38 * h0 + 705 / 38 * h2 + 1050 * p00 + 90 * p03
    · linear_combination mul_nonneg h hu + 21 / 8 * g + 41149 / 304 * h0 + 4575 / 304 * h2 + 1875 / 2 * p00 + 385 / 4 * p03
    · linear_combination 8 / 5 * mul_nonneg h hu + 8 / 5 * g + 116 / 19 * h1 + 246 / 19 * h2 + 720 * p00 + 100 * p03
    · linear_combination 8 / 5 * mul_nonneg h hu + 12 / 5 * g + 2944 / 19 * h0 + 246 / 19 * h2 + 960 * p00 + 100 * p03
    · linear_combination 8 / 5 * mul_nonneg h hu + 9 / 5 * g + 385 / 38 * h0 + 279 / 38 * h2 + 780 * p00 + 110 * p03
  · have g := mul_nonneg g hu
    rcases (hbCond_iff _ _ _ _ _).mp hH with h | h | h | h | h | h | h | h | h
    · linear_combination 2 * mul_nonneg h hu + g + 185 / 3 * h1 + 25 * p11 + 115 * p12
    · linear_combination 2 * mul_nonneg h hu + 2 * g + 569 / 19 * h0 + 180 / 19 * h3 + 900 * p00 + 140 * p03
    · linear_combination 2 * mul_nonneg h hu + 5 / 4 * g + 16213 / 152 * h1 + 1815 / 304 * h3 + 675 * p00 + 535 / 4 * p03
    · linear_combination mul_nonneg h hu + 5 / 2 * g + 91 / 76 * h0 + 2505 / 152 * h3 + 900 * p00 + 305 / 2 * p03
    · linear_combination mul_nonneg h hu + 3 * g + 3633 / 38 * h0 + 1785 / 76 * h3 + 1050 * p00 + 165 * p03
    · linear_combination mul_nonneg h hu + 21 / 8 * g + 8299 / 304 * h0 + 13215 / 608 * h3 + 1875 / 2 * p00 + 1295 / 8 * p03
    · linear_combination 8 / 5 * mul_nonneg h hu + 8 / 5 * g + 1726 / 19 * h1 + 180 / 19 * h3 + 720 * p00 + 140 * p03
    · linear_combination 8 / 5 * mul_nonneg h hu + 12 / 5 * g + 1144 / 19 * h0 + 393 / 19 * h3 + 960 * p00 + 160 * p03
    · linear_combination 8 / 5 * mul_nonneg h hu + 9 / 5 * g + 1865 / 38 * h1 + 1359 / 76 * h3 + 780 * p00 + 155 * p03

theorem cell1_1_5 {s t a b : ℚ} (h0 : 0 ≤ s - 289 / 380) (h1 : 0 ≤ 4 / 5 - s) (h2 : 0 ≤ t - (41 / 10)) (h3 : 0 ≤ 16 * s - 8 - t)
    (hH : HBCond 3 s t a b) (hV : LVCond hux 4 s t a) : b * (25 * s - 5) ≤ (87 - 90 * s) * t := by
  have hu : 0 ≤ 25 * s - 5 := by linarith only [h0, h1]
  have p01 := mul_nonneg h0 h1
  have p03 := mul_nonneg h0 h3
  have p12 := mul_nonneg h1 h2
  have hV := (hux_iff _ _ _ _).mp hV
  rcases hV with g | g
  · have g := mul_nonneg g hu
    rcases (hbCond_iff _ _ _ _ _).mp hH with h | h | h | h | h | h | h | h | h
    · linear_combination 2 * mul_nonneg h hu + g + 4308 / 19 * h1 + 120 / 7 * h2 + 2580 / 7 * p01 + 380 / 7 * p03 + 250 / 7 * p12
    · linear_combination 2 * mul_nonneg h hu + 2 * g + 1988 / 19 * h1 + 705 / 38 * h2 + 740 * p01 + 90 * p03
    · linear_combination 2 * mul_nonneg h hu + 5 / 4 * g + 8311 / 38 * h1 + 1755 / 152 * h2 + 1090 * p01 + 205 / 2 * p03
    · linear_combination mul_nonneg h hu + 5 / 2 * g + 3043 / 19 * h1 + 705 / 38 * h2 + 790 * p01 + 90 * p03
    · linear_combination mul_nonneg h hu + 3 * g + 3291 / 38 * h1 + 705 / 38 * h2 + 690 * p01 + 90 * p03
    · linear_combination mul_nonneg h hu + 21 / 8 * g + 10917 / 76 * h1 + 4575 / 304 * h2 + 865 * p01 + 385 / 4 * p03
    · linear_combination 8 / 5 * mul_nonneg h hu + 8 / 5 * g + 4144 / 19 * h1 + 246 / 19 * h2 + 1040 * p01 + 100 * p03
    · linear_combination 8 / 5 * mul_nonneg h hu + 12 / 5 * g + 1908 / 19 * h1 + 246 / 19 * h2 + 880 * p01 + 100 * p03
    · linear_combination 8 / 5 * mul_nonneg h hu + 9 / 5 * g + 3642 / 19 * h1 + 279 / 38 * h2 + 1160 * p01 + 110 * p03
  · have g := mul_nonneg g hu
    rcases (hbCond_iff _ _ _ _ _).mp hH with h | h | h | h | h | h | h | h | h
    · linear_combination 2 * mul_nonneg h hu + g + 523 / 19 * h1 + 345 / 76 * h2 + 940 * p01 + 115 * p03
    · linear_combination 2 * mul_nonneg h hu + 2 * g + 3652 / 19 * h0 + 180 / 19 * h3 + 740 * p01 + 140 * p03
    · linear_combination 2 * mul_nonneg h hu + 5 / 4 * g + 1291 / 38 * h1 + 1815 / 304 * h3 + 1090 * p01 + 535 / 4 * p03
    · linear_combination mul_nonneg h hu + 5 / 2 * g + 2597 / 19 * h0 + 2505 / 152 * h3 + 790 * p01 + 305 / 2 * p03
    · linear_combination mul_nonneg h hu + 3 * g + 7989 / 38 * h0 + 1785 / 76 * h3 + 690 * p01 + 165 * p03
    · linear_combination mul_nonneg h hu + 21 / 8 * g + 7383 / 76 * h0 + 13215 / 608 * h3 + 865 * p01 + 1295 / 8 * p03
    · linear_combination 8 / 5 * mul_nonneg h hu + 8 / 5 * g + 208 / 19 * h1 + 180 / 19 * h3 + 1040 * p01 + 140 * p03
    · linear_combination 8 / 5 * mul_nonneg h hu + 12 / 5 * g + 2028 / 19 * h0 + 393 / 19 * h3 + 880 * p01 + 160 * p03
    · linear_combination 8 / 5 * mul_nonneg h hu + 9 / 5 * g + 1410 / 19 * h1 + 1359 / 76 * h3 + 1160 * p01 + 155 * p03

theorem strip1_0 {s t a b : ℚ} (h0 : 0 ≤ s - 3 / 4) (h1 : 0 ≤ 289 / 380 - s) (t0 : 8 * s - 4 ≤ t) (t1 : t ≤ 16 * s - 8)
    (h : TupleOK [2, 3, 4] LB [] s t a b) : b ≤ w s * t := by
  have hpos : 0 ≤ t := by linarith
  have k0 : (197 - 220 * s) / (40 * s - 8) ≤ w s := le_max_of_le_left (le_rfl)
  have v0 : 0 < 40 * s - 8 := u0 (by linarith) (by linarith)
  by_cases c0 : t ≤ 4 * s - 4 / 5
  · exact (le_quot v0 (cell1_0_0 h0 h1 (by linarith) (by linarith) (tuple_hb powers h (by simp)) (tuple_lv powers h (by simp) (by simp)))).trans (mul_le_mul_of_nonneg_right k0 hpos)
  rw [not_le] at c0
  by_cases c1 : t ≤ 12 / 5
  · exact (le_quot v0 (cell1_0_1 h0 h1 (by linarith) (by linarith) (tuple_hb powers h (by simp)) (tuple_lv powers h (by simp) (by simp)))).trans (mul_le_mul_of_nonneg_right k0 hpos)
  rw [not_le] at c1
  by_cases c2 : t ≤ 19 / 7
  · exact (le_quot v0 (cell1_0_2 h0 h1 (by linarith) (by linarith) (tuple_hb powers h (by simp)) (tuple_lv powers h (by simp) (by simp)))).trans (mul_le_mul_of_nonneg_right k0 hpos)
  rw [not_le] at c2
  by_cases c3 : t ≤ 10 / 3
  · exact (le_quot v0 (cell1_0_3 h0 h1 (by linarith) (by linarith) (tuple_hb powers h (by simp)) (tuple_lv powers h (by simp) (by simp)))).trans (mul_le_mul_of_nonneg_right k0 hpos)
  rw [not_le] at c3
  by_cases c4 : t ≤ 19 / 5
  · exact (le_quot v0 (cell1_0_4 h0 h1 (by linarith) (by linarith) (tuple_hb powers h (by simp)) (tuple_lv powers h (by simp) (by simp)))).trans (mul_le_mul_of_nonneg_right k0 hpos)
  rw [not_le] at c4
  exact (le_quot v0 (cell1_0_5 h0 h1 (by linarith) (by linarith) (tuple_hb powers h (by simp)) (tuple_lv powers h (by simp) (by simp)))).trans (mul_le_mul_of_nonneg_right k0 hpos)

theorem strip1_1 {s t a b : ℚ} (h0 : 0 ≤ s - 289 / 380) (h1 : 0 ≤ 4 / 5 - s) (t0 : 8 * s - 4 ≤ t) (t1 : t ≤ 16 * s - 8)
    (h : TupleOK [2, 3, 4] LB [] s t a b) : b ≤ w s * t := by
  have hpos : 0 ≤ t := by linarith
  have k1 : (87 - 90 * s) / (25 * s - 5) ≤ w s := le_max_of_le_right (le_max_of_le_left (le_rfl))
  have v1 : 0 < 25 * s - 5 := u1 (by linarith) (by linarith)
  by_cases c0 : t ≤ 4 * s - 4 / 5
  · exact (le_quot v1 (cell1_1_0 h0 h1 (by linarith) (by linarith) (tuple_hb powers h (by simp)) (tuple_lv powers h (by simp) (by simp)))).trans (mul_le_mul_of_nonneg_right k1 hpos)
  rw [not_le] at c0
  by_cases c1 : t ≤ 12 / 5
  · exact (le_quot v1 (cell1_1_1 h0 h1 (by linarith) (by linarith) (tuple_hb powers h (by simp)) (tuple_lv powers h (by simp) (by simp)))).trans (mul_le_mul_of_nonneg_right k1 hpos)
  rw [not_le] at c1
  by_cases c2 : t ≤ 2 * s + 6 / 5
  · exact (le_quot v1 (cell1_1_2 h0 h1 (by linarith) (by linarith) (tuple_hb powers h (by simp)) (tuple_lv powers h (by simp) (by simp)))).trans (mul_le_mul_of_nonneg_right k1 hpos)
  rw [not_le] at c2
  by_cases c3 : t ≤ 5 * s - 1 / 3
  · exact (le_quot v1 (cell1_1_3 h0 h1 (by linarith) (by linarith) (tuple_hb powers h (by simp)) (tuple_lv powers h (by simp) (by simp)))).trans (mul_le_mul_of_nonneg_right k1 hpos)
  rw [not_le] at c3
  by_cases c4 : t ≤ 41 / 10
  · exact (le_quot v1 (cell1_1_4 h0 h1 (by linarith) (by linarith) (tuple_hb powers h (by simp)) (tuple_lv powers h (by simp) (by simp)))).trans (mul_le_mul_of_nonneg_right k1 hpos)
  rw [not_le] at c4
  exact (le_quot v1 (cell1_1_5 h0 h1 (by linarith) (by linarith) (tuple_hb powers h (by simp)) (tuple_lv powers h (by simp) (by simp)))).trans (mul_le_mul_of_nonneg_right k1 hpos)

theorem cell2_0_0 {s t a b : ℚ} (h0 : 0 ≤ s - 3 / 4) (h1 : 0 ≤ 289 / 380 - s) (h2 : 0 ≤ t - (2)) (h3 : 0 ≤ 8 * s - 4 - t)
    (hH : HBCond 1 s t a b) (hV : LVCond hux 2 s t a) : b * (40 * s - 8) ≤ (197 - 220 * s) * t := by
  have hu : 0 ≤ 40 * s - 8 := by linarith only [h0, h1]
  have p01 := mul_nonneg h0 h1
  have p03 := mul_nonneg h0 h3
  have hV := (hux_iff _ _ _ _).mp hV
  rcases hV with g | g
  · have g := mul_nonneg g hu
    rcases (hbCond_iff _ _ _ _ _).mp hH with h | h | h | h | h | h | h | h | h
    · linear_combination 2 * mul_nonneg h hu + g + 6824 / 19 * h1 + 32 * h2 + 1440 * p01 + 220 * p03
    · linear_combination 2 * mul_nonneg h hu + 2 * g + 5120 / 19 * h1 + 32 * h2 + 1280 * p01 + 220 * p03
    · linear_combination 2 * mul_nonneg h hu + 5 / 4 * g + 6620 / 19 * h1 + 21 * h2 + 1560 * p01 + 240 * p03
    · linear_combination mul_nonneg h hu + 5 / 2 * g + 5500 / 19 * h1 + 32 * h2 + 1280 * p01 + 220 * p03
    · linear_combination mul_nonneg h hu + 3 * g + 4648 / 19 * h1 + 32 * h2 + 1200 * p01 + 220 * p03
    · linear_combination mul_nonneg h hu + 21 / 8 * g + 5398 / 19 * h1 + 53 / 2 * h2 + 1340 * p01 + 230 * p03
    · linear_combination 8 / 5 * mul_nonneg h hu + 8 / 5 * g + 6472 / 19 * h1 + 116 / 5 * h2 + 1504 * p01 + 236 * p03
    · linear_combination 8 / 5 * mul_nonneg h hu + 12 / 5 * g + 25544 / 95 * h1 + 116 / 5 * h2 + 1376 * p01 + 236 * p03
    · linear_combination 8 / 5 * mul_nonneg h hu + 9 / 5 * g + 31544 / 95 * h1 + 72 / 5 * h2 + 1600 * p01 + 252 * p03
  · have g := mul_nonneg g hu
    rcases (hbCond_iff _ _ _ _ _).mp hH with h | h | h | h | h | h | h | h | h
    · linear_combination 2 * mul_nonneg h hu + g + 3480 / 19 * h1 + 10 * h2 + 1440 * p01 + 260 * p03
    · linear_combination 2 * mul_nonneg h hu + 2 * g + 256 / 19 * h1 + 12 * h3 + 1280 * p01 + 300 * p03
    · linear_combination 2 * mul_nonneg h hu + 5 / 4 * g + 3428 / 19 * h1 + 13 / 2 * h3 + 1560 * p01 + 290 * p03
    · linear_combination mul_nonneg h hu + 5 / 2 * g + 636 / 19 * h1 + 23 * h3 + 1280 * p01 + 320 * p03
    · linear_combination mul_nonneg h hu + 3 * g + 216 / 19 * h0 + 34 * h3 + 1200 * p01 + 340 * p03
    · linear_combination mul_nonneg h hu + 21 / 8 * g + 1370 / 19 * h1 + 125 / 4 * h3 + 1340 * p01 + 335 * p03
    · linear_combination 8 / 5 * mul_nonneg h hu + 8 / 5 * g + 14728 / 95 * h1 + 12 * h3 + 1504 * p01 + 300 * p03
    · linear_combination 8 / 5 * mul_nonneg h hu + 12 / 5 * g + 7912 / 95 * h1 + 148 / 5 * h3 + 1376 * p01 + 332 * p03
    · linear_combination 8 / 5 * mul_nonneg h hu + 9 / 5 * g + 4120 / 19 * h1 + 126 / 5 * h3 + 1600 * p01 + 324 * p03

theorem cell2_1_0 {s t a b : ℚ} (h0 : 0 ≤ s - 289 / 380) (h1 : 0 ≤ 4 / 5 - s) (h2 : 0 ≤ t - (2)) (h3 : 0 ≤ 4 * s - 1 - t)
    (hH : HBCond 1 s t a b) (hV : LVCond tw 1 s t a) : b * (20 * s - 5) ≤ (40 - 36 * s) * t := by
  have hu : 0 ≤ 20 * s - 5 := by linarith only [h0, h1]
  have p00 := mul_nonneg h0 h0
  have p01 := mul_nonneg h0 h1
  have p03 := mul_nonneg h0 h3
  have hV := (tw_iff _ _ _ _).mp hV
  have g := hV
  have g := mul_nonneg g hu
  rcases (hbCond_iff _ _ _ _ _).mp hH with h | h | h | h | h | h | h | h | h
  · linear_combination 2 * mul_nonneg h hu + g + 1932 / 95 * h0 + 39 / 5 * h3 + 16 * p00 + 76 * p03
  · linear_combination 2 * mul_nonneg h hu + 2 * g + 5892 / 95 * h0 + 2681 / 95 * h3 + 96 * p00 + 116 * p03
  · linear_combination 2 * mul_nonneg h hu + 5 / 4 * g + 452 / 95 * h0 + 1711 / 95 * h3 + 4 * p01 + 96 * p03
  · linear_combination mul_nonneg h hu + 5 / 2 * g + 4942 / 95 * h0 + 3651 / 95 * h3 + 96 * p00 + 136 * p03
  · linear_combination mul_nonneg h hu + 3 * g + 6922 / 95 * h0 + 4621 / 95 * h3 + 136 * p00 + 156 * p03
  · linear_combination mul_nonneg h hu + 21 / 8 * g + 8419 / 190 * h0 + 4136 / 95 * h3 + 86 * p00 + 146 * p03
  · linear_combination 8 / 5 * mul_nonneg h hu + 8 / 5 * g + 1172 / 95 * h0 + 2293 / 95 * h3 + 16 * p00 + 108 * p03
  · linear_combination 8 / 5 * mul_nonneg h hu + 12 / 5 * g + 868 / 19 * h0 + 769 / 19 * h3 + 80 * p00 + 140 * p03
  · linear_combination 8 / 5 * mul_nonneg h hu + 9 / 5 * g + 3069 / 95 * h3 + 124 * p03

theorem cell2_1_1 {s t a b : ℚ} (h0 : 0 ≤ s - 289 / 380) (h1 : 0 ≤ 4 / 5 - s) (h2 : 0 ≤ t - (4 * s - 1)) (h3 : 0 ≤ 8 * s - 4 - t)
    (hH : HBCond 1 s t a b) (hV : LVCond hux 2 s t a) : b * (20 * s - 5) ≤ (40 - 36 * s) * t := by
  have hu : 0 ≤ 20 * s - 5 := by linarith only [h0, h1]
  have p01 := mul_nonneg h0 h1
  have p03 := mul_nonneg h0 h3
  have p12 := mul_nonneg h1 h2
  have hV := (hux_iff _ _ _ _).mp hV
  rcases hV with g | g
  · have g := mul_nonneg g hu
    rcases (hbCond_iff _ _ _ _ _).mp hH with h | h | h | h | h | h | h | h | h
    · linear_combination 2 * mul_nonneg h hu + g + 1308 / 95 * h0 + 1199 / 95 * h2 + 128 * p01 + 36 * p03
    · linear_combination 2 * mul_nonneg h hu + 2 * g + 5568 / 95 * h0 + 1199 / 95 * h2 + 48 * p01 + 36 * p03
    · linear_combination 2 * mul_nonneg h hu + 5 / 4 * g + 422 / 95 * h1 + 714 / 95 * h2 + 188 * p01 + 46 * p03
    · linear_combination mul_nonneg h hu + 5 / 2 * g + 4618 / 95 * h0 + 1199 / 95 * h2 + 48 * p01 + 36 * p03
    · linear_combination mul_nonneg h hu + 3 * g + 6748 / 95 * h0 + 1199 / 95 * h2 + 8 * p01 + 36 * p03
    · linear_combination mul_nonneg h hu + 21 / 8 * g + 3753 / 95 * h0 + 1913 / 190 * h2 + 78 * p01 + 41 * p03
    · linear_combination 8 / 5 * mul_nonneg h hu + 8 / 5 * g + 396 / 95 * h0 + 811 / 95 * h2 + 160 * p01 + 44 * p03
    · linear_combination 8 / 5 * mul_nonneg h hu + 12 / 5 * g + 3804 / 95 * h0 + 811 / 95 * h2 + 96 * p01 + 44 * p03
    · linear_combination 8 / 5 * mul_nonneg h hu + 9 / 5 * g + 12 / 5 * h2 + 52 * p12
  · have g := mul_nonneg g hu
    rcases (hbCond_iff _ _ _ _ _).mp hH with h | h | h | h | h | h | h | h | h
    · linear_combination 2 * mul_nonneg h hu + g + 5188 / 95 * h0 + 229 / 95 * h2 + 128 * p01 + 56 * p03
    · linear_combination 2 * mul_nonneg h hu + 2 * g + 10364 / 95 * h0 + 39 / 5 * h3 + 48 * p01 + 76 * p03
    · linear_combination 2 * mul_nonneg h hu + 5 / 4 * g + 2434 / 95 * h0 + 997 / 190 * h3 + 188 * p01 + 71 * p03
    · linear_combination mul_nonneg h hu + 5 / 2 * g + 9414 / 95 * h0 + 1226 / 95 * h3 + 48 * p01 + 86 * p03
    · linear_combination mul_nonneg h hu + 3 * g + 11544 / 95 * h0 + 1711 / 95 * h3 + 8 * p01 + 96 * p03
    · linear_combination mul_nonneg h hu + 21 / 8 * g + 7579 / 95 * h0 + 6359 / 380 * h3 + 78 * p01 + 187 / 2 * p03
    · linear_combination 8 / 5 * mul_nonneg h hu + 8 / 5 * g + 728 / 19 * h0 + 39 / 5 * h3 + 160 * p01 + 76 * p03
    · linear_combination 8 / 5 * mul_nonneg h hu + 12 / 5 * g + 7048 / 95 * h0 + 1517 / 95 * h3 + 96 * p01 + 92 * p03
    · linear_combination 8 / 5 * mul_nonneg h hu + 9 / 5 * g + 704 / 95 * h0 + 1323 / 95 * h3 + 208 * p01 + 88 * p03

theorem strip2_0 {s t a b : ℚ} (h0 : 0 ≤ s - 3 / 4) (h1 : 0 ≤ 289 / 380 - s) (t0 : 2 ≤ t) (t1 : t ≤ 8 * s - 4)
    (h : TupleOK [2, 3, 4] LB ZB s t a b) : b ≤ w s * t := by
  have hpos : 0 ≤ t := by linarith
  have k0 : (197 - 220 * s) / (40 * s - 8) ≤ w s := le_max_of_le_left (le_rfl)
  have v0 : 0 < 40 * s - 8 := u0 (by linarith) (by linarith)
  exact (le_quot v0 (cell2_0_0 h0 h1 (by linarith) (by linarith) (tuple_hb powers h (by simp)) (tuple_lv powers h (by simp) (by simp)))).trans (mul_le_mul_of_nonneg_right k0 hpos)

theorem strip2_1 {s t a b : ℚ} (h0 : 0 ≤ s - 289 / 380) (h1 : 0 ≤ 4 / 5 - s) (t0 : 2 ≤ t) (t1 : t ≤ 8 * s - 4)
    (h : TupleOK [2, 3, 4] LB ZB s t a b) : b ≤ w s * t := by
  have hpos : 0 ≤ t := by linarith
  have k2 : (40 - 36 * s) / (20 * s - 5) ≤ w s := le_max_of_le_right (le_max_of_le_right (le_rfl))
  have v2 : 0 < 20 * s - 5 := u2 (by linarith) (by linarith)
  by_cases c0 : t ≤ 4 * s - 1
  · exact (le_quot v2 (cell2_1_0 h0 h1 (by linarith) (by linarith) (tuple_hb powers h (by simp)) (tuple_zeta powers h (by simp)))).trans (mul_le_mul_of_nonneg_right k2 hpos)
  rw [not_le] at c0
  exact (le_quot v2 (cell2_1_1 h0 h1 (by linarith) (by linarith) (tuple_hb powers h (by simp)) (tuple_lv powers h (by simp) (by simp)))).trans (mul_le_mul_of_nonneg_right k2 hpos)

theorem upper (s t a b : ℚ) (l1 : 3 / 4 ≤ s) (l2 : s < 4 / 5) (h : FeasibleE [2, 3, 4] LB ZB 8 (-4) s t a b) : b ≤ w s * t := by
  rcases h with ⟨⟨i1, i2⟩, h⟩ | ⟨⟨i1, i2⟩, h⟩
  · by_cases d0 : s ≤ 289 / 380
    · exact strip1_0 (by linarith) (by linarith) (by linarith) (by linarith) h
    rw [not_le] at d0
    exact strip1_1 (by linarith) (by linarith) (by linarith) (by linarith) h
  · by_cases d0 : s ≤ 289 / 380
    · exact strip2_0 (by linarith) (by linarith) (by linarith) (by linarith) h
    rw [not_le] at d0
    exact strip2_1 (by linarith) (by linarith) (by linarith) (by linarith) h

theorem att0 {s : ℚ} (h0 : 3 / 4 ≤ s) (h1 : s ≤ 289 / 380) :
    Inside [2, 3, 4] LB [] 8 (-4) (2 * 8) (2 * (-4)) s (4 * s - 4 / 5) (36 / 5 - 8 * s) (197 / 10 - 22 * s) := by
  refine ⟨by linarith, by linarith, by linarith, by linarith, by linarith, by linarith, tuple_of powers ⟨by linarith, by linarith⟩ ⟨by linarith, by linarith⟩ ?_ ?_⟩
  · refine List.forall_mem_cons.mpr ⟨?_, List.forall_mem_cons.mpr ⟨?_, List.forall_mem_cons.mpr ⟨?_, List.forall_mem_cons.mpr ⟨?_, List.forall_mem_nil _⟩⟩⟩⟩
    · exact ⟨(hbCond_iff _ _ _ _ _).mpr (.inr (.inr (.inr (.inr (.inr (.inl (by linarith))))))), List.forall_mem_cons.mpr ⟨(hux_iff _ _ _ _).mpr (.inr (by linarith)), List.forall_mem_cons.mpr ⟨(gm_iff _ _ _ _).mpr (.inr (.inr (by linarith))), List.forall_mem_nil _⟩⟩⟩
    · exact ⟨(hbCond_iff _ _ _ _ _).mpr (.inl (by linarith)), List.forall_mem_cons.mpr ⟨(hux_iff _ _ _ _).mpr (.inr (by linarith)), List.forall_mem_cons.mpr ⟨(gm_iff _ _ _ _).mpr (.inr (.inl (by linarith))), List.forall_mem_nil _⟩⟩⟩
    · exact ⟨(hbCond_iff _ _ _ _ _).mpr (.inl (by linarith)), List.forall_mem_cons.mpr ⟨(hux_iff _ _ _ _).mpr (.inl (by linarith)), List.forall_mem_cons.mpr ⟨(gm_iff _ _ _ _).mpr (.inl (by linarith)), List.forall_mem_nil _⟩⟩⟩
    · exact ⟨(hbCond_iff _ _ _ _ _).mpr (.inl (by linarith)), List.forall_mem_cons.mpr ⟨(hux_iff _ _ _ _).mpr (.inl (by linarith)), List.forall_mem_cons.mpr ⟨(gm_iff _ _ _ _).mpr (.inl (by linarith)), List.forall_mem_nil _⟩⟩⟩
  · exact List.forall_mem_nil _

theorem att1 {s : ℚ} (h0 : 289 / 380 ≤ s) (h1 : s ≤ 96 / 121) :
    Inside [2, 3, 4] LB [] 8 (-4) (2 * 8) (2 * (-4)) s (4 * s - 4 / 5) (36 / 5 - 8 * s) (348 / 25 - 72 / 5 * s) := by
  refine ⟨by linarith, by linarith, by linarith, by linarith, by linarith, by linarith, tuple_of powers ⟨by linarith, by linarith⟩ ⟨by linarith, by linarith⟩ ?_ ?_⟩
  · refine List.forall_mem_cons.mpr ⟨?_, List.forall_mem_cons.mpr ⟨?_, List.forall_mem_cons.mpr ⟨?_, List.forall_mem_cons.mpr ⟨?_, List.forall_mem_nil _⟩⟩⟩⟩
    · exact ⟨(hbCond_iff _ _ _ _ _).mpr (.inr (.inr (.inr (.inr (.inr (.inr (.inr (.inr (by linarith))))))))), List.forall_mem_cons.mpr ⟨(hux_iff _ _ _ _).mpr (.inr (by linarith)), List.forall_mem_cons.mpr ⟨(gm_iff _ _ _ _).mpr (.inr (.inr (by linarith))), List.forall_mem_nil _⟩⟩⟩
    · exact ⟨(hbCond_iff _ _ _ _ _).mpr (.inl (by linarith)), List.forall_mem_cons.mpr ⟨(hux_iff _ _ _ _).mpr (.inr (by linarith)), List.forall_mem_cons.mpr ⟨(gm_iff _ _ _ _).mpr (.inr (.inl (by linarith))), List.forall_mem_nil _⟩⟩⟩
    · exact ⟨(hbCond_iff _ _ _ _ _).mpr (.inl (by linarith)), List.forall_mem_cons.mpr ⟨(hux_iff _ _ _ _).mpr (.inl (by linarith)), List.forall_mem_cons.mpr ⟨(gm_iff _ _ _ _).mpr (.inl (by linarith)), List.forall_mem_nil _⟩⟩⟩
    · exact ⟨(hbCond_iff _ _ _ _ _).mpr (.inl (by linarith)), List.forall_mem_cons.mpr ⟨(hux_iff _ _ _ _).mpr (.inl (by linarith)), List.forall_mem_cons.mpr ⟨(gm_iff _ _ _ _).mpr (.inl (by linarith)), List.forall_mem_nil _⟩⟩⟩
  · exact List.forall_mem_nil _

theorem att2 {s : ℚ} (h0 : 42 / 53 ≤ s) (h1 : s < 4 / 5) :
    Inside [2, 3, 4] LB ZB 0 2 8 (-4) s (4 * s - 1) (4 - 4 * s) (8 - 36 / 5 * s) := by
  refine ⟨by linarith, by linarith, by linarith, by linarith, by linarith, by linarith, tuple_of powers ⟨by linarith, by linarith⟩ ⟨by linarith, by linarith⟩ ?_ ?_⟩
  · refine List.forall_mem_cons.mpr ⟨?_, List.forall_mem_cons.mpr ⟨?_, List.forall_mem_cons.mpr ⟨?_, List.forall_mem_cons.mpr ⟨?_, List.forall_mem_nil _⟩⟩⟩⟩
    · exact ⟨(hbCond_iff _ _ _ _ _).mpr (.inr (.inr (.inr (.inr (.inr (.inr (.inr (.inr (by linarith))))))))), List.forall_mem_cons.mpr ⟨(hux_iff _ _ _ _).mpr (.inr (by linarith)), List.forall_mem_cons.mpr ⟨(gm_iff _ _ _ _).mpr (.inr (.inr (by linarith))), List.forall_mem_nil _⟩⟩⟩
    · exact ⟨(hbCond_iff _ _ _ _ _).mpr (.inl (by linarith)), List.forall_mem_cons.mpr ⟨(hux_iff _ _ _ _).mpr (.inl (by linarith)), List.forall_mem_cons.mpr ⟨(gm_iff _ _ _ _).mpr (.inl (by linarith)), List.forall_mem_nil _⟩⟩⟩
    · exact ⟨(hbCond_iff _ _ _ _ _).mpr (.inl (by linarith)), List.forall_mem_cons.mpr ⟨(hux_iff _ _ _ _).mpr (.inl (by linarith)), List.forall_mem_cons.mpr ⟨(gm_iff _ _ _ _).mpr (.inl (by linarith)), List.forall_mem_nil _⟩⟩⟩
    · exact ⟨(hbCond_iff _ _ _ _ _).mpr (.inl (by linarith)), List.forall_mem_cons.mpr ⟨(hux_iff _ _ _ _).mpr (.inl (by linarith)), List.forall_mem_cons.mpr ⟨(gm_iff _ _ _ _).mpr (.inl (by linarith)), List.forall_mem_nil _⟩⟩⟩
  · exact List.forall_mem_cons.mpr ⟨(tw_iff _ _ _ _).mpr (by linarith), List.forall_mem_nil _⟩

theorem attained (s : ℚ) (l1 : 3 / 4 ≤ s) (l2 : s < 4 / 5) : ∃ t a b, (Inside [2, 3, 4] LB [] 8 (-4) (2 * 8) (2 * (-4)) s t a b ∨
    Inside [2, 3, 4] LB ZB 0 2 8 (-4) s t a b) ∧ b = w s * t := by
  by_cases g0 : s ≤ 289 / 380
  · have h0 : 0 ≤ s - 3 / 4 := by linarith
    have h1 : 0 ≤ 289 / 380 - s := by linarith
    have e : w s = (197 - 220 * s) / (40 * s - 8) := le_antisymm (max_le (le_rfl) (max_le (le10_0 h0 h1) (le20_1 h0 h1))) (le_max_of_le_left (le_rfl))
    exact ⟨_, _, _, .inl (att0 (by linarith) (by linarith)), by rw [e]; exact eq_quot (u0 (by linarith) (by linarith)) (by ring)⟩
  rw [not_le] at g0
  rcases le_total ((40 - 36 * s) / (20 * s - 5)) ((87 - 90 * s) / (25 * s - 5)) with hc | hc
  · have hs : s ≤ 96 / 121 := cross1 (by linarith) (by linarith) hc
    have h0 : 0 ≤ s - 289 / 380 := by linarith
    have h1 : 0 ≤ 96 / 121 - s := by linarith
    have e : w s = (87 - 90 * s) / (25 * s - 5) := le_antisymm (max_le (le01_2 h0 h1) (max_le (le_rfl) (hc))) (le_max_of_le_right (le_max_of_le_left (le_rfl)))
    exact ⟨_, _, _, .inl (att1 (by linarith) (by linarith)), by rw [e]; exact eq_quot (u1 (by linarith) (by linarith)) (by ring)⟩
  have g1 : 42 / 53 ≤ s := cross2 (by linarith) (by linarith) hc
  have h0 : 0 ≤ s - 42 / 53 := by linarith
  have h1 : 0 ≤ 4 / 5 - s := by linarith
  have e : w s = (40 - 36 * s) / (20 * s - 5) := le_antisymm (max_le (le02_3 h0 h1) (max_le (hc) (le_rfl))) (le_max_of_le_right (le_max_of_le_right (le_rfl)))
  exact ⟨_, _, _, .inr (att2 (by linarith) (by linarith)), by rw [e]; exact eq_quot (u2 (by linarith) (by linarith)) (by ring)⟩

theorem notConvex1 : NotConvex [2, 3, 4] LB [] (3 / 4) (4 / 5) 8 (-4) (2 * 8) (2 * (-4)) :=
  ⟨7 / 9, 31 / 9, 36 / 125, 258 / 125, 7 / 9, 35 / 9, 121 / 100, 351 / 100, by decide +kernel⟩

theorem notConvex2 : NotConvex [2, 3, 4] LB ZB (3 / 4) (4 / 5) 0 2 8 (-4) :=
  ⟨19 / 24, 121 / 60, 9 / 50, 213 / 200, 19 / 24, 133 / 60, 104 / 125, 292 / 125, by decide +kernel⟩

end Case3

variable {eng : Engine} {hrep : List Pt → Mat} {edges : Mat → List (Pt × Pt)} {solve : RF ℝ → RF ℝ → List ℝ} {isZero : Expr ℝ → Bool}
  {orderR : List (Region ℕ) → List (Region ℕ)} {orderK : List ℚ → List ℚ}

/-- **C85** (`prove_zero_density_energy_3`, derived.py:835-856) The function returns pieces which, at every real `sigma` of `[3/4, 4/5)`, give
`A*(sigma) = w(sigma) / (1 - sigma)` with the `w` stated here. -/
theorem C85_energy_3 (C : Contracts eng edges solve isZero orderR orderK) (hh : HRepSpec hrep) (hhz : HRepNoZero hrep) :
    ∃ out, proveEnergy3 eng hrep edges solve isZero orderR orderK = .ok out ∧ IsBoundE (3 / 4) (4 / 5) out
      (fun x => (max ((197 - 220 * x) / (40 * x - 8)) (max ((87 - 90 * x) / (25 * x - 5)) ((40 - 36 * x) / (20 * x - 5)))) / (1 - x)) := by
  have := deriveE C hh hhz [2, 3, 4] Case3.powers Case3.LB Case3.ZB (List.forall_mem_cons.mpr ⟨good_hux, List.forall_mem_cons.mpr ⟨good_gm, List.forall_mem_nil _⟩⟩) (List.forall_mem_cons.mpr ⟨good_tw, List.forall_mem_nil _⟩) 8 (-4) (3 / 4) (4 / 5)
    (by norm_num) (by norm_num) (by norm_num) (by decide +kernel) (by norm_num) (by norm_num) (by norm_num) (by norm_num) Case3.notConvex1
    (.inr ⟨by norm_num, Case3.notConvex2⟩) Case3.w (fun x => max ((197 - 220 * x) / (40 * x - 8)) (max ((87 - 90 * x) / (25 * x - 5)) ((40 - 36 * x) / (20 * x - 5)))) (fun s _ _ => by simp only [Case3.w]; push_cast; rfl) ?_ Case3.attained Case3.upper
  · exact this
  · intro x l1 l2
    push_cast at l1 l2
    have k0 : ContinuousAt (fun x : ℝ => (197 - 220 * x) / (40 * x - 8)) x := ContinuousAt.div (by fun_prop) (by fun_prop) (by intro h; linarith)
    have k1 : ContinuousAt (fun x : ℝ => (87 - 90 * x) / (25 * x - 5)) x := ContinuousAt.div (by fun_prop) (by fun_prop) (by intro h; linarith)
    have k2 : ContinuousAt (fun x : ℝ => (40 - 36 * x) / (20 * x - 5)) x := ContinuousAt.div (by fun_prop) (by fun_prop) (by intro h; linarith)
    exact (Filter.Tendsto.max k0 (Filter.Tendsto.max k1 k2))

/-- The value at `7/9`. -/
example : ∃ eng hrep edges solve isZero orderR orderK out, proveEnergy3 eng hrep edges solve isZero orderR orderK = .ok out ∧
    ∃ q ∈ out, q.1.at (7 / 9) = (1377 / 260 : ℝ) := by
  obtain ⟨eng, edges, solve, isZero, orderR, orderK, C⟩ := contracts_satisfiable
  obtain ⟨hrep, hh, hhz⟩ := hRepNoZero_satisfiable
  obtain ⟨out, h1, h2⟩ := C85_energy_3 C hh hhz
  obtain ⟨q, q1, _, _, _, q5⟩ := h2 (7 / 9) (by norm_num) (by norm_num)
  exact ⟨eng, hrep, edges, solve, isZero, orderR, orderK, out, h1, q, q1, by rw [q5]; norm_num⟩

end DerivedEnergy
end Expdb
