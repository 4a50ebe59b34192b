import Verif.Props.EnergyBourgain

/-!
# C97: the zero density energy estimate that `prove_zero_density_energy_7` derives

The upper bound is proved on cells of the `(sigma, tau)` plane, with one power of Heath-Brown's relation and one power of one large value
estimate on each cell.
-/

namespace Expdb
namespace EnergyUnb

open Rational SupRatio Mat Region ZeroDensity DerivedZD DerivedEnergy RegionUnb Literature

namespace Case7

/-- The bound times `1 - sigma`. -/
def w (s : ℚ) : ℚ := max ((18 - 19 * s) / (27 * s - 18)) ((40 - 36 * s) / (20 * s - 5))

theorem u0 {s : ℚ} (l1 : 84 / 109 ≤ s) (l2 : s ≤ 5 / 6) : 0 < 27 * s - 18 := by linarith

theorem u1 {s : ℚ} (l1 : 84 / 109 ≤ s) (l2 : s ≤ 5 / 6) : 0 < 20 * s - 5 := by linarith

/-- The bounds that the second power of Bourgain's estimate gives in the cells in which it is used. -/
def b2 : List (ℚ × ℚ × ℚ) := [(18, -24, 2 / 3), (32 / 3, -(40 / 3), 1 / 3), (10, -14, 3 / 4), (4, -4, 0)]

theorem b2_iff (k s t a : ℚ) : LVCond b2 k s t a ↔ 0 ≤ k * 18 - k * 24 * s + 2 / 3 * t - a ∨
    0 ≤ k * (32 / 3) - k * (40 / 3) * s + t / 3 - a ∨ 0 ≤ k * 10 - k * 14 * s + 3 / 4 * t - a ∨ 0 ≤ k * 4 - k * 4 * s - a := by
  unfold LVCond formsOf lin b2
  simp only [List.map_cons, List.map_nil, List.exists_mem_cons_iff, List.not_mem_nil, false_and, exists_false, or_false]
  refine or_congr ?_ (or_congr ?_ (or_congr ?_ ?_)) <;> (constructor <;> intro h <;> linarith)

theorem b2_cond {s t a : ℚ} (h0 : 0 ≤ s - 84 / 109) (h1 : 0 ≤ 5 / 6 - s) (h2 : 8 / 3 ≤ t) (h3 : t ≤ 57 / 20) (h : BSet s (t / 2) (a / 2)) :
    LVCond b2 1 s t a := by
  rw [b2_iff]
  obtain ⟨u, p, i, rfl, rfl, hu, hi, hb⟩ := bset_cases (by norm_num) (by linarith) h
  match i, hi, hb with
  | 1, ⟨p1, p2, p3, p4⟩, Or.inr hb =>
    have hb : p ≤ 16 / 3 - 20 / 3 * s + u / 3 := hb
    right; left; linarith
  | 2, ⟨p1, p2, p3, p4⟩, Or.inr hb =>
    have hb : p ≤ 5 - 7 * s + 3 / 4 * u := hb
    right; right; left; linarith
  | 3, ⟨p1, p2, p3, p4⟩, _ => linarith
  | 4, ⟨p1, p2, p3, p4, p5⟩, _ => linarith
  | 5, ⟨p1, p2, p3, p4, p5⟩, _ => linarith
  | 6, ⟨p1, p2, p3, p4, p5, p6⟩, Or.inr hb =>
    have hb : p ≤ 2 - 2 * s := hb
    right; right; right; linarith
  | 7, ⟨p1, p2, p3, p4, p5⟩, Or.inr hb =>
    have hb : p ≤ 9 - 12 * s + 2 / 3 * u := hb
    left; linarith
  | 0, hi, _ => exact hi.elim
  | _ + 8, hi, _ => exact hi.elim

theorem cell1_0_0 {s t a b : ℚ} (h0 : 0 ≤ s - 84 / 109) (h1 : 0 ≤ 3861 / 5000 - s) (h2 : 0 ≤ t - (8 * s - 4)) (h3 : 0 ≤ 12 / 5 - t)
    (hH : HBCond 1 s t a b) (hV : LVCond (jutK 5) 2 s t a) : b * (27 * s - 18) ≤ (18 - 19 * s) * t := by
  have hu : 0 ≤ 27 * s - 18 := by linarith only [h0, h1]
  have p00 := mul_nonneg h0 h0
  have p03 := mul_nonneg h0 h3
  have hV := (jut_iff 5 _ _ _ _).mp hV
  push_cast at hV
  rcases hV with g | g | g
  · have g := mul_nonneg g hu
    rcases (hbCond_iff _ _ _ _ _).mp hH with h | h | h | h | h | h | h | h | h
    · linear_combination 2 * mul_nonneg h hu + g + 24972 / 545 * h1 + 366 / 109 * h2 + 216 * p00 + 19 * p03
    · linear_combination 2 * mul_nonneg h hu + 2 * g + 17637 / 545 * h1 + 366 / 109 * h2 + 324 * p00 + 19 * p03
    · linear_combination 2 * mul_nonneg h hu + 5 / 4 * g + 7176 / 109 * h1 + 213 / 109 * h2 + 243 * p00 + 65 / 2 * p03
    · linear_combination mul_nonneg h hu + 5 / 2 * g + 49989 / 1090 * h1 + 366 / 109 * h2 + 324 * p00 + 19 * p03
    · linear_combination mul_nonneg h hu + 3 * g + 21327 / 545 * h1 + 366 / 109 * h2 + 378 * p00 + 19 * p03
    · linear_combination mul_nonneg h hu + 21 / 8 * g + 60897 / 1090 * h1 + 579 / 218 * h2 + 675 / 2 * p00 + 103 / 4 * p03
    · linear_combination 8 / 5 * mul_nonneg h hu + 8 / 5 * g + 175872 / 2725 * h1 + 1218 / 545 * h2 + 1296 / 5 * p00 + 149 / 5 * p03
    · linear_combination 8 / 5 * mul_nonneg h hu + 12 / 5 * g + 146532 / 2725 * h1 + 1218 / 545 * h2 + 1728 / 5 * p00 + 149 / 5 * p03
    · linear_combination 8 / 5 * mul_nonneg h hu + 9 / 5 * g + 219504 / 2725 * h1 + 606 / 545 * h2 + 1404 / 5 * p00 + 203 / 5 * p03
  · have g := mul_nonneg g hu
    rcases (hbCond_iff _ _ _ _ _).mp hH with h | h | h | h | h | h | h | h | h
    · linear_combination 2 * mul_nonneg h hu + g + 26952 / 545 * h1 + 60 / 109 * h2 + 2052 / 5 * p00 + 46 * p03
    · linear_combination 2 * mul_nonneg h hu + 2 * g + 11757 / 545 * h1 + 246 / 109 * h3 + 3564 / 5 * p00 + 73 * p03
    · linear_combination 2 * mul_nonneg h hu + 5 / 4 * g + 6315 / 109 * h1 + 339 / 218 * h3 + 486 * p00 + 265 / 4 * p03
    · linear_combination mul_nonneg h hu + 5 / 2 * g + 27969 / 1090 * h1 + 399 / 109 * h3 + 810 * p00 + 173 / 2 * p03
    · linear_combination mul_nonneg h hu + 3 * g + 5187 / 545 * h1 + 552 / 109 * h3 + 4806 / 5 * p00 + 100 * p03
    · linear_combination mul_nonneg h hu + 21 / 8 * g + 15096 / 545 * h1 + 2055 / 436 * h3 + 4239 / 5 * p00 + 773 / 8 * p03
    · linear_combination 8 / 5 * mul_nonneg h hu + 8 / 5 * g + 142512 / 2725 * h1 + 246 / 109 * h3 + 14256 / 25 * p00 + 73 * p03
    · linear_combination 8 / 5 * mul_nonneg h hu + 12 / 5 * g + 72132 / 2725 * h1 + 2454 / 545 * h3 + 20304 / 25 * p00 + 473 / 5 * p03
    · linear_combination 8 / 5 * mul_nonneg h hu + 9 / 5 * g + 151404 / 2725 * h1 + 2148 / 545 * h3 + 15768 / 25 * p00 + 446 / 5 * p03
  · have g := mul_nonneg g hu
    rcases (hbCond_iff _ _ _ _ _).mp hH with h | h | h | h | h | h | h | h | h
    · linear_combination 2 * mul_nonneg h hu + g + 81552 / 545 * h0 + 60 / 109 * h2 + 2268 * p00 + 46 * p03
    · linear_combination 2 * mul_nonneg h hu + 2 * g + 205251 / 545 * h0 + 246 / 109 * h3 + 4428 * p00 + 73 * p03
    · linear_combination 2 * mul_nonneg h hu + 5 / 4 * g + 20811 / 109 * h0 + 339 / 218 * h3 + 2808 * p00 + 265 / 4 * p03
    · linear_combination mul_nonneg h hu + 5 / 2 * g + 514551 / 1090 * h0 + 399 / 109 * h3 + 5454 * p00 + 173 / 2 * p03
    · linear_combination mul_nonneg h hu + 3 * g + 64065 / 109 * h0 + 552 / 109 * h3 + 6534 * p00 + 100 * p03
    · linear_combination mul_nonneg h hu + 21 / 8 * g + 269727 / 545 * h0 + 2055 / 436 * h3 + 5724 * p00 + 773 / 8 * p03
    · linear_combination 8 / 5 * mul_nonneg h hu + 8 / 5 * g + 145104 / 545 * h0 + 246 / 109 * h3 + 17712 / 5 * p00 + 73 * p03
    · linear_combination 8 / 5 * mul_nonneg h hu + 12 / 5 * g + 1229916 / 2725 * h0 + 2454 / 545 * h3 + 26352 / 5 * p00 + 473 / 5 * p03
    · linear_combination 8 / 5 * mul_nonneg h hu + 9 / 5 * g + 825132 / 2725 * h0 + 2148 / 545 * h3 + 19872 / 5 * p00 + 446 / 5 * p03

theorem cell1_0_1 {s t a b : ℚ} (h0 : 0 ≤ s - 84 / 109) (h1 : 0 ≤ 3861 / 5000 - s) (h2 : 0 ≤ t - (12 / 5)) (h3 : 0 ≤ 8 / 3 - t)
    (hH : HBCond 2 s t a b) (hV : LVCond (jutK 5) 2 s t a) : b * (20 * s - 5) ≤ (40 - 36 * s) * t := by
  have hu : 0 ≤ 20 * s - 5 := by linarith only [h0, h1]
  have p00 := mul_nonneg h0 h0
  have p03 := mul_nonneg h0 h3
  have hV := (jut_iff 5 _ _ _ _).mp hV
  push_cast at hV
  rcases hV with g | g | g
  · have g := mul_nonneg g hu
    rcases (hbCond_iff _ _ _ _ _).mp hH with h | h | h | h | h | h | h | h | h
    · linear_combination 2 * mul_nonneg h hu + g + 2844 / 109 * h1 + 1336 / 109 * h2 + 240 * p00 + 36 * p03
    · linear_combination 2 * mul_nonneg h hu + 2 * g + 4056 / 109 * h0 + 1336 / 109 * h2 + 320 * p00 + 36 * p03
    · linear_combination 2 * mul_nonneg h hu + 5 / 4 * g + 2267 / 327 * h1 + 1537 / 218 * h2 + 260 * p00 + 46 * p03
    · linear_combination mul_nonneg h hu + 5 / 2 * g + 606 / 109 * h0 + 1336 / 109 * h2 + 280 * p00 + 36 * p03
    · linear_combination mul_nonneg h hu + 3 * g + 4056 / 109 * h0 + 1336 / 109 * h2 + 320 * p00 + 36 * p03
    · linear_combination mul_nonneg h hu + 21 / 8 * g + 9901 / 654 * h0 + 4209 / 436 * h2 + 290 * p00 + 41 * p03
    · linear_combination 8 / 5 * mul_nonneg h hu + 8 / 5 * g + 3520 / 327 * h1 + 882 / 109 * h2 + 256 * p00 + 44 * p03
    · linear_combination 8 / 5 * mul_nonneg h hu + 12 / 5 * g + 13040 / 327 * h0 + 882 / 109 * h2 + 320 * p00 + 44 * p03
    · linear_combination 8 / 5 * mul_nonneg h hu + 9 / 5 * g + 1492 / 327 * h0 + 428 / 109 * h2 + 272 * p00 + 52 * p03
  · have g := mul_nonneg g hu
    rcases (hbCond_iff _ _ _ _ _).mp hH with h | h | h | h | h | h | h | h | h
    · linear_combination 2 * mul_nonneg h hu + g + 13904 / 327 * h0 + 201 / 109 * h2 + 384 * p00 + 56 * p03
    · linear_combination 2 * mul_nonneg h hu + 2 * g + 57040 / 327 * h0 + 934 / 109 * h3 + 608 * p00 + 76 * p03
    · linear_combination 2 * mul_nonneg h hu + 5 / 4 * g + 25778 / 327 * h0 + 2601 / 436 * h3 + 440 * p00 + 71 * p03
    · linear_combination mul_nonneg h hu + 5 / 2 * g + 57908 / 327 * h0 + 3003 / 218 * h3 + 640 * p00 + 86 * p03
    · linear_combination mul_nonneg h hu + 3 * g + 26492 / 109 * h0 + 2069 / 109 * h3 + 752 * p00 + 96 * p03
    · linear_combination mul_nonneg h hu + 21 / 8 * g + 63845 / 327 * h0 + 15417 / 872 * h3 + 668 * p00 + 187 / 2 * p03
    · linear_combination 8 / 5 * mul_nonneg h hu + 8 / 5 * g + 161888 / 1635 * h0 + 934 / 109 * h3 + 2432 / 5 * p00 + 76 * p03
    · linear_combination 8 / 5 * mul_nonneg h hu + 12 / 5 * g + 334432 / 1635 * h0 + 1842 / 109 * h3 + 3328 / 5 * p00 + 92 * p03
    · linear_combination 8 / 5 * mul_nonneg h hu + 9 / 5 * g + 209384 / 1635 * h0 + 1615 / 109 * h3 + 2656 / 5 * p00 + 88 * p03
  · have g := mul_nonneg g hu
    rcases (hbCond_iff _ _ _ _ _).mp hH with h | h | h | h | h | h | h | h | h
    · linear_combination 2 * mul_nonneg h hu + g + 249608 / 327 * h0 + 201 / 109 * h2 + 1760 * p00 + 56 * p03
    · linear_combination 2 * mul_nonneg h hu + 2 * g + 528448 / 327 * h0 + 934 / 109 * h3 + 3360 * p00 + 76 * p03
    · linear_combination 2 * mul_nonneg h hu + 5 / 4 * g + 320408 / 327 * h0 + 2601 / 436 * h3 + 2160 * p00 + 71 * p03
    · linear_combination mul_nonneg h hu + 5 / 2 * g + 647168 / 327 * h0 + 3003 / 218 * h3 + 4080 * p00 + 86 * p03
    · linear_combination mul_nonneg h hu + 3 * g + 262196 / 109 * h0 + 2069 / 109 * h3 + 4880 * p00 + 96 * p03
    · linear_combination mul_nonneg h hu + 21 / 8 * g + 682568 / 327 * h0 + 15417 / 872 * h3 + 4280 * p00 + 187 / 2 * p03
    · linear_combination 8 / 5 * mul_nonneg h hu + 8 / 5 * g + 409504 / 327 * h0 + 934 / 109 * h3 + 2688 * p00 + 76 * p03
    · linear_combination 8 / 5 * mul_nonneg h hu + 12 / 5 * g + 632576 / 327 * h0 + 1842 / 109 * h3 + 3968 * p00 + 92 * p03
    · linear_combination 8 / 5 * mul_nonneg h hu + 9 / 5 * g + 466144 / 327 * h0 + 1615 / 109 * h3 + 3008 * p00 + 88 * p03

theorem cell1_0_2 {s t a b : ℚ} (h0 : 0 ≤ s - 84 / 109) (h1 : 0 ≤ 3861 / 5000 - s) (h2 : 0 ≤ t - (8 / 3)) (h3 : 0 ≤ 27 * s - 18 - t)
    (hH : HBCond 2 s t a b) (hV : LVCond b2 1 s t a) : b * (27 * s - 18) ≤ (18 - 19 * s) * t := by
  have hu : 0 ≤ 27 * s - 18 := by linarith only [h0, h1]
  have p00 := mul_nonneg h0 h0
  have p01 := mul_nonneg h0 h1
  have p03 := mul_nonneg h0 h3
  have hV := (b2_iff _ _ _ _).mp hV
  rcases hV with g | g | g | g
  · have g := mul_nonneg g hu
    rcases (hbCond_iff _ _ _ _ _).mp hH with h | h | h | h | h | h | h | h | h
    · linear_combination 2 * mul_nonneg h hu + g + 5494923 / 109000 * h1 + 162 / 109 * h2 + 135 * p01 + 37 * p03
    · linear_combination 2 * mul_nonneg h hu + 2 * g + 2574 / 109 * h0 + 42 / 109 * h3 + 27 * p00 + 55 * p03
    · linear_combination 2 * mul_nonneg h hu + 5 / 4 * g + 20527191 / 545000 * h1 + 42 / 109 * h3 + 459 * p01 + 55 * p03
    · linear_combination mul_nonneg h hu + 5 / 2 * g + 144 / 109 * h3 + 64 * p03
    · linear_combination mul_nonneg h hu + 3 * g + 1836 / 109 * h0 + 246 / 109 * h3 + 81 * p00 + 73 * p03
    · linear_combination mul_nonneg h hu + 21 / 8 * g + 932661 / 68125 * h1 + 246 / 109 * h3 + 162 * p01 + 73 * p03
    · linear_combination 8 / 5 * mul_nonneg h hu + 8 / 5 * g + 95001687 / 2725000 * h1 + 414 / 545 * h3 + 1863 / 5 * p01 + 293 / 5 * p03
    · linear_combination 8 / 5 * mul_nonneg h hu + 12 / 5 * g + 4202307 / 545000 * h1 + 246 / 109 * h3 + 243 * p01 + 73 * p03
    · linear_combination 8 / 5 * mul_nonneg h hu + 9 / 5 * g + 154691991 / 2725000 * h1 + 246 / 109 * h3 + 3159 / 5 * p01 + 73 * p03
  · have g := mul_nonneg g hu
    rcases (hbCond_iff _ _ _ _ _).mp hH with h | h | h | h | h | h | h | h | h
    · linear_combination 2 * mul_nonneg h hu + g + 2155641 / 27250 * h1 + 264 / 109 * h2 + 180 * p01 + 28 * p03
    · linear_combination 2 * mul_nonneg h hu + 2 * g + 12713487 / 545000 * h1 + 162 / 109 * h2 + 63 * p01 + 37 * p03
    · linear_combination 2 * mul_nonneg h hu + 5 / 4 * g + 137619789 / 2180000 * h1 + 171 / 218 * h2 + 2061 / 4 * p01 + 175 / 4 * p03
    · linear_combination mul_nonneg h hu + 5 / 2 * g + 1572441 / 43600 * h1 + 111 / 109 * h2 + 225 / 2 * p01 + 83 / 2 * p03
    · linear_combination mul_nonneg h hu + 3 * g + 2227923 / 272500 * h1 + 60 / 109 * h2 + 54 * p01 + 46 * p03
    · linear_combination mul_nonneg h hu + 21 / 8 * g + 122412609 / 4360000 * h1 + 87 / 436 * h2 + 2241 / 8 * p01 + 395 / 8 * p03
    · linear_combination 8 / 5 * mul_nonneg h hu + 8 / 5 * g + 164217327 / 2725000 * h1 + 402 / 545 * h2 + 2223 / 5 * p01 + 221 / 5 * p03
    · linear_combination 8 / 5 * mul_nonneg h hu + 12 / 5 * g + 8685999 / 545000 * h1 + 6 / 545 * h3 + 351 * p01 + 257 / 5 * p03
    · linear_combination 8 / 5 * mul_nonneg h hu + 9 / 5 * g + 42876459 / 681250 * h1 + 312 / 545 * h3 + 3564 / 5 * p01 + 284 / 5 * p03
  · have g := mul_nonneg g hu
    rcases (hbCond_iff _ _ _ _ _).mp hH with h | h | h | h | h | h | h | h | h
    · linear_combination 2 * mul_nonneg h hu + g + 168711687 / 2180000 * h1 + 273 / 218 * h2 + 1863 / 4 * p01 + 157 / 4 * p03
    · linear_combination 2 * mul_nonneg h hu + 2 * g + 46797381 / 1090000 * h1 + 93 / 109 * h3 + 1269 / 2 * p01 + 119 / 2 * p03
    · linear_combination 2 * mul_nonneg h hu + 5 / 4 * g + 691351191 / 8720000 * h1 + 591 / 872 * h3 + 13959 / 16 * p01 + 925 / 16 * p03
    · linear_combination mul_nonneg h hu + 5 / 2 * g + 72583227 / 872000 * h1 + 831 / 436 * h3 + 6615 / 8 * p01 + 557 / 8 * p03
    · linear_combination mul_nonneg h hu + 3 * g + 36150921 / 436000 * h1 + 645 / 218 * h3 + 3645 / 4 * p01 + 319 / 4 * p03
    · linear_combination mul_nonneg h hu + 21 / 8 * g + 1763008983 / 17440000 * h1 + 5007 / 1744 * h3 + 32967 / 32 * p01 + 2525 / 32 * p03
    · linear_combination 8 / 5 * mul_nonneg h hu + 8 / 5 * g + 240168141 / 2725000 * h1 + 618 / 545 * h3 + 4509 / 5 * p01 + 311 / 5 * p03
    · linear_combination 8 / 5 * mul_nonneg h hu + 12 / 5 * g + 29845152 / 340625 * h1 + 1536 / 545 * h3 + 5184 / 5 * p01 + 392 / 5 * p03
    · linear_combination 8 / 5 * mul_nonneg h hu + 9 / 5 * g + 1272017007 / 10900000 * h1 + 2919 / 1090 * h3 + 24543 / 20 * p01 + 1541 / 20 * p03
  · have g := mul_nonneg g hu
    rcases (hbCond_iff _ _ _ _ _).mp hH with h | h | h | h | h | h | h | h | h
    · linear_combination 2 * mul_nonneg h hu + g + 51370461 / 545000 * h1 + 366 / 109 * h2 + 189 * p01 + 19 * p03
    · linear_combination 2 * mul_nonneg h hu + 2 * g + 29228769 / 545000 * h1 + 366 / 109 * h2 + 81 * p01 + 19 * p03
    · linear_combination 2 * mul_nonneg h hu + 5 / 4 * g + 89453997 / 1090000 * h1 + 213 / 109 * h2 + 1053 / 2 * p01 + 65 / 2 * p03
    · linear_combination mul_nonneg h hu + 5 / 2 * g + 8059923 / 109000 * h1 + 366 / 109 * h2 + 135 * p01 + 19 * p03
    · linear_combination mul_nonneg h hu + 3 * g + 29228769 / 545000 * h1 + 366 / 109 * h2 + 81 * p01 + 19 * p03
    · linear_combination mul_nonneg h hu + 21 / 8 * g + 29582307 / 436000 * h1 + 579 / 218 * h2 + 1215 / 4 * p01 + 103 / 4 * p03
    · linear_combination 8 / 5 * mul_nonneg h hu + 8 / 5 * g + 46055691 / 545000 * h1 + 1218 / 545 * h2 + 459 * p01 + 149 / 5 * p03
    · linear_combination 8 / 5 * mul_nonneg h hu + 12 / 5 * g + 141711687 / 2725000 * h1 + 1218 / 545 * h2 + 1863 / 5 * p01 + 149 / 5 * p03
    · linear_combination 8 / 5 * mul_nonneg h hu + 9 / 5 * g + 40740921 / 545000 * h1 + 606 / 545 * h2 + 729 * p01 + 203 / 5 * p03

theorem cell1_0_3 {s t a b : ℚ} (h0 : 0 ≤ s - 84 / 109) (h1 : 0 ≤ 3861 / 5000 - s) (h2 : 0 ≤ t - (27 * s - 18)) (h3 : 0 ≤ 47 / 12 - t)
    (hH : HBCond 2 s t a b) (hV : LVCond (jutK 5) 3 s t a) : b * (27 * s - 18) ≤ (18 - 19 * s) * t := by
  have hu : 0 ≤ 27 * s - 18 := by linarith only [h0, h1]
  have p00 := mul_nonneg h0 h0
  have p03 := mul_nonneg h0 h3
  have p12 := mul_nonneg h1 h2
  have hV := (jut_iff 5 _ _ _ _).mp hV
  push_cast at hV
  rcases hV with g | g | g
  · have g := mul_nonneg g hu
    rcases (hbCond_iff _ _ _ _ _).mp hH with h | h | h | h | h | h | h | h | h
    · linear_combination 2 * mul_nonneg h hu + g + 40745 / 1308 * h1 + 366 / 109 * h2 + 378 * p00 + 19 * p03
    · linear_combination 2 * mul_nonneg h hu + 2 * g + 3319 / 1308 * h0 + 366 / 109 * h2 + 540 * p00 + 19 * p03
    · linear_combination 2 * mul_nonneg h hu + 5 / 4 * g + 190975 / 2616 * h1 + 213 / 109 * h2 + 837 / 2 * p00 + 65 / 2 * p03
    · linear_combination mul_nonneg h hu + 5 / 2 * g + 16641 / 5000 * h2 + 19 * p12
    · linear_combination mul_nonneg h hu + 3 * g + 5537 / 1308 * h1 + 366 / 109 * h2 + 594 * p00 + 19 * p03
    · linear_combination mul_nonneg h hu + 21 / 8 * g + 219761 / 5232 * h1 + 579 / 218 * h2 + 2133 / 4 * p00 + 103 / 4 * p03
    · linear_combination 8 / 5 * mul_nonneg h hu + 8 / 5 * g + 440407 / 6540 * h1 + 1218 / 545 * h2 + 432 * p00 + 149 / 5 * p03
    · linear_combination 8 / 5 * mul_nonneg h hu + 12 / 5 * g + 264151 / 6540 * h1 + 1218 / 545 * h2 + 2808 / 5 * p00 + 149 / 5 * p03
    · linear_combination 8 / 5 * mul_nonneg h hu + 9 / 5 * g + 659377 / 6540 * h1 + 606 / 545 * h2 + 2322 / 5 * p00 + 203 / 5 * p03
  · have g := mul_nonneg g hu
    rcases (hbCond_iff _ _ _ _ _).mp hH with h | h | h | h | h | h | h | h | h
    · linear_combination 2 * mul_nonneg h hu + g + 285341 / 3270 * h1 + 60 / 109 * h2 + 3348 / 5 * p00 + 46 * p03
    · linear_combination 2 * mul_nonneg h hu + 2 * g + 318799 / 6540 * h1 + 246 / 109 * h3 + 5616 / 5 * p00 + 73 * p03
    · linear_combination 2 * mul_nonneg h hu + 5 / 4 * g + 529235 / 5232 * h1 + 339 / 218 * h3 + 783 * p00 + 265 / 4 * p03
    · linear_combination mul_nonneg h hu + 5 / 2 * g + 163543 / 2616 * h1 + 399 / 109 * h3 + 1242 * p00 + 173 / 2 * p03
    · linear_combination mul_nonneg h hu + 3 * g + 58579 / 1635 * h1 + 552 / 109 * h3 + 7344 / 5 * p00 + 100 * p03
    · linear_combination mul_nonneg h hu + 21 / 8 * g + 3245507 / 52320 * h1 + 2055 / 436 * h3 + 12987 / 10 * p00 + 773 / 8 * p03
    · linear_combination 8 / 5 * mul_nonneg h hu + 8 / 5 * g + 3145091 / 32700 * h1 + 246 / 109 * h3 + 22464 / 25 * p00 + 73 * p03
    · linear_combination 8 / 5 * mul_nonneg h hu + 12 / 5 * g + 1748759 / 32700 * h1 + 2454 / 545 * h3 + 31536 / 25 * p00 + 473 / 5 * p03
    · linear_combination 8 / 5 * mul_nonneg h hu + 9 / 5 * g + 1559869 / 16350 * h1 + 2148 / 545 * h3 + 24732 / 25 * p00 + 446 / 5 * p03
  · have g := mul_nonneg g hu
    rcases (hbCond_iff _ _ _ _ _).mp hH with h | h | h | h | h | h | h | h | h
    · linear_combination 2 * mul_nonneg h hu + g + 138239 / 654 * h0 + 60 / 109 * h2 + 3456 * p00 + 46 * p03
    · linear_combination 2 * mul_nonneg h hu + 2 * g + 717469 / 1308 * h0 + 246 / 109 * h3 + 6696 * p00 + 73 * p03
    · linear_combination 2 * mul_nonneg h hu + 5 / 4 * g + 1423837 / 5232 * h0 + 339 / 218 * h3 + 4266 * p00 + 265 / 4 * p03
    · linear_combination mul_nonneg h hu + 5 / 2 * g + 1789529 / 2616 * h0 + 399 / 109 * h3 + 8208 * p00 + 173 / 2 * p03
    · linear_combination mul_nonneg h hu + 3 * g + 281245 / 327 * h0 + 552 / 109 * h3 + 9828 * p00 + 100 * p03
    · linear_combination mul_nonneg h hu + 21 / 8 * g + 7553801 / 10464 * h0 + 2055 / 436 * h3 + 8613 * p00 + 773 / 8 * p03
    · linear_combination 8 / 5 * mul_nonneg h hu + 8 / 5 * g + 2495897 / 6540 * h0 + 246 / 109 * h3 + 26784 / 5 * p00 + 73 * p03
    · linear_combination 8 / 5 * mul_nonneg h hu + 12 / 5 * g + 4337621 / 6540 * h0 + 2454 / 545 * h3 + 39744 / 5 * p00 + 473 / 5 * p03
    · linear_combination 8 / 5 * mul_nonneg h hu + 9 / 5 * g + 1445791 / 3270 * h0 + 2148 / 545 * h3 + 30024 / 5 * p00 + 446 / 5 * p03

theorem cell1_0_4 {s t a b : ℚ} (h0 : 0 ≤ s - 84 / 109) (h1 : 0 ≤ 3861 / 5000 - s) (h2 : 0 ≤ t - (47 / 12)) (h3 : 0 ≤ 16 * s - 8 - t)
    (hH : HBCond 3 s t a b) (hV : LVCond (jutK 5) 4 s t a) : b * (27 * s - 18) ≤ (18 - 19 * s) * t := by
  have hu : 0 ≤ 27 * s - 18 := by linarith only [h0, h1]
  have p00 := mul_nonneg h0 h0
  have p01 := mul_nonneg h0 h1
  have p03 := mul_nonneg h0 h3
  have hV := (jut_iff 5 _ _ _ _).mp hV
  push_cast at hV
  rcases hV with g | g | g
  · have g := mul_nonneg g hu
    rcases (hbCond_iff _ _ _ _ _).mp hH with h | h | h | h | h | h | h | h | h
    · linear_combination 2 * mul_nonneg h hu + g + 16348 / 109 * h1 + 366 / 109 * h2 + 236 * p00 + 19 * p03
    · linear_combination 2 * mul_nonneg h hu + 2 * g + 10471 / 109 * h1 + 366 / 109 * h2 + 452 * p00 + 19 * p03
    · linear_combination 2 * mul_nonneg h hu + 5 / 4 * g + 14629 / 109 * h1 + 213 / 109 * h2 + 74 * p00 + 65 / 2 * p03
    · linear_combination mul_nonneg h hu + 5 / 2 * g + 28295 / 218 * h1 + 366 / 109 * h2 + 398 * p00 + 19 * p03
    · linear_combination mul_nonneg h hu + 3 * g + 11209 / 109 * h1 + 366 / 109 * h2 + 506 * p00 + 19 * p03
    · linear_combination mul_nonneg h hu + 21 / 8 * g + 13288 / 109 * h1 + 579 / 218 * h2 + 317 * p00 + 103 / 4 * p03
    · linear_combination 8 / 5 * mul_nonneg h hu + 8 / 5 * g + 15268 / 109 * h1 + 1218 / 545 * h2 + 128 * p00 + 149 / 5 * p03
    · linear_combination 8 / 5 * mul_nonneg h hu + 12 / 5 * g + 52832 / 545 * h1 + 1218 / 545 * h2 + 1504 / 5 * p00 + 149 / 5 * p03
    · linear_combination 8 / 5 * mul_nonneg h hu + 9 / 5 * g + 43415849 / 340625 * h1 + 606 / 545 * h2 + 8 / 5 * p01 + 203 / 5 * p03
  · have g := mul_nonneg g hu
    rcases (hbCond_iff _ _ _ _ _).mp hH with h | h | h | h | h | h | h | h | h
    · linear_combination 2 * mul_nonneg h hu + g + 54308 / 545 * h1 + 60 / 109 * h2 + 964 / 5 * p00 + 46 * p03
    · linear_combination 2 * mul_nonneg h hu + 2 * g + 17171 / 545 * h1 + 246 / 109 * h3 + 1828 / 5 * p00 + 73 * p03
    · linear_combination 2 * mul_nonneg h hu + 5 / 4 * g + 10483 / 109 * h1 + 339 / 218 * h3 + 20 * p00 + 265 / 4 * p03
    · linear_combination mul_nonneg h hu + 5 / 2 * g + 13631 / 218 * h1 + 399 / 109 * h3 + 290 * p00 + 173 / 2 * p03
    · linear_combination mul_nonneg h hu + 3 * g + 17909 / 545 * h1 + 552 / 109 * h3 + 1882 / 5 * p00 + 100 * p03
    · linear_combination mul_nonneg h hu + 21 / 8 * g + 35531 / 545 * h1 + 2055 / 436 * h3 + 1018 / 5 * p00 + 773 / 8 * p03
    · linear_combination 8 / 5 * mul_nonneg h hu + 8 / 5 * g + 260644 / 2725 * h1 + 246 / 109 * h3 + 1472 / 25 * p00 + 73 * p03
    · linear_combination 8 / 5 * mul_nonneg h hu + 12 / 5 * g + 131296 / 2725 * h1 + 2454 / 545 * h3 + 4928 / 25 * p00 + 473 / 5 * p03
    · linear_combination 8 / 5 * mul_nonneg h hu + 9 / 5 * g + 170380552 / 1703125 * h1 + 2148 / 545 * h3 + 1984 / 25 * p01 + 446 / 5 * p03
  · have g := mul_nonneg g hu
    rcases (hbCond_iff _ _ _ _ _).mp hH with h | h | h | h | h | h | h | h | h
    · linear_combination 2 * mul_nonneg h hu + g + 32540 / 109 * h0 + 60 / 109 * h2 + 3908 * p00 + 46 * p03
    · linear_combination 2 * mul_nonneg h hu + 2 * g + 83369 / 109 * h0 + 246 / 109 * h3 + 7796 * p00 + 73 * p03
    · linear_combination 2 * mul_nonneg h hu + 5 / 4 * g + 43769 / 109 * h0 + 339 / 218 * h3 + 4664 * p00 + 265 / 4 * p03
    · linear_combination mul_nonneg h hu + 5 / 2 * g + 203377 / 218 * h0 + 399 / 109 * h3 + 9578 * p00 + 173 / 2 * p03
    · linear_combination mul_nonneg h hu + 3 * g + 126623 / 109 * h0 + 552 / 109 * h3 + 11522 * p00 + 100 * p03
    · linear_combination mul_nonneg h hu + 21 / 8 * g + 106823 / 109 * h0 + 2055 / 436 * h3 + 9956 * p00 + 773 / 8 * p03
    · linear_combination 8 / 5 * mul_nonneg h hu + 8 / 5 * g + 295084 / 545 * h0 + 246 / 109 * h3 + 30016 / 5 * p00 + 73 * p03
    · linear_combination 8 / 5 * mul_nonneg h hu + 12 / 5 * g + 98912 / 109 * h0 + 2454 / 545 * h3 + 45568 / 5 * p00 + 473 / 5 * p03
    · linear_combination 8 / 5 * mul_nonneg h hu + 9 / 5 * g + 67232 / 109 * h0 + 2148 / 545 * h3 + 6608 * p00 + 446 / 5 * p03

theorem cell1_1_0 {s t a b : ℚ} (h0 : 0 ≤ s - 3861 / 5000) (h1 : 0 ≤ 5 / 6 - s) (h2 : 0 ≤ t - (8 * s - 4)) (h3 : 0 ≤ 6 * s - 9 / 4 - t)
    (hH : HBCond 1 s t a b) (hV : LVCond (jutK 5) 2 s t a) : b * (20 * s - 5) ≤ (40 - 36 * s) * t := by
  have hu : 0 ≤ 20 * s - 5 := by linarith only [h0, h1]
  have p00 := mul_nonneg h0 h0
  have p01 := mul_nonneg h0 h1
  have p03 := mul_nonneg h0 h3
  have p12 := mul_nonneg h1 h2
  have hV := (jut_iff 5 _ _ _ _).mp hV
  push_cast at hV
  rcases hV with g | g | g
  · have g := mul_nonneg g hu
    rcases (hbCond_iff _ _ _ _ _).mp hH with h | h | h | h | h | h | h | h | h
    · linear_combination 2 * mul_nonneg h hu + g + 104047 / 1875 * h0 + 15251 / 1250 * h2 + 56 * p01 + 36 * p03
    · linear_combination 2 * mul_nonneg h hu + 2 * g + 64042 / 625 * h0 + 15251 / 1250 * h2 + 24 * p00 + 36 * p03
    · linear_combination 2 * mul_nonneg h hu + 5 / 4 * g + 8329 / 625 * h0 + 17447 / 2500 * h2 + 96 * p01 + 46 * p03
    · linear_combination mul_nonneg h hu + 5 / 2 * g + 57792 / 625 * h0 + 15251 / 1250 * h2 + 24 * p00 + 36 * p03
    · linear_combination mul_nonneg h hu + 3 * g + 71402 / 625 * h0 + 15251 / 1250 * h2 + 64 * p00 + 36 * p03
    · linear_combination mul_nonneg h hu + 21 / 8 * g + 90759 / 1250 * h0 + 47949 / 5000 * h2 + 4 * p00 + 41 * p03
    · linear_combination 8 / 5 * mul_nonneg h hu + 8 / 5 * g + 3431 / 125 * h0 + 10029 / 1250 * h2 + 72 * p01 + 44 * p03
    · linear_combination 8 / 5 * mul_nonneg h hu + 12 / 5 * g + 124129 / 1875 * h0 + 10029 / 1250 * h2 + 8 * p01 + 44 * p03
    · linear_combination 8 / 5 * mul_nonneg h hu + 9 / 5 * g + 3201462 / 573125 * h1 + 10 / 3 * h2 + 110736 / 917 * p01 + 40000 / 917 * p03 + 7684 / 917 * p12
  · have g := mul_nonneg g hu
    rcases (hbCond_iff _ _ _ _ _).mp hH with h | h | h | h | h | h | h | h | h
    · linear_combination 2 * mul_nonneg h hu + g + 90256 / 1875 * h0 + 1098 / 625 * h2 + 32 * p01 + 56 * p03
    · linear_combination 2 * mul_nonneg h hu + 2 * g + 63873 / 625 * h0 + 10859 / 1250 * h3 + 72 * p00 + 76 * p03
    · linear_combination 2 * mul_nonneg h hu + 5 / 4 * g + 10178 / 625 * h0 + 30381 / 5000 * h3 + 66 * p01 + 71 * p03
    · linear_combination mul_nonneg h hu + 5 / 2 * g + 122787 / 1250 * h0 + 34773 / 2500 * h3 + 84 * p00 + 86 * p03
    · linear_combination mul_nonneg h hu + 3 * g + 78774 / 625 * h0 + 11957 / 625 * h3 + 136 * p00 + 96 * p03
    · linear_combination mul_nonneg h hu + 21 / 8 * g + 425499 / 5000 * h0 + 178257 / 10000 * h3 + 67 * p00 + 187 / 2 * p03
    · linear_combination 8 / 5 * mul_nonneg h hu + 8 / 5 * g + 103294 / 3125 * h0 + 10859 / 1250 * h3 + 168 / 5 * p01 + 76 * p03
    · linear_combination 8 / 5 * mul_nonneg h hu + 12 / 5 * g + 248757 / 3125 * h0 + 21303 / 1250 * h3 + 248 / 5 * p00 + 92 * p03
    · linear_combination 8 / 5 * mul_nonneg h hu + 9 / 5 * g + 97346 / 9375 * h0 + 9346 / 625 * h3 + 304 / 5 * p01 + 88 * p03
  · have g := mul_nonneg g hu
    rcases (hbCond_iff _ _ _ _ _).mp hH with h | h | h | h | h | h | h | h | h
    · linear_combination 2 * mul_nonneg h hu + g + 484492 / 625 * h0 + 1098 / 625 * h2 + 1344 * p00 + 56 * p03
    · linear_combination 2 * mul_nonneg h hu + 2 * g + 970241 / 625 * h0 + 10859 / 1250 * h3 + 2824 * p00 + 76 * p03
    · linear_combination 2 * mul_nonneg h hu + 5 / 4 * g + 2316719 / 2500 * h0 + 30381 / 5000 * h3 + 1654 * p00 + 71 * p03
    · linear_combination mul_nonneg h hu + 5 / 2 * g + 2388707 / 1250 * h0 + 34773 / 2500 * h3 + 3524 * p00 + 86 * p03
    · linear_combination mul_nonneg h hu + 3 * g + 1438326 / 625 * h0 + 11957 / 625 * h3 + 4264 * p00 + 96 * p03
    · linear_combination mul_nonneg h hu + 21 / 8 * g + 9942363 / 5000 * h0 + 178257 / 10000 * h3 + 3679 * p00 + 187 / 2 * p03
    · linear_combination 8 / 5 * mul_nonneg h hu + 8 / 5 * g + 747037 / 625 * h0 + 10859 / 1250 * h3 + 2168 * p00 + 76 * p03
    · linear_combination 8 / 5 * mul_nonneg h hu + 12 / 5 * g + 1137393 / 625 * h0 + 21303 / 1250 * h3 + 3352 * p00 + 92 * p03
    · linear_combination 8 / 5 * mul_nonneg h hu + 9 / 5 * g + 824544 / 625 * h0 + 9346 / 625 * h3 + 2416 * p00 + 88 * p03

theorem cell1_1_1 {s t a b : ℚ} (h0 : 0 ≤ s - 3861 / 5000) (h1 : 0 ≤ 5 / 6 - s) (h2 : 0 ≤ t - (6 * s - 9 / 4)) (h3 : 0 ≤ 36 / 13 - t)
    (hH : HBCond 2 s t a b) (hV : LVCond (jutK 5) 2 s t a) : b * (20 * s - 5) ≤ (40 - 36 * s) * t := by
  have hu : 0 ≤ 20 * s - 5 := by linarith only [h0, h1]
  have p00 := mul_nonneg h0 h0
  have p03 := mul_nonneg h0 h3
  have hV := (jut_iff 5 _ _ _ _).mp hV
  push_cast at hV
  rcases hV with g | g | g
  · have g := mul_nonneg g hu
    rcases (hbCond_iff _ _ _ _ _).mp hH with h | h | h | h | h | h | h | h | h
    · linear_combination 2 * mul_nonneg h hu + g + 358869 / 8125 * h0 + 15251 / 1250 * h2 + 240 * p00 + 36 * p03
    · linear_combination 2 * mul_nonneg h hu + 2 * g + 875229 / 8125 * h0 + 15251 / 1250 * h2 + 320 * p00 + 36 * p03
    · linear_combination 2 * mul_nonneg h hu + 5 / 4 * g + 504273 / 16250 * h0 + 17447 / 2500 * h2 + 260 * p00 + 46 * p03
    · linear_combination mul_nonneg h hu + 5 / 2 * g + 617049 / 8125 * h0 + 15251 / 1250 * h2 + 280 * p00 + 36 * p03
    · linear_combination mul_nonneg h hu + 3 * g + 875229 / 8125 * h0 + 15251 / 1250 * h2 + 320 * p00 + 36 * p03
    · linear_combination mul_nonneg h hu + 21 / 8 * g + 2254731 / 32500 * h0 + 47949 / 5000 * h2 + 290 * p00 + 41 * p03
    · linear_combination 8 / 5 * mul_nonneg h hu + 8 / 5 * g + 273483 / 8125 * h0 + 10029 / 1250 * h2 + 256 * p00 + 44 * p03
    · linear_combination 8 / 5 * mul_nonneg h hu + 12 / 5 * g + 686571 / 8125 * h0 + 10029 / 1250 * h2 + 320 * p00 + 44 * p03
    · linear_combination 8 / 5 * mul_nonneg h hu + 9 / 5 * g + 14469 / 625 * h0 + 4807 / 1250 * h2 + 272 * p00 + 52 * p03
  · have g := mul_nonneg g hu
    rcases (hbCond_iff _ _ _ _ _).mp hH with h | h | h | h | h | h | h | h | h
    · linear_combination 2 * mul_nonneg h hu + g + 394172 / 8125 * h0 + 1098 / 625 * h2 + 384 * p00 + 56 * p03
    · linear_combination 2 * mul_nonneg h hu + 2 * g + 1369336 / 8125 * h0 + 10859 / 1250 * h3 + 608 * p00 + 76 * p03
    · linear_combination 2 * mul_nonneg h hu + 5 / 4 * g + 118496 / 1625 * h0 + 30381 / 5000 * h3 + 440 * p00 + 71 * p03
    · linear_combination mul_nonneg h hu + 5 / 2 * g + 276676 / 1625 * h0 + 34773 / 2500 * h3 + 640 * p00 + 86 * p03
    · linear_combination mul_nonneg h hu + 3 * g + 1913784 / 8125 * h0 + 11957 / 625 * h3 + 752 * p00 + 96 * p03
    · linear_combination mul_nonneg h hu + 21 / 8 * g + 1525356 / 8125 * h0 + 178257 / 10000 * h3 + 668 * p00 + 187 / 2 * p03
    · linear_combination 8 / 5 * mul_nonneg h hu + 8 / 5 * g + 3767344 / 40625 * h0 + 10859 / 1250 * h3 + 2432 / 5 * p00 + 76 * p03
    · linear_combination 8 / 5 * mul_nonneg h hu + 12 / 5 * g + 8010576 / 40625 * h0 + 21303 / 1250 * h3 + 3328 / 5 * p00 + 92 * p03
    · linear_combination 8 / 5 * mul_nonneg h hu + 9 / 5 * g + 4903152 / 40625 * h0 + 9346 / 625 * h3 + 2656 / 5 * p00 + 88 * p03
  · have g := mul_nonneg g hu
    rcases (hbCond_iff _ _ _ _ _).mp hH with h | h | h | h | h | h | h | h | h
    · linear_combination 2 * mul_nonneg h hu + g + 6285564 / 8125 * h0 + 1098 / 625 * h2 + 1760 * p00 + 56 * p03
    · linear_combination 2 * mul_nonneg h hu + 2 * g + 2630424 / 1625 * h0 + 10859 / 1250 * h3 + 3360 * p00 + 76 * p03
    · linear_combination 2 * mul_nonneg h hu + 5 / 4 * g + 1591344 / 1625 * h0 + 30381 / 5000 * h3 + 2160 * p00 + 71 * p03
    · linear_combination mul_nonneg h hu + 5 / 2 * g + 3222372 / 1625 * h0 + 34773 / 2500 * h3 + 4080 * p00 + 86 * p03
    · linear_combination mul_nonneg h hu + 3 * g + 3917592 / 1625 * h0 + 11957 / 625 * h3 + 4880 * p00 + 96 * p03
    · linear_combination mul_nonneg h hu + 21 / 8 * g + 3398052 / 1625 * h0 + 178257 / 10000 * h3 + 4280 * p00 + 187 / 2 * p03
    · linear_combination 8 / 5 * mul_nonneg h hu + 8 / 5 * g + 10179696 / 8125 * h0 + 10859 / 1250 * h3 + 2688 * p00 + 76 * p03
    · linear_combination 8 / 5 * mul_nonneg h hu + 12 / 5 * g + 15741456 / 8125 * h0 + 21303 / 1250 * h3 + 3968 * p00 + 92 * p03
    · linear_combination 8 / 5 * mul_nonneg h hu + 9 / 5 * g + 11585136 / 8125 * h0 + 9346 / 625 * h3 + 3008 * p00 + 88 * p03

theorem cell1_1_2 {s t a b : ℚ} (h0 : 0 ≤ s - 3861 / 5000) (h1 : 0 ≤ 5 / 6 - s) (h2 : 0 ≤ t - (36 / 13)) (h3 : 0 ≤ 57 / 20 - t)
    (hH : HBCond 2 s t a b) (hV : LVCond b2 1 s t a) : b * (20 * s - 5) ≤ (40 - 36 * s) * t := by
  have hu : 0 ≤ 20 * s - 5 := by linarith only [h0, h1]
  have p00 := mul_nonneg h0 h0
  have p03 := mul_nonneg h0 h3
  have hV := (b2_iff _ _ _ _).mp hV
  rcases hV with g | g | g | g
  · have g := mul_nonneg g hu
    rcases (hbCond_iff _ _ _ _ _).mp hH with h | h | h | h | h | h | h | h | h
    · linear_combination 2 * mul_nonneg h hu + g + 20977 / 125 * h0 + 19643 / 3750 * h2 + 640 * p00 + 148 / 3 * p03
    · linear_combination 2 * mul_nonneg h hu + 2 * g + 53891 / 125 * h0 + 6467 / 3750 * h3 + 1120 * p00 + 188 / 3 * p03
    · linear_combination 2 * mul_nonneg h hu + 5 / 4 * g + 29393 / 125 * h0 + 6467 / 3750 * h3 + 760 * p00 + 188 / 3 * p03
    · linear_combination mul_nonneg h hu + 5 / 2 * g + 62404 / 125 * h0 + 9761 / 1875 * h3 + 1280 * p00 + 208 / 3 * p03
    · linear_combination mul_nonneg h hu + 3 * g + 78861 / 125 * h0 + 10859 / 1250 * h3 + 1520 * p00 + 76 * p03
    · linear_combination mul_nonneg h hu + 21 / 8 * g + 66612 / 125 * h0 + 10859 / 1250 * h3 + 1340 * p00 + 76 * p03
    · linear_combination 8 / 5 * mul_nonneg h hu + 8 / 5 * g + 188489 / 625 * h0 + 11689 / 3750 * h3 + 896 * p00 + 196 / 3 * p03
    · linear_combination 8 / 5 * mul_nonneg h hu + 12 / 5 * g + 64029 / 125 * h0 + 10859 / 1250 * h3 + 1280 * p00 + 76 * p03
    · linear_combination 8 / 5 * mul_nonneg h hu + 9 / 5 * g + 222153 / 625 * h0 + 10859 / 1250 * h3 + 992 * p00 + 76 * p03
  · have g := mul_nonneg g hu
    rcases (hbCond_iff _ _ _ _ _).mp hH with h | h | h | h | h | h | h | h | h
    · linear_combination 2 * mul_nonneg h hu + g + 7168 / 125 * h0 + 16349 / 1875 * h2 + 1280 / 3 * p00 + 128 / 3 * p03
    · linear_combination 2 * mul_nonneg h hu + 2 * g + 26273 / 125 * h0 + 19643 / 3750 * h2 + 2080 / 3 * p00 + 148 / 3 * p03
    · linear_combination 2 * mul_nonneg h hu + 5 / 4 * g + 48527 / 500 * h0 + 39407 / 15000 * h2 + 1480 / 3 * p00 + 163 / 3 * p03
    · linear_combination mul_nonneg h hu + 5 / 2 * g + 55763 / 250 * h0 + 26231 / 7500 * h2 + 2240 / 3 * p00 + 158 / 3 * p03
    · linear_combination mul_nonneg h hu + 3 * g + 37434 / 125 * h0 + 1098 / 625 * h2 + 880 * p00 + 56 * p03
    · linear_combination mul_nonneg h hu + 21 / 8 * g + 242907 / 1000 * h0 + 4513 / 10000 * h2 + 780 * p00 + 117 / 2 * p03
    · linear_combination 8 / 5 * mul_nonneg h hu + 8 / 5 * g + 78017 / 625 * h0 + 9199 / 3750 * h2 + 1664 / 3 * p00 + 164 / 3 * p03
    · linear_combination 8 / 5 * mul_nonneg h hu + 12 / 5 * g + 154437 / 625 * h0 + 83 / 250 * h3 + 768 * p00 + 60 * p03
    · linear_combination 8 / 5 * mul_nonneg h hu + 9 / 5 * g + 97872 / 625 * h0 + 1513 / 625 * h3 + 608 * p00 + 64 * p03
  · have g := mul_nonneg g hu
    rcases (hbCond_iff _ _ _ _ _).mp hH with h | h | h | h | h | h | h | h | h
    · linear_combination 2 * mul_nonneg h hu + g + 32093 / 500 * h0 + 21839 / 5000 * h2 + 440 * p00 + 51 * p03
    · linear_combination 2 * mul_nonneg h hu + 2 * g + 55967 / 250 * h0 + 8663 / 2500 * h3 + 720 * p00 + 66 * p03
    · linear_combination 2 * mul_nonneg h hu + 5 / 4 * g + 211213 / 2000 * h0 + 56249 / 20000 * h3 + 510 * p00 + 259 / 4 * p03
    · linear_combination mul_nonneg h hu + 5 / 2 * g + 240157 / 1000 * h0 + 73817 / 10000 * h3 + 780 * p00 + 147 / 2 * p03
    · linear_combination mul_nonneg h hu + 3 * g + 159999 / 500 * h0 + 56491 / 5000 * h3 + 920 * p00 + 81 * p03
    · linear_combination mul_nonneg h hu + 21 / 8 * g + 1043469 / 4000 * h0 + 438873 / 40000 * h3 + 815 * p00 + 643 / 8 * p03
    · linear_combination 8 / 5 * mul_nonneg h hu + 8 / 5 * g + 84859 / 625 * h0 + 5637 / 1250 * h3 + 576 * p00 + 68 * p03
    · linear_combination 8 / 5 * mul_nonneg h hu + 12 / 5 * g + 6588 / 25 * h0 + 1347 / 125 * h3 + 800 * p00 + 80 * p03
    · linear_combination 8 / 5 * mul_nonneg h hu + 9 / 5 * g + 422277 / 2500 * h0 + 51269 / 5000 * h3 + 632 * p00 + 79 * p03
  · have g := mul_nonneg g hu
    rcases (hbCond_iff _ _ _ _ _).mp hH with h | h | h | h | h | h | h | h | h
    · linear_combination 2 * mul_nonneg h hu + g + 3993 / 125 * h1 + 15251 / 1250 * h2 + 240 * p00 + 36 * p03
    · linear_combination 2 * mul_nonneg h hu + 2 * g + 3951 / 125 * h0 + 15251 / 1250 * h2 + 320 * p00 + 36 * p03
    · linear_combination 2 * mul_nonneg h hu + 5 / 4 * g + 3639 / 250 * h1 + 17447 / 2500 * h2 + 260 * p00 + 46 * p03
    · linear_combination mul_nonneg h hu + 5 / 2 * g + 21 / 125 * h1 + 15251 / 1250 * h2 + 280 * p00 + 36 * p03
    · linear_combination mul_nonneg h hu + 3 * g + 3951 / 125 * h0 + 15251 / 1250 * h2 + 320 * p00 + 36 * p03
    · linear_combination mul_nonneg h hu + 21 / 8 * g + 4263 / 500 * h0 + 47949 / 5000 * h2 + 290 * p00 + 41 * p03
    · linear_combination 8 / 5 * mul_nonneg h hu + 8 / 5 * g + 11271 / 625 * h1 + 10029 / 1250 * h2 + 256 * p00 + 44 * p03
    · linear_combination 8 / 5 * mul_nonneg h hu + 12 / 5 * g + 4101 / 125 * h0 + 10029 / 1250 * h2 + 320 * p00 + 44 * p03
    · linear_combination 8 / 5 * mul_nonneg h hu + 9 / 5 * g + 2577 / 625 * h1 + 4807 / 1250 * h2 + 272 * p00 + 52 * p03

theorem cell1_1_3 {s t a b : ℚ} (h0 : 0 ≤ s - 3861 / 5000) (h1 : 0 ≤ 5 / 6 - s) (h2 : 0 ≤ t - (57 / 20)) (h3 : 0 ≤ 11 / 3 - t)
    (hH : HBCond 2 s t a b) (hV : LVCond (jutK 5) 3 s t a) : b * (20 * s - 5) ≤ (40 - 36 * s) * t := by
  have hu : 0 ≤ 20 * s - 5 := by linarith only [h0, h1]
  have p00 := mul_nonneg h0 h0
  have p03 := mul_nonneg h0 h3
  have p11 := mul_nonneg h1 h1
  have p12 := mul_nonneg h1 h2
  have hV := (jut_iff 5 _ _ _ _).mp hV
  push_cast at hV
  rcases hV with g | g | g
  · have g := mul_nonneg g hu
    rcases (hbCond_iff _ _ _ _ _).mp hH with h | h | h | h | h | h | h | h | h
    · linear_combination 2 * mul_nonneg h hu + g + 94013 / 13755 * h1 + 1700 / 147 * h2 + 1150000 / 44933 * p03 + 280 * p11 + 467588 / 44933 * p12
    · linear_combination 2 * mul_nonneg h hu + 2 * g + 644 / 25 * h0 + 15251 / 1250 * h2 + 400 * p00 + 36 * p03
    · linear_combination 2 * mul_nonneg h hu + 5 / 4 * g + 14026 / 375 * h1 + 17447 / 2500 * h2 + 310 * p00 + 46 * p03
    · linear_combination mul_nonneg h hu + 5 / 2 * g + 16 / 125 * h1 + 15251 / 1250 * h2 + 380 * p00 + 36 * p03
    · linear_combination mul_nonneg h hu + 3 * g + 4692 / 125 * h0 + 15251 / 1250 * h2 + 440 * p00 + 36 * p03
    · linear_combination mul_nonneg h hu + 21 / 8 * g + 2233 / 375 * h0 + 47949 / 5000 * h2 + 395 * p00 + 41 * p03
    · linear_combination 8 / 5 * mul_nonneg h hu + 8 / 5 * g + 196454 / 13755 * h1 + 10029 / 1250 * h2 + 125737000 / 840889 * p00 + 44 * p03 + 143347480 / 840889 * p11
    · linear_combination 8 / 5 * mul_nonneg h hu + 12 / 5 * g + 47132 / 1875 * h0 + 10029 / 1250 * h2 + 416 * p00 + 44 * p03
    · linear_combination 8 / 5 * mul_nonneg h hu + 9 / 5 * g + 47612 / 1875 * h1 + 4807 / 1250 * h2 + 344 * p00 + 52 * p03
  · have g := mul_nonneg g hu
    rcases (hbCond_iff _ _ _ _ _).mp hH with h | h | h | h | h | h | h | h | h
    · linear_combination 2 * mul_nonneg h hu + g + 113792 / 1875 * h0 + 1098 / 625 * h2 + 496 * p00 + 56 * p03
    · linear_combination 2 * mul_nonneg h hu + 2 * g + 461764 / 1875 * h0 + 10859 / 1250 * h3 + 832 * p00 + 76 * p03
    · linear_combination 2 * mul_nonneg h hu + 5 / 4 * g + 37657 / 375 * h0 + 30381 / 5000 * h3 + 580 * p00 + 71 * p03
    · linear_combination mul_nonneg h hu + 5 / 2 * g + 103318 / 375 * h0 + 34773 / 2500 * h3 + 920 * p00 + 86 * p03
    · linear_combination mul_nonneg h hu + 3 * g + 230192 / 625 * h0 + 11957 / 625 * h3 + 1088 * p00 + 96 * p03
    · linear_combination mul_nonneg h hu + 21 / 8 * g + 1107673 / 3750 * h0 + 178257 / 10000 * h3 + 962 * p00 + 187 / 2 * p03
    · linear_combination 8 / 5 * mul_nonneg h hu + 8 / 5 * g + 1324556 / 9375 * h0 + 10859 / 1250 * h3 + 3328 / 5 * p00 + 76 * p03
    · linear_combination 8 / 5 * mul_nonneg h hu + 12 / 5 * g + 2716444 / 9375 * h0 + 21303 / 1250 * h3 + 4672 / 5 * p00 + 92 * p03
    · linear_combination 8 / 5 * mul_nonneg h hu + 9 / 5 * g + 1622528 / 9375 * h0 + 9346 / 625 * h3 + 3664 / 5 * p00 + 88 * p03
  · have g := mul_nonneg g hu
    rcases (hbCond_iff _ _ _ _ _).mp hH with h | h | h | h | h | h | h | h | h
    · linear_combination 2 * mul_nonneg h hu + g + 430624 / 375 * h0 + 1098 / 625 * h2 + 2560 * p00 + 56 * p03
    · linear_combination 2 * mul_nonneg h hu + 2 * g + 908084 / 375 * h0 + 10859 / 1250 * h3 + 4960 * p00 + 76 * p03
    · linear_combination 2 * mul_nonneg h hu + 5 / 4 * g + 547489 / 375 * h0 + 30381 / 5000 * h3 + 3160 * p00 + 71 * p03
    · linear_combination mul_nonneg h hu + 5 / 2 * g + 1122982 / 375 * h0 + 34773 / 2500 * h3 + 6080 * p00 + 86 * p03
    · linear_combination mul_nonneg h hu + 3 * g + 453904 / 125 * h0 + 11957 / 625 * h3 + 7280 * p00 + 96 * p03
    · linear_combination mul_nonneg h hu + 21 / 8 * g + 2362829 / 750 * h0 + 178257 / 10000 * h3 + 6380 * p00 + 187 / 2 * p03
    · linear_combination 8 / 5 * mul_nonneg h hu + 8 / 5 * g + 3527836 / 1875 * h0 + 10859 / 1250 * h3 + 3968 * p00 + 76 * p03
    · linear_combination 8 / 5 * mul_nonneg h hu + 12 / 5 * g + 5437676 / 1875 * h0 + 21303 / 1250 * h3 + 5888 * p00 + 92 * p03
    · linear_combination 8 / 5 * mul_nonneg h hu + 9 / 5 * g + 3995296 / 1875 * h0 + 9346 / 625 * h3 + 4448 * p00 + 88 * p03

theorem cell1_1_4 {s t a b : ℚ} (h0 : 0 ≤ s - 3861 / 5000) (h1 : 0 ≤ 5 / 6 - s) (h2 : 0 ≤ t - (11 / 3)) (h3 : 0 ≤ 12 * s - 173 / 34 - t)
    (hH : HBCond 3 s t a b) (hV : LVCond (jutK 5) 3 s t a) : b * (20 * s - 5) ≤ (40 - 36 * s) * t := by
  have hu : 0 ≤ 20 * s - 5 := by linarith only [h0, h1]
  have p00 := mul_nonneg h0 h0
  have p01 := mul_nonneg h0 h1
  have p03 := mul_nonneg h0 h3
  have p12 := mul_nonneg h1 h2
  have hV := (jut_iff 5 _ _ _ _).mp hV
  push_cast at hV
  rcases hV with g | g | g
  · have g := mul_nonneg g hu
    rcases (hbCond_iff _ _ _ _ _).mp hH with h | h | h | h | h | h | h | h | h
    · linear_combination 2 * mul_nonneg h hu + g + 3584417 / 114625 * h1 + 173279661 / 16304000 * h2 + 884784375 / 3737692 * p00 + 153594915 / 14950768 * p03 + 384632733 / 14950768 * p12
    · linear_combination 2 * mul_nonneg h hu + 2 * g + 540792 / 10625 * h0 + 15251 / 1250 * h2 + 48 * p00 + 36 * p03
    · linear_combination 2 * mul_nonneg h hu + 5 / 4 * g + 231907 / 8500 * h1 + 17447 / 2500 * h2 + 162 * p01 + 46 * p03
    · linear_combination mul_nonneg h hu + 5 / 2 * g + 10627 / 4250 * h0 + 15251 / 1250 * h2 + 12 * p01 + 36 * p03
    · linear_combination mul_nonneg h hu + 3 * g + 540792 / 10625 * h0 + 15251 / 1250 * h2 + 48 * p00 + 36 * p03
    · linear_combination mul_nonneg h hu + 21 / 8 * g + 225669 / 17000 * h0 + 47949 / 5000 * h2 + 57 * p01 + 41 * p03
    · linear_combination 8 / 5 * mul_nonneg h hu + 8 / 5 * g + 335674 / 10625 * h1 + 10029 / 1250 * h2 + 144 * p01 + 44 * p03
    · linear_combination 8 / 5 * mul_nonneg h hu + 12 / 5 * g + 107394 / 2125 * h0 + 10029 / 1250 * h2 + 48 * p01 + 44 * p03
    · linear_combination 8 / 5 * mul_nonneg h hu + 9 / 5 * g + 152513 / 10625 * h1 + 4807 / 1250 * h2 + 216 * p01 + 52 * p03
  · have g := mul_nonneg g hu
    rcases (hbCond_iff _ _ _ _ _).mp hH with h | h | h | h | h | h | h | h | h
    · linear_combination 2 * mul_nonneg h hu + g + 528364 / 10625 * h0 + 1098 / 625 * h2 + 96 * p01 + 56 * p03
    · linear_combination 2 * mul_nonneg h hu + 2 * g + 2494 / 17 * h0 + 10859 / 1250 * h3 + 76 * p03
    · linear_combination 2 * mul_nonneg h hu + 5 / 4 * g + 488799 / 21250 * h0 + 30381 / 5000 * h3 + 192 * p01 + 71 * p03
    · linear_combination mul_nonneg h hu + 5 / 2 * g + 871142 / 10625 * h0 + 34773 / 2500 * h3 + 72 * p01 + 86 * p03
    · linear_combination mul_nonneg h hu + 3 * g + 1274339 / 10625 * h0 + 11957 / 625 * h3 + 24 * p01 + 96 * p03
    · linear_combination mul_nonneg h hu + 21 / 8 * g + 29043 / 500 * h0 + 178257 / 10000 * h3 + 120 * p01 + 187 / 2 * p03
    · linear_combination 8 / 5 * mul_nonneg h hu + 8 / 5 * g + 1161132 / 53125 * h0 + 10859 / 1250 * h3 + 912 / 5 * p01 + 76 * p03
    · linear_combination 8 / 5 * mul_nonneg h hu + 12 / 5 * g + 4386708 / 53125 * h0 + 21303 / 1250 * h3 + 528 / 5 * p01 + 92 * p03
    · linear_combination 8 / 5 * mul_nonneg h hu + 9 / 5 * g + 870694 / 53125 * h1 + 9346 / 625 * h3 + 1296 / 5 * p01 + 88 * p03
  · have g := mul_nonneg g hu
    rcases (hbCond_iff _ _ _ _ _).mp hH with h | h | h | h | h | h | h | h | h
    · linear_combination 2 * mul_nonneg h hu + g + 12146912 / 10625 * h0 + 1098 / 625 * h2 + 1968 * p00 + 56 * p03
    · linear_combination 2 * mul_nonneg h hu + 2 * g + 24671134 / 10625 * h0 + 10859 / 1250 * h3 + 4128 * p00 + 76 * p03
    · linear_combination 2 * mul_nonneg h hu + 5 / 4 * g + 29628703 / 21250 * h0 + 30381 / 5000 * h3 + 2388 * p00 + 71 * p03
    · linear_combination mul_nonneg h hu + 5 / 2 * g + 29808389 / 10625 * h0 + 34773 / 2500 * h3 + 5088 * p00 + 86 * p03
    · linear_combination mul_nonneg h hu + 3 * g + 35958504 / 10625 * h0 + 11957 / 625 * h3 + 6168 * p00 + 96 * p03
    · linear_combination mul_nonneg h hu + 21 / 8 * g + 7301203 / 2500 * h0 + 178257 / 10000 * h3 + 5298 * p00 + 187 / 2 * p03
    · linear_combination 8 / 5 * mul_nonneg h hu + 8 / 5 * g + 3768122 / 2125 * h0 + 10859 / 1250 * h3 + 3120 * p00 + 76 * p03
    · linear_combination 8 / 5 * mul_nonneg h hu + 12 / 5 * g + 28680794 / 10625 * h0 + 21303 / 1250 * h3 + 4848 * p00 + 92 * p03
    · linear_combination 8 / 5 * mul_nonneg h hu + 9 / 5 * g + 20795368 / 10625 * h0 + 9346 / 625 * h3 + 3456 * p00 + 88 * p03

theorem cell1_1_5 {s t a b : ℚ} (h0 : 0 ≤ s - 3861 / 5000) (h1 : 0 ≤ 5 / 6 - s) (h2 : 0 ≤ t - (12 * s - 173 / 34)) (h3 : 0 ≤ 16 * s - 8 - t)
    (hH : HBCond 2 s t a b) (hV : LVCond (jutK 5) 4 s t a) : b * (20 * s - 5) ≤ (40 - 36 * s) * t := by
  have hu : 0 ≤ 20 * s - 5 := by linarith only [h0, h1]
  have p00 := mul_nonneg h0 h0
  have p01 := mul_nonneg h0 h1
  have p03 := mul_nonneg h0 h3
  have p12 := mul_nonneg h1 h2
  have hV := (jut_iff 5 _ _ _ _).mp hV
  push_cast at hV
  rcases hV with g | g | g
  · have g := mul_nonneg g hu
    rcases (hbCond_iff _ _ _ _ _).mp hH with h | h | h | h | h | h | h | h | h
    · linear_combination 2 * mul_nonneg h hu + g + 127838 / 1875 * h0 + 15251 / 1250 * h2 + 256 * p01 + 36 * p03
    · linear_combination 2 * mul_nonneg h hu + 2 * g + 103166 / 625 * h0 + 15251 / 1250 * h2 + 96 * p01 + 36 * p03
    · linear_combination 2 * mul_nonneg h hu + 5 / 4 * g + 12008 / 1875 * h0 + 17447 / 2500 * h2 + 376 * p01 + 46 * p03
    · linear_combination mul_nonneg h hu + 5 / 2 * g + 90666 / 625 * h0 + 15251 / 1250 * h2 + 96 * p01 + 36 * p03
    · linear_combination mul_nonneg h hu + 3 * g + 362828 / 1875 * h0 + 15251 / 1250 * h2 + 16 * p01 + 36 * p03
    · linear_combination mul_nonneg h hu + 21 / 8 * g + 71361 / 625 * h0 + 47949 / 5000 * h2 + 156 * p01 + 41 * p03
    · linear_combination 8 / 5 * mul_nonneg h hu + 8 / 5 * g + 56506 / 1875 * h0 + 10029 / 1250 * h2 + 320 * p01 + 44 * p03
    · linear_combination 8 / 5 * mul_nonneg h hu + 12 / 5 * g + 67278 / 625 * h0 + 10029 / 1250 * h2 + 192 * p01 + 44 * p03
    · linear_combination 8 / 5 * mul_nonneg h hu + 9 / 5 * g + 346104 / 9743125 * h1 + 136 / 129 * h2 + 9201648 / 39431 * p01 + 250000 / 39431 * p03 + 1800412 / 39431 * p12
  · have g := mul_nonneg g hu
    rcases (hbCond_iff _ _ _ _ _).mp hH with h | h | h | h | h | h | h | h | h
    · linear_combination 2 * mul_nonneg h hu + g + 61612 / 625 * h0 + 1098 / 625 * h2 + 288 * p01 + 56 * p03
    · linear_combination 2 * mul_nonneg h hu + 2 * g + 71668 / 375 * h0 + 10859 / 1250 * h3 + 160 * p01 + 76 * p03
    · linear_combination 2 * mul_nonneg h hu + 5 / 4 * g + 37684 / 1875 * h0 + 30381 / 5000 * h3 + 416 * p01 + 71 * p03
    · linear_combination mul_nonneg h hu + 5 / 2 * g + 310174 / 1875 * h0 + 34773 / 2500 * h3 + 176 * p01 + 86 * p03
    · linear_combination mul_nonneg h hu + 3 * g + 390338 / 1875 * h0 + 11957 / 625 * h3 + 112 * p01 + 96 * p03
    · linear_combination mul_nonneg h hu + 21 / 8 * g + 15334 / 125 * h0 + 178257 / 10000 * h3 + 240 * p01 + 187 / 2 * p03
    · linear_combination 8 / 5 * mul_nonneg h hu + 8 / 5 * g + 412744 / 9375 * h0 + 10859 / 1250 * h3 + 1856 / 5 * p01 + 76 * p03
    · linear_combination 8 / 5 * mul_nonneg h hu + 12 / 5 * g + 351352 / 3125 * h0 + 21303 / 1250 * h3 + 1344 / 5 * p01 + 92 * p03
    · linear_combination 8 / 5 * mul_nonneg h hu + 9 / 5 * g + 228568 / 9375 * h1 + 9346 / 625 * h3 + 2368 / 5 * p01 + 88 * p03
  · have g := mul_nonneg g hu
    rcases (hbCond_iff _ _ _ _ _).mp hH with h | h | h | h | h | h | h | h | h
    · linear_combination 2 * mul_nonneg h hu + g + 978984 / 625 * h0 + 1098 / 625 * h2 + 2464 * p00 + 56 * p03
    · linear_combination 2 * mul_nonneg h hu + 2 * g + 1938296 / 625 * h0 + 10859 / 1250 * h3 + 5344 * p00 + 76 * p03
    · linear_combination 2 * mul_nonneg h hu + 5 / 4 * g + 1161416 / 625 * h0 + 30381 / 5000 * h3 + 3024 * p00 + 71 * p03
    · linear_combination mul_nonneg h hu + 5 / 2 * g + 2376036 / 625 * h0 + 34773 / 2500 * h3 + 6704 * p00 + 86 * p03
    · linear_combination mul_nonneg h hu + 3 * g + 2853496 / 625 * h0 + 11957 / 625 * h3 + 8144 * p00 + 96 * p03
    · linear_combination mul_nonneg h hu + 21 / 8 * g + 2465056 / 625 * h0 + 178257 / 10000 * h3 + 6984 * p00 + 187 / 2 * p03
    · linear_combination 8 / 5 * mul_nonneg h hu + 8 / 5 * g + 1491888 / 625 * h0 + 10859 / 1250 * h3 + 4032 * p00 + 76 * p03
    · linear_combination 8 / 5 * mul_nonneg h hu + 12 / 5 * g + 2255824 / 625 * h0 + 21303 / 1250 * h3 + 6336 * p00 + 92 * p03
    · linear_combination 8 / 5 * mul_nonneg h hu + 9 / 5 * g + 326864 / 125 * h0 + 9346 / 625 * h3 + 4480 * p00 + 88 * p03

theorem strip1_0 {s t a b : ℚ} (h0 : 0 ≤ s - 84 / 109) (h1 : 0 ≤ 3861 / 5000 - s) (t0 : 8 * s - 4 ≤ t) (t1 : t ≤ 16 * s - 8)
    (h : TupleOK ks7 [jutK 5] [] s t a b) (hB : BSet s (t / 2) (a / 2)) : b ≤ w s * t := by
  have hpos : 0 ≤ t := by linarith
  have k0 : (18 - 19 * s) / (27 * s - 18) ≤ w s := le_max_left _ _
  have v0 : 0 < 27 * s - 18 := u0 (by linarith) (by linarith)
  have k1 : (40 - 36 * s) / (20 * s - 5) ≤ w s := le_max_right _ _
  have v1 : 0 < 20 * s - 5 := u1 (by linarith) (by linarith)
  by_cases c0 : t ≤ 12 / 5
  · exact (le_quot v0 (cell1_0_0 h0 h1 (by linarith) (by linarith) (tuple_hb ks7_one h (by simp)) (tuple_lv ks7_one h (by simp) (by simp)))).trans (mul_le_mul_of_nonneg_right k0 hpos)
  rw [not_le] at c0
  by_cases c1 : t ≤ 8 / 3
  · exact (le_quot v1 (cell1_0_1 h0 h1 (by linarith) (by linarith) (tuple_hb ks7_one h (by simp)) (tuple_lv ks7_one h (by simp) (by simp)))).trans (mul_le_mul_of_nonneg_right k1 hpos)
  rw [not_le] at c1
  by_cases c2 : t ≤ 27 * s - 18
  · exact (le_quot v0 (cell1_0_2 h0 h1 (by linarith) (by linarith) (tuple_hb ks7_one h (by simp)) (b2_cond (by linarith) (by linarith) (by linarith) (by linarith) hB))).trans (mul_le_mul_of_nonneg_right k0 hpos)
  rw [not_le] at c2
  by_cases c3 : t ≤ 47 / 12
  · exact (le_quot v0 (cell1_0_3 h0 h1 (by linarith) (by linarith) (tuple_hb ks7_one h (by simp)) (tuple_lv ks7_one h (by simp) (by simp)))).trans (mul_le_mul_of_nonneg_right k0 hpos)
  rw [not_le] at c3
  exact (le_quot v0 (cell1_0_4 h0 h1 (by linarith) (by linarith) (tuple_hb ks7_one h (by simp)) (tuple_lv ks7_one h (by simp) (by simp)))).trans (mul_le_mul_of_nonneg_right k0 hpos)

theorem strip1_1 {s t a b : ℚ} (h0 : 0 ≤ s - 3861 / 5000) (h1 : 0 ≤ 5 / 6 - s) (t0 : 8 * s - 4 ≤ t) (t1 : t ≤ 16 * s - 8)
    (h : TupleOK ks7 [jutK 5] [] s t a b) (hB : BSet s (t / 2) (a / 2)) : b ≤ w s * t := by
  have hpos : 0 ≤ t := by linarith
  have k1 : (40 - 36 * s) / (20 * s - 5) ≤ w s := le_max_right _ _
  have v1 : 0 < 20 * s - 5 := u1 (by linarith) (by linarith)
  by_cases c0 : t ≤ 6 * s - 9 / 4
  · exact (le_quot v1 (cell1_1_0 h0 h1 (by linarith) (by linarith) (tuple_hb ks7_one h (by simp)) (tuple_lv ks7_one h (by simp) (by simp)))).trans (mul_le_mul_of_nonneg_right k1 hpos)
  rw [not_le] at c0
  by_cases c1 : t ≤ 36 / 13
  · exact (le_quot v1 (cell1_1_1 h0 h1 (by linarith) (by linarith) (tuple_hb ks7_one h (by simp)) (tuple_lv ks7_one h (by simp) (by simp)))).trans (mul_le_mul_of_nonneg_right k1 hpos)
  rw [not_le] at c1
  by_cases c2 : t ≤ 57 / 20
  · exact (le_quot v1 (cell1_1_2 h0 h1 (by linarith) (by linarith) (tuple_hb ks7_one h (by simp)) (b2_cond (by linarith) (by linarith) (by linarith) (by linarith) hB))).trans (mul_le_mul_of_nonneg_right k1 hpos)
  rw [not_le] at c2
  by_cases c3 : t ≤ 11 / 3
  · exact (le_quot v1 (cell1_1_3 h0 h1 (by linarith) (by linarith) (tuple_hb ks7_one h (by simp)) (tuple_lv ks7_one h (by simp) (by simp)))).trans (mul_le_mul_of_nonneg_right k1 hpos)
  rw [not_le] at c3
  by_cases c4 : t ≤ 12 * s - 173 / 34
  · exact (le_quot v1 (cell1_1_4 h0 h1 (by linarith) (by linarith) (tuple_hb ks7_one h (by simp)) (tuple_lv ks7_one h (by simp) (by simp)))).trans (mul_le_mul_of_nonneg_right k1 hpos)
  rw [not_le] at c4
  exact (le_quot v1 (cell1_1_5 h0 h1 (by linarith) (by linarith) (tuple_hb ks7_one h (by simp)) (tuple_lv ks7_one h (by simp) (by simp)))).trans (mul_le_mul_of_nonneg_right k1 hpos)

theorem cell2_0_0 {s t a b : ℚ} (h0 : 0 ≤ s - 84 / 109) (h1 : 0 ≤ 5 / 6 - s) (h2 : 0 ≤ t - (2)) (h3 : 0 ≤ 4 * s - 1 - t)
    (hH : HBCond 1 s t a b) (hV : LVCond tw 1 s t a) : b * (20 * s - 5) ≤ (40 - 36 * s) * t := by
  have hu : 0 ≤ 20 * s - 5 := by linarith only [h0, h1]
  have p00 := mul_nonneg h0 h0
  have p01 := mul_nonneg h0 h1
  have p03 := mul_nonneg h0 h3
  have hV := (tw_iff _ _ _ _).mp hV
  have g := hV
  have g := mul_nonneg g hu
  rcases (hbCond_iff _ _ _ _ _).mp hH with h | h | h | h | h | h | h | h | h
  · linear_combination 2 * mul_nonneg h hu + g + 2252 / 109 * h0 + 934 / 109 * h3 + 16 * p00 + 76 * p03
  · linear_combination 2 * mul_nonneg h hu + 2 * g + 6972 / 109 * h0 + 3204 / 109 * h3 + 96 * p00 + 116 * p03
  · linear_combination 2 * mul_nonneg h hu + 5 / 4 * g + 1499 / 327 * h0 + 2069 / 109 * h3 + 4 * p01 + 96 * p03
  · linear_combination mul_nonneg h hu + 5 / 2 * g + 5882 / 109 * h0 + 4339 / 109 * h3 + 96 * p00 + 136 * p03
  · linear_combination mul_nonneg h hu + 3 * g + 8242 / 109 * h0 + 5474 / 109 * h3 + 136 * p00 + 156 * p03
  · linear_combination mul_nonneg h hu + 21 / 8 * g + 10039 / 218 * h0 + 9813 / 218 * h3 + 86 * p00 + 146 * p03
  · linear_combination 8 / 5 * mul_nonneg h hu + 8 / 5 * g + 1380 / 109 * h0 + 2750 / 109 * h3 + 16 * p00 + 108 * p03
  · linear_combination 8 / 5 * mul_nonneg h hu + 12 / 5 * g + 5156 / 109 * h0 + 4566 / 109 * h3 + 80 * p00 + 140 * p03
  · linear_combination 8 / 5 * mul_nonneg h hu + 9 / 5 * g + 3658 / 109 * h3 + 124 * p03

theorem cell2_0_1 {s t a b : ℚ} (h0 : 0 ≤ s - 84 / 109) (h1 : 0 ≤ 5 / 6 - s) (h2 : 0 ≤ t - (4 * s - 1)) (h3 : 0 ≤ 8 * s - 4 - t)
    (hH : HBCond 1 s t a b) (hV : LVCond (jutK 5) 2 s t a) : b * (20 * s - 5) ≤ (40 - 36 * s) * t := by
  have hu : 0 ≤ 20 * s - 5 := by linarith only [h0, h1]
  have p00 := mul_nonneg h0 h0
  have p01 := mul_nonneg h0 h1
  have p03 := mul_nonneg h0 h3
  have p12 := mul_nonneg h1 h2
  have hV := (jut_iff 5 _ _ _ _).mp hV
  push_cast at hV
  rcases hV with g | g | g
  · have g := mul_nonneg g hu
    rcases (hbCond_iff _ _ _ _ _).mp hH with h | h | h | h | h | h | h | h | h
    · linear_combination 2 * mul_nonneg h hu + g + 3160 / 327 * h0 + 1336 / 109 * h2 + 128 * p01 + 36 * p03
    · linear_combination 2 * mul_nonneg h hu + 2 * g + 6320 / 109 * h0 + 1336 / 109 * h2 + 48 * p01 + 36 * p03
    · linear_combination 2 * mul_nonneg h hu + 5 / 4 * g + 3515 / 327 * h1 + 1537 / 218 * h2 + 188 * p01 + 46 * p03
    · linear_combination mul_nonneg h hu + 5 / 2 * g + 5230 / 109 * h0 + 1336 / 109 * h2 + 48 * p01 + 36 * p03
    · linear_combination mul_nonneg h hu + 3 * g + 23590 / 327 * h0 + 1336 / 109 * h2 + 8 * p01 + 36 * p03
    · linear_combination mul_nonneg h hu + 21 / 8 * g + 8235 / 218 * h0 + 4209 / 436 * h2 + 78 * p01 + 41 * p03
    · linear_combination 8 / 5 * mul_nonneg h hu + 8 / 5 * g + 328 / 327 * h1 + 882 / 109 * h2 + 160 * p01 + 44 * p03
    · linear_combination 8 / 5 * mul_nonneg h hu + 12 / 5 * g + 4104 / 109 * h0 + 882 / 109 * h2 + 96 * p01 + 44 * p03
    · linear_combination 8 / 5 * mul_nonneg h hu + 9 / 5 * g + 2 / 3 * h2 + 52 * p12
  · have g := mul_nonneg g hu
    rcases (hbCond_iff _ _ _ _ _).mp hH with h | h | h | h | h | h | h | h | h
    · linear_combination 2 * mul_nonneg h hu + g + 4976 / 109 * h0 + 201 / 109 * h2 + 144 * p01 + 56 * p03
    · linear_combination 2 * mul_nonneg h hu + 2 * g + 31288 / 327 * h0 + 934 / 109 * h3 + 80 * p01 + 76 * p03
    · linear_combination 2 * mul_nonneg h hu + 5 / 4 * g + 3392 / 327 * h0 + 2601 / 436 * h3 + 208 * p01 + 71 * p03
    · linear_combination mul_nonneg h hu + 5 / 2 * g + 27092 / 327 * h0 + 3003 / 218 * h3 + 88 * p01 + 86 * p03
    · linear_combination mul_nonneg h hu + 3 * g + 34066 / 327 * h0 + 2069 / 109 * h3 + 56 * p01 + 96 * p03
    · linear_combination mul_nonneg h hu + 21 / 8 * g + 6706 / 109 * h0 + 15417 / 872 * h3 + 120 * p01 + 187 / 2 * p03
    · linear_combination 8 / 5 * mul_nonneg h hu + 8 / 5 * g + 36464 / 1635 * h0 + 934 / 109 * h3 + 928 / 5 * p01 + 76 * p03
    · linear_combination 8 / 5 * mul_nonneg h hu + 12 / 5 * g + 30752 / 545 * h0 + 1842 / 109 * h3 + 672 / 5 * p01 + 92 * p03
    · linear_combination 8 / 5 * mul_nonneg h hu + 9 / 5 * g + 19328 / 1635 * h1 + 1615 / 109 * h3 + 1184 / 5 * p01 + 88 * p03
  · have g := mul_nonneg g hu
    rcases (hbCond_iff _ _ _ _ _).mp hH with h | h | h | h | h | h | h | h | h
    · linear_combination 2 * mul_nonneg h hu + g + 84528 / 109 * h0 + 201 / 109 * h2 + 1232 * p00 + 56 * p03
    · linear_combination 2 * mul_nonneg h hu + 2 * g + 168112 / 109 * h0 + 934 / 109 * h3 + 2672 * p00 + 76 * p03
    · linear_combination 2 * mul_nonneg h hu + 5 / 4 * g + 100762 / 109 * h0 + 2601 / 436 * h3 + 1512 * p00 + 71 * p03
    · linear_combination mul_nonneg h hu + 5 / 2 * g + 206052 / 109 * h0 + 3003 / 218 * h3 + 3352 * p00 + 86 * p03
    · linear_combination mul_nonneg h hu + 3 * g + 247442 / 109 * h0 + 2069 / 109 * h3 + 4072 * p00 + 96 * p03
    · linear_combination mul_nonneg h hu + 21 / 8 * g + 213767 / 109 * h0 + 15417 / 872 * h3 + 3492 * p00 + 187 / 2 * p03
    · linear_combination 8 / 5 * mul_nonneg h hu + 8 / 5 * g + 129408 / 109 * h0 + 934 / 109 * h3 + 2016 * p00 + 76 * p03
    · linear_combination 8 / 5 * mul_nonneg h hu + 12 / 5 * g + 195632 / 109 * h0 + 1842 / 109 * h3 + 3168 * p00 + 92 * p03
    · linear_combination 8 / 5 * mul_nonneg h hu + 9 / 5 * g + 141752 / 109 * h0 + 1615 / 109 * h3 + 2240 * p00 + 88 * p03

theorem strip2_0 {s t a b : ℚ} (h0 : 0 ≤ s - 84 / 109) (h1 : 0 ≤ 5 / 6 - s) (t0 : 2 ≤ t) (t1 : t ≤ 8 * s - 4)
    (h : TupleOK ks7 [jutK 5] [tw] s t a b) : b ≤ w s * t := by
  have hpos : 0 ≤ t := by linarith
  have k1 : (40 - 36 * s) / (20 * s - 5) ≤ w s := le_max_right _ _
  have v1 : 0 < 20 * s - 5 := u1 (by linarith) (by linarith)
  by_cases c0 : t ≤ 4 * s - 1
  · exact (le_quot v1 (cell2_0_0 h0 h1 (by linarith) (by linarith) (tuple_hb ks7_one h (by simp)) (tuple_zeta ks7_one h (by simp)))).trans (mul_le_mul_of_nonneg_right k1 hpos)
  rw [not_le] at c0
  exact (le_quot v1 (cell2_0_1 h0 h1 (by linarith) (by linarith) (tuple_hb ks7_one h (by simp)) (tuple_lv ks7_one h (by simp) (by simp)))).trans (mul_le_mul_of_nonneg_right k1 hpos)

theorem upper (s t a b : ℚ) (l1 : 84 / 109 ≤ s) (l2 : s < 5 / 6) (h : Feasible7 s t a b) : b ≤ w s * t := by
  have hB := h.2 2 (by simp)
  rcases h.1 with ⟨⟨i1, i2⟩, h⟩ | ⟨⟨i1, i2⟩, h⟩
  · by_cases d0 : s ≤ 3861 / 5000
    · exact strip1_0 (by linarith) (by linarith) (by linarith) (by linarith) h hB
    rw [not_le] at d0
    exact strip1_1 (by linarith) (by linarith) (by linarith) (by linarith) h hB
  · exact strip2_0 (by linarith) (by linarith) (by linarith) (by linarith) h

theorem att0 {s : ℚ} (h0 : 84 / 109 ≤ s) (h1 : s ≤ 129 / 167) :
    Inside7 [] 8 (-4) (2 * 8) (2 * -4) s (27 * s - 18) (6 - 6 * s) (18 - 19 * s) := by
  refine ⟨⟨by linarith, by linarith, by linarith, by linarith, by linarith, by linarith, tuple_of ks7_one ⟨by linarith, by linarith⟩ ⟨by linarith, by linarith⟩ ?_ ?_⟩, ?_⟩
  · refine List.forall_mem_cons.mpr ⟨?_, List.forall_mem_cons.mpr ⟨?_, List.forall_mem_cons.mpr ⟨?_, List.forall_mem_cons.mpr ⟨?_, List.forall_mem_cons.mpr ⟨?_, List.forall_mem_nil _⟩⟩⟩⟩⟩
    · exact ⟨(hbCond_iff _ _ _ _ _).mpr (.inr (.inr (.inr (.inl (by linarith))))), List.forall_mem_cons.mpr ⟨(jut_iff 5 _ _ _ _).mpr (.inr (.inl (by push_cast; linarith))), List.forall_mem_nil _⟩⟩
    · exact ⟨(hbCond_iff _ _ _ _ _).mpr (.inr (.inr (.inr (.inl (by linarith))))), List.forall_mem_cons.mpr ⟨(jut_iff 5 _ _ _ _).mpr (.inr (.inl (by push_cast; linarith))), List.forall_mem_nil _⟩⟩
    · exact ⟨(hbCond_iff _ _ _ _ _).mpr (.inl (by linarith)), List.forall_mem_cons.mpr ⟨(jut_iff 5 _ _ _ _).mpr (.inl (by push_cast; linarith)), List.forall_mem_nil _⟩⟩
    · exact ⟨(hbCond_iff _ _ _ _ _).mpr (.inl (by linarith)), List.forall_mem_cons.mpr ⟨(jut_iff 5 _ _ _ _).mpr (.inl (by push_cast; linarith)), List.forall_mem_nil _⟩⟩
    · exact ⟨(hbCond_iff _ _ _ _ _).mpr (.inl (by linarith)), List.forall_mem_cons.mpr ⟨(jut_iff 5 _ _ _ _).mpr (.inl (by push_cast; linarith)), List.forall_mem_nil _⟩⟩
  · exact List.forall_mem_nil _
  · refine List.forall_mem_cons.mpr ⟨?_, List.forall_mem_cons.mpr ⟨?_, List.forall_mem_cons.mpr ⟨?_, List.forall_mem_cons.mpr ⟨?_, List.forall_mem_cons.mpr ⟨?_, List.forall_mem_nil _⟩⟩⟩⟩⟩
    · refine .inr ⟨4, by simp, ?_, ?_⟩
      · simp only [rowForms, List.forall_mem_cons, lin3]
        exact ⟨.inl (by linarith), .inl (by linarith), .inl (by linarith), .inl (by linarith), .inl (by linarith), List.forall_mem_nil _⟩
      · right; simp only [rowForm, lin3]; linarith
    · refine .inr ⟨7, by simp, ?_, ?_⟩
      · simp only [rowForms, List.forall_mem_cons, lin3]
        exact ⟨.inl (by linarith), .inl (by linarith), .inl (by linarith), .inl (by linarith), .inl (by linarith), List.forall_mem_nil _⟩
      · right; simp only [rowForm, lin3]; linarith
    · exact .inl (by linarith)
    · exact .inl (by linarith)
    · exact .inl (by linarith)

theorem att1 {s : ℚ} (h0 : 44 / 57 ≤ s) (h1 : s < 19 / 24) :
    Inside7 [tw] 0 2 8 (-4) s (4 * s - 1) (4 - 4 * s) (8 - 36 / 5 * s) := by
  refine ⟨⟨by linarith, by linarith, by linarith, by linarith, by linarith, by linarith, tuple_of ks7_one ⟨by linarith, by linarith⟩ ⟨by linarith, by linarith⟩ ?_ ?_⟩, ?_⟩
  · refine List.forall_mem_cons.mpr ⟨?_, List.forall_mem_cons.mpr ⟨?_, List.forall_mem_cons.mpr ⟨?_, List.forall_mem_cons.mpr ⟨?_, List.forall_mem_cons.mpr ⟨?_, List.forall_mem_nil _⟩⟩⟩⟩⟩
    · exact ⟨(hbCond_iff _ _ _ _ _).mpr (.inr (.inr (.inr (.inr (.inr (.inr (.inr (.inr (by linarith))))))))), List.forall_mem_cons.mpr ⟨(jut_iff 5 _ _ _ _).mpr (.inr (.inl (by push_cast; linarith))), List.forall_mem_nil _⟩⟩
    · exact ⟨(hbCond_iff _ _ _ _ _).mpr (.inl (by linarith)), List.forall_mem_cons.mpr ⟨(jut_iff 5 _ _ _ _).mpr (.inl (by push_cast; linarith)), List.forall_mem_nil _⟩⟩
    · exact ⟨(hbCond_iff _ _ _ _ _).mpr (.inl (by linarith)), List.forall_mem_cons.mpr ⟨(jut_iff 5 _ _ _ _).mpr (.inl (by push_cast; linarith)), List.forall_mem_nil _⟩⟩
    · exact ⟨(hbCond_iff _ _ _ _ _).mpr (.inl (by linarith)), List.forall_mem_cons.mpr ⟨(jut_iff 5 _ _ _ _).mpr (.inl (by push_cast; linarith)), List.forall_mem_nil _⟩⟩
    · exact ⟨(hbCond_iff _ _ _ _ _).mpr (.inl (by linarith)), List.forall_mem_cons.mpr ⟨(jut_iff 5 _ _ _ _).mpr (.inl (by push_cast; linarith)), List.forall_mem_nil _⟩⟩
  · exact List.forall_mem_cons.mpr ⟨(tw_iff _ _ _ _).mpr (by linarith), List.forall_mem_nil _⟩
  · refine List.forall_mem_cons.mpr ⟨?_, List.forall_mem_cons.mpr ⟨?_, List.forall_mem_cons.mpr ⟨?_, List.forall_mem_cons.mpr ⟨?_, List.forall_mem_cons.mpr ⟨?_, List.forall_mem_nil _⟩⟩⟩⟩⟩
    · refine .inr ⟨5, by simp, ?_, ?_⟩
      · simp only [rowForms, List.forall_mem_cons, lin3]
        exact ⟨.inl (by linarith), .inl (by linarith), .inl (by linarith), .inl (by linarith), .inl (by linarith), List.forall_mem_nil _⟩
      · exact .inl rfl
    · refine .inr ⟨1, by simp, ?_, ?_⟩
      · simp only [rowForms, List.forall_mem_cons, lin3]
        exact ⟨.inl (by linarith), .inl (by linarith), .inl (by linarith), .inl (by linarith), List.forall_mem_nil _⟩
      · right; simp only [rowForm, lin3]; linarith
    · exact .inl (by linarith)
    · exact .inl (by linarith)
    · exact .inl (by linarith)

theorem att2 {s : ℚ} (h0 : 19 / 24 ≤ s) (h1 : s < 13 / 16) :
    Inside7 [tw] 0 2 8 (-4) s (4 * s - 1) (4 - 4 * s) (8 - 36 / 5 * s) := by
  refine ⟨⟨by linarith, by linarith, by linarith, by linarith, by linarith, by linarith, tuple_of ks7_one ⟨by linarith, by linarith⟩ ⟨by linarith, by linarith⟩ ?_ ?_⟩, ?_⟩
  · refine List.forall_mem_cons.mpr ⟨?_, List.forall_mem_cons.mpr ⟨?_, List.forall_mem_cons.mpr ⟨?_, List.forall_mem_cons.mpr ⟨?_, List.forall_mem_cons.mpr ⟨?_, List.forall_mem_nil _⟩⟩⟩⟩⟩
    · exact ⟨(hbCond_iff _ _ _ _ _).mpr (.inr (.inr (.inr (.inr (.inr (.inr (.inr (.inr (by linarith))))))))), List.forall_mem_cons.mpr ⟨(jut_iff 5 _ _ _ _).mpr (.inr (.inl (by push_cast; linarith))), List.forall_mem_nil _⟩⟩
    · exact ⟨(hbCond_iff _ _ _ _ _).mpr (.inl (by linarith)), List.forall_mem_cons.mpr ⟨(jut_iff 5 _ _ _ _).mpr (.inl (by push_cast; linarith)), List.forall_mem_nil _⟩⟩
    · exact ⟨(hbCond_iff _ _ _ _ _).mpr (.inl (by linarith)), List.forall_mem_cons.mpr ⟨(jut_iff 5 _ _ _ _).mpr (.inl (by push_cast; linarith)), List.forall_mem_nil _⟩⟩
    · exact ⟨(hbCond_iff _ _ _ _ _).mpr (.inl (by linarith)), List.forall_mem_cons.mpr ⟨(jut_iff 5 _ _ _ _).mpr (.inl (by push_cast; linarith)), List.forall_mem_nil _⟩⟩
    · exact ⟨(hbCond_iff _ _ _ _ _).mpr (.inl (by linarith)), List.forall_mem_cons.mpr ⟨(jut_iff 5 _ _ _ _).mpr (.inl (by push_cast; linarith)), List.forall_mem_nil _⟩⟩
  · exact List.forall_mem_cons.mpr ⟨(tw_iff _ _ _ _).mpr (by linarith), List.forall_mem_nil _⟩
  · refine List.forall_mem_cons.mpr ⟨?_, List.forall_mem_cons.mpr ⟨?_, List.forall_mem_cons.mpr ⟨?_, List.forall_mem_cons.mpr ⟨?_, List.forall_mem_cons.mpr ⟨?_, List.forall_mem_nil _⟩⟩⟩⟩⟩
    · refine .inr ⟨5, by simp, ?_, ?_⟩
      · simp only [rowForms, List.forall_mem_cons, lin3]
        exact ⟨.inl (by linarith), .inl (by linarith), .inl (by linarith), .inl (by linarith), .inl (by linarith), List.forall_mem_nil _⟩
      · exact .inl rfl
    · refine .inr ⟨6, by simp, ?_, ?_⟩
      · simp only [rowForms, List.forall_mem_cons, lin3]
        exact ⟨.inl (by linarith), .inl (by linarith), .inr ⟨by linarith, by norm_num⟩, .inl (by linarith), .inl (by linarith), .inl (by linarith), List.forall_mem_nil _⟩
      · right; simp only [rowForm, lin3]; linarith
    · exact .inl (by linarith)
    · exact .inl (by linarith)
    · exact .inl (by linarith)

theorem att3 {s : ℚ} (h0 : 13 / 16 ≤ s) (h1 : s < 5 / 6) :
    Inside7 [tw] 0 2 8 (-4) s (4 * s - 1) (4 - 4 * s) (8 - 36 / 5 * s) := by
  refine ⟨⟨by linarith, by linarith, by linarith, by linarith, by linarith, by linarith, tuple_of ks7_one ⟨by linarith, by linarith⟩ ⟨by linarith, by linarith⟩ ?_ ?_⟩, ?_⟩
  · refine List.forall_mem_cons.mpr ⟨?_, List.forall_mem_cons.mpr ⟨?_, List.forall_mem_cons.mpr ⟨?_, List.forall_mem_cons.mpr ⟨?_, List.forall_mem_cons.mpr ⟨?_, List.forall_mem_nil _⟩⟩⟩⟩⟩
    · exact ⟨(hbCond_iff _ _ _ _ _).mpr (.inr (.inr (.inr (.inr (.inr (.inr (.inr (.inr (by linarith))))))))), List.forall_mem_cons.mpr ⟨(jut_iff 5 _ _ _ _).mpr (.inr (.inl (by push_cast; linarith))), List.forall_mem_nil _⟩⟩
    · exact ⟨(hbCond_iff _ _ _ _ _).mpr (.inl (by linarith)), List.forall_mem_cons.mpr ⟨(jut_iff 5 _ _ _ _).mpr (.inl (by push_cast; linarith)), List.forall_mem_nil _⟩⟩
    · exact ⟨(hbCond_iff _ _ _ _ _).mpr (.inl (by linarith)), List.forall_mem_cons.mpr ⟨(jut_iff 5 _ _ _ _).mpr (.inl (by push_cast; linarith)), List.forall_mem_nil _⟩⟩
    · exact ⟨(hbCond_iff _ _ _ _ _).mpr (.inl (by linarith)), List.forall_mem_cons.mpr ⟨(jut_iff 5 _ _ _ _).mpr (.inl (by push_cast; linarith)), List.forall_mem_nil _⟩⟩
    · exact ⟨(hbCond_iff _ _ _ _ _).mpr (.inl (by linarith)), List.forall_mem_cons.mpr ⟨(jut_iff 5 _ _ _ _).mpr (.inl (by push_cast; linarith)), List.forall_mem_nil _⟩⟩
  · exact List.forall_mem_cons.mpr ⟨(tw_iff _ _ _ _).mpr (by linarith), List.forall_mem_nil _⟩
  · refine List.forall_mem_cons.mpr ⟨?_, List.forall_mem_cons.mpr ⟨?_, List.forall_mem_cons.mpr ⟨?_, List.forall_mem_cons.mpr ⟨?_, List.forall_mem_cons.mpr ⟨?_, List.forall_mem_nil _⟩⟩⟩⟩⟩
    · refine .inr ⟨4, by simp, ?_, ?_⟩
      · simp only [rowForms, List.forall_mem_cons, lin3]
        exact ⟨.inl (by linarith), .inr ⟨by linarith, by norm_num⟩, .inl (by linarith), .inl (by linarith), .inl (by linarith), List.forall_mem_nil _⟩
      · right; simp only [rowForm, lin3]; linarith
    · refine .inr ⟨6, by simp, ?_, ?_⟩
      · simp only [rowForms, List.forall_mem_cons, lin3]
        exact ⟨.inl (by linarith), .inl (by linarith), .inl (by linarith), .inl (by linarith), .inl (by linarith), .inl (by linarith), List.forall_mem_nil _⟩
      · right; simp only [rowForm, lin3]; linarith
    · exact .inl (by linarith)
    · exact .inl (by linarith)
    · exact .inl (by linarith)

theorem cross0 {s : ℚ} (l1 : 84 / 109 ≤ s) (l2 : s ≤ 5 / 6) (hc : (40 - 36 * s) / (20 * s - 5) ≤ (18 - 19 * s) / (27 * s - 18)) : s ≤ 129 / 167 := by
  rw [div_le_div_iff₀ (u1 l1 l2) (u0 l1 l2)] at hc
  by_contra h
  rw [not_le] at h
  nlinarith [mul_pos (sub_pos.mpr h) (sub_pos.mpr h), mul_nonneg (sub_nonneg.mpr l2) (sub_pos.mpr h).le]

theorem cross1 {s : ℚ} (l1 : 84 / 109 ≤ s) (l2 : s ≤ 5 / 6) (hc : (18 - 19 * s) / (27 * s - 18) ≤ (40 - 36 * s) / (20 * s - 5)) : 44 / 57 ≤ s := by
  rw [div_le_div_iff₀ (u0 l1 l2) (u1 l1 l2)] at hc
  by_contra h
  rw [not_le] at h
  nlinarith [mul_pos (sub_pos.mpr h) (sub_pos.mpr h), mul_nonneg (sub_nonneg.mpr l1) (sub_pos.mpr h).le]

theorem attained (s : ℚ) (l1 : 84 / 109 ≤ s) (l2 : s < 5 / 6) : ∃ t a b, (Inside7 [] 8 (-4) (2 * 8) (2 * -4) s t a b ∨
    Inside7 [tw] 0 2 8 (-4) s t a b) ∧ b = w s * t := by
  rcases le_total ((40 - 36 * s) / (20 * s - 5)) ((18 - 19 * s) / (27 * s - 18)) with hc | hc
  · have hs := cross0 l1 l2.le hc
    have e : w s = (18 - 19 * s) / (27 * s - 18) := max_eq_left hc
    exact ⟨_, _, _, .inl (att0 l1 hs), by rw [e]; exact eq_quot (u0 l1 l2.le) (by ring)⟩
  · have hs := cross1 l1 l2.le hc
    have e : w s = (40 - 36 * s) / (20 * s - 5) := max_eq_right hc
    have key : Inside7 [tw] 0 2 8 (-4) s (4 * s - 1) (4 - 4 * s) (8 - 36 / 5 * s) := by
      by_cases c1 : s < 19 / 24
      · exact att1 hs c1
      · by_cases c2 : s < 13 / 16
        · exact att2 (not_lt.mp c1) c2
        · exact att3 (not_lt.mp c2) l2
    exact ⟨_, _, _, .inr key, by rw [e]; exact eq_quot (u1 l1 l2.le) (by ring)⟩

theorem notConvex1 : NotConvex7 [] (84 / 109) (5 / 6) 8 (-4) (2 * 8) (2 * -4) :=
  ⟨39 / 50, 141 / 50, 137 / 125, 571 / 200, 39 / 50, 379 / 100, 297 / 200, 489 / 125, by decide +kernel⟩

theorem notConvex2 : NotConvex7 [tw] (84 / 109) (5 / 6) 0 2 8 (-4) :=
  ⟨97 / 125, 41 / 20, 11 / 50, 239 / 200, 97 / 125, 213 / 100, 179 / 200, 243 / 100, by decide +kernel⟩

end Case7

variable {eng : Engine} {hrep : List Pt → Mat} {edges : Mat → List (Pt × Pt)} {solve : RF ℝ → RF ℝ → List ℝ} {isZero : Expr ℝ → Bool}
  {orderR : List (Region ℕ) → List (Region ℕ)} {orderK : List ℚ → List ℚ}

/-- **C97** (`prove_zero_density_energy_7`, derived.py:910-927) The function returns pieces which, at every real `sigma` of
`[84/109, 5/6)`, give exactly the published bound `A*(sigma) = max((18 - 19 sigma)/(9 (3 sigma - 2)), 4 (10 - 9 sigma)/(5 (4 sigma - 1))) / (1 - sigma)`
(zero_density_energy.tex:1204-1210), although one of the polytopes of Bourgain's large value region is unbounded. -/
theorem C97_energy_7 (C : Contracts eng edges solve isZero orderR orderK) (hh : HRepSpec hrep) (hhz : HRepNoZero hrep) :
    ∃ out, proveEnergy7 eng hrep edges solve isZero orderR orderK = .ok out ∧ IsBoundE (84 / 109) (5 / 6) out
      (fun x => (max ((18 - 19 * x) / (9 * (3 * x - 2))) (4 * (10 - 9 * x) / (5 * (4 * x - 1)))) / (1 - x)) := by
  refine derive7 C hh hhz Case7.notConvex1 Case7.notConvex2 Case7.w
    (fun x => max ((18 - 19 * x) / (9 * (3 * x - 2))) (4 * (10 - 9 * x) / (5 * (4 * x - 1)))) ?_ ?_ Case7.attained Case7.upper
  · intro s _ _
    simp only [Case7.w]
    push_cast
    congr 2 <;> ring
  · intro x l1 l2
    push_cast at l1 l2
    have k0 : ContinuousAt (fun x : ℝ => (18 - 19 * x) / (9 * (3 * x - 2))) x :=
      ContinuousAt.div (by fun_prop) (by fun_prop) (by intro h; linarith)
    have k1 : ContinuousAt (fun x : ℝ => 4 * (10 - 9 * x) / (5 * (4 * x - 1))) x :=
      ContinuousAt.div (by fun_prop) (by fun_prop) (by intro h; linarith)
    exact Filter.Tendsto.max k0 k1

/-- The value at `4/5`. -/
example : ∃ eng hrep edges solve isZero orderR orderK out, proveEnergy7 eng hrep edges solve isZero orderR orderK = .ok out ∧
    ∃ q ∈ out, q.1.at (4 / 5) = (56 / 11 : ℝ) := by
  obtain ⟨eng, edges, solve, isZero, orderR, orderK, C⟩ := contracts_satisfiable
  obtain ⟨hrep, hh, hhz⟩ := hRepNoZero_satisfiable
  obtain ⟨out, h1, h2⟩ := C97_energy_7 C hh hhz
  obtain ⟨q, q1, _, _, _, q5⟩ := h2 (4 / 5) (by norm_num) (by norm_num)
  exact ⟨eng, hrep, edges, solve, isZero, orderR, orderK, out, h1, q, q1, by rw [q5]; norm_num⟩

end EnergyUnb
end Expdb
