import Verif.Props.PrimeGapInput

/-!
# The second moment of prime gaps (C86): the theorem of the text and what `prove_prime_gap2` prints
-/

namespace Expdb
namespace PrimeGap
open Rational (Ival)
open LitZD (Reads Entry readLF_reads)
open Formula (LF)

/-! ### Members of the hypothesis set -/

theorem mem_fixed {es ns : List Entry} {zd : List Pc} {sol : List (PairZD.Sol ℝ)} (hes : LitZD.all = .ok es)
    (hm : ∀ p, p ∈ zd ↔ (∃ e, (e ∈ es ∨ e ∈ ns) ∧ ∃ f, Reads e.expr f ∧ p = ⟨f, real e.dom⟩) ∨ ∃ s ∈ sol, p = ⟨s.fn.at, s.dom⟩)
    {e : Entry} (he : (.ok e : Py Entry) ∈ LitZD.before ++ LitZD.middle ++ LitZD.after) {f : ℝ → ℝ} (hf : Reads e.expr f) {a b : ℝ}
    (ha : (e.dom.x0 : ℝ) = a) (hb : (e.dom.x1 : ℝ) = b) : ⟨f, ⟨a, b, e.dom.incL, e.dom.incU⟩⟩ ∈ zd := by
  obtain ⟨es', h1, h2⟩ := LitZD.C76_entries
  rw [hes] at h1
  obtain rfl := Except.ok.inj h1
  rw [hm]
  refine Or.inl ⟨e, Or.inl ((h2 e).mpr (Or.inl he)), f, hf, ?_⟩
  rw [real, ha, hb]

theorem mem_left {α : Type} {l m n : List α} {a : α} (h : a ∈ l) : a ∈ l ++ m ++ n := by simp [h]
theorem mem_mid {α : Type} {l m n : List α} {a : α} (h : a ∈ m) : a ∈ l ++ m ++ n := by simp [h]
theorem mem_right {α : Type} {l m n : List α} {a : α} (h : a ∈ n) : a ∈ l ++ m ++ n := by simp [h]

/-- The estimates that are used below. -/
theorem zd_members {es ns : List Entry} {zd : List Pc} {sol : List (PairZD.Sol ℝ)} (hes : LitZD.all = .ok es) (hns : newZD = .ok ns)
    (hm : ∀ p, p ∈ zd ↔ (∃ e, (e ∈ es ∨ e ∈ ns) ∧ ∃ f, Reads e.expr f ∧ p = ⟨f, real e.dom⟩) ∨ ∃ s ∈ sol, p = ⟨s.fn.at, s.dom⟩) :
    ⟨(⟨3, -1, 2⟩ : LF).val, ⟨1 / 2, 1, true, false⟩⟩ ∈ zd ∧ ⟨(⟨15, 5, 3⟩ : LF).val, ⟨1 / 2, 1, true, false⟩⟩ ∈ zd ∧
      ⟨(⟨3, 3, -1⟩ : LF).val, ⟨1 / 2, 1, true, false⟩⟩ ∈ zd ∧ ⟨(⟨3, 2, 0⟩ : LF).val, ⟨4 / 5, 1, true, false⟩⟩ ∈ zd ∧
      ⟨(⟨3, 10, -7⟩ : LF).val, ⟨701 / 1000, 1, true, true⟩⟩ ∈ zd ∧ ⟨(⟨4, 30, -25⟩ : LF).val, ⟨15 / 16, 1, true, false⟩⟩ ∈ zd ∧
      ⟨fun t => 6.42 * Real.sqrt (1 - t), ⟨9 / 10, 1, true, false⟩⟩ ∈ zd := by
  refine ⟨?_, ?_, ?_, ?_, ?_, ?_, ?_⟩
  · exact mem_fixed (e := ⟨"3/(2 - x)".toList, ⟨1 / 2, 1, true, false⟩⟩) hes hm (mem_left (List.mem_of_getElem? (i := 1) (by decide +kernel)))
      (readLF_reads (by decide +kernel)) (by push_cast; rfl) (by push_cast; rfl)
  · exact mem_fixed (e := ⟨"15 / (3 + 5 * x)".toList, ⟨1 / 2, 1, true, false⟩⟩) hes hm (mem_right (List.mem_of_getElem? (i := 1) (by decide +kernel)))
      (readLF_reads (by decide +kernel)) (by push_cast; rfl) (by push_cast; rfl)
  · exact mem_fixed (e := ⟨"3/(3 * x - 1)".toList, ⟨1 / 2, 1, true, false⟩⟩) hes hm (mem_left (List.mem_of_getElem? (i := 3) (by decide +kernel)))
      (readLF_reads (by decide +kernel)) (by push_cast; rfl) (by push_cast; rfl)
  · exact mem_fixed (e := ⟨"3/(2 * x)".toList, ⟨4 / 5, 1, true, false⟩⟩) hes hm (mem_left (List.mem_of_getElem? (i := 17) (by decide +kernel)))
      (readLF_reads (by decide +kernel)) (by push_cast; rfl) (by push_cast; rfl)
  · rw [hm]
    rw [newZD_eq] at hns
    obtain rfl := Except.ok.inj hns
    refine Or.inl ⟨⟨"3/(10 * x - 7)".toList, ⟨701 / 1000, 1, true, true⟩⟩, Or.inr (by simp), _, readLF_reads (g := ⟨3, 10, -7⟩) (by decide +kernel), ?_⟩
    rw [real_mk (by push_cast; rfl) (by push_cast; rfl)]
  · exact mem_fixed (e := ⟨"4 / (30 * x - 25)".toList, ⟨15 / 16, 1, true, false⟩⟩) hes hm (mem_mid (List.mem_of_getElem? (i := 1) (by decide +kernel)))
      (readLF_reads (by decide +kernel)) (by push_cast; rfl) (by push_cast; rfl)
  · exact mem_fixed (e := ⟨"6.42 * (1 - x) ** (1/2)".toList, ⟨9 / 10, 1, true, false⟩⟩) hes hm (mem_mid (List.mem_of_getElem? (i := 6) (by decide +kernel)))
      LitZD.reads_heathBrown (by push_cast; rfl) (by push_cast; rfl)

theorem contains_half {a b x : ℝ} : (⟨a, b, true, false⟩ : Ival ℝ).contains x = true ↔ a ≤ x ∧ x < b := PairZD.half_contains

theorem contains_full {a b x : ℝ} : (⟨a, b, true, true⟩ : Ival ℝ).contains x = true ↔ a ≤ x ∧ x ≤ b := by
  simp only [Ival.contains, if_true, Bool.and_eq_true]
  exact and_congr decide_eq_true_iff decide_eq_true_iff

/-! ### The theorem of the text -/

/-- The bound `A(σ)` of the proof (primes.tex:226-241). -/
noncomputable def textA (s : ℝ) : ℝ :=
  if s ≤ 3 / 4 then 30 / 13 else if s ≤ 5 / 6 then 3 / (3 * s - 1) else if s ≤ 7 / 8 then 3 / (2 * s) else max (3 / (10 * s - 7)) (4 / (4 * s - 1))

/-- The bound `B(σ)` of the proof (primes.tex:226-234). -/
noncomputable def textB (s : ℝ) : ℝ :=
  if s ≤ 3 / 4 then (1931 - 2020 * s) / (286 * (1 - s)) else if s ≤ 5 / 6 then (526 - 552 * s) / (77 * (1 - s)) else 12 / (4 * s - 1)

/-- `exponent` for quotients, as quotients of polynomials. -/
theorem exponent_le {a b s n m k : ℝ} (ha : 0 < a) (hn : b * (1 - s) - 1 = n) (hm : b - a = m) (hm0 : 0 < m)
    (h1 : 2 * n ≤ (k - (4 * s - 2)) * m) (h2 : n ≤ (k - (4 * s - 2)) * a) : exponent a b s ≤ k := by
  rw [exponent, hn, hm]
  apply max_le
  · have : n / m ≤ (k - (4 * s - 2)) / 2 := by rw [div_le_iff₀ hm0]; linarith
    linarith
  · have : n / a ≤ k - (4 * s - 2) := by rw [div_le_iff₀ ha]; exact h2
    linarith

/-- The calculation of the text, for every `σ`. -/
theorem text_le (s : ℝ) (h1 : 1 / 2 ≤ s) (h2 : s ≤ 1) : exponent (textA s) (textB s) s ≤ 19 / 15 := by
  unfold textA textB
  by_cases c1 : s ≤ 3 / 4
  · rw [if_pos c1, if_pos c1]
    have p : 0 < 1 - s := by linarith
    refine exponent_le (n := (1645 - 2020 * s) / 286) (m := (1271 - 1360 * s) / (286 * (1 - s))) (by norm_num) (by field_simp; ring) (by field_simp; ring)
      (div_pos (by linarith) (by linarith)) ?_ (by linarith)
    rw [← mul_div_assoc, ← mul_div_assoc, div_le_div_iff₀ (by norm_num) (by linarith)]
    nlinarith
  rw [if_neg c1, if_neg c1]
  push Not at c1
  by_cases c2 : s ≤ 5 / 6
  · rw [if_pos c2, if_pos c2]
    have p : 0 < 1 - s := by linarith
    have q : 0 < 3 * s - 1 := by linarith
    have q' := q.ne'
    refine exponent_le (n := (449 - 552 * s) / 77) (m := ((526 - 552 * s) * (3 * s - 1) - 231 * (1 - s)) / (77 * (1 - s) * (3 * s - 1))) (by positivity)
      (by field_simp; ring) (by rw [div_sub_div _ _ (mul_pos (by norm_num) p).ne' q']; congr 1; ring) (div_pos (by nlinarith) (by positivity)) ?_ ?_
    · rw [← mul_div_assoc, ← mul_div_assoc, div_le_div_iff₀ (by norm_num) (by positivity)]
      nlinarith [mul_nonneg (sub_nonneg.mpr c1.le) (sq_nonneg (s - 3 / 4 - 11 / 250))]
    · rw [← mul_div_assoc, le_div_iff₀ q]
      nlinarith
  rw [if_neg c2, if_neg c2]
  push Not at c2
  have p : 0 < 4 * s - 1 := by linarith
  by_cases c3 : s ≤ 7 / 8
  · rw [if_pos c3]
    refine exponent_le (n := (13 - 16 * s) / (4 * s - 1)) (m := (12 * s + 3) / (2 * s * (4 * s - 1))) (by positivity) (by field_simp; ring) (by field_simp; ring)
      (by positivity) ?_ ?_
    · rw [← mul_div_assoc, ← mul_div_assoc, div_le_div_iff₀ p (by positivity)]
      nlinarith [mul_nonneg (sub_nonneg.mpr c2.le) (sub_nonneg.mpr c3), mul_nonneg (mul_nonneg (sub_nonneg.mpr c2.le) (sub_nonneg.mpr c3)) (sub_nonneg.mpr c2.le)]
    · rw [← mul_div_assoc, div_le_div_iff₀ p (by positivity)]
      nlinarith [mul_nonneg (sub_nonneg.mpr c2.le) (sub_nonneg.mpr c3)]
  rw [if_neg c3]
  push Not at c3
  have q : 0 < 10 * s - 7 := by linarith
  have q' := q.ne'
  by_cases c4 : s ≤ 25 / 28
  · rw [max_eq_left (by rw [div_le_div_iff₀ p q]; linarith)]
    refine exponent_le (n := (13 - 16 * s) / (4 * s - 1)) (m := (108 * s - 81) / ((4 * s - 1) * (10 * s - 7))) (by positivity) (by field_simp; ring)
      (by rw [div_sub_div _ _ p.ne' q']; congr 1; ring)
      (div_pos (by linarith) (by positivity)) ?_ ?_
    · rw [← mul_div_assoc, ← mul_div_assoc, div_le_div_iff₀ p (by positivity)]
      nlinarith [mul_nonneg (sub_nonneg.mpr c3.le) (sub_nonneg.mpr c4), mul_nonneg (mul_nonneg (sub_nonneg.mpr c3.le) (sub_nonneg.mpr c4)) (sub_nonneg.mpr c3.le)]
    · rw [← mul_div_assoc, div_le_div_iff₀ p q]
      nlinarith [mul_nonneg (sub_nonneg.mpr c3.le) (sub_nonneg.mpr c4)]
  · push Not at c4
    rw [max_eq_right (by rw [div_le_div_iff₀ q p]; linarith)]
    refine exponent_le (n := (13 - 16 * s) / (4 * s - 1)) (m := 8 / (4 * s - 1)) (by positivity) (by field_simp; ring) (by field_simp; ring)
      (by positivity) ?_ ?_
    · rw [← mul_div_assoc, ← mul_div_assoc, div_le_div_iff_of_pos_right p]
      linarith
    · rw [← mul_div_assoc, div_le_div_iff_of_pos_right p]
      linarith

/-- The bound `A(σ)` of the text is at least an estimate of the set, and `30/13` is as well. -/
theorem text_A {es ns : List Entry} {zd : List Pc} {sol : List (PairZD.Sol ℝ)} (hes : LitZD.all = .ok es) (hns : newZD = .ok ns)
    (hm : ∀ p, p ∈ zd ↔ (∃ e, (e ∈ es ∨ e ∈ ns) ∧ ∃ f, Reads e.expr f ∧ p = ⟨f, real e.dom⟩) ∨ ∃ s ∈ sol, p = ⟨s.fn.at, s.dom⟩)
    (s : ℝ) (h1 : 1 / 2 ≤ s) (h2 : s < 1) :
    (∃ p ∈ zd, p.dom.contains s = true ∧ p.fn s ≤ textA s) ∧ ∃ p ∈ zd, p.dom.contains s = true ∧ p.fn s ≤ 30 / 13 := by
  obtain ⟨m1, m2, m3, m4, m5, -⟩ := zd_members hes hns hm
  have small : ∃ p ∈ zd, p.dom.contains s = true ∧ p.fn s ≤ 30 / 13 := by
    by_cases c : s ≤ 7 / 10
    · refine ⟨_, m1, contains_half.mpr ⟨h1, h2⟩, ?_⟩
      simp only [LF.val]
      push_cast
      rw [div_le_div_iff₀ (by linarith) (by norm_num)]
      linarith
    · push Not at c
      refine ⟨_, m2, contains_half.mpr ⟨h1, h2⟩, ?_⟩
      simp only [LF.val]
      push_cast
      rw [div_le_div_iff₀ (by linarith) (by norm_num)]
      linarith
  refine ⟨?_, small⟩
  unfold textA
  split_ifs with c1 c2 c3
  · exact small
  · refine ⟨_, m3, contains_half.mpr ⟨h1, h2⟩, le_of_eq ?_⟩
    simp only [LF.val]
    push_cast
    ring
  · push Not at c2
    refine ⟨_, m4, contains_half.mpr ⟨by linarith, h2⟩, le_of_eq ?_⟩
    simp only [LF.val]
    push_cast
    ring
  · push Not at c3
    refine ⟨_, m5, contains_full.mpr ⟨by linarith, h2.le⟩, le_trans (le_of_eq ?_) (le_max_left _ _)⟩
    simp only [LF.val]
    push_cast
    ring

/-- The bound `B(σ)` of the text is at least an estimate of the set. -/
theorem text_B (s : ℝ) (h1 : 1 / 2 ≤ s) (h2 : s ≤ 1) : ∃ q ∈ energyFns, q.dom.contains s = true ∧ q.fn s ≤ textB s := by
  obtain ⟨d1, d2, d3, d4⟩ := dec_bounds
  unfold textB
  by_cases c1 : s ≤ 3 / 4
  · rw [if_pos c1]
    by_cases b1 : s ≤ 2 / 3
    · refine ⟨_, List.mem_of_getElem? (i := 0) rfl, contains_full.mpr ⟨h1, b1⟩, ?_⟩
      simp only
      rw [div_le_div_iff₀ (by nlinarith) (by linarith)]
      have : (10 - 11 * s) * 286 ≤ (1931 - 2020 * s) * (2 - s) := by nlinarith
      nlinarith [mul_le_mul_of_nonneg_right this (by linarith : 0 ≤ 1 - s)]
    push Not at b1
    by_cases b2 : s ≤ 7 / 10
    · refine ⟨_, List.mem_of_getElem? (i := 1) rfl, contains_full.mpr ⟨b1.le, c1⟩, ?_⟩
      simp only
      rw [div_le_div_iff₀ (by nlinarith) (by linarith)]
      have : (18 - 19 * s) * 286 ≤ (1931 - 2020 * s) * (4 - 2 * s) := by nlinarith
      nlinarith [mul_le_mul_of_nonneg_right this (by linarith : 0 ≤ 1 - s)]
    push Not at b2
    by_cases b3 : s < dec1
    · refine ⟨_, List.mem_of_getElem? (i := 3) rfl, contains_half.mpr ⟨b2.le, b3⟩, ?_⟩
      simp only
      rw [div_le_div_iff₀ (by nlinarith) (by linarith)]
      have : 5 * (18 - 19 * s) * 286 ≤ (1931 - 2020 * s) * (2 * (5 * s + 3)) := by nlinarith
      nlinarith [mul_le_mul_of_nonneg_right this (by linarith : 0 ≤ 1 - s)]
    push Not at b3
    by_cases b4 : s < 3 / 4
    · refine ⟨_, List.mem_of_getElem? (i := 4) rfl, contains_half.mpr ⟨b3, b4⟩, ?_⟩
      simp only
      rw [div_le_div_iff₀ (by nlinarith) (by linarith)]
      have : 2 * (45 - 44 * s) * 286 ≤ (1931 - 2020 * s) * (2 * s + 15) := by nlinarith
      nlinarith [mul_le_mul_of_nonneg_right this (by linarith : 0 ≤ 1 - s)]
    · obtain rfl : s = 3 / 4 := le_antisymm c1 (not_lt.mp b4)
      refine ⟨_, List.mem_of_getElem? (i := 5) rfl, contains_half.mpr ⟨by norm_num, by norm_num⟩, ?_⟩
      norm_num
  rw [if_neg c1]
  push Not at c1
  by_cases c2 : s ≤ 5 / 6
  · rw [if_pos c2]
    by_cases b1 : s < 289 / 380
    · refine ⟨_, List.mem_of_getElem? (i := 5) rfl, contains_half.mpr ⟨c1.le, b1⟩, ?_⟩
      simp only
      rw [div_le_div_iff₀ (by nlinarith) (by linarith)]
      have : (197 - 220 * s) * 77 ≤ (526 - 552 * s) * (8 * (5 * s - 1)) := by nlinarith
      nlinarith [mul_le_mul_of_nonneg_right this (by linarith : 0 ≤ 1 - s)]
    push Not at b1
    by_cases b2 : s < dec2
    · refine ⟨_, List.mem_of_getElem? (i := 6) rfl, contains_half.mpr ⟨b1, b2⟩, ?_⟩
      simp only
      rw [div_le_div_iff₀ (by nlinarith) (by linarith)]
      have : 3 * (29 - 30 * s) * 77 ≤ (526 - 552 * s) * (5 * (5 * s - 1)) := by nlinarith
      nlinarith [mul_le_mul_of_nonneg_right this (by linarith : 0 ≤ 1 - s)]
    push Not at b2
    by_cases b3 : s < 5 / 6
    · refine ⟨_, List.mem_of_getElem? (i := 7) rfl, contains_half.mpr ⟨b2, b3⟩, ?_⟩
      simp only
      rw [div_le_div_iff₀ (by nlinarith) (by linarith)]
      have : (40 - 36 * s) * 77 ≤ (526 - 552 * s) * (20 * s - 5) := by nlinarith
      nlinarith [mul_le_mul_of_nonneg_right this (by linarith : 0 ≤ 1 - s)]
    · obtain rfl : s = 5 / 6 := le_antisymm c2 (not_lt.mp b3)
      refine ⟨_, List.mem_of_getElem? (i := 2) rfl, contains_full.mpr ⟨by norm_num, by norm_num⟩, ?_⟩
      norm_num
  · rw [if_neg c2]
    push Not at c2
    exact ⟨_, List.mem_of_getElem? (i := 2) rfl, contains_full.mpr ⟨by linarith, h2⟩, le_rfl⟩

open PairZD (bourgainEpToZd bourgainPairs IsMinimum)
open Rational (Expr RootsSpec ConstSpec ZeroSpec)

theorem bourgain_sol (isConstant : Expr ℝ → Bool) (realRoots : Expr ℝ → List ℝ) (hr : RootsSpec isConstant realRoots) (hcs : ConstSpec isConstant)
    (isZero : Expr ℝ → Bool) (hz : ZeroSpec isZero) :
    ∃ sol, bourgainEpToZd isConstant realRoots isZero bourgainPairs = .ok sol ∧ IsMinimum bourgainPairs sol :=
  PairZD.C80_minimum isConstant realRoots hr hcs isZero hz bourgainPairs (fun p hp => (PairZD.pairs_ok p hp).1)
    ⟨(11 / 85, 59 / 85), by decide +kernel, (1 / 100, 14 / 15), by decide +kernel, (PairZD.pairs_usable _ (by decide +kernel)).1,
      (PairZD.pairs_usable _ (by decide +kernel)).1, by decide +kernel⟩

/-- **C86 (the theorem of the text).** The bounds `A(σ)`, `B(σ)` of the proof in the text follow from the estimates that
`prove_prime_gap2` collects, at every `σ` in `[1/2, 1)`; `‖A‖∞ ≤ 30/13` follows from them as well. With these bounds
`exponent` is at most `19/15` for every `σ` in `[1/2, 1]`, with equality at `7/8`, and so is `2 - 2/‖A‖∞`: the proposition gives
`19/15`, as claimed. -/
theorem C86_text (isConstant : Expr ℝ → Bool) (realRoots : Expr ℝ → List ℝ) (hr : RootsSpec isConstant realRoots) (hcs : ConstSpec isConstant)
    (isZero : Expr ℝ → Bool) (hz : ZeroSpec isZero) :
    ∃ zd ze, gapZD (bourgainEpToZd isConstant realRoots isZero bourgainPairs) = .ok zd ∧ gapEnergy = .ok ze ∧
      (∀ s : ℝ, 1 / 2 ≤ s → s < 1 → (∃ p ∈ zd, p.dom.contains s = true ∧ p.fn s ≤ textA s) ∧ (∃ q ∈ ze, q.dom.contains s = true ∧ q.fn s ≤ textB s) ∧
        ∃ p ∈ zd, p.dom.contains s = true ∧ p.fn s ≤ 30 / 13) ∧
      (∀ s : ℝ, 1 / 2 ≤ s → s ≤ 1 → exponent (textA s) (textB s) s ≤ 19 / 15) ∧
      exponent (textA (7 / 8)) (textB (7 / 8)) (7 / 8) = 19 / 15 ∧ (2 : ℝ) - 2 / (30 / 13) < 19 / 15 := by
  obtain ⟨sol, h1, h2⟩ := bourgain_sol isConstant realRoots hr hcs isZero hz
  obtain ⟨es, ns, zd, h3, h4, h5, -, h7⟩ := gapZD_spec h2
  refine ⟨zd, energyFns, by rw [h1]; exact h5, gapEnergy_eq, fun s l u => ?_, text_le, ?_, by norm_num⟩
  · obtain ⟨a, b⟩ := text_A h3 h4 h7 s l u
    exact ⟨a, text_B s l u.le, b⟩
  · norm_num [exponent, textA, textB]

/-! ### No better choice of the bounds -/

theorem real_contains {I : Interval} {q : ℚ} (h : (real I).contains (q : ℝ) = true) : I.contains q = true := by
  rw [Interval.contains_iff]
  obtain ⟨x0, x1, l, u⟩ := I
  simp only [Ival.contains, real, Bool.and_eq_true] at h
  obtain ⟨h1, h2⟩ := h
  constructor
  · cases l
    · exact Or.inl (by exact_mod_cast of_decide_eq_true h1)
    · rcases eq_or_lt_of_le (of_decide_eq_true h1) with h | h
      · exact Or.inr ⟨rfl, by exact_mod_cast h.symm⟩
      · exact Or.inl (by exact_mod_cast h)
  · cases u
    · exact Or.inl (by exact_mod_cast of_decide_eq_true h2)
    · rcases eq_or_lt_of_le (of_decide_eq_true h2) with h | h
      · exact Or.inr ⟨rfl, by exact_mod_cast h⟩
      · exact Or.inl (by exact_mod_cast h)

/-- **C86 (the choice of the text is the best one).** At `σ = 7/8` no estimate that `prove_prime_gap2` collects is less than `12/7` for `A`
or less than `24/5` for `A*`, and for all bounds that are at least as large `exponent` is at least `19/15`: with these estimates the
proposition does not give less than `19/15`, whatever bounds are derived from them at the single points. -/
theorem C86_optimal (isConstant : Expr ℝ → Bool) (realRoots : Expr ℝ → List ℝ) (hr : RootsSpec isConstant realRoots) (hcs : ConstSpec isConstant)
    (isZero : Expr ℝ → Bool) (hz : ZeroSpec isZero) :
    ∃ zd ze, gapZD (bourgainEpToZd isConstant realRoots isZero bourgainPairs) = .ok zd ∧ gapEnergy = .ok ze ∧
      ∀ a b : ℝ, (∃ p ∈ zd, p.dom.contains (7 / 8) = true ∧ p.fn (7 / 8) ≤ a) → (∃ q ∈ ze, q.dom.contains (7 / 8) = true ∧ q.fn (7 / 8) ≤ b) →
        19 / 15 ≤ exponent a b (7 / 8) := by
  obtain ⟨sol, h1, h2⟩ := bourgain_sol isConstant realRoots hr hcs isZero hz
  obtain ⟨es, ns, zd, h3, h4, h5, -, h7⟩ := gapZD_spec h2
  refine ⟨zd, energyFns, by rw [h1]; exact h5, gapEnergy_eq, ?_⟩
  have e78 : ((7 / 8 : ℚ) : ℝ) = 7 / 8 := by push_cast; rfl
  have hzd : ∀ p ∈ zd, p.dom.contains (7 / 8) = true → 12 / 7 ≤ p.fn (7 / 8) := by
    intro p hp hc
    rcases (h7 p).mp hp with ⟨e, he | he, f, hf, rfl⟩ | ⟨s, hs, rfl⟩
    · obtain ⟨es', k1, k2⟩ := LitZD.C77_best
      rw [h3] at k1
      obtain rfl := Except.ok.inj k1
      simp only at hc ⊢
      rw [← e78] at hc
      have hb := LitZD.Best.row (s := 7 / 8) (⟨3, 10, -7⟩, 7 / 8, 279 / 314, true) (by decide +kernel) (by norm_num) (by norm_num)
      have := k2 _ _ hb e he _ (hf.at (real_contains hc))
      simp only [LF.val] at this
      rw [e78] at this
      refine le_trans (le_of_eq ?_) this
      norm_num
    · rw [newZD_eq] at h4
      obtain rfl := Except.ok.inj h4
      simp only at hc ⊢
      rw [← e78] at hc
      have hc := real_contains hc
      simp only [List.mem_cons, List.not_mem_nil, or_false] at he
      rcases he with rfl | rfl | rfl | rfl | rfl
      · exact absurd hc (by decide +kernel)
      · exact absurd hc (by decide +kernel)
      · rw [reads_unique hf (readLF_reads (g := ⟨3, 10, -7⟩) (by decide +kernel)), LF.val]
        norm_num
      · exact absurd hc (by decide +kernel)
      · exact absurd hc (by decide +kernel)
    · obtain ⟨sol', k1, k2⟩ := PairZD.C80_table isConstant realRoots hr hcs isZero hz
      rw [h1] at k1
      obtain rfl := Except.ok.inj k1
      obtain ⟨t, ht, -, t2, t3⟩ := k2 ⟨11, 48, 36, 3 / 4, 14 / 15⟩ (List.mem_of_getElem? (i := 0) rfl) (7 / 8) (by norm_num) (by norm_num) (by norm_num)
      show _ ≤ s.fn.at (7 / 8)
      rw [t2 s hs hc, t3]
      norm_num
  have hze : ∀ q ∈ energyFns, q.dom.contains (7 / 8) = true → 24 / 5 ≤ q.fn (7 / 8) := by
    obtain ⟨d1, d2, d3, d4⟩ := dec_bounds
    intro q hq hc
    have := contains_closed hc
    simp only [energyFns, List.mem_cons, List.not_mem_nil, or_false] at hq
    rcases hq with rfl | rfl | rfl | rfl | rfl | rfl | rfl | rfl <;> simp only at this
    · linarith
    · linarith
    · norm_num
    · linarith
    · linarith
    · linarith
    · linarith
    · linarith
  rintro a b ⟨p, hp, c1, c2⟩ ⟨q, hq, c3, c4⟩
  have ha := (hzd p hp c1).trans c2
  have hb := (hze q hq c3).trans c4
  refine le_trans ?_ (le_max_right _ _)
  have : -(7 / 30) ≤ (b * (1 - 7 / 8) - 1) / a := by
    rw [le_div_iff₀ (by linarith)]
    linarith
  linarith

/-! ### The other bounds of the proposition -/

/-- **C86 (the corollary).** On the Lindelöf hypothesis the bounds `A = 2`, `B = 8 - 4σ` for `σ ≤ 3/4` and `A = ε`, `B = 3ε` for `σ > 3/4`, with a
small `ε > 0`, give `7/6` (with equality at `3/4`); on the Riemann hypothesis the bounds `A = 2`, `B = 6` at `1/2` and `A = ε`, `B = 3ε`
for `σ > 1/2` give 1. (The text takes `B = A = ε`; see `C86_corollary_counterexample`.) -/
theorem C86_corollary (ε : ℝ) (h0 : 0 < ε) (h1 : ε ≤ 1 / 5) :
    (∀ s : ℝ, 1 / 2 ≤ s → s ≤ 1 → exponent (if s ≤ 3 / 4 then 2 else ε) (if s ≤ 3 / 4 then 8 - 4 * s else 3 * ε) s ≤ 7 / 6) ∧
    exponent 2 (8 - 4 * (3 / 4)) (3 / 4) = 7 / 6 ∧
    (∀ s : ℝ, 1 / 2 ≤ s → s ≤ 1 → exponent (if s = 1 / 2 then 2 else ε) (if s = 1 / 2 then 6 else 3 * ε) s ≤ 1) ∧ (2 : ℝ) - 2 / 2 = 1 := by
  have small : ∀ s : ℝ, 1 / 2 ≤ s → s ≤ 1 → exponent ε (3 * ε) s ≤ 1 := by
    intro s l u
    refine exponent_le (n := 3 * ε * (1 - s) - 1) (m := 2 * ε) h0 rfl (by ring) (by linarith) ?_ ?_
    · nlinarith
    · nlinarith
  refine ⟨fun s l u => ?_, by norm_num [exponent], fun s l u => ?_, by norm_num⟩
  · split_ifs with c
    · refine exponent_le (n := 7 - 12 * s + 4 * s ^ 2) (m := 6 - 4 * s) (by norm_num) (by ring) (by ring) (by linarith) ?_ ?_
      · nlinarith [mul_nonneg (sub_nonneg.mpr c) (by linarith : 0 ≤ 5 / 6 - s)]
      · nlinarith
    · exact (small s l u).trans (by norm_num)
  · split_ifs with c
    · subst c
      norm_num [exponent]
    · exact small s l u

example : (0 : ℝ) < 1 / 10 ∧ (1 / 10 : ℝ) ≤ 1 / 5 := by norm_num

/-- **C86 (the proof of the corollary).** The text takes `A(σ) = B(σ) = ε`. Then the denominator of `α(σ)` vanishes, and the
code raises `TypeError` at every such point. -/
theorem C86_corollary_counterexample (ε s : ℝ) : (fun _ => ε : ℝ → ℝ) s - (fun _ => ε : ℝ → ℝ) s = 0 ∧
    alphaAt (fun _ => ε) (fun _ => ε) s = .error .typeError := by
  constructor
  · simp
  · simp [alphaAt]

end PrimeGap
end Expdb
