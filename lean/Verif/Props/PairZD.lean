import Verif.Model.BourgainZD
import Verif.Props.LiteratureZD
import Verif.Props.RationalOps

/-!
# Zero density estimates from exponent pairs (C79, C80)
-/

namespace Expdb
namespace PairZD
open Printing (Str)
open Formula (lex Tok lex_natChars parse)
open LitZD (gzdLimit)

/-! ## C79: `ivic_ep_to_zd` -/

/-- The range of exponent pairs. -/
def Adm (p : ℚ × ℚ) : Prop := 0 ≤ p.1 ∧ p.1 ≤ 1 / 2 ∧ 1 / 2 ≤ p.2 ∧ p.2 ≤ 1

/-- The number that the code minimises. -/
def vOf (m : ℚ) (p : ℚ × ℚ) : ℚ :=
  (3 * m ^ 2 * (1 + 2 * p.1 + 2 * p.2) - (4 * p.1 + 2 * p.2) * m + 2 * p.1 + 2 * p.2) /
    (4 * m ^ 2 * (1 + 2 * p.1 + 2 * p.2) - (6 * p.1 + 4 * p.2) * m + 2 * p.1 + 2 * p.2)

theorem vDen_pos {m : ℚ} (hm : 1 ≤ m) {p : ℚ × ℚ} (hp : Adm p) :
    0 < 4 * m ^ 2 * (1 + 2 * p.1 + 2 * p.2) - (6 * p.1 + 4 * p.2) * m + 2 * p.1 + 2 * p.2 := by
  obtain ⟨h1, h2, h3, h4⟩ := hp
  have a : (6 * p.1 + 4 * p.2) * m ≤ (6 * p.1 + 4 * p.2) * m ^ 2 := by
    apply mul_le_mul_of_nonneg_left _ (by linarith)
    nlinarith
  have b : 0 < m ^ 2 := by positivity
  nlinarith [mul_pos b (by linarith : (0 : ℚ) < 4 + 2 * p.1 + 4 * p.2)]

theorem ivicV_eq {m : ℚ} (hm : 1 ≤ m) {p : ℚ × ℚ} (hp : Adm p) : ivicV m p.1 p.2 = .ok (vOf m p) ∧ vOf m p < 1 := by
  have h := vDen_pos hm hp
  have e : 4 * m * m * (1 + 2 * p.1 + 2 * p.2) - (6 * p.1 + 4 * p.2) * m + 2 * p.1 + 2 * p.2 =
      4 * m ^ 2 * (1 + 2 * p.1 + 2 * p.2) - (6 * p.1 + 4 * p.2) * m + 2 * p.1 + 2 * p.2 := by ring
  have e' : 3 * m * m * (1 + 2 * p.1 + 2 * p.2) = 3 * m ^ 2 * (1 + 2 * p.1 + 2 * p.2) := by ring
  constructor
  · rw [ivicV, e, if_neg h.ne', e']
    rfl
  · rw [vOf, div_lt_one h]
    obtain ⟨h1, h2, h3, h4⟩ := hp
    have : (2 * p.1 + 2 * p.2) * m < m ^ 2 * (1 + 2 * p.1 + 2 * p.2) := by
      have b : 0 < m ^ 2 := by positivity
      have : (2 * p.1 + 2 * p.2) * m ≤ (2 * p.1 + 2 * p.2) * m ^ 2 := by
        apply mul_le_mul_of_nonneg_left _ (by linarith)
        nlinarith
      nlinarith
    linarith

theorem ivicLoop_spec {m : ℚ} (hm : 1 ≤ m) : ∀ (ps : List (ℚ × ℚ)) (s : ℚ) (d : Option (ℚ × ℚ)), (∀ p ∈ ps, Adm p) →
    ∃ s' d', ivicLoop m ps s d = .ok (s', d') ∧ s' ≤ s ∧ (∀ p ∈ ps, s' ≤ vOf m p) ∧
      ((s' = s ∧ d' = d) ∨ ∃ p ∈ ps, d' = some p ∧ s' = vOf m p) := by
  intro ps
  induction ps with
  | nil => intro s d _; exact ⟨s, d, rfl, le_rfl, by simp, Or.inl ⟨rfl, rfl⟩⟩
  | cons p ps ih =>
    intro s d h
    have hp := (ivicV_eq hm (h p (by simp))).1
    simp only [ivicLoop, hp, bind, Except.bind]
    split_ifs with hlt
    · obtain ⟨s', d', h1, h2, h3, h4⟩ := ih (vOf m p) (some p) (fun q hq => h q (by simp [hq]))
      refine ⟨s', d', h1, h2.trans hlt.le, ?_, Or.inr ?_⟩
      · intro q hq
        rcases List.mem_cons.mp hq with rfl | hq
        · exact h2
        · exact h3 q hq
      · rcases h4 with ⟨rfl, rfl⟩ | ⟨q, hq, h5, h6⟩
        · exact ⟨p, by simp, rfl, rfl⟩
        · exact ⟨q, by simp [hq], h5, h6⟩
    · obtain ⟨s', d', h1, h2, h3, h4⟩ := ih s d (fun q hq => h q (by simp [hq]))
      refine ⟨s', d', h1, h2, ?_, ?_⟩
      · intro q hq
        rcases List.mem_cons.mp hq with rfl | hq
        · exact h2.trans (not_lt.mp hlt)
        · exact h3 q hq
      · rcases h4 with h4 | ⟨q, hq, h5⟩
        · exact Or.inl h4
        · exact Or.inr ⟨q, by simp [hq], h5⟩

theorem first_le_one (m : ℕ) : (6 * (m : ℚ) * m - 5 * m + 2) / (8 * m * m - 7 * m + 2) ≤ 1 := by
  have h : (0 : ℚ) < 8 * m * m - 7 * m + 2 := by nlinarith [sq_nonneg ((m : ℚ) - 7 / 16)]
  rw [div_le_one h]
  have : (m : ℚ) ≤ m * m := by
    have : m ≤ m * m := Nat.le_mul_self m
    exact_mod_cast this
  linarith

theorem gzdLimit_eq (m : ℚ) (p : ℚ × ℚ) : gzdLimit m p.1 p.2 =
    min (max (vOf m p) ((9 * m * m - 4 * m + 2) / (12 * m * m - 6 * m + 2))) ((6 * m * m - 5 * m + 2) / (8 * m * m - 7 * m + 2)) := by
  rw [gzdLimit, vOf, min_comm, max_comm]
  congr 2 <;> ring

/-- **C79 (range).** For exponent pairs and `m ≥ 1` the function succeeds. The range starts at the least of the limits that the
published lemma gives for the pairs of the list, and the pair named as the dependency is one that gives this limit. -/
theorem C79_range (pairs : List (ℚ × ℚ)) (hne : pairs ≠ []) (hadm : ∀ p ∈ pairs, Adm p) (m : ℕ) (hm : 1 ≤ m) :
    ∃ e d, ivicEpToZd pairs m = .ok (e, d) ∧ d ∈ pairs ∧ e.dom = ⟨gzdLimit m d.1 d.2, 1, true, false⟩ ∧
      ∀ p ∈ pairs, gzdLimit m d.1 d.2 ≤ gzdLimit m p.1 p.2 := by
  have hm' : (1 : ℚ) ≤ m := by exact_mod_cast hm
  obtain ⟨s, d, h1, h2, h3, h4⟩ := ivicLoop_spec hm' pairs 1 none hadm
  have h5 : ∃ p ∈ pairs, d = some p ∧ s = vOf m p := by
    rcases h4 with ⟨rfl, _⟩ | h4
    · obtain ⟨p, ps, rfl⟩ := List.exists_cons_of_ne_nil hne
      exact absurd (h3 p (by simp)) (not_le.mpr (ivicV_eq hm' (hadm p (by simp))).2)
    · exact h4
  obtain ⟨p, hp, rfl, rfl⟩ := h5
  have hI : ¬ (min (max (vOf m p) ((9 * (m : ℚ) * m - 4 * m + 2) / (12 * m * m - 6 * m + 2)))
      ((6 * (m : ℚ) * m - 5 * m + 2) / (8 * m * m - 7 * m + 2)) - 1 > 0) := by
    have := (min_le_right (max (vOf m p) ((9 * (m : ℚ) * m - 4 * m + 2) / (12 * m * m - 6 * m + 2))) _).trans (first_le_one m)
    simp only [gt_iff_lt, not_lt]; linarith
  refine ⟨⟨ivicText m, ⟨gzdLimit m p.1 p.2, 1, true, false⟩⟩, p, ?_, hp, rfl, ?_⟩
  · simp only [ivicEpToZd, h1, bind, Except.bind, LitZD.entry, LitZD.itvl, Interval.make, if_neg hI, gzdLimit_eq]
    rfl
  · intro q hq
    rw [gzdLimit_eq, gzdLimit_eq]
    exact min_le_min (max_le_max (h3 q hq) le_rfl) le_rfl

/-- Non-vacuity: the pair (97/251, 132/251) gives the range of the literature, `[3831/4791, 1)`, and is preferred to (1/6, 2/3). -/
example : (∀ p ∈ [(1 / 6, 2 / 3), (97 / 251, 132 / 251)], Adm p) ∧
    (ivicEpToZd [(1 / 6, 2 / 3), (97 / 251, 132 / 251)] 2).toOption.map (fun r => (r.1.dom, r.2)) =
      some (⟨3831 / 4791, 1, true, false⟩, (97 / 251, 132 / 251)) := by
  constructor
  · unfold Adm; decide +kernel
  · decide +kernel

/-- **C79 (no pairs).** For an empty list `dep` stays `None` and `dep.data` raises an `AttributeError`. -/
theorem C79_empty (m : ℕ) : ivicEpToZd [] m = .error .attributeError := by
  have hI : ¬ (min (max 1 ((9 * (m : ℚ) * m - 4 * m + 2) / (12 * m * m - 6 * m + 2)))
      ((6 * (m : ℚ) * m - 5 * m + 2) / (8 * m * m - 7 * m + 2)) - 1 > 0) := by
    have := (min_le_right (max 1 ((9 * (m : ℚ) * m - 4 * m + 2) / (12 * m * m - 6 * m + 2))) _).trans (first_le_one m)
    simp only [gt_iff_lt, not_lt]; linarith
  simp only [ivicEpToZd, ivicLoop, bind, Except.bind, LitZD.entry, LitZD.itvl, Interval.make, if_neg hI]
  rfl

theorem lex_num_x (n : ℕ) (r : Str) (f : ℕ) : lex f (natChars n ++ 'x' :: r) = none := by
  cases f with
  | zero =>
    obtain ⟨c, cs, hc⟩ := List.exists_cons_of_ne_nil (natChars_ne_nil n)
    rw [hc]; rfl
  | succ f =>
    rw [lex_natChars f n _ (by rintro c cs h; cases h; decide)]
    rfl

theorem lex_fail {s : Str} (h : ∀ f, lex f s = none) (c : Char) (hc : c = '/' ∨ c = '(' ∨ c = '-') (f : ℕ) : lex f (c :: s) = none := by
  cases f with
  | zero => rfl
  | succ f => rcases hc with rfl | rfl | rfl <;>
      simp [lex, h, show digitVal? '/' = none by decide, show digitVal? '(' = none by decide, show digitVal? '-' = none by decide]

theorem lex_num_fail {c : Char} {s : Str} (h : ∀ f, lex f (c :: s) = none) (hc : digitVal? c = none ∧ c ≠ '.') (n f : ℕ) :
    lex f (natChars n ++ c :: s) = none := by
  cases f with
  | zero =>
    obtain ⟨c, cs, hc⟩ := List.exists_cons_of_ne_nil (natChars_ne_nil n)
    rw [hc]; rfl
  | succ f =>
    rw [lex_natChars f n _ (by rintro c cs h; cases h; exact hc), h]
    split <;> rfl

theorem parse_ivicText (m : ℕ) : parse (ivicText m) = .error .valueError := by
  have h : ∀ f, lex f (ivicText m) = none := by
    intro f
    have e1 : intChars (3 * (m : ℤ)) = natChars (3 * m) := by
      rw [intChars, if_neg (by omega)]; rfl
    have tail : ∀ r : Str, ∀ f, lex f (intChars (3 * (m : ℤ) - 2) ++ 'x' :: r) = none := by
      intro r f
      rcases Nat.eq_zero_or_pos m with rfl | hm
      · have : intChars (3 * ((0 : ℕ) : ℤ) - 2) = '-' :: natChars 2 := by rw [intChars, if_pos (by norm_num)]; rfl
        rw [this]
        exact lex_fail (lex_num_x 2 r) '-' (by simp) f
      · have : intChars (3 * (m : ℤ) - 2) = natChars (3 * m - 2) := by
          rw [intChars, if_neg (by omega)]; congr 1; omega
        rw [this]
        exact lex_num_x _ r f
    rw [ivicText, e1]
    exact lex_num_fail (lex_fail (lex_fail (tail _) '(' (by simp)) '/' (by simp)) (by decide) _ f
  rw [parse, h]

/-- Finding: the string of `ivic_ep_to_zd` (zero_density_estimate.py:555) has no multiplication sign (`4x`), so that it cannot be
parsed, whatever `m` is: the estimate returned has no value at any point of its interval. -/
theorem C79_text_counterexample (pairs : List (ℚ × ℚ)) (m : ℕ) (e : LitZD.Entry) (d : ℚ × ℚ) (h : ivicEpToZd pairs m = .ok (e, d)) (s : ℚ) :
    e.at s = .error .valueError := by
  have : e.expr = ivicText m := by
    simp only [ivicEpToZd, LitZD.entry, bind, Except.bind] at h
    split at h
    · cases h
    · split at h
      · cases h
      · rename_i e' he
        split at h
        · cases h
        · cases h
          split at he
          · cases he
          · cases he; rfl
  simp only [LitZD.Entry.at, this, parse_ivicText]
  cases e.dom.contains s <;> rfl

/-- Non-vacuity: the interval contains 9/10. -/
example : ∃ e d, ivicEpToZd [(97 / 251, 132 / 251)] 2 = .ok (e, d) ∧ e.dom.contains (9 / 10) = true := by
  obtain ⟨e, d, h1, h2, h3, -⟩ := C79_range [(97 / 251, 132 / 251)] (by simp) (by unfold Adm; decide +kernel) 2 (by norm_num)
  simp only [List.mem_singleton] at h2
  subst h2
  exact ⟨e, _, h1, by rw [h3]; decide +kernel⟩

end PairZD
end Expdb
