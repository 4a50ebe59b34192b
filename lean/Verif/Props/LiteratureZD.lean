import Verif.Model.LiteratureZD
import Verif.Lemmas.LinFrac
import Verif.Props.Interval
import Mathlib.Analysis.Real.Sqrt

/-!
# The zero density estimates of `literature.py` and the published theorems

The comparison is with the statements of the blueprint chapter `zero_density.tex`. An entry `e` claims the bound `v` at `s` if
`e.at s = .ok v`. The published statements are restated here with real numbers and without the code's strings.
-/

namespace Expdb
namespace LitZD
open Printing (Str)
open Formula (LF Fml parse readLF lex lex_mono lex_natChars Tok parseAux leOn leOn_pos lin_pos lin_nonneg)

/-- The string is a formula for the function `f`. -/
def Reads (s : Str) (f : ℝ → ℝ) : Prop := ∃ g, parse s = .ok g ∧ ∀ t, g.eval t = f t

theorem Reads.at {e : Entry} {f : ℝ → ℝ} (h : Reads e.expr f) {s : ℚ} (hs : e.dom.contains s = true) : e.at s = .ok (f s) := by
  obtain ⟨g, h1, h2⟩ := h
  simp only [Entry.at, hs, h1]
  show Except.ok (g.eval (s : ℝ)) = _
  rw [h2]

theorem Reads.of_at {e : Entry} {f : ℝ → ℝ} (h : Reads e.expr f) {s : ℚ} {v : ℝ} (hv : e.at s = .ok v) : e.dom.contains s = true ∧ v = f s := by
  by_cases hs : e.dom.contains s = true
  · rw [h.at hs] at hv
    exact ⟨hs, (Except.ok.inj hv).symm⟩
  · simp only [Entry.at, hs] at hv
    cases hv

theorem readLF_reads {s : Str} {g : LF} (h : readLF s = some g) : Reads s g.val := Formula.readLF_sound s g h

/-- Membership in an interval that is closed on the left and open on the right. -/
theorem half_open {a b s : ℚ} : Interval.contains ⟨a, b, true, false⟩ s = true ↔ a ≤ s ∧ s < b := by
  simp [Interval.contains]

theorem cast_le' {a s : ℚ} {x : ℝ} (h : a ≤ s) (hx : (a : ℝ) = x := by norm_num) : x ≤ (s : ℝ) := by
  rw [← hx]; exact_mod_cast h

theorem cast_lt' {a s : ℚ} {x : ℝ} (h : s < a) (hx : (a : ℝ) = x := by norm_num) : (s : ℝ) < x := by
  rw [← hx]; exact_mod_cast h

/-! ## The loops -/

theorem gap {k : ℕ} (hk : 3 ≤ k) : (0 : ℚ) < 8 * (k : ℚ) ^ 2 - 7 * k + 2 ∧ (0 : ℚ) < 12 * (k : ℚ) ^ 2 - 6 * k + 2 := by
  have : (3 : ℚ) ≤ k := by exact_mod_cast hk
  constructor <;> nlinarith

/-- The lower limit is the first of the two fractions, for every `k`. -/
theorem ivicLower_eq {k : ℕ} (hk : 3 ≤ k) : ivicLower k = (6 * (k : ℚ) ^ 2 - 5 * k + 2) / (8 * (k : ℚ) ^ 2 - 7 * k + 2) := by
  unfold ivicLower
  split_ifs with h
  · subst h; norm_num
  · obtain ⟨h1, h2⟩ := gap hk
    apply min_eq_left
    rw [div_le_div_iff₀ h1 h2]
    have : (4 : ℚ) ≤ k := by exact_mod_cast (by omega : 4 ≤ k)
    nlinarith [mul_nonneg (sq_nonneg (k : ℚ)) (sub_nonneg.mpr this)]

theorem ivicLower_le {k : ℕ} (hk : 3 ≤ k) : ivicLower k ≤ 41 / 53 := by
  rw [ivicLower_eq hk, div_le_div_iff₀ (gap hk).1 (by norm_num)]
  have : (3 : ℚ) ≤ k := by exact_mod_cast hk
  nlinarith

theorem ivicLower_ge {k : ℕ} (hk : 3 ≤ k) : 3 / 4 ≤ ivicLower k := by
  rw [ivicLower_eq hk, div_le_div_iff₀ (by norm_num) (gap hk).1]
  have : (3 : ℚ) ≤ k := by exact_mod_cast hk
  nlinarith

theorem ivicLoop_eq (ks : List ℕ) (h : ∀ k ∈ ks, 3 ≤ k) :
    ivicLoop ks = ks.map (fun k : ℕ => (.ok ⟨ivicExpr k, ⟨ivicLower k, 1, true, false⟩⟩ : Py Entry)) := by
  induction ks with
  | nil => rfl
  | cons k ks ih =>
    have hk := ivicLower_le (h k (by simp))
    have h1 : ¬ ivicLower k > sigmaLimit := by
      simp only [sigmaLimit, not_lt]; linarith
    have h2 : ¬ ivicLower k - 1 > 0 := by
      simp only [gt_iff_lt, not_lt]; linarith
    simp only [ivicLoop, if_neg h1, List.map_cons, ih (fun k hk => h k (by simp [hk])), itvl, Interval.make, if_neg h2]
    rfl

theorem pintzLower_lt {k : ℕ} (hk : 2 ≤ k) : pintzLower k < pintzUpper k ∧ pintzUpper k < 1 := by
  have : (2 : ℚ) ≤ k := by exact_mod_cast hk
  simp only [pintzLower, pintzUpper]
  have h1 : (0 : ℚ) < 2 * k * (k - 1) := by nlinarith
  have h2 : (0 : ℚ) < 2 * k * (k + 1) := by nlinarith
  have : (1 : ℚ) / (2 * k * (k + 1)) < 1 / (2 * k * (k - 1)) := by
    apply one_div_lt_one_div_of_lt h1; nlinarith
  have : (0 : ℚ) < 1 / (2 * k * (k + 1)) := by positivity
  constructor <;> linarith

theorem pintzLoop_eq (ks : List ℕ) (j : ℕ) (js : List ℕ) (h : ∀ k ∈ ks, 2 ≤ k ∧ pintzLower k ≤ sigmaLimit) (hj : sigmaLimit < pintzLower j) :
    pintzLoop (ks ++ j :: js) = ks.map (fun k : ℕ => (.ok ⟨pintzExpr k, ⟨pintzLower k, pintzUpper k, true, false⟩⟩ : Py Entry)) := by
  induction ks with
  | nil => simp [pintzLoop, hj]
  | cons k ks ih =>
    have hk := h k (by simp)
    have h2 : ¬ pintzLower k - pintzUpper k > 0 := by
      have := (pintzLower_lt hk.1).1
      simp only [gt_iff_lt, not_lt]; linarith
    simp only [List.cons_append, pintzLoop, if_neg (not_lt.mpr hk.2), List.map_cons, ih (fun k hk => h k (by simp [hk])), itvl, Interval.make, if_neg h2]
    rfl

/-- The entry that the first loop makes for `k`. -/
def ivicEntry (k : ℕ) : Entry := ⟨ivicExpr k, ⟨ivicLower k, 1, true, false⟩⟩

/-- The entry that the second loop makes for `k`. -/
def pintzEntry (k : ℕ) : Entry := ⟨pintzExpr k, ⟨pintzLower k, pintzUpper k, true, false⟩⟩

theorem ivic1984_eq : ivic1984 = (List.range' 3 97).map (fun k : ℕ => (.ok (ivicEntry k) : Py Entry)) :=
  ivicLoop_eq _ (fun _ hk => (List.mem_range'_1.mp hk).1)

theorem pintz2023_eq : pintz2023 = (List.range' 6 17).map (fun k : ℕ => (.ok (pintzEntry k) : Py Entry)) := by
  have h : List.range' 6 94 = List.range' 6 17 ++ 23 :: List.range' 24 76 := by decide +kernel
  rw [pintz2023, h]
  apply pintzLoop_eq
  · decide +kernel
  · decide +kernel

theorem seq_ok (ps : List (Py Entry)) (h : ∀ p ∈ ps, ∃ e, p = .ok e) :
    ∃ es, seq ps = .ok es ∧ ∀ e, e ∈ es ↔ (.ok e : Py Entry) ∈ ps := by
  induction ps with
  | nil => exact ⟨[], rfl, by simp⟩
  | cons p ps ih =>
    obtain ⟨e, rfl⟩ := h p (by simp)
    obtain ⟨es, h1, h2⟩ := ih (fun p hp => h p (by simp [hp]))
    refine ⟨e :: es, by simp only [seq, h1]; rfl, ?_⟩
    intro e'
    simp only [List.mem_cons, h2, Except.ok.injEq]

/-- The entries that are written out, without those of the two loops. -/
def fixedOk (p : Py Entry) : Bool := match p with
  | .ok _ => true
  | .error _ => false

theorem fixed_ok : ∀ p ∈ before ++ middle ++ after, ∃ e, p = .ok e := by
  have h : ∀ p ∈ before ++ middle ++ after, fixedOk p = true := by decide +kernel
  intro p hp
  have := h p hp
  cases p with
  | ok e => exact ⟨e, rfl⟩
  | error e => cases this

/-- **C76 (the list).** All calls succeed. The entries are the ones that are written out, one for each `k` from 3 to 99 from the
first loop, and one for each `k` from 6 to 22 from the second loop. The first loop never reaches its `break`; the second one stops
at `k = 23`. -/
theorem C76_entries : ∃ es, all = .ok es ∧ ∀ e, e ∈ es ↔
    (.ok e : Py Entry) ∈ before ++ middle ++ after ∨ (∃ k, 3 ≤ k ∧ k < 100 ∧ e = ivicEntry k) ∨ (∃ k, 6 ≤ k ∧ k ≤ 22 ∧ e = pintzEntry k) := by
  obtain ⟨es, h1, h2⟩ := seq_ok (before ++ ivic1984 ++ middle ++ pintz2023 ++ after) (by
    intro p hp
    rw [ivic1984_eq, pintz2023_eq] at hp
    simp only [List.mem_append, List.mem_map] at hp
    rcases hp with (((h | ⟨_, _, rfl⟩) | h) | ⟨_, _, rfl⟩) | h
    · exact fixed_ok p (by simp [h])
    · exact ⟨_, rfl⟩
    · exact fixed_ok p (by simp [h])
    · exact ⟨_, rfl⟩
    · exact fixed_ok p (by simp [h]))
  refine ⟨es, h1, fun e => ?_⟩
  rw [h2, ivic1984_eq, pintz2023_eq]
  simp only [List.mem_append, List.mem_map, List.mem_range'_1, Except.ok.injEq]
  constructor
  · rintro ((((h | ⟨k, hk, rfl⟩) | h) | ⟨k, hk, rfl⟩) | h)
    · exact Or.inl (Or.inl (Or.inl h))
    · exact Or.inr (Or.inl ⟨k, hk.1, by omega, rfl⟩)
    · exact Or.inl (Or.inl (Or.inr h))
    · exact Or.inr (Or.inr ⟨k, hk.1, by omega, rfl⟩)
    · exact Or.inl (Or.inr h)
  · rintro (((h | h) | h) | ⟨k, h3, h4, rfl⟩ | ⟨k, h3, h4, rfl⟩)
    · exact Or.inl (Or.inl (Or.inl (Or.inl h)))
    · exact Or.inl (Or.inl (Or.inr h))
    · exact Or.inr h
    · exact Or.inl (Or.inl (Or.inl (Or.inr ⟨k, ⟨h3, by omega⟩, rfl⟩)))
    · exact Or.inl (Or.inr ⟨k, ⟨h3, by omega⟩, rfl⟩)

example : ivicEntry 99 ∈ (all.toOption.getD []) := by
  obtain ⟨es, h1, h2⟩ := C76_entries
  rw [h1]
  exact (h2 _).mpr (Or.inr (Or.inl ⟨99, by norm_num, by norm_num, rfl⟩))

/-! ## The two families of strings -/

theorem lex_lift {n : ℕ} {s : Str} {ts : List Tok} (h : lex n s = some ts) (hn : n ≤ s.length) : lex s.length s = some ts :=
  lex_mono n s.length s ts h hn

theorem natChars_pos (n : ℕ) : 1 ≤ (natChars n).length := List.length_pos_iff.mpr (natChars_ne_nil n)

/-- One step of the tokenizer on a printed number. -/
theorem lex_num {f : ℕ} (n : ℕ) {c : Char} {r : Str} {ts : List Tok} (h : lex f (c :: r) = some ts)
    (hc : (digitVal? c).isNone && c != '.' && !Formula.isName c := by decide) : lex (f + 1) (natChars n ++ c :: r) = some (.num n :: ts) := by
  simp only [Bool.and_eq_true, Option.isNone_iff_eq_none, bne_iff_ne, ne_eq, Bool.not_eq_true'] at hc
  rw [lex_natChars f n _ (by rintro c' cs' h'; cases h'; exact hc.1), h]
  simp [hc.2]

/-- One step of the tokenizer on a digit. -/
theorem lex_digit {f : ℕ} (n : ℕ) {d c : Char} {r : Str} {ts : List Tok} (h : lex f (c :: r) = some ts) (hd : digitVal? d = some n := by decide)
    (hc : (digitVal? c).isNone && c != '.' && !Formula.isName c := by decide) : lex (f + 1) (d :: c :: r) = some (.num n :: ts) := by
  simp only [Bool.and_eq_true, Option.isNone_iff_eq_none, bne_iff_ne, ne_eq, Bool.not_eq_true'] at hc
  have : Formula.lexNum n (c :: r) = ((n : ℚ), c :: r) := by
    simp only [Formula.lexNum, readDigits, hc.1.1]
    split
    · rename_i heq
      simp only [Prod.mk.injEq, List.cons.injEq] at heq
      exact absurd heq.2.2.1 hc.1.2
    · rename_i heq
      simp only [Prod.mk.injEq] at heq
      obtain ⟨rfl, _, rfl⟩ := heq
      rfl
  simp [lex, hd, this, hc.2, h]

/-- One step of the tokenizer on a blank. -/
theorem lex_blank {f : ℕ} {r : Str} {ts : List Tok} (h : lex f r = some ts) : lex (f + 1) (' ' :: r) = some ts := by
  simp [lex, show digitVal? ' ' = none by decide, h]

/-- The token of a single character. -/
def single (c : Char) : Option Tok :=
  if c = '+' then some .plus else if c = '-' then some .minus else if c = '/' then some .over else if c = '(' then some .lp
  else if c = ')' then some .rp else none

/-- One step of the tokenizer on such a character. -/
theorem lex_single {f : ℕ} {c : Char} {r : Str} {ts : List Tok} (T : Tok) (h : lex f r = some ts) (hc : single c = some T := by decide) :
    lex (f + 1) (c :: r) = some (T :: ts) := by
  simp only [single] at hc
  split_ifs at hc with h1 h2 h3 h4 h5 <;> cases hc <;> subst_vars
  · simp [lex, show digitVal? '+' = none by decide, h]
  · simp [lex, show digitVal? '-' = none by decide, h]
  · simp [lex, show digitVal? '/' = none by decide, h]
  · simp [lex, show digitVal? '(' = none by decide, h]
  · simp [lex, show digitVal? ')' = none by decide, h]

/-- One step of the tokenizer on a product sign. -/
theorem lex_times {f : ℕ} {c : Char} {r : Str} {ts : List Tok} (h : lex f (c :: r) = some ts) (hc : c ≠ '*' := by decide) :
    lex (f + 1) ('*' :: c :: r) = some (.times :: ts) := by
  simp only [lex, show digitVal? '*' = none by decide]
  simp only [beq_iff_eq, Char.reduceEq, if_false, if_true]
  split
  · rename_i heq
    cases heq
    exact absurd rfl hc
  · rw [h]; rfl

/-- One step of the tokenizer on the variable. -/
theorem lex_x {f : ℕ} {c : Char} {r : Str} {ts : List Tok} (h : lex f (c :: r) = some ts) (hc : Formula.isName c = false := by decide) :
    lex (f + 1) ('x' :: c :: r) = some (.x :: ts) := by
  simp [lex, show digitVal? 'x' = none by decide, h, hc]

/-- **C76 (the family of Ivić).** For every `k ≥ 3` the string of the first loop is a formula for `3k / ((3k - 2) t + 2 - k)`. -/
theorem C76_ivic_formula (k : ℕ) (hk : 3 ≤ k) : Reads (ivicExpr k) (fun t => 3 * k / ((3 * k - 2) * t + (2 - k))) := by
  have e1 : intChars (3 * (k : ℤ)) = natChars (3 * k) := by
    rw [intChars, if_neg (by omega)]; rfl
  have e2 : intChars (3 * (k : ℤ) - 2) = natChars (3 * k - 2) := by
    rw [intChars, if_neg (by omega)]; congr 1; omega
  have e3 : intChars (2 - (k : ℤ)) = '-' :: natChars (k - 2) := by
    rw [intChars, if_pos (by omega)]; congr 2; omega
  have hl : lex 14 (ivicExpr k) = some [.num (3 * k : ℕ), .over, .lp, .num (3 * k - 2 : ℕ), .times, .x, .plus, .minus, .num (k - 2 : ℕ), .rp] := by
    simp only [ivicExpr, e1, e2, e3]
    refine lex_num _ (lex_single _ (lex_single _ (lex_num _ ?_)))
    refine lex_blank (lex_times (lex_blank (lex_x (lex_blank (lex_single _ (lex_blank ?_))))))
    refine lex_single _ (lex_num _ (lex_single _ (f := 0) rfl))
  have hlen : 14 ≤ (ivicExpr k).length := by
    simp only [ivicExpr, e1, e2, e3, List.length_append, List.length_cons]
    have := natChars_pos (3 * k)
    have := natChars_pos (3 * k - 2)
    have := natChars_pos (k - 2)
    have : (" * x + ".toList).length = 7 := by decide
    omega
  refine ⟨.div (.num (3 * k : ℕ)) (.add (.mul (.num (3 * k - 2 : ℕ)) .x) (.neg (.num (k - 2 : ℕ)))), ?_, ?_⟩
  · rw [parse, lex_lift hl hlen]
    simp [parseAux]
  · intro t
    simp only [Fml.eval]
    rw [Nat.cast_sub (by omega), Nat.cast_sub (by omega)]
    push_cast
    ring_nf

example : 3 ≤ 17 := by norm_num

/-- **C76 (the family of Pintz).** For every `k ≥ 1` the string of the second loop is a formula for `3 / (k (1 - 2 (k - 1) (1 - t)))`. -/
theorem C76_pintz_formula (k : ℕ) : Reads (pintzExpr k) (fun t => 3 / (k * (1 - 2 * (k - 1) * (1 - t)))) := by
  have hl : lex 37 (pintzExpr k) = some [.num (3 : ℕ), .over, .lp, .num k, .times, .lp, .num (1 : ℕ), .minus, .num (2 : ℕ), .times, .lp, .num k, .minus, .num (1 : ℕ),
      .rp, .times, .lp, .num (1 : ℕ), .minus, .x, .rp, .rp, .rp] := by
    simp only [pintzExpr]
    refine lex_digit 3 (lex_blank (lex_single _ (lex_blank (lex_single _ (lex_num _ ?_)))))
    refine lex_blank (lex_times (lex_blank (lex_single _ (lex_digit 1 (lex_blank (lex_single _ (lex_blank (lex_digit 2 (lex_blank (lex_times (lex_blank (lex_single _ ?_))))))))))))
    refine lex_num _ (lex_blank (lex_single _ (lex_blank (lex_digit 1 (lex_single _ (lex_blank (lex_times (lex_blank (lex_single _ ?_)))))))))
    refine lex_digit 1 (lex_blank (lex_single _ (lex_blank (lex_x (lex_single _ (lex_single _ (lex_single _ (f := 0) rfl)))))))
  have hlen : 37 ≤ (pintzExpr k).length := by
    simp only [pintzExpr, List.length_append]
    have := natChars_pos k
    have : ("3 / (".toList).length = 5 := by decide
    have : (" * (1 - 2 * (".toList).length = 13 := by decide
    have : (" - 1) * (1 - x)))".toList).length = 17 := by decide
    omega
  refine ⟨.div (.num (3 : ℕ)) (.mul (.num k) (.sub (.num (1 : ℕ)) (.mul (.mul (.num (2 : ℕ)) (.sub (.num k) (.num (1 : ℕ)))) (.sub (.num (1 : ℕ)) .x)))), ?_, ?_⟩
  · rw [parse, lex_lift hl hlen]
    simp [parseAux]
  · intro t
    simp only [Fml.eval]
    push_cast
    ring_nf

example : (ivicEntry 7).at (4 / 5) = .ok (105 / 51) := by
  rw [Reads.at (C76_ivic_formula 7 (by norm_num)) (s := 4 / 5) (by decide +kernel)]
  norm_num

example : (pintzEntry 6).at (79 / 80) = .ok (4 / 7) := by
  rw [Reads.at (C76_pintz_formula 6) (s := 79 / 80) (by decide +kernel)]
  norm_num

/-! ## The ranges of the two families -/

/-- The lower limit for `σ` in Lemma gzd (zero_density.tex:614-621), for the exponent pair `(p, q)`. -/
def gzdLimit (m p q : ℚ) : ℚ :=
  min ((6 * m ^ 2 - 5 * m + 2) / (8 * m ^ 2 - 7 * m + 2))
    (max ((9 * m ^ 2 - 4 * m + 2) / (12 * m ^ 2 - 6 * m + 2))
      ((3 * m ^ 2 * (1 + 2 * p + 2 * q) - (4 * p + 2 * q) * m + 2 * p + 2 * q) / (4 * m ^ 2 * (1 + 2 * p + 2 * q) - (6 * p + 4 * q) * m + 2 * p + 2 * q)))

/-- **C76 (range of the family of Ivić).** For every `k ≥ 3` the range of the entry is inside the range that the published lemma gives
with any exponent pair at all; for `k ≥ 4` the two ranges are the same for every exponent pair, so that no better pair can help. -/
theorem C76_ivic_range (k : ℕ) (hk : 3 ≤ k) (p q : ℚ) :
    gzdLimit k p q ≤ ivicLower k ∧ (4 ≤ k → gzdLimit k p q = ivicLower k) := by
  have h0 := ivicLower_eq hk
  refine ⟨by rw [h0]; exact min_le_left _ _, fun h4 => ?_⟩
  rw [h0]
  apply min_eq_left
  apply le_trans _ (le_max_left _ _)
  rw [div_le_div_iff₀ (gap hk).1 (gap hk).2]
  have : (4 : ℚ) ≤ k := by exact_mod_cast h4
  nlinarith [mul_nonneg (sq_nonneg (k : ℚ)) (sub_nonneg.mpr this)]

example : gzdLimit 6 0 1 = 47 / 62 ∧ ivicLower 6 = 47 / 62 := by
  constructor
  · norm_num [gzdLimit]
  · decide +kernel

/-- **C76 (the comment on the range).** The comment at literature.py:1251-1253 says that for every `k > 3` the lower limit is the second
fraction, `(9k² - 4k + 2)/(12k² - 6k + 2)`. For every `k ≥ 5` the code takes the first one, which is strictly smaller; by
`C76_ivic_range` the code is right and the comment is wrong. -/
theorem C76_ivic_comment_counterexample (k : ℕ) (hk : 5 ≤ k) :
    ivicLower k < (9 * (k : ℚ) ^ 2 - 4 * k + 2) / (12 * (k : ℚ) ^ 2 - 6 * k + 2) := by
  rw [ivicLower_eq (by omega), div_lt_div_iff₀ (gap (by omega)).1 (gap (by omega)).2]
  have h5 : (5 : ℚ) ≤ k := by exact_mod_cast hk
  have : (0 : ℚ) < (k : ℚ) ^ 2 := by positivity
  nlinarith [mul_pos this (by linarith : (0 : ℚ) < k - 4)]

example : ivicLower 5 = 127 / 167 := by decide +kernel

/-- The value of the entry of Ivić grows with `k`. -/
theorem ivic_mono {j k : ℕ} (hj : 3 ≤ j) (hjk : j ≤ k) {t : ℝ} (h0 : 3 / 4 ≤ t) (h1 : t ≤ 1) :
    0 < (3 * j - 2) * t + (2 - j) ∧ (3 * j : ℝ) / ((3 * j - 2) * t + (2 - j)) ≤ 3 * k / ((3 * k - 2) * t + (2 - k)) := by
  have a1 : (3 : ℝ) ≤ j := by exact_mod_cast hj
  have a2 : (j : ℝ) ≤ k := by exact_mod_cast hjk
  have b1 : ∀ m : ℝ, 3 ≤ m → 0 < (3 * m - 2) * t + (2 - m) := fun m hm => by nlinarith
  refine ⟨b1 j a1, ?_⟩
  rw [div_le_div_iff₀ (b1 j a1) (b1 k (by linarith))]
  nlinarith [mul_nonneg (sub_nonneg.mpr a2) (sub_nonneg.mpr h1)]

/-- **C76 (the family of Ivić against Huxley).** Every entry of the first loop is at most the bound `3/(3σ - 1)` of Huxley on its range, and
strictly smaller for `σ < 1`. -/
theorem C76_ivic_huxley (k : ℕ) (hk : 3 ≤ k) (s : ℚ) (v : ℝ) (hv : (ivicEntry k).at s = .ok v) : v < 3 / (3 * s - 1) := by
  obtain ⟨h1, rfl⟩ := Reads.of_at (C76_ivic_formula k hk) hv
  simp only [ivicEntry, half_open] at h1
  have r0 : (3 / 4 : ℝ) ≤ s := cast_le' (le_trans (ivicLower_ge hk) h1.1)
  have r1 : (s : ℝ) < 1 := cast_lt' h1.2
  have a1 : (3 : ℝ) ≤ k := by exact_mod_cast hk
  rw [div_lt_div_iff₀ (ivic_mono hk le_rfl r0 r1.le).1 (by linarith)]
  nlinarith

example : ∃ v, (ivicEntry 3).at (4 / 5) = .ok v := ⟨_, Reads.at (C76_ivic_formula 3 (by norm_num)) (by decide +kernel)⟩

/-- The hypotheses of the theorem of Pintz for the integers `k` and `l` (zero_density.tex:680-687), with `η = 1 - σ`. -/
def PintzHyp (k l : ℕ) (η : ℝ) : Prop :=
  4 ≤ k ∧ 3 ≤ l ∧ 1 / ((k : ℝ) * (k + 1)) ≤ η ∧ η < 1 / ((k : ℝ) * (k - 1)) ∧ 1 / (2 * (l : ℝ) * (l + 1)) ≤ η ∧ η < 1 / (2 * (l : ℝ) * (l - 1))

/-- The bound of the theorem of Pintz (zero_density.tex:688-689). -/
noncomputable def pintzBound (k l : ℕ) (η : ℝ) : ℝ := max (3 / (l * (1 - 2 * (l - 1) * η))) (4 / (k * (1 - (k - 1) * η)))

/-- The hypotheses without divisions. -/
theorem PintzHyp.clear {k l : ℕ} {η : ℝ} (h : PintzHyp k l η) :
    1 ≤ η * (k * (k + 1)) ∧ η * (k * (k - 1)) < 1 ∧ 1 ≤ η * (2 * l * (l + 1)) ∧ η * (2 * l * (l - 1)) < 1 := by
  obtain ⟨h1, h2, h3, h4, h5, h6⟩ := h
  have k4 : (4 : ℝ) ≤ k := by exact_mod_cast h1
  have l3 : (3 : ℝ) ≤ l := by exact_mod_cast h2
  refine ⟨(div_le_iff₀ (by nlinarith)).mp h3, (lt_div_iff₀ (by nlinarith)).mp h4, (div_le_iff₀ (by nlinarith)).mp h5, (lt_div_iff₀ (by nlinarith)).mp h6⟩

/-- For `l ≥ 6` the first term of the bound is the larger one. -/
theorem pintz_first {k l : ℕ} {η : ℝ} (h : PintzHyp k l η) (h6 : 6 ≤ l) :
    0 < l * (1 - 2 * (l - 1) * η) ∧ 0 < k * (1 - (k - 1) * η) ∧ pintzBound k l η = 3 / (l * (1 - 2 * (l - 1) * η)) := by
  obtain ⟨e1, e2, e3, e4⟩ := h.clear
  obtain ⟨k4, l3, -⟩ := h
  have l6 : (6 : ℝ) ≤ l := by exact_mod_cast h6
  have k4' : (4 : ℝ) ≤ k := by exact_mod_cast k4
  have p1 : 0 < l * (1 - 2 * (l - 1) * η) := by nlinarith
  have p2 : 0 < k * (1 - (k - 1) * η) := by nlinarith
  refine ⟨p1, p2, ?_⟩
  apply max_eq_left
  rw [div_le_div_iff₀ p2 p1]
  have hη : 0 < η := by
    by_contra hn
    push Not at hn
    nlinarith
  have q1 : (2 * l * (l - 1) : ℝ) < k * (k + 1) := by
    by_contra hc
    push Not at hc
    nlinarith
  have hk : 4 * l ≤ 3 * k + 1 := by
    by_contra hc
    rcases Nat.lt_or_ge 6 l with h7 | h7
    · have l7 : (7 : ℝ) ≤ l := by exact_mod_cast h7
      have hc' : (3 * k + 2 : ℝ) ≤ 4 * l := by exact_mod_cast (by omega : 3 * k + 2 ≤ 4 * l)
      nlinarith
    · obtain rfl : l = 6 := by omega
      have hc' : (k : ℝ) ≤ 7 := by exact_mod_cast (by omega : k ≤ 7)
      norm_num at q1
      nlinarith
  rcases Nat.lt_trichotomy (4 * l) (3 * k) with h | h | h
  · have hk' : (4 * l + 1 : ℝ) ≤ 3 * k := by exact_mod_cast h
    have : 40 * l * (l + 1) * η ≤ 56 * l * (l - 1) * η := by
      apply mul_le_mul_of_nonneg_right _ hη.le
      nlinarith
    nlinarith
  · have hk' : (4 * l : ℝ) = 3 * k := by exact_mod_cast h
    have : 3 * (k * (k - 1)) * η ≤ 8 * l * (l - 1) * η := by
      apply mul_le_mul_of_nonneg_right _ hη.le
      nlinarith
    nlinarith
  · have hk' : (4 * l : ℝ) = 3 * k + 1 := by exact_mod_cast (by omega : 4 * l = 3 * k + 1)
    have : (3 * (k * (k - 1)) + 2 * l * (l + 1)) * η ≤ 8 * l * (l - 1) * η := by
      apply mul_le_mul_of_nonneg_right _ hη.le
      nlinarith
    nlinarith

/-- **C76 (the entries of Pintz).** For every `l ≥ 6`, at every `σ` of the interval of the entry except its left end, the entry is exactly the
bound of the published theorem, whatever admissible integers are used in the theorem. -/
theorem C76_pintz_partial (l : ℕ) (hl : 6 ≤ l) (s : ℚ) (hs : pintzLower l < s) (v : ℝ) (hv : (pintzEntry l).at s = .ok v)
    (k m : ℕ) (h : PintzHyp k m (1 - s)) : m = l ∧ v = pintzBound k m (1 - s) := by
  obtain ⟨h1, rfl⟩ := Reads.of_at (C76_pintz_formula l) hv
  simp only [pintzEntry, half_open] at h1
  obtain ⟨e1, e2, e3, e4⟩ := h.clear
  have l6 : (6 : ℚ) ≤ l := by exact_mod_cast hl
  have c1 : (1 - s) * (2 * l * (l - 1)) < 1 := by
    rw [pintzLower] at hs
    have : 1 - s < 1 / (2 * (l : ℚ) * (l - 1)) := by linarith
    exact (lt_div_iff₀ (by nlinarith)).mp this
  have c2 : 1 < (1 - s) * (2 * l * (l + 1)) := by
    have h2 := h1.2
    rw [pintzUpper] at h2
    have : 1 / (2 * (l : ℚ) * (l + 1)) < 1 - s := by linarith
    exact (div_lt_iff₀ (by nlinarith)).mp this
  have d1 : (1 - (s : ℝ)) * (2 * l * (l - 1)) < 1 := by exact_mod_cast c1
  have d2 : 1 < (1 - (s : ℝ)) * (2 * l * (l + 1)) := by exact_mod_cast c2
  have hη : 0 < 1 - (s : ℝ) := by
    have : s < 1 := lt_trans h1.2 (pintzLower_lt (by omega)).2
    have : (s : ℝ) < 1 := by exact_mod_cast this
    linarith
  have hml : m = l := by
    have m3 : (3 : ℝ) ≤ m := by exact_mod_cast h.2.1
    have l6' : (6 : ℝ) ≤ l := by exact_mod_cast hl
    apply le_antisymm
    · by_contra hc
      have hc' : (l + 1 : ℝ) ≤ m := by exact_mod_cast (by omega : l + 1 ≤ m)
      have : (1 - (s : ℝ)) * (2 * l * (l + 1)) ≤ (1 - (s : ℝ)) * (2 * m * (m - 1)) := by
        apply mul_le_mul_of_nonneg_left _ hη.le
        nlinarith
      linarith
    · by_contra hc
      have hc' : (m + 1 : ℝ) ≤ l := by exact_mod_cast (by omega : m + 1 ≤ l)
      have : (1 - (s : ℝ)) * (2 * m * (m + 1)) ≤ (1 - (s : ℝ)) * (2 * l * (l - 1)) := by
        apply mul_le_mul_of_nonneg_left _ hη.le
        nlinarith
      linarith
  subst hml
  exact ⟨rfl, (pintz_first h hl).2.2.symm⟩

example : pintzLower 6 < 79 / 80 ∧ (∃ v, (pintzEntry 6).at (79 / 80) = .ok v) ∧ PintzHyp 9 6 (1 - ((79 / 80 : ℚ) : ℝ)) := by
  refine ⟨by decide +kernel, ⟨_, Reads.at (C76_pintz_formula 6) (by decide +kernel)⟩, ?_⟩
  norm_num [PintzHyp]

/-- **C76 (left ends of the intervals of Pintz).** The theorem of Pintz holds for `1 - 1/(2l(l-1)) < σ ≤ 1 - 1/(2l(l+1))`; the code uses intervals that are closed on
the left and open on the right. At the left end of every interval, for every `l ≥ 6`, the entry claims a bound that is strictly smaller
than the published one, whatever admissible integers are used in the theorem. As `(1 - σ)A(σ)` is only known to be non-increasing and
continuous from the left, the claim does not follow from the bounds to the right. -/
theorem C76_pintz_left_counterexample (l : ℕ) (hl : 6 ≤ l) :
    ∃ v, (pintzEntry l).at (pintzLower l) = .ok v ∧ ∀ k m, PintzHyp k m (1 - (pintzLower l : ℚ)) → v < pintzBound k m (1 - (pintzLower l : ℚ)) := by
  refine ⟨_, Reads.at (C76_pintz_formula l) (half_open.mpr ⟨le_rfl, (pintzLower_lt (by omega)).1⟩), ?_⟩
  intro k m h
  obtain ⟨e1, e2, e3, e4⟩ := h.clear
  have l6 : (6 : ℝ) ≤ l := by exact_mod_cast hl
  have m3 : (3 : ℝ) ≤ m := by exact_mod_cast h.2.1
  set η : ℝ := 1 - (pintzLower l : ℚ) with hη
  have hη' : η = 1 / (2 * l * (l - 1)) := by
    rw [hη, pintzLower]; push_cast; ring
  have key : η * (2 * l * (l - 1)) = 1 := by
    rw [hη']; apply one_div_mul_cancel; nlinarith
  have hpos : 0 < η := by
    rw [hη']; apply one_div_pos.mpr; nlinarith
  have hml : m + 1 = l := by
    apply le_antisymm
    · by_contra hc
      have hc' : (l : ℝ) ≤ m := by exact_mod_cast (by omega : l ≤ m)
      have : η * (2 * l * (l - 1)) ≤ η * (2 * m * (m - 1)) := by
        apply mul_le_mul_of_nonneg_left _ hpos.le
        nlinarith
      linarith
    · by_contra hc
      have hc' : (m + 2 : ℝ) ≤ l := by exact_mod_cast (by omega : m + 2 ≤ l)
      have : η * (2 * m * (m + 1)) < η * (2 * l * (l - 1)) := by
        apply mul_lt_mul_of_pos_left _ hpos
        nlinarith
      linarith
  have hml' : (l : ℝ) = m + 1 := by exact_mod_cast hml.symm
  apply lt_of_lt_of_le _ (le_max_left _ _)
  have p1 : 0 < (m : ℝ) * (1 - 2 * (m - 1) * η) := by nlinarith
  apply div_lt_div_of_pos_left (by norm_num) p1
  rw [hml'] at key ⊢
  nlinarith

example : PintzHyp 8 5 (1 - ((pintzLower 6 : ℚ) : ℝ)) := by
  norm_num [PintzHyp, pintzLower]

/-- The three entries of Pintz that are written out (literature.py:1318-1336). -/
def pintzFixed : List Entry :=
  [⟨"3/(24 * x - 20)".toList, ⟨23 / 24, 39 / 40, true, false⟩⟩, ⟨"2/(15 * x - 12)".toList, ⟨39 / 40, 41 / 42, true, false⟩⟩,
    ⟨"3/(40 * x - 35)".toList, ⟨41 / 42, 59 / 60, true, false⟩⟩]

theorem pintzFixed_mem : ∀ e ∈ pintzFixed, (.ok e : Py Entry) ∈ middle := by
  intro e he
  simp only [pintzFixed, List.mem_cons, List.not_mem_nil, or_false] at he
  rcases he with rfl | rfl | rfl
  · exact List.mem_of_getElem? (i := 7) (by decide +kernel)
  · exact List.mem_of_getElem? (i := 8) (by decide +kernel)
  · exact List.mem_of_getElem? (i := 9) (by decide +kernel)

/-- Only few integers are admissible when `η` is not small. -/
theorem PintzHyp.bounded {k l : ℕ} {η : ℝ} (h : PintzHyp k l η) (hη : 1 / 60 ≤ η) : k ≤ 8 ∧ l ≤ 5 := by
  obtain ⟨e1, e2, e3, e4⟩ := h.clear
  constructor
  · by_contra hc
    have hc' : (9 : ℝ) ≤ k := by exact_mod_cast (by omega : 9 ≤ k)
    have : (72 : ℝ) ≤ k * (k - 1) := by nlinarith
    nlinarith
  · by_contra hc
    have hc' : (6 : ℝ) ≤ l := by exact_mod_cast (by omega : 6 ≤ l)
    have : (60 : ℝ) ≤ 2 * l * (l - 1) := by nlinarith
    nlinarith

/-- **C76 (the first entries of Pintz).** At every `σ` of the interval of one of the three entries that are written out, except its left
end, the entry is exactly the bound of the published theorem. -/
theorem C76_pintz_first_partial (e : Entry) (he : e ∈ pintzFixed) (s : ℚ) (hs : e.dom.x0 < s) (v : ℝ) (hv : e.at s = .ok v)
    (k l : ℕ) (h : PintzHyp k l (1 - s)) : v = pintzBound k l (1 - s) := by
  obtain ⟨k4, l3, -⟩ := id h
  simp only [pintzFixed, List.mem_cons, List.not_mem_nil, or_false] at he
  rcases he with rfl | rfl | rfl
  · obtain ⟨h1, rfl⟩ := Reads.of_at (readLF_reads (g := ⟨3, 24, -20⟩) (by decide +kernel)) hv
    rw [half_open] at h1
    have a1 : (23 / 24 : ℝ) < s := by have : ((23 / 24 : ℚ) : ℝ) < s := by exact_mod_cast hs
                                      push_cast at this; exact this
    have a2 : (s : ℝ) < 39 / 40 := cast_lt' h1.2
    obtain ⟨b1, b2⟩ := h.bounded (by linarith)
    obtain ⟨e1, e2, e3, e4⟩ := h.clear
    simp only [LF.val, pintzBound]
    interval_cases l <;> interval_cases k <;> norm_num at e1 e2 e3 e4 <;> try (exfalso; linarith)
    all_goals
      rw [max_eq_left]
      · push_cast; congr 1; ring
      · push_cast
        rw [div_le_div_iff₀ (by linarith) (by linarith)]
        linarith
  · obtain ⟨h1, rfl⟩ := Reads.of_at (readLF_reads (g := ⟨2, 15, -12⟩) (by decide +kernel)) hv
    rw [half_open] at h1
    have a1 : (39 / 40 : ℝ) < s := by have : ((39 / 40 : ℚ) : ℝ) < s := by exact_mod_cast hs
                                      push_cast at this; exact this
    have a2 : (s : ℝ) < 41 / 42 := cast_lt' h1.2
    obtain ⟨b1, b2⟩ := h.bounded (by linarith)
    obtain ⟨e1, e2, e3, e4⟩ := h.clear
    simp only [LF.val, pintzBound]
    interval_cases l <;> interval_cases k <;> norm_num at e1 e2 e3 e4 <;> try (exfalso; linarith)
    all_goals
      rw [max_eq_right]
      · push_cast
        rw [div_eq_div_iff (by linarith) (by linarith)]
        ring
      · push_cast
        rw [div_le_div_iff₀ (by linarith) (by linarith)]
        linarith
  · obtain ⟨h1, rfl⟩ := Reads.of_at (readLF_reads (g := ⟨3, 40, -35⟩) (by decide +kernel)) hv
    rw [half_open] at h1
    have a1 : (41 / 42 : ℝ) < s := by have : ((41 / 42 : ℚ) : ℝ) < s := by exact_mod_cast hs
                                      push_cast at this; exact this
    have a2 : (s : ℝ) < 59 / 60 := cast_lt' h1.2
    obtain ⟨b1, b2⟩ := h.bounded (by linarith)
    obtain ⟨e1, e2, e3, e4⟩ := h.clear
    simp only [LF.val, pintzBound]
    interval_cases l <;> interval_cases k <;> norm_num at e1 e2 e3 e4 <;> try (exfalso; linarith)
    all_goals
      rw [max_eq_left]
      · push_cast; congr 1; ring
      · push_cast
        rw [div_le_div_iff₀ (by linarith) (by linarith)]
        linarith

example : ∃ e ∈ pintzFixed, e.dom.x0 < 24 / 25 ∧ (∃ v, e.at (24 / 25) = .ok v) ∧ PintzHyp 5 4 (1 - ((24 / 25 : ℚ) : ℝ)) := by
  refine ⟨⟨"3/(24 * x - 20)".toList, ⟨23 / 24, 39 / 40, true, false⟩⟩, by simp [pintzFixed], by norm_num,
    ⟨_, Reads.at (readLF_reads (g := ⟨3, 24, -20⟩) (by decide +kernel)) (by decide +kernel)⟩, ?_⟩
  norm_num [PintzHyp]

/-- **C76 (left ends of the first intervals of Pintz).** At `23/24`, `39/40` and `41/42` as well the entries claim a strictly smaller bound than the
published theorem. -/
theorem C76_pintz_first_counterexample (e : Entry) (he : e ∈ pintzFixed) :
    ∃ v, e.at e.dom.x0 = .ok v ∧ ∀ k l, PintzHyp k l (1 - (e.dom.x0 : ℚ)) → v < pintzBound k l (1 - (e.dom.x0 : ℚ)) := by
  simp only [pintzFixed, List.mem_cons, List.not_mem_nil, or_false] at he
  rcases he with rfl | rfl | rfl
  · refine ⟨_, Reads.at (readLF_reads (g := ⟨3, 24, -20⟩) (by decide +kernel)) (by decide +kernel), fun k l h => ?_⟩
    obtain ⟨k4, l3, -⟩ := id h
    obtain ⟨b1, b2⟩ := h.bounded (by norm_num)
    obtain ⟨e1, e2, e3, e4⟩ := h.clear
    simp only [LF.val, pintzBound]
    interval_cases l <;> interval_cases k <;> first | (exfalso; norm_num at e1; done) | (exfalso; norm_num at e2; done) | (exfalso; norm_num at e3; done) | (exfalso; norm_num at e4; done) | norm_num
  · refine ⟨_, Reads.at (readLF_reads (g := ⟨2, 15, -12⟩) (by decide +kernel)) (by decide +kernel), fun k l h => ?_⟩
    obtain ⟨k4, l3, -⟩ := id h
    obtain ⟨b1, b2⟩ := h.bounded (by norm_num)
    obtain ⟨e1, e2, e3, e4⟩ := h.clear
    simp only [LF.val, pintzBound]
    interval_cases l <;> interval_cases k <;> first | (exfalso; norm_num at e1; done) | (exfalso; norm_num at e2; done) | (exfalso; norm_num at e3; done) | (exfalso; norm_num at e4; done) | norm_num
  · refine ⟨_, Reads.at (readLF_reads (g := ⟨3, 40, -35⟩) (by decide +kernel)) (by decide +kernel), fun k l h => ?_⟩
    obtain ⟨k4, l3, -⟩ := id h
    obtain ⟨b1, b2⟩ := h.bounded (by norm_num)
    obtain ⟨e1, e2, e3, e4⟩ := h.clear
    simp only [LF.val, pintzBound]
    interval_cases l <;> interval_cases k <;> first | (exfalso; norm_num at e1; done) | (exfalso; norm_num at e2; done) | (exfalso; norm_num at e3; done) | (exfalso; norm_num at e4; done) | norm_num

example : PintzHyp 5 3 (1 - ((23 / 24 : ℚ) : ℝ)) := by norm_num [PintzHyp]

end LitZD
end Expdb
