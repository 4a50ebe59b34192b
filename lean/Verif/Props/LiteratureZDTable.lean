import Verif.Props.LiteratureZD

/-!
# The zero density estimates of `literature.py`: sources and the table of best estimates
-/

namespace Expdb
namespace LitZD
open Printing (Str)
open Formula (LF Fml parse readLF leOn leOn_pos)

/-! ## The entries that are not of the form `a / (b x + c)` -/

/-- Carlson (1921). -/
theorem reads_carlson : Reads "4*x".toList (fun t => 4 * t) :=
  ⟨.mul (.num 4) .x, by decide +kernel, fun t => by simp [Fml.eval]⟩

/-- A constant times `(1 - x) ** (1/2)` is a constant times a square root. -/
theorem eval_sqrt (c : ℚ) (t : ℝ) :
    (Fml.mul (.num c) (.pow (.sub (.num 1) .x) (.div (.num 1) (.num 2)))).eval t = c * Real.sqrt (1 - t) := by
  simp only [Fml.eval, Real.sqrt_eq_rpow]
  norm_num

/-- Montgomery (1971). -/
theorem reads_montgomery : Reads "1600 * (1 - x) ** (1/2)".toList (fun t => 1600 * Real.sqrt (1 - t)) :=
  ⟨.mul (.num 1600) (.pow (.sub (.num 1) .x) (.div (.num 1) (.num 2))), by decide +kernel, fun t => by rw [eval_sqrt]; norm_num⟩

/-- Ford (2002). -/
theorem reads_ford : Reads "58.05 * (1 - x) ** (1/2)".toList (fun t => 58.05 * Real.sqrt (1 - t)) :=
  ⟨.mul (.num (1161 / 20)) (.pow (.sub (.num 1) .x) (.div (.num 1) (.num 2))), by decide +kernel, fun t => by rw [eval_sqrt]; norm_num⟩

/-- Heath-Brown (2017). -/
theorem reads_heathBrown : Reads "6.42 * (1 - x) ** (1/2)".toList (fun t => 6.42 * Real.sqrt (1 - t)) :=
  ⟨.mul (.num (321 / 50)) (.pow (.sub (.num 1) .x) (.div (.num 1) (.num 2))), by decide +kernel, fun t => by rw [eval_sqrt]; norm_num⟩

/-- Jutila (1983). -/
theorem reads_jutila : Reads "(3/2 - x) / (1 - x)".toList (fun t => (3 / 2 - t) / (1 - t)) :=
  ⟨.div (.sub (.div (.num 3) (.num 2)) .x) (.sub (.num 1) .x), by decide +kernel, fun t => by simp [Fml.eval]⟩

/-- Conrey (1989). -/
theorem reads_conrey : Reads "(1 + (1 - 2 * x) * 4/7) / (1 - x)".toList (fun t => (1 + (1 - 2 * t) * 4 / 7) / (1 - t)) :=
  ⟨.div (.add (.num 1) (.div (.mul (.sub (.num 1) (.mul (.num 2) .x)) (.num 4)) (.num 7))) (.sub (.num 1) .x), by decide +kernel,
    fun t => by simp [Fml.eval]⟩

/-- These six entries. -/
def specials : List Entry :=
  [⟨"4*x".toList, ⟨1 / 2, 1, true, false⟩⟩, ⟨"1600 * (1 - x) ** (1/2)".toList, ⟨1 / 2, 1, true, false⟩⟩,
    ⟨"58.05 * (1 - x) ** (1/2)".toList, ⟨1 / 2, 1, true, false⟩⟩, ⟨"6.42 * (1 - x) ** (1/2)".toList, ⟨9 / 10, 1, true, false⟩⟩,
    ⟨"(3/2 - x) / (1 - x)".toList, ⟨155 / 174, 1, true, false⟩⟩, ⟨"(1 + (1 - 2 * x) * 4/7) / (1 - x)".toList, ⟨1 / 2, 1, true, false⟩⟩]

/-- A test of the function and the interval of an entry; the six special entries pass. -/
def chk (P : LF → Interval → Bool) : Py Entry → Bool
  | .ok e => match readLF e.expr with
    | some g => P g e.dom
    | none => decide (e ∈ specials)
  | .error _ => false

theorem chk_cases (P : LF → Interval → Bool) (e : Entry) (h : chk P (.ok e) = true) :
    (∃ g, readLF e.expr = some g ∧ P g e.dom = true) ∨ e ∈ specials := by
  simp only [chk] at h
  split at h
  · rename_i g hg
    exact Or.inl ⟨g, hg, h⟩
  · exact Or.inr (by simpa using h)

/-- The interval is inside `[1/2, 1]`, the function is positive there, and its value at `1/2` is at least 2. -/
def sane (g : LF) (I : Interval) : Bool :=
  decide (1 / 2 ≤ I.x0) && decide (I.x1 ≤ 1) && decide (0 < g.a) && decide (0 < g.b * I.x0 + g.c) && decide (0 < g.b * I.x1 + g.c) &&
    (decide (1 / 2 < I.x0) || decide (2 * (g.b * (1 / 2) + g.c) ≤ g.a))

theorem contains_bounds {I : Interval} {s : ℚ} (h : I.contains s = true) : I.x0 ≤ s ∧ s ≤ I.x1 := by
  rw [Interval.contains_iff] at h
  obtain ⟨h1, h2⟩ := h
  constructor
  · rcases h1 with h1 | h1
    · exact h1.le
    · exact h1.2.ge
  · rcases h2 with h2 | h2
    · exact h2.le
    · exact h2.2.le

/-- **C76 (the entries are meaningful).** Every entry lies in `[1/2, 1]`; everywhere on its interval its string is parsed and gives a
positive number; and at `σ = 1/2`, where `A(1/2) = 2`, no entry claims less than 2. -/
theorem C76_defined : ∃ es, all = .ok es ∧ ∀ e ∈ es, ∀ s : ℚ, e.dom.contains s = true →
    1 / 2 ≤ s ∧ s ≤ 1 ∧ ∃ v, e.at s = .ok v ∧ 0 < v ∧ (s = 1 / 2 → 2 ≤ v) := by
  obtain ⟨es, h1, h2⟩ := C76_entries
  refine ⟨es, h1, fun e he s hs => ?_⟩
  rcases (h2 e).mp he with h | ⟨k, hk, -, rfl⟩ | ⟨k, hk, -, rfl⟩
  · have hc : ∀ p ∈ before ++ middle ++ after, chk sane p = true := by decide +kernel
    rcases chk_cases _ _ (hc _ h) with ⟨g, hg, hP⟩ | hsp
    · simp only [sane, Bool.and_eq_true, Bool.or_eq_true, decide_eq_true_eq] at hP
      obtain ⟨⟨⟨⟨⟨p1, p2⟩, p3⟩, p4⟩, p5⟩, p6⟩ := hP
      obtain ⟨b1, b2⟩ := contains_bounds hs
      refine ⟨p1.trans b1, b2.trans p2, _, (readLF_reads hg).at hs, ?_, ?_⟩
      · have q : (0 : ℝ) < g.b * s + g.c := Formula.lin_pos (L := (e.dom.x0 : ℝ)) (H := (e.dom.x1 : ℝ)) (by exact_mod_cast b1) (by exact_mod_cast b2)
          (by exact_mod_cast p4) (by exact_mod_cast p5)
        have : (0 : ℝ) < g.a := by exact_mod_cast p3
        exact div_pos this q
      · rintro rfl
        have p6 := p6.resolve_left (not_lt.mpr b1)
        have q : (0 : ℝ) < g.b * ((1 / 2 : ℚ) : ℝ) + g.c := Formula.lin_pos (L := (e.dom.x0 : ℝ)) (H := (e.dom.x1 : ℝ)) (by exact_mod_cast b1) (by exact_mod_cast b2)
          (by exact_mod_cast p4) (by exact_mod_cast p5)
        rw [LF.val, le_div_iff₀ q]
        exact_mod_cast p6
    · simp only [specials, List.mem_cons, List.not_mem_nil, or_false] at hsp
      rcases hsp with rfl | rfl | rfl | rfl | rfl | rfl <;> rw [half_open] at hs
      · refine ⟨hs.1, hs.2.le, _, reads_carlson.at (half_open.mpr hs), ?_, ?_⟩
        · have : (1 / 2 : ℝ) ≤ s := cast_le' hs.1
          linarith
        · rintro rfl; norm_num
      · refine ⟨hs.1, hs.2.le, _, reads_montgomery.at (half_open.mpr hs), ?_, ?_⟩
        · have : (s : ℝ) < 1 := cast_lt' hs.2
          have := Real.sqrt_pos.mpr (by linarith : 0 < 1 - (s : ℝ))
          linarith
        · rintro rfl
          have : (1 / 2 : ℝ) ≤ Real.sqrt (1 - ((1 / 2 : ℚ) : ℝ)) := Real.le_sqrt_of_sq_le (by norm_num)
          linarith
      · refine ⟨hs.1, hs.2.le, _, reads_ford.at (half_open.mpr hs), ?_, ?_⟩
        · have : (s : ℝ) < 1 := cast_lt' hs.2
          have := Real.sqrt_pos.mpr (by linarith : 0 < 1 - (s : ℝ))
          linarith
        · rintro rfl
          have : (1 / 2 : ℝ) ≤ Real.sqrt (1 - ((1 / 2 : ℚ) : ℝ)) := Real.le_sqrt_of_sq_le (by norm_num)
          linarith
      · refine ⟨by linarith [hs.1], hs.2.le, _, reads_heathBrown.at (half_open.mpr hs), ?_, ?_⟩
        · have : (s : ℝ) < 1 := cast_lt' hs.2
          have := Real.sqrt_pos.mpr (by linarith : 0 < 1 - (s : ℝ))
          linarith
        · rintro rfl
          norm_num at hs
      · refine ⟨by linarith [hs.1], hs.2.le, _, reads_jutila.at (half_open.mpr hs), ?_, ?_⟩
        · have : (s : ℝ) < 1 := cast_lt' hs.2
          apply div_pos <;> linarith
        · rintro rfl
          norm_num at hs
      · refine ⟨hs.1, hs.2.le, _, reads_conrey.at (half_open.mpr hs), ?_, ?_⟩
        · have : (s : ℝ) < 1 := cast_lt' hs.2
          apply div_pos <;> linarith
        · rintro rfl
          norm_num
  · have hs' := hs
    simp only [ivicEntry, half_open] at hs
    have r0 : (3 / 4 : ℝ) ≤ s := cast_le' (le_trans (ivicLower_ge hk) hs.1)
    have r1 : (s : ℝ) < 1 := cast_lt' hs.2
    refine ⟨?_, hs.2.le, _, (C76_ivic_formula k hk).at hs', ?_, ?_⟩
    · have := ivicLower_ge hk
      linarith [hs.1]
    · have : (3 : ℝ) ≤ k := by exact_mod_cast hk
      exact div_pos (by linarith) (ivic_mono hk le_rfl r0 r1.le).1
    · rintro rfl
      norm_num at r0
  · have hs' := hs
    simp only [pintzEntry, half_open] at hs
    have h60 : 59 / 60 ≤ pintzLower k := by
      have h6 : (6 : ℚ) ≤ k := by exact_mod_cast hk
      have : 1 / (2 * (k : ℚ) * (k - 1)) ≤ 1 / 60 := by
        apply one_div_le_one_div_of_le (by norm_num); nlinarith
      rw [pintzLower]; linarith
    have hu := (pintzLower_lt (by omega : 2 ≤ k)).2
    refine ⟨by linarith [hs.1], by linarith [hs.2], _, (C76_pintz_formula k).at hs', ?_, ?_⟩
    · have h6 : (6 : ℚ) ≤ k := by exact_mod_cast hk
      have : (1 - s) * (2 * k * (k - 1)) ≤ 1 := by
        have h3 := hs.1
        rw [pintzLower] at h3
        have : 1 - s ≤ 1 / (2 * (k : ℚ) * (k - 1)) := by linarith
        exact (le_div_iff₀ (by nlinarith)).mp this
      have : (0 : ℚ) < k * (1 - 2 * (k - 1) * (1 - s)) := by nlinarith
      apply div_pos (by norm_num)
      exact_mod_cast this
    · rintro rfl
      linarith [hs.1]

example : ∃ es, all = .ok es ∧ ∃ e ∈ es, e.dom.contains (1 / 2) = true := by
  obtain ⟨es, h1, h2⟩ := C76_entries
  refine ⟨es, h1, ⟨"3/(2 - x)".toList, ⟨1 / 2, 1, true, false⟩⟩, (h2 _).mpr (Or.inl ?_), by decide +kernel⟩
  exact List.mem_of_getElem? (i := 1) (by decide +kernel)

/-! ## The sources -/

/-- A published statement: `A(σ)` is at most the largest of the functions, for `lo ≤ σ ≤ hi`, or for `lo < σ ≤ hi`. -/
structure Pub where
  fs : List LF
  lo : ℚ
  hi : ℚ
  closed : Bool
  deriving DecidableEq

/-- The range of a published statement. -/
def Pub.Applies (q : Pub) (s : ℚ) : Prop := (q.lo < s ∨ (q.closed = true ∧ q.lo = s)) ∧ s ≤ q.hi

/-- The published statements that the entries refer to, in the order of `before ++ middle ++ after` (zero_density.tex; the line is given).
The list is empty for the entries that are not of the form `a / (b x + c)` and for those of Pintz, which are treated separately. -/
def sources : List (List Pub) :=
  [[], -- Carlson
    [⟨[⟨2, 0, 1⟩], 1 / 2, 1 / 2, true⟩, ⟨[⟨3, -1, 2⟩], 1 / 2, 1, false⟩], -- A(1/2) = 2; Ingham
    [], -- Montgomery
    [⟨[⟨2, 0, 1⟩], 1 / 2, 1 / 2, true⟩, ⟨[⟨3, 3, -1⟩], 1 / 2, 1, false⟩], -- A(1/2) = 2; Theorem huxley-bound
    [⟨[⟨39, 115, -75⟩], 55 / 67, 189 / 230, true⟩], -- 818
    [⟨[⟨2, 0, 1⟩], 189 / 230, 78 / 89, true⟩], -- 820
    [⟨[⟨48, 74, -37⟩], 61 / 74, 37 / 42, true⟩], -- 826, as the range of 822 is empty
    [⟨[⟨3, 2, 0⟩], 37 / 42, 1, true⟩], -- 824
    [⟨[⟨48, 74, -37⟩], 61 / 74, 37 / 42, true⟩], -- 826
    [⟨[⟨2, 0, 1⟩], 80119 / 100000, 1, true⟩], -- 828
    [⟨[⟨2, 0, 1⟩], 4 / 5, 1, true⟩], -- 830
    [⟨[⟨3, 10, -7⟩, ⟨4, 4, -1⟩], 3 / 4, 1, true⟩], -- Theorem hb-density
    [⟨[⟨3, 10, -7⟩, ⟨4, 4, -1⟩], 3 / 4, 1, true⟩], -- Theorem hb-density
    [⟨[⟨9, 7, -1⟩], 11 / 14, 1, true⟩], -- Theorem hb-density
    [⟨[⟨6, 5, -1⟩], 67 / 87, 1, true⟩], -- 834
    [⟨[⟨3, 34, -25⟩], 28 / 37, 74 / 95, true⟩], -- 836
    [⟨[⟨9, 7, -1⟩], 74 / 95, 1, true⟩], -- 838
    [⟨[⟨3, 2, 0⟩], 4 / 5, 1, true⟩], -- 840
    [⟨[⟨68, 98, -47⟩], 115 / 166, 1, true⟩], -- 842
    [⟨[⟨3, 2, 0⟩], 3831 / 4791, 1, true⟩], -- 635, 844
    [⟨[⟨2, 0, 1⟩], 11 / 14, 1, true⟩], -- Theorem jutila-density
    [⟨[⟨9, 7, -1⟩], 41 / 53, 1, true⟩], -- 636, 846
    [⟨[⟨6, 5, -1⟩], 13 / 17, 1, true⟩], -- 637, 848
    [⟨[⟨4, 2, 1⟩], 17 / 18, 1, true⟩], -- 570-571
    [⟨[⟨24, 30, -11⟩], 155 / 174, 17 / 18, true⟩, ⟨[⟨4, 2, 1⟩], 17 / 18, 1, true⟩], -- 570-573
    [], -- Jutila
    [⟨[⟨3, 7, -4⟩], 3 / 4, 10 / 13, true⟩], -- 665
    [⟨[⟨9, 8, -2⟩], 10 / 13, 1, true⟩], -- 665
    [⟨[⟨15, 22, -10⟩], 10 / 13, 5 / 6, true⟩], -- 858
    [], -- Conrey
    [⟨[⟨4, 30, -25⟩], 15 / 16, 1, true⟩], -- Corollary bourgain-zero-density
    [⟨[⟨2, 7, -5⟩], 17 / 19, 15 / 16, true⟩, ⟨[⟨4, 30, -25⟩], 15 / 16, 1, true⟩], -- Corollary bourgain-zero-density
    [⟨[⟨2, 0, 1⟩], 25 / 32, 1, false⟩], -- Theorem bourgain-density
    [], -- Ford
    [⟨[⟨3, 2, 0⟩], 3734 / 4694, 1, true⟩], -- 652
    [], -- Heath-Brown
    [], [], [], -- Pintz
    [⟨[⟨24, 30, -11⟩], 279 / 314, 17 / 18, true⟩], -- Theorem cdv-density
    [⟨[⟨2, 0, 1⟩], 1 / 2, 1 / 2, true⟩, ⟨[⟨15, 5, 3⟩], 1 / 2, 1, false⟩]] -- A(1/2) = 2; Guth and Maynard

/-- The statements cover the points from `lo` (without `lo` if `strict`) to `hi`, and are at most `g` there. -/
def cover (g : LF) (strict : Bool) (lo hi : ℚ) : List Pub → Bool
  | [] => false
  | q :: qs => (decide (q.lo < lo) || (decide (q.lo = lo) && (q.closed || strict))) && q.fs.all (fun f => leOn f g lo (min hi q.hi)) &&
      (decide (hi ≤ q.hi) || cover g true q.hi hi qs)

theorem cover_sound (g : LF) (strict : Bool) (lo hi : ℚ) (qs : List Pub) (h : cover g strict lo hi qs = true) (s : ℚ)
    (h1 : lo ≤ s) (h1' : strict = true → lo < s) (h2 : s ≤ hi) :
    ∃ q ∈ qs, q.Applies s ∧ ∀ f ∈ q.fs, (0 : ℝ) < f.b * s + f.c ∧ f.val s ≤ g.val s := by
  induction qs generalizing strict lo with
  | nil => simp [cover] at h
  | cons q qs ih =>
    simp only [cover, Bool.and_eq_true, Bool.or_eq_true, decide_eq_true_eq, List.all_eq_true] at h
    obtain ⟨⟨h3, h4⟩, h5⟩ := h
    by_cases hq : s ≤ q.hi
    · refine ⟨q, by simp, ⟨?_, hq⟩, fun f hf => ?_⟩
      · rcases h3 with h3 | ⟨h3, h6 | h6⟩
        · exact Or.inl (lt_of_lt_of_le h3 h1)
        · rcases eq_or_lt_of_le h1 with h7 | h7
          · exact Or.inr ⟨h6, h3.trans h7⟩
          · exact Or.inl (h3 ▸ h7)
        · exact Or.inl (h3 ▸ h1' h6)
      · have := leOn_pos (h4 f hf) (t := (s : ℝ)) (by exact_mod_cast h1) (by exact_mod_cast le_min h2 hq)
        exact ⟨this.1, this.2.2⟩
    · push Not at hq
      rcases h5 with h5 | h5
      · exact absurd (h2.trans h5) (not_le.mpr hq)
      · obtain ⟨q', hq', hh⟩ := ih true q.hi h5 hq.le (fun _ => hq)
        exact ⟨q', by simp [hq'], hh⟩

/-- The entry of Ivić (1980) that is treated in `C76_ivic1980_counterexample`. -/
def ivic1980 : Entry := ⟨"24/(30 * x - 11)".toList, ⟨155 / 174, 1, true, false⟩⟩

/-- The entry of Bourgain (2000) that is treated in `C76_bourgain2000_counterexample`. -/
def bourgain2000 : Entry := ⟨"2".toList, ⟨25 / 32, 1, true, false⟩⟩

/-- The test for one entry and its sources. -/
def srcOk : Py Entry × List Pub → Bool
  | (.ok e, []) => decide (e ∈ specials) || decide (e ∈ pintzFixed)
  | (.ok e, q :: qs) => match readLF e.expr with
    | some g => cover g (decide (e = bourgain2000)) e.dom.x0 (if e = ivic1980 then 17 / 18 else e.dom.x1) (q :: qs)
    | none => false
  | (.error _, _) => false

/-- **C76 (sources).** Every entry that is written out as `a / (b x + c)` follows, everywhere on its interval, from the published statements it
refers to: at each `σ` one of them applies and gives a bound that is at most the value of the entry. The two exceptions are stated as
counterexamples below. -/
theorem C76_sources_partial (e : Entry) (qs : List Pub) (h : ((.ok e : Py Entry), qs) ∈ (before ++ middle ++ after).zip sources) :
    (qs = [] ∧ (e ∈ specials ∨ e ∈ pintzFixed)) ∨ ∀ (s : ℚ) (v : ℝ), e.at s = .ok v → ¬ (e = ivic1980 ∧ 17 / 18 < s) → ¬ (e = bourgain2000 ∧ s = 25 / 32) →
      ∃ q ∈ qs, q.Applies s ∧ ∀ f ∈ q.fs, (0 : ℝ) < f.b * s + f.c ∧ f.val s ≤ v := by
  have hc : ∀ p ∈ (before ++ middle ++ after).zip sources, srcOk p = true := by decide +kernel
  have h0 := hc _ h
  cases qs with
  | nil =>
    left
    simp only [srcOk, Bool.or_eq_true, decide_eq_true_eq] at h0
    exact ⟨rfl, h0⟩
  | cons q qs =>
    right
    intro s v hv n1 n2
    simp only [srcOk] at h0
    split at h0
    · rename_i g hg
      obtain ⟨hs, rfl⟩ := Reads.of_at (readLF_reads hg) hv
      obtain ⟨b1, b2⟩ := contains_bounds hs
      apply cover_sound _ _ _ _ _ h0 s b1
      · intro h3
        have h3 := of_decide_eq_true h3
        subst h3
        have : s ≠ 25 / 32 := fun h => n2 ⟨rfl, h⟩
        exact lt_of_le_of_ne b1 this.symm
      · split_ifs with h4
        · by_contra h5
          exact n1 ⟨h4, not_le.mp h5⟩
        · exact b2
    · cases h0

/-- The two lists have the same length, so that every entry has its sources. -/
theorem C76_sources_length : (before ++ middle ++ after).length = sources.length := by decide +kernel

example : ((.ok ⟨"3/(10 * x - 7)".toList, ⟨3 / 4, 25 / 28, true, false⟩⟩ : Py Entry), [(⟨[⟨3, 10, -7⟩, ⟨4, 4, -1⟩], 3 / 4, 1, true⟩ : Pub)]) ∈
    (before ++ middle ++ after).zip sources :=
  List.mem_of_getElem? (i := 12) (by decide +kernel)

/-- **C76 (the range of Ivić 1980).** The second bound of the published lemma, `24/(30σ - 11)`, is stated for `σ ≤ 17/18` only; the code has it up
to 1. For every `σ` above `17/18` the entry claims strictly less than the bound `4/(2σ + 1)` that the lemma gives there. -/
theorem C76_ivic1980_counterexample :
    (.ok ivic1980 : Py Entry) ∈ before ∧ ∀ s : ℚ, 17 / 18 < s → s < 1 → ∃ v, ivic1980.at s = .ok v ∧ v < 4 / (2 * (s : ℝ) + 1) := by
  refine ⟨List.mem_of_getElem? (i := 24) (by decide +kernel), fun s h1 h2 => ?_⟩
  refine ⟨_, Reads.at (e := ivic1980) (readLF_reads (g := ⟨24, 30, -11⟩) (by decide +kernel)) (half_open.mpr ⟨by linarith, h2⟩), ?_⟩
  have a1 : (17 / 18 : ℝ) < s := by
    have : ((17 / 18 : ℚ) : ℝ) < s := by exact_mod_cast h1
    push_cast at this; exact this
  simp only [LF.val]
  push_cast
  rw [div_lt_div_iff₀ (by linarith) (by linarith)]
  linarith

example : (17 / 18 : ℚ) < 19 / 20 ∧ (19 / 20 : ℚ) < 1 := by norm_num

/-- **C76 (the range of Bourgain 2000).** The density hypothesis is published for `σ > 25/32`; the interval of the entry contains `25/32`. There the entry
claims 2, which is strictly less than what any other published statement behind the entries gives at this point: the statements of
`sources` and the family of Ivić. -/
theorem C76_bourgain2000_counterexample :
    (.ok bourgain2000 : Py Entry) ∈ middle ∧ bourgain2000.at (25 / 32) = .ok 2 ∧
      (∀ qs ∈ sources, ∀ q ∈ qs, q.Applies (25 / 32) → ∃ f ∈ q.fs, 2 < f.val ((25 / 32 : ℚ) : ℝ)) ∧
      (∀ k, 3 ≤ k → ∀ v, (ivicEntry k).at (25 / 32) = .ok v → 2 < v) := by
  refine ⟨List.mem_of_getElem? (i := 3) (by decide +kernel), ?_, ?_, ?_⟩
  · rw [Reads.at (e := bourgain2000) (readLF_reads (g := ⟨2, 0, 1⟩) (by decide +kernel)) (by decide +kernel)]
    norm_num [LF.val]
  · have hc : ∀ qs ∈ sources, ∀ q ∈ qs, q.hi < 25 / 32 ∨ 25 / 32 < q.lo ∨ (q.lo = 25 / 32 ∧ q.closed = false) ∨
        ∃ f ∈ q.fs, 0 < f.b * (25 / 32) + f.c ∧ 2 * (f.b * (25 / 32) + f.c) < f.a := by decide +kernel
    intro qs hqs q hq hA
    rcases hc qs hqs q hq with h | h | ⟨h, h'⟩ | ⟨f, hf, h1, h2⟩
    · exact absurd hA.2 (not_le.mpr h)
    · rcases hA.1 with h3 | ⟨-, h3⟩
      · exact absurd h3 (not_lt.mpr h.le)
      · exact absurd h3 (ne_of_gt h)
    · rcases hA.1 with h3 | ⟨h3, -⟩
      · exact absurd h3 (by rw [h]; exact lt_irrefl _)
      · rw [h'] at h3; cases h3
    · refine ⟨f, hf, ?_⟩
      have h1' : (0 : ℝ) < f.b * ((25 / 32 : ℚ) : ℝ) + f.c := by exact_mod_cast h1
      rw [LF.val, lt_div_iff₀ h1']
      exact_mod_cast h2
  · intro k hk v hv
    obtain ⟨-, rfl⟩ := Reads.of_at (C76_ivic_formula k hk) hv
    have := (ivic_mono (le_refl 3) hk (t := ((25 / 32 : ℚ) : ℝ)) (by norm_num) (by norm_num)).2
    refine lt_of_lt_of_le ?_ this
    norm_num

example : (⟨[⟨9, 7, -1⟩], 41 / 53, 1, true⟩ : Pub).Applies (25 / 32) := by
  constructor
  · left; norm_num
  · norm_num

/-- **C76 (the other entries).** The entries of Carlson, Ford and Heath-Brown are the published formulas on the published ranges. The entry of
Montgomery is the published formula; its range is longer than the published one (`σ ≥ 152/155`), but where it is, the entry is weaker than the
bound of Ingham. The entries of Jutila and Conrey are the limits of the published bounds `(1 - θ(2σ - 1))/(1 - σ)` for `θ < 1/2` and
`θ < 4/7`: a number that is at most each of these is at most the entry. -/
theorem C76_specials :
    (∀ s : ℚ, 1 / 2 ≤ s → s < 1 → (⟨"4*x".toList, ⟨1 / 2, 1, true, false⟩⟩ : Entry).at s = .ok (4 * s)) ∧
    (∀ s : ℚ, 1 / 2 ≤ s → s < 1 → (⟨"58.05 * (1 - x) ** (1/2)".toList, ⟨1 / 2, 1, true, false⟩⟩ : Entry).at s = .ok (58.05 * Real.sqrt (1 - s))) ∧
    (∀ s : ℚ, 9 / 10 ≤ s → s < 1 → (⟨"6.42 * (1 - x) ** (1/2)".toList, ⟨9 / 10, 1, true, false⟩⟩ : Entry).at s = .ok (6.42 * Real.sqrt (1 - s))) ∧
    (∀ s : ℚ, 1 / 2 ≤ s → s < 1 → (⟨"1600 * (1 - x) ** (1/2)".toList, ⟨1 / 2, 1, true, false⟩⟩ : Entry).at s = .ok (1600 * Real.sqrt (1 - s)) ∧
      (s < 152 / 155 → 3 / (2 - (s : ℝ)) ≤ 1600 * Real.sqrt (1 - s))) ∧
    (∀ s : ℚ, 155 / 174 ≤ s → s < 1 → ∃ v, (⟨"(3/2 - x) / (1 - x)".toList, ⟨155 / 174, 1, true, false⟩⟩ : Entry).at s = .ok v ∧
      (∀ θ : ℝ, θ < 1 / 2 → v ≤ (1 - θ * (2 * s - 1)) / (1 - s)) ∧ ∀ a : ℝ, (∀ θ : ℝ, 0 < θ → θ < 1 / 2 → a ≤ (1 - θ * (2 * s - 1)) / (1 - s)) → a ≤ v) ∧
    (∀ s : ℚ, 1 / 2 ≤ s → s < 1 → ∃ v, (⟨"(1 + (1 - 2 * x) * 4/7) / (1 - x)".toList, ⟨1 / 2, 1, true, false⟩⟩ : Entry).at s = .ok v ∧
      (∀ θ : ℝ, θ < 4 / 7 → v ≤ (1 - θ * (2 * s - 1)) / (1 - s)) ∧ ∀ a : ℝ, (∀ θ : ℝ, 0 < θ → θ < 4 / 7 → a ≤ (1 - θ * (2 * s - 1)) / (1 - s)) → a ≤ v) := by
  have lim : ∀ (θ0 : ℝ) (s : ℝ), 0 < θ0 → 1 / 2 ≤ s → s < 1 → (∀ θ : ℝ, θ < θ0 → (1 - θ0 * (2 * s - 1)) / (1 - s) ≤ (1 - θ * (2 * s - 1)) / (1 - s)) ∧
      ∀ a : ℝ, (∀ θ : ℝ, 0 < θ → θ < θ0 → a ≤ (1 - θ * (2 * s - 1)) / (1 - s)) → a ≤ (1 - θ0 * (2 * s - 1)) / (1 - s) := by
    intro θ0 s h0 h1 h2
    have hp : 0 < 1 - s := by linarith
    constructor
    · intro θ hθ
      apply div_le_div_of_nonneg_right _ hp.le
      nlinarith
    · intro a ha
      rw [le_div_iff₀ hp]
      by_contra hc
      push Not at hc
      set d := a * (1 - s) - (1 - θ0 * (2 * s - 1)) with hd
      have hd0 : 0 < d := by linarith
      have hm : 0 < min (θ0 / 2) (d / 2) := lt_min (by linarith) (by linarith)
      have := ha (θ0 - min (θ0 / 2) (d / 2)) (by have := min_le_left (θ0 / 2) (d / 2); linarith) (by linarith)
      rw [le_div_iff₀ hp] at this
      have h3 := min_le_right (θ0 / 2) (d / 2)
      nlinarith
  refine ⟨fun s h1 h2 => reads_carlson.at (half_open.mpr ⟨h1, h2⟩), fun s h1 h2 => Reads.at (f := fun t => 58.05 * Real.sqrt (1 - t)) reads_ford (half_open.mpr ⟨h1, h2⟩),
    fun s h1 h2 => Reads.at (f := fun t => 6.42 * Real.sqrt (1 - t)) reads_heathBrown (half_open.mpr ⟨h1, h2⟩), fun s h1 h2 => ⟨Reads.at (f := fun t => 1600 * Real.sqrt (1 - t)) reads_montgomery (half_open.mpr ⟨h1, h2⟩), fun h3 => ?_⟩,
    fun s h1 h2 => ?_, fun s h1 h2 => ?_⟩
  · have r1 : (s : ℝ) < 152 / 155 := cast_lt' h3
    have : (1 / 10 : ℝ) ≤ Real.sqrt (1 - s) := Real.le_sqrt_of_sq_le (by norm_num; linarith)
    rw [div_le_iff₀ (by linarith)]
    nlinarith
  · have r0 : (155 / 174 : ℝ) ≤ s := cast_le' h1
    have r1 : (s : ℝ) < 1 := cast_lt' h2
    refine ⟨_, reads_jutila.at (half_open.mpr ⟨h1, h2⟩), ?_⟩
    have e : (3 / 2 - (s : ℝ)) / (1 - s) = (1 - 1 / 2 * (2 * s - 1)) / (1 - s) := by congr 1; ring
    rw [e]
    exact lim (1 / 2) s (by norm_num) (by linarith) r1
  · have r0 : (1 / 2 : ℝ) ≤ s := cast_le' h1
    have r1 : (s : ℝ) < 1 := cast_lt' h2
    refine ⟨_, reads_conrey.at (half_open.mpr ⟨h1, h2⟩), ?_⟩
    have e : (1 + (1 - 2 * (s : ℝ)) * 4 / 7) / (1 - s) = (1 - 4 / 7 * (2 * s - 1)) / (1 - s) := by congr 1; ring
    rw [e]
    exact lim (4 / 7) s (by norm_num) (by linarith) r1

example : (1 / 2 : ℚ) ≤ 9 / 10 ∧ (155 / 174 : ℚ) ≤ 9 / 10 ∧ (9 / 10 : ℚ) < 152 / 155 := by norm_num

/-! ## The table of best estimates -/

/-- The rows of Table zero_density_estimates_table (zero_density.tex:747-789), with the range `lo ≤ σ < hi`, and whether the row is a result of the literature. -/
def rows : List (LF × ℚ × ℚ × Bool) :=
  [(⟨3, -1, 2⟩, 1 / 2, 7 / 10, true), (⟨15, 5, 3⟩, 7 / 10, 19 / 25, true), (⟨9, 8, -2⟩, 19 / 25, 127 / 167, true),
    (⟨15, 13, -3⟩, 127 / 167, 13 / 17, true), (⟨6, 5, -1⟩, 13 / 17, 17 / 22, true), (⟨2, 9, -6⟩, 17 / 22, 41 / 53, false),
    (⟨9, 7, -1⟩, 41 / 53, 7 / 9, true), (⟨9, 16, -8⟩, 7 / 9, 1867 / 2347, false), (⟨3, 2, 0⟩, 1867 / 2347, 4 / 5, true), (⟨3, 2, 0⟩, 4 / 5, 7 / 8, true),
    (⟨3, 10, -7⟩, 7 / 8, 279 / 314, true), (⟨24, 30, -11⟩, 279 / 314, 155 / 174, true), (⟨24, 30, -11⟩, 155 / 174, 9 / 10, true),
    (⟨3, 10, -7⟩, 9 / 10, 31 / 34, false), (⟨11, 48, -36⟩, 31 / 34, 14 / 15, false), (⟨391, 2493, -2014⟩, 14 / 15, 2841 / 3016, false),
    (⟨22232, 163248, -134765⟩, 2841 / 3016, 859 / 908, false), (⟨4406612, 33911310, -28181831⟩, 859 / 908, 23 / 24, false),
    (⟨3, 24, -20⟩, 23 / 24, 60725033 / 62460603, true), (⟨2351558, 39632665, -35918731⟩, 60725033 / 62460603, 39 / 40, false),
    (⟨2, 15, -12⟩, 39 / 40, 41 / 42, true), (⟨3, 40, -35⟩, 41 / 42, 59 / 60, true)]

/-- The bound of the table at `s`: one of the rows, or the family of the last row (zero_density.tex:791). -/
inductive Best (s : ℚ) : ℝ → Prop
  | row (r : LF × ℚ × ℚ × Bool) (h : r ∈ rows) (h1 : r.2.1 ≤ s) (h2 : s < r.2.2.1) : Best s (r.1.val s)
  | pintz (n : ℕ) (h : 6 ≤ n) (h1 : 1 - 1 / (2 * (n : ℚ) * (n - 1)) ≤ s) (h2 : s < 1 - 1 / (2 * (n : ℚ) * (n + 1))) :
      Best s (3 / (n * (1 - 2 * (n - 1) * (1 - s))))

/-- A row is at most an entry where both are defined. -/
def rowLe (r : LF × ℚ × ℚ × Bool) (g : LF) (I : Interval) : Bool :=
  (decide (r.2.2.1 ≤ max r.2.1 I.x0)) || (decide (I.x1 ≤ r.2.1) && !I.incU) || leOn r.1 g (max r.2.1 I.x0) (min r.2.2.1 I.x1)

theorem rowLe_sound {r : LF × ℚ × ℚ × Bool} {g : LF} {I : Interval} (h : rowLe r g I = true) {s : ℚ} (h1 : r.2.1 ≤ s) (h2 : s < r.2.2.1)
    (hs : I.contains s = true) : r.1.val s ≤ g.val s := by
  obtain ⟨b1, b2⟩ := contains_bounds hs
  simp only [rowLe, Bool.or_eq_true, Bool.and_eq_true, decide_eq_true_eq, Bool.not_eq_true'] at h
  rcases h with (h | ⟨h, h'⟩) | h
  · exact absurd (lt_of_lt_of_le h2 h) (not_lt.mpr (max_le h1 b1))
  · rw [Interval.contains_iff] at hs
    rcases hs.2 with h3 | ⟨h3, -⟩
    · exact absurd (lt_of_lt_of_le h3 h) (not_lt.mpr h1)
    · rw [h'] at h3; cases h3
  · exact (leOn_pos h (t := (s : ℝ)) (by exact_mod_cast max_le h1 b1) (by exact_mod_cast le_min h2.le b2)).2.2

/-- A row is at most the entry of Ivić for `k`, for every `k` whose range it meets. -/
def ivicRow (r : LF × ℚ × ℚ × Bool) : Bool :=
  decide (r.2.2.1 ≤ 3 / 4) || [3, 4, 5, 6].any (fun j : ℕ => leOn r.1 ⟨3 * j, 3 * j - 2, 2 - j⟩ (max r.2.1 (3 / 4)) r.2.2.1 &&
    (List.range' 3 (j - 3)).all (fun k => decide (r.2.2.1 ≤ ivicLower k)))

theorem ivicRow_sound {r : LF × ℚ × ℚ × Bool} (h : ivicRow r = true) {s : ℚ} (h1 : r.2.1 ≤ s) (h2 : s < r.2.2.1) (k : ℕ) (hk : 3 ≤ k)
    (h3 : ivicLower k ≤ s) (h4 : s < 1) : r.1.val s ≤ 3 * k / ((3 * k - 2) * s + (2 - k)) := by
  have h34 := (ivicLower_ge hk).trans h3
  simp only [ivicRow, Bool.or_eq_true, decide_eq_true_eq, List.any_eq_true, Bool.and_eq_true, List.all_eq_true] at h
  rcases h with h | ⟨j, hj, h5, h6⟩
  · exact absurd (lt_of_lt_of_le h2 h) (not_lt.mpr h34)
  · have j3 : 3 ≤ j := by
      simp only [List.mem_cons, List.not_mem_nil, or_false] at hj
      omega
    have hjk : j ≤ k := by
      by_contra hc
      have := h6 k (List.mem_range'_1.mpr ⟨hk, by omega⟩)
      exact absurd (lt_of_lt_of_le h2 this) (not_lt.mpr h3)
    have a := (leOn_pos h5 (t := (s : ℝ)) (by exact_mod_cast max_le h1 h34) (by exact_mod_cast h2.le)).2.2
    refine a.trans ?_
    have b := (ivic_mono j3 hjk (t := (s : ℝ)) (cast_le' h34) (by exact_mod_cast h4.le)).2
    simp only [LF.val]
    push_cast
    exact b

/-- A row is at most `30/13`; after the first row, which stops at `7/10`, this is what is needed for the entries of another form. For rows that meet `[9/10, 1)` the square of
the first value is at most `6.42² (1 - hi)`. -/
def specialRow (r : LF × ℚ × ℚ × Bool) : Bool :=
  leOn r.1 ⟨30 / 13, 0, 1⟩ r.2.1 r.2.2.1 && decide (r.2.2.1 ≤ 59 / 60) && (decide (7 / 10 ≤ r.2.1) || decide (r.1 = ⟨3, -1, 2⟩ ∧ r.2.1 = 1 / 2 ∧ r.2.2.1 = 7 / 10)) &&
    (decide (r.2.2.1 ≤ 9 / 10) || (leOn r.1 ⟨r.1.a / (r.1.b * r.2.1 + r.1.c), 0, 1⟩ r.2.1 r.2.2.1 &&
      decide ((r.1.a / (r.1.b * r.2.1 + r.1.c)) ^ 2 ≤ (642 / 100) ^ 2 * (1 - r.2.2.1)))) && decide (1 / 2 ≤ r.2.1)

theorem const_val (c : ℚ) (t : ℝ) : (⟨c, 0, 1⟩ : LF).val t = c := by simp [LF.val]

theorem specialRow_sound {r : LF × ℚ × ℚ × Bool} (h : specialRow r = true) {s : ℚ} (h1 : r.2.1 ≤ s) (h2 : s < r.2.2.1) (e : Entry) (he : e ∈ specials)
    (v : ℝ) (hv : e.at s = .ok v) : r.1.val s ≤ v := by
  simp only [specialRow, Bool.and_eq_true, Bool.or_eq_true, decide_eq_true_eq] at h
  obtain ⟨⟨⟨⟨q1, q2⟩, q3⟩, q4⟩, q5⟩ := h
  have t1 : (r.2.1 : ℝ) ≤ s := by exact_mod_cast h1
  have t2 : (s : ℝ) ≤ r.2.2.1 := by exact_mod_cast h2.le
  have c1 := (leOn_pos q1 t1 t2).2.2
  rw [const_val] at c1
  push_cast at c1
  have c0 : (1 / 2 : ℝ) ≤ s := cast_le' (q5.trans h1)
  have c2 : (s : ℝ) ≤ 59 / 60 := by
    have : ((s : ℚ) : ℝ) ≤ ((59 / 60 : ℚ) : ℝ) := by exact_mod_cast h2.le.trans q2
    push_cast at this; exact this
  have c3 : (1 / 8 : ℝ) ≤ Real.sqrt (1 - s) := Real.le_sqrt_of_sq_le (by norm_num; linarith)
  have ing : r.1 = ⟨3, -1, 2⟩ → r.1.val s = 3 / (2 - (s : ℝ)) := by
    intro h; rw [h, LF.val]; push_cast; congr 1; ring
  simp only [specials, List.mem_cons, List.not_mem_nil, or_false] at he
  rcases he with rfl | rfl | rfl | rfl | rfl | rfl
  · obtain ⟨hs, rfl⟩ := Reads.of_at reads_carlson hv
    rcases q3 with q3 | q3
    · have : (7 / 10 : ℝ) ≤ s := cast_le' (q3.trans h1)
      linarith
    · rw [ing q3.1, div_le_iff₀ (by linarith)]
      have : (s : ℝ) ≤ 7 / 10 := by
        have : ((s : ℚ) : ℝ) ≤ ((7 / 10 : ℚ) : ℝ) := by exact_mod_cast (h2.le.trans q3.2.2.le)
        push_cast at this; exact this
      nlinarith
  · obtain ⟨hs, rfl⟩ := Reads.of_at reads_montgomery hv
    linarith
  · obtain ⟨hs, rfl⟩ := Reads.of_at reads_ford hv
    linarith
  · obtain ⟨hs, rfl⟩ := Reads.of_at reads_heathBrown hv
    rw [half_open] at hs
    rcases q4 with q4 | ⟨q4, q6⟩
    · exact absurd (lt_of_lt_of_le h2 q4) (not_lt.mpr hs.1)
    · have c4 := (leOn_pos q4 t1 t2).2.2
      rw [const_val] at c4
      refine c4.trans ?_
      set c : ℚ := r.1.a / (r.1.b * r.2.1 + r.1.c) with hc
      have q7 : c ^ 2 ≤ (642 / 100) ^ 2 * (1 - s) := by nlinarith
      have q8 : (c : ℝ) ^ 2 ≤ (642 / 100) ^ 2 * (1 - s) := by
        have := (Rat.cast_le (K := ℝ)).mpr q7
        push_cast at this; exact this
      have q9 : (c : ℝ) / (642 / 100) ≤ Real.sqrt (1 - s) := by
        apply Real.le_sqrt_of_sq_le
        rw [div_pow, div_le_iff₀ (by norm_num)]
        linarith
      rw [div_le_iff₀ (by norm_num)] at q9
      norm_num at q9 ⊢
      linarith
  · obtain ⟨hs, rfl⟩ := Reads.of_at reads_jutila hv
    rw [half_open] at hs
    have : (155 / 174 : ℝ) ≤ s := cast_le' hs.1
    refine c1.trans ?_
    rw [le_div_iff₀ (by linarith)]
    linarith
  · obtain ⟨hs, rfl⟩ := Reads.of_at reads_conrey hv
    rcases q3 with q3 | q3
    · have : (7 / 10 : ℝ) ≤ s := cast_le' (q3.trans h1)
      refine c1.trans ?_
      rw [le_div_iff₀ (by linarith)]
      linarith
    · rw [ing q3.1, div_le_div_iff₀ (by linarith) (by linarith)]
      nlinarith

/-- An entry that reaches beyond `59/60` is at least `3/5` there. -/
def nearOne (g : LF) (I : Interval) : Bool := (decide (I.x1 ≤ 59 / 60) && !I.incU) || leOn ⟨3 / 5, 0, 1⟩ g (max I.x0 (59 / 60)) I.x1

/-- The last row of the table is at most `3/(n - 1)`. -/
theorem pintz_le {n : ℕ} (hn : 6 ≤ n) {s : ℚ} (h1 : 1 - 1 / (2 * (n : ℚ) * (n - 1)) ≤ s) (h2 : s < 1 - 1 / (2 * (n : ℚ) * (n + 1))) :
    (3 : ℝ) / (n * (1 - 2 * (n - 1) * (1 - s))) ≤ 3 / (n - 1) ∧ 59 / 60 ≤ s ∧ s < 1 ∧ 1 < (1 - s) * (2 * n * (n + 1)) ∧ (1 - s) * (2 * n * (n - 1)) ≤ 1 := by
  have n6 : (6 : ℚ) ≤ n := by exact_mod_cast hn
  have n6' : (6 : ℝ) ≤ n := by exact_mod_cast hn
  have c1 : (1 - s) * (2 * n * (n - 1)) ≤ 1 := by
    have : 1 - s ≤ 1 / (2 * (n : ℚ) * (n - 1)) := by linarith
    exact (le_div_iff₀ (by nlinarith)).mp this
  have c2 : 1 < (1 - s) * (2 * n * (n + 1)) := by
    have : 1 / (2 * (n : ℚ) * (n + 1)) < 1 - s := by linarith
    exact (div_lt_iff₀ (by nlinarith)).mp this
  have c3 : 0 < 1 - s := by
    by_contra hc
    push Not at hc
    nlinarith
  have c4 : (1 - s) * 60 ≤ 1 := by
    have : (1 - s) * 60 ≤ (1 - s) * (2 * n * (n - 1)) := by
      apply mul_le_mul_of_nonneg_left _ c3.le
      nlinarith
    linarith
  have d1 : (1 - (s : ℝ)) * (2 * n * (n - 1)) ≤ 1 := by exact_mod_cast c1
  refine ⟨?_, by linarith, by linarith, c2, c1⟩
  apply div_le_div_of_nonneg_left (by norm_num) (by linarith)
  nlinarith

/-- **C77 (the table is at least as good as the literature).** At every `σ` in `[1/2, 1)`, the bound of the table of best estimates is at most
every bound that the zero density estimates of `literature.py` claim there. -/
theorem C77_best : ∃ es, all = .ok es ∧ ∀ (s : ℚ) (b : ℝ), Best s b → ∀ e ∈ es, ∀ v, e.at s = .ok v → b ≤ v := by
  obtain ⟨es, h1, h2⟩ := C76_entries
  refine ⟨es, h1, fun s b hb e he v hv => ?_⟩
  have hL : ∀ n : ℕ, 6 ≤ n → 59 / 60 ≤ pintzLower n := by
    intro n hn
    have h6 : (6 : ℚ) ≤ n := by exact_mod_cast hn
    have : 1 / (2 * (n : ℚ) * (n - 1)) ≤ 1 / 60 := by
      apply one_div_le_one_div_of_le (by norm_num); nlinarith
    rw [pintzLower]; linarith
  have hrows : ∀ r ∈ rows, (∀ p ∈ before ++ middle ++ after, chk (rowLe r) p = true) := by decide +kernel
  have hrows' : ∀ r ∈ rows, ivicRow r = true ∧ specialRow r = true := by decide +kernel
  have hnear : ∀ p ∈ before ++ middle ++ after, chk nearOne p = true := by decide +kernel
  cases hb with
  | row r hr b1 b2 =>
    obtain ⟨r1, r2⟩ := hrows' r hr
    rcases (h2 e).mp he with h | ⟨k, hk, -, rfl⟩ | ⟨k, hk, -, rfl⟩
    · rcases chk_cases _ _ (hrows r hr _ h) with ⟨g, hg, hP⟩ | hsp
      · obtain ⟨hs, rfl⟩ := Reads.of_at (readLF_reads hg) hv
        exact rowLe_sound hP b1 b2 hs
      · exact specialRow_sound r2 b1 b2 e hsp v hv
    · obtain ⟨hs, rfl⟩ := Reads.of_at (C76_ivic_formula k hk) hv
      simp only [ivicEntry, half_open] at hs
      exact ivicRow_sound r1 b1 b2 k hk hs.1 hs.2
    · obtain ⟨hs, rfl⟩ := Reads.of_at (C76_pintz_formula k) hv
      simp only [pintzEntry, half_open] at hs
      have := hL k hk
      simp only [specialRow, Bool.and_eq_true, decide_eq_true_eq] at r2
      exact absurd (lt_of_lt_of_le b2 r2.1.1.1.2) (not_lt.mpr (this.trans hs.1))
  | pintz n hn b1 b2 =>
    obtain ⟨c1, c2, c3, c4, c5⟩ := pintz_le hn b1 b2
    have n6 : (6 : ℝ) ≤ n := by exact_mod_cast hn
    have c6 : (3 : ℝ) / (n - 1) ≤ 3 / 5 := div_le_div_of_nonneg_left (by norm_num) (by norm_num) (by linarith)
    have d2 : (59 / 60 : ℝ) ≤ s := cast_le' c2
    have d3 : (s : ℝ) < 1 := cast_lt' c3
    rcases (h2 e).mp he with h | ⟨k, hk, -, rfl⟩ | ⟨k, hk, -, rfl⟩
    · rcases chk_cases _ _ (hnear _ h) with ⟨g, hg, hP⟩ | hsp
      · obtain ⟨hs, rfl⟩ := Reads.of_at (readLF_reads hg) hv
        obtain ⟨e1, e2⟩ := contains_bounds hs
        simp only [nearOne, Bool.or_eq_true, Bool.and_eq_true, decide_eq_true_eq, Bool.not_eq_true'] at hP
        rcases hP with ⟨hP, hP'⟩ | hP
        · rw [Interval.contains_iff] at hs
          rcases hs.2 with h3 | ⟨h3, -⟩
          · exact absurd (lt_of_lt_of_le h3 hP) (not_lt.mpr c2)
          · rw [hP'] at h3; cases h3
        · have := (leOn_pos hP (t := (s : ℝ)) (by exact_mod_cast max_le e1 c2) (by exact_mod_cast e2)).2.2
          rw [const_val] at this
          push_cast at this
          linarith
      · simp only [specials, List.mem_cons, List.not_mem_nil, or_false] at hsp
        have key : (3 : ℝ) / (n - 1) ≤ 6.42 * Real.sqrt (1 - s) := by
          have d4 : 1 < (1 - (s : ℝ)) * (2 * n * (n + 1)) := by exact_mod_cast c4
          have q : (3 : ℝ) / (n - 1) / 6.42 ≤ Real.sqrt (1 - s) := by
            apply Real.le_sqrt_of_sq_le
            rw [div_pow, div_pow, div_le_iff₀ (by norm_num), div_le_iff₀ (by nlinarith)]
            have : (2 * n * (n + 1) : ℝ) * 9 ≤ 6.42 ^ 2 * (n - 1) ^ 2 := by norm_num; nlinarith
            nlinarith
          rw [div_le_iff₀ (by norm_num)] at q
          linarith
        have hsq := Real.sqrt_nonneg (1 - (s : ℝ))
        rcases hsp with rfl | rfl | rfl | rfl | rfl | rfl
        · obtain ⟨hs, rfl⟩ := Reads.of_at reads_carlson hv
          linarith
        · obtain ⟨hs, rfl⟩ := Reads.of_at reads_montgomery hv
          linarith
        · obtain ⟨hs, rfl⟩ := Reads.of_at reads_ford hv
          linarith
        · obtain ⟨hs, rfl⟩ := Reads.of_at reads_heathBrown hv
          linarith
        · obtain ⟨hs, rfl⟩ := Reads.of_at reads_jutila hv
          refine (c1.trans c6).trans ?_
          rw [le_div_iff₀ (by linarith)]
          linarith
        · obtain ⟨hs, rfl⟩ := Reads.of_at reads_conrey hv
          refine (c1.trans c6).trans ?_
          rw [le_div_iff₀ (by linarith)]
          linarith
    · obtain ⟨hs, rfl⟩ := Reads.of_at (C76_ivic_formula k hk) hv
      refine (c1.trans c6).trans ?_
      have b := ivic_mono (le_refl 3) hk (t := (s : ℝ)) (by linarith) d3.le
      refine le_trans ?_ b.2
      rw [le_div_iff₀ b.1]
      push_cast
      linarith
    · obtain ⟨hs, rfl⟩ := Reads.of_at (C76_pintz_formula k) hv
      simp only [pintzEntry, half_open, pintzLower, pintzUpper] at hs
      obtain ⟨-, -, -, f4, f5⟩ := pintz_le hk hs.1 hs.2
      have hη : 0 < 1 - s := by linarith
      have n6q : (6 : ℚ) ≤ n := by exact_mod_cast hn
      have k6q : (6 : ℚ) ≤ k := by exact_mod_cast hk
      have hnk : n = k := by
        apply le_antisymm
        · by_contra hc
          have hc' : (k + 1 : ℚ) ≤ n := by exact_mod_cast (by omega : k + 1 ≤ n)
          have : (1 - s) * (2 * k * (k + 1)) ≤ (1 - s) * (2 * n * (n - 1)) := by
            apply mul_le_mul_of_nonneg_left _ hη.le
            nlinarith
          linarith
        · by_contra hc
          have hc' : (n + 1 : ℚ) ≤ k := by exact_mod_cast (by omega : n + 1 ≤ k)
          have : (1 - s) * (2 * n * (n + 1)) ≤ (1 - s) * (2 * k * (k - 1)) := by
            apply mul_le_mul_of_nonneg_left _ hη.le
            nlinarith
          linarith
      subst hnk
      exact le_rfl

example : Best (4 / 5) (15 / 8) := by
  have := Best.row (s := 4 / 5) (⟨3, 2, 0⟩, 4 / 5, 7 / 8, true) (by simp [rows]) (by norm_num) (by norm_num)
  norm_num [LF.val] at this
  exact this

/-- **C77 (the table is complete).** At every `σ` in `[1/2, 1)` the table has exactly one bound. -/
theorem C77_complete (s : ℚ) (h0 : 1 / 2 ≤ s) (h1 : s < 1) : ∃! b, Best s b := by
  have ex : ∃ b, Best s b := by
    by_cases h : s < 59 / 60
    · have cov : ∀ (l : List (LF × ℚ × ℚ × Bool)) (lo : ℚ), (l.foldr (fun r (f : ℚ → Bool) x => decide (r.2.1 = x) && f r.2.2.1) (fun x => decide (x = 59 / 60))) lo = true →
          lo ≤ s → ∃ r ∈ l, r.2.1 ≤ s ∧ s < r.2.2.1 := by
        intro l
        induction l with
        | nil =>
          intro lo h2 h3
          have := of_decide_eq_true h2
          linarith
        | cons r l ih =>
          intro lo h2 h3
          simp only [List.foldr_cons, Bool.and_eq_true, decide_eq_true_eq] at h2
          by_cases h4 : s < r.2.2.1
          · exact ⟨r, by simp, h2.1.le.trans h3, h4⟩
          · obtain ⟨r', hr', hh⟩ := ih _ h2.2 (not_lt.mp h4)
            exact ⟨r', by simp [hr'], hh⟩
      obtain ⟨r, hr, h2, h3⟩ := cov rows (1 / 2) (by decide +kernel) h0
      exact ⟨_, Best.row r hr h2 h3⟩
    · push Not at h
      have hη : 0 < 1 - s := by linarith
      have hex : ∃ n : ℕ, 1 < (1 - s) * (2 * n * (n + 1)) := by
        obtain ⟨n, hn⟩ := exists_nat_gt (1 / (1 - s))
        refine ⟨n, ?_⟩
        have h2 : 1 < (1 - s) * n := by
          rw [div_lt_iff₀ hη] at hn; linarith
        have h3 : (0 : ℚ) ≤ n := Nat.cast_nonneg n
        nlinarith
      let n := Nat.find hex
      have hn : 1 < (1 - s) * (2 * n * (n + 1)) := Nat.find_spec hex
      have hn0 : 6 ≤ n := by
        by_contra hc
        have h5 : (n : ℚ) ≤ 5 := by exact_mod_cast (by omega : n ≤ 5)
        have h3 : (0 : ℚ) ≤ n := Nat.cast_nonneg n
        have : (1 - s) * (2 * n * (n + 1)) ≤ (1 - s) * 60 := by
          apply mul_le_mul_of_nonneg_left _ hη.le
          nlinarith
        linarith
      have hm : (1 - s) * (2 * n * (n - 1)) ≤ 1 := by
        have := Nat.find_min hex (show n - 1 < n by omega)
        push Not at this
        rw [Nat.cast_sub (by omega)] at this
        push_cast at this
        have e : (2 * ((n : ℚ) - 1) * ((n : ℚ) - 1 + 1)) = 2 * n * (n - 1) := by ring
        rw [← e]; exact this
      have n6 : (6 : ℚ) ≤ n := by exact_mod_cast hn0
      refine ⟨_, Best.pintz n hn0 ?_ ?_⟩
      · have : 1 - s ≤ 1 / (2 * (n : ℚ) * (n - 1)) := (le_div_iff₀ (by nlinarith)).mpr hm
        linarith
      · have : 1 / (2 * (n : ℚ) * (n + 1)) < 1 - s := (div_lt_iff₀ (by nlinarith)).mpr hn
        linarith
  obtain ⟨b, hb⟩ := ex
  refine ⟨b, hb, fun b' hb' => ?_⟩
  have dis : ∀ r ∈ rows, ∀ r' ∈ rows, r = r' ∨ r.2.2.1 ≤ r'.2.1 ∨ r'.2.2.1 ≤ r.2.1 := by decide +kernel
  have top : ∀ r ∈ rows, r.2.2.1 ≤ 59 / 60 := by decide +kernel
  cases hb with
  | row r hr a1 a2 =>
    cases hb' with
    | row r' hr' a1' a2' =>
      rcases dis r hr r' hr' with h | h | h
      · rw [h]
      · linarith
      · linarith
    | pintz n hn a1' a2' =>
      have := (pintz_le hn a1' a2').2.1
      have := top r hr
      linarith
  | pintz n hn a1 a2 =>
    obtain ⟨-, c2, c3, c4, c5⟩ := pintz_le hn a1 a2
    cases hb' with
    | row r' hr' a1' a2' =>
      have := top r' hr'
      linarith
    | pintz k hk a1' a2' =>
      obtain ⟨-, -, -, f4, f5⟩ := pintz_le hk a1' a2'
      have hη : 0 < 1 - s := by linarith
      have n6q : (6 : ℚ) ≤ n := by exact_mod_cast hn
      have k6q : (6 : ℚ) ≤ k := by exact_mod_cast hk
      have hnk : n = k := by
        apply le_antisymm
        · by_contra hc
          have hc' : (k + 1 : ℚ) ≤ n := by exact_mod_cast (by omega : k + 1 ≤ n)
          have : (1 - s) * (2 * k * (k + 1)) ≤ (1 - s) * (2 * n * (n - 1)) := by
            apply mul_le_mul_of_nonneg_left _ hη.le
            nlinarith
          linarith
        · by_contra hc
          have hc' : (n + 1 : ℚ) ≤ k := by exact_mod_cast (by omega : n + 1 ≤ k)
          have : (1 - s) * (2 * n * (n + 1)) ≤ (1 - s) * (2 * k * (k - 1)) := by
            apply mul_le_mul_of_nonneg_left _ hη.le
            nlinarith
          linarith
      subst hnk
      rfl

example : (1 / 2 : ℚ) ≤ 998 / 1000 ∧ (998 / 1000 : ℚ) < 1 := by norm_num

/-- The entries of `before ++ middle ++ after` and those of Ivić for `k = 3, 4, 5, 6`, as functions. -/
def lfs : List (Entry × LF) :=
  (before ++ middle ++ after).filterMap (fun p => match p with
    | .ok e => (readLF e.expr).map (fun g => (e, g))
    | .error _ => none)

theorem mem_lfs {e : Entry} {g : LF} (h : (e, g) ∈ lfs) : (.ok e : Py Entry) ∈ before ++ middle ++ after ∧ readLF e.expr = some g := by
  simp only [lfs, List.mem_filterMap] at h
  obtain ⟨p, hp, h⟩ := h
  cases p with
  | ok e' =>
    simp only [Option.map_eq_some_iff, Prod.mk.injEq] at h
    obtain ⟨g', h1, rfl, rfl⟩ := h
    exact ⟨hp, h1⟩
  | error x => cases h

/-- **C77 (what comes from the literature).** Where the table cites a published theorem, its bound is claimed by an entry of
`literature.py`, on the whole range of the row; for the last row this is so for `n` up to 22, where the loop stops. -/
theorem C77_attained : ∃ es, all = .ok es ∧
    (∀ r ∈ rows, r.2.2.2 = true → ∃ e ∈ es, ∀ s : ℚ, r.2.1 ≤ s → s < r.2.2.1 → e.at s = .ok (r.1.val s)) ∧
    (∀ n : ℕ, 6 ≤ n → n ≤ 22 → ∃ e ∈ es, ∀ s : ℚ, 1 - 1 / (2 * (n : ℚ) * (n - 1)) ≤ s → s < 1 - 1 / (2 * (n : ℚ) * (n + 1)) →
      e.at s = .ok (3 / (n * (1 - 2 * (n - 1) * (1 - s))))) := by
  obtain ⟨es, h1, h2⟩ := C76_entries
  refine ⟨es, h1, fun r hr ht => ?_, fun n h6 h22 => ?_⟩
  · have hc : ∀ r ∈ rows, r.2.2.2 = true → (∃ p ∈ lfs, p.2 = r.1 ∧ p.1.dom.x0 ≤ r.2.1 ∧ r.2.2.1 ≤ p.1.dom.x1 ∧ p.1.dom.incL = true) ∨
        ∃ k ∈ [3, 4, 5, 6], ((3 * k : ℕ) : ℚ) * r.1.b = (3 * (k : ℚ) - 2) * r.1.a ∧ ((3 * k : ℕ) : ℚ) * r.1.c = (2 - (k : ℚ)) * r.1.a ∧ r.1.a ≠ 0 ∧
          ivicLower k ≤ r.2.1 ∧ r.2.2.1 ≤ 1 := by decide +kernel
    rcases hc r hr ht with ⟨⟨e, g⟩, hp, rfl, a1, a2, a3⟩ | ⟨k, hk, a1, a2, a0, a3, a4⟩
    · obtain ⟨m1, m2⟩ := mem_lfs hp
      refine ⟨e, (h2 e).mpr (Or.inl m1), fun s b1 b2 => (readLF_reads m2).at ?_⟩
      rw [Interval.contains_iff]
      refine ⟨?_, Or.inl (lt_of_lt_of_le b2 a2)⟩
      rcases eq_or_lt_of_le (a1.trans b1) with h | h
      · exact Or.inr ⟨a3, h.symm⟩
      · exact Or.inl h
    · have k3 : 3 ≤ k ∧ k < 100 := by
        simp only [List.mem_cons, List.not_mem_nil, or_false] at hk
        omega
      refine ⟨ivicEntry k, (h2 _).mpr (Or.inr (Or.inl ⟨k, k3.1, k3.2, rfl⟩)), fun s b1 b2 => ?_⟩
      have b3 := lt_of_lt_of_le b2 a4
      rw [(C76_ivic_formula k k3.1).at (half_open.mpr ⟨a3.trans b1, b3⟩)]
      have r0 : (3 / 4 : ℝ) ≤ s := cast_le' ((ivicLower_ge k3.1).trans (a3.trans b1))
      have r1 : (s : ℝ) < 1 := cast_lt' b3
      have hd := (ivic_mono k3.1 le_rfl r0 r1.le).1
      have a1' : (3 * k : ℝ) * r.1.b = (3 * k - 2) * r.1.a := by exact_mod_cast a1
      have a2' : (3 * k : ℝ) * r.1.c = (2 - k) * r.1.a := by exact_mod_cast a2
      have a0' : (r.1.a : ℝ) ≠ 0 := by exact_mod_cast a0
      have k3' : (3 : ℝ) ≤ k := by exact_mod_cast k3.1
      have e : (3 * k : ℝ) * (r.1.b * s + r.1.c) = r.1.a * ((3 * k - 2) * s + (2 - k)) := by linear_combination s * a1' + a2'
      have hne : (r.1.b * s + r.1.c : ℝ) ≠ 0 := by
        intro h0
        rw [h0, mul_zero] at e
        rcases mul_eq_zero.mp e.symm with h | h
        · exact a0' h
        · linarith
      simp only [LF.val]
      congr 1
      rw [div_eq_div_iff hd.ne' hne]
      linarith
  · refine ⟨pintzEntry n, (h2 _).mpr (Or.inr (Or.inr ⟨n, h6, h22, rfl⟩)), fun s b1 b2 =>
      Reads.at (e := pintzEntry n) (C76_pintz_formula n) (half_open.mpr ⟨b1, b2⟩)⟩

example : ∃ r ∈ rows, r.2.2.2 = true ∧ r.1 = ⟨15, 13, -3⟩ := ⟨(⟨15, 13, -3⟩, 127 / 167, 13 / 17, true), by simp [rows], rfl, rfl⟩

/-! ## Energy -/

/-- The bound of Heath-Brown on the zero density energy exponent `A*(σ)` (zero_density_energy.tex:90-97), in its three ranges. -/
noncomputable def heathBrownEnergy (s : ℝ) : ℝ :=
  if s ≤ 2 / 3 then (10 - 11 * s) / ((2 - s) * (1 - s)) else if s ≤ 3 / 4 then (18 - 19 * s) / ((4 - 2 * s) * (1 - s)) else 12 / (4 * s - 1)

theorem reads_energy1 : Reads "(10 - 11 * x) / ((2 - x) * (1 - x))".toList (fun t => (10 - 11 * t) / ((2 - t) * (1 - t))) :=
  ⟨.div (.sub (.num 10) (.mul (.num 11) .x)) (.mul (.sub (.num 2) .x) (.sub (.num 1) .x)), by decide +kernel, fun t => by simp [Fml.eval]⟩

theorem reads_energy2 : Reads "(18 - 19 * x) / ((4 - 2 * x) * (1 - x))".toList (fun t => (18 - 19 * t) / ((4 - 2 * t) * (1 - t))) :=
  ⟨.div (.sub (.num 18) (.mul (.num 19) .x)) (.mul (.sub (.num 4) (.mul (.num 2) .x)) (.sub (.num 1) .x)), by decide +kernel, fun t => by simp [Fml.eval]⟩

theorem reads_energy3 : Reads "12 / (4 * x - 1)".toList (fun t => 12 / (4 * t - 1)) :=
  ⟨.div (.num 12) (.sub (.mul (.num 4) .x) (.num 1)), by decide +kernel, fun t => by simp [Fml.eval]⟩

theorem closed_iff {a b s : ℚ} : Interval.contains ⟨a, b, true, true⟩ s = true ↔ a ≤ s ∧ s ≤ b := by
  simp [Interval.contains]

/-- **C78.** The three energy estimates of Heath-Brown in `literature.py` are made without error; together they claim a bound exactly for
`1/2 ≤ σ ≤ 1`, and every bound they claim is the published one. As the intervals are closed, this includes that neighbouring estimates
claim the same value (6) at the ends `2/3` and `3/4` that they share. -/
theorem C78_energy : ∃ es, energy = .ok es ∧ es.length = 3 ∧
    (∀ s : ℚ, (1 / 2 ≤ s ∧ s ≤ 1) ↔ ∃ e ∈ es, ∃ v, e.at s = .ok v) ∧
    ∀ e ∈ es, ∀ (s : ℚ) (v : ℝ), e.at s = .ok v → v = heathBrownEnergy s := by
  have h1 : energy = .ok [⟨"(10 - 11 * x) / ((2 - x) * (1 - x))".toList, ⟨1 / 2, 2 / 3, true, true⟩⟩,
      ⟨"(18 - 19 * x) / ((4 - 2 * x) * (1 - x))".toList, ⟨2 / 3, 3 / 4, true, true⟩⟩, ⟨"12 / (4 * x - 1)".toList, ⟨3 / 4, 1, true, true⟩⟩] := by
    decide +kernel
  refine ⟨_, h1, rfl, fun s => ⟨fun h => ?_, ?_⟩, ?_⟩
  · by_cases a : s ≤ 2 / 3
    · exact ⟨_, List.mem_cons_self, _, reads_energy1.at (closed_iff.mpr ⟨h.1, a⟩)⟩
    · by_cases b : s ≤ 3 / 4
      · exact ⟨_, List.mem_cons_of_mem _ List.mem_cons_self, _, reads_energy2.at (closed_iff.mpr ⟨(not_le.mp a).le, b⟩)⟩
      · exact ⟨_, List.mem_cons_of_mem _ (List.mem_cons_of_mem _ List.mem_cons_self), _, reads_energy3.at (closed_iff.mpr ⟨(not_le.mp b).le, h.2⟩)⟩
  · rintro ⟨e, he, v, hv⟩
    simp only [List.mem_cons, List.not_mem_nil, or_false] at he
    rcases he with rfl | rfl | rfl
    · obtain ⟨hs, -⟩ := Reads.of_at reads_energy1 hv
      rw [closed_iff] at hs
      exact ⟨hs.1, by linarith⟩
    · obtain ⟨hs, -⟩ := Reads.of_at reads_energy2 hv
      rw [closed_iff] at hs
      constructor <;> linarith
    · obtain ⟨hs, -⟩ := Reads.of_at reads_energy3 hv
      rw [closed_iff] at hs
      exact ⟨by linarith, hs.2⟩
  · intro e he s v hv
    simp only [List.mem_cons, List.not_mem_nil, or_false] at he
    rcases he with rfl | rfl | rfl
    · obtain ⟨hs, rfl⟩ := Reads.of_at reads_energy1 hv
      rw [closed_iff] at hs
      have : (s : ℝ) ≤ 2 / 3 := by
        have : (s : ℝ) ≤ ((2 / 3 : ℚ) : ℝ) := by exact_mod_cast hs.2
        push_cast at this; exact this
      rw [heathBrownEnergy, if_pos this]
    · obtain ⟨hs, rfl⟩ := Reads.of_at reads_energy2 hv
      rw [closed_iff] at hs
      have : (s : ℝ) ≤ 3 / 4 := by
        have : (s : ℝ) ≤ ((3 / 4 : ℚ) : ℝ) := by exact_mod_cast hs.2
        push_cast at this; exact this
      have h23 : (2 / 3 : ℝ) ≤ s := cast_le' hs.1
      rcases eq_or_lt_of_le h23 with h | h
      · rw [heathBrownEnergy, if_pos h.ge, ← h]; norm_num
      · rw [heathBrownEnergy, if_neg (not_le.mpr h), if_pos this]
    · obtain ⟨hs, rfl⟩ := Reads.of_at reads_energy3 hv
      rw [closed_iff] at hs
      have h34 : (3 / 4 : ℝ) ≤ s := cast_le' hs.1
      rw [heathBrownEnergy, if_neg (by linarith)]
      rcases eq_or_lt_of_le h34 with h | h
      · rw [if_pos h.ge, ← h]; norm_num
      · rw [if_neg (not_le.mpr h)]

example : ∃ es, energy = .ok es ∧ ∃ e ∈ es, e.at (2 / 3) = .ok 6 := by
  obtain ⟨es, h1, -, h2, h3⟩ := C78_energy
  obtain ⟨e, he, v, hv⟩ := (h2 (2 / 3)).mp (by norm_num)
  refine ⟨es, h1, e, he, ?_⟩
  rw [hv, h3 e he _ v hv, heathBrownEnergy]
  norm_num

end LitZD
end Expdb
