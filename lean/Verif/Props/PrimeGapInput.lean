import Verif.Props.PrimeGap
import Verif.Props.LiteratureZDTable
import Mathlib.Algebra.Polynomial.Roots
import Mathlib.Topology.Algebra.Polynomial

/-!
# The estimates that `prove_prime_gap2` uses
-/

namespace Expdb
namespace PrimeGap
open Rational (Ival)
open LitZD (Reads Entry ivicEntry pintzEntry readLF_reads chk chk_cases specials)
open Formula (LF readLF)

/-- The estimate is `N / D` for polynomials, with `N > 0` on the closed interval and `D > 0` inside. -/
def Quot (h : Pc) : Prop :=
  ∃ N D : Polynomial ℝ, (∀ x, h.fn x = N.eval x / D.eval x) ∧ (∀ x, h.dom.x0 ≤ x → x ≤ h.dom.x1 → 0 < N.eval x) ∧
    ∀ x, h.dom.x0 < x → x < h.dom.x1 → 0 < D.eval x

/-- The estimate is `k √(1 - x)` with `k ≥ 6.42`. -/
def Root (h : Pc) : Prop := ∃ k : ℝ, 6.42 ≤ k ∧ ∀ x, h.fn x = k * Real.sqrt (1 - x)

/-- The interval is inside `[1/2, 1]` and has more than one point. -/
def Dom (h : Pc) : Prop := 1 / 2 ≤ h.dom.x0 ∧ h.dom.x0 < h.dom.x1 ∧ h.dom.x1 ≤ 1

/-- The estimates that occur. -/
def Kind (h : Pc) : Prop := (Quot h ∨ Root h) ∧ Dom h

theorem reads_unique {s : List Char} {f g : ℝ → ℝ} (hf : Reads s f) (hg : Reads s g) : f = g := by
  obtain ⟨a, a1, a2⟩ := hf
  obtain ⟨b, b1, b2⟩ := hg
  rw [a1] at b1
  obtain rfl := Except.ok.inj b1
  funext t
  rw [← a2, b2]

theorem parsed_reads {e : Entry} {f : ℝ → ℝ} (h : Reads e.expr f) : parsed e = .ok ⟨f, real e.dom⟩ := by
  obtain ⟨g, h1, h2⟩ := h
  rw [parsed, h1]
  simp only [bind, Except.bind, pure, Except.pure]
  rw [show g.eval = f from funext h2]

theorem parsedAll_spec : ∀ es : List Entry, (∀ e ∈ es, ∃ f, Reads e.expr f) →
    ∃ ps, parsedAll es = .ok ps ∧ ∀ p, p ∈ ps ↔ ∃ e ∈ es, ∃ f, Reads e.expr f ∧ p = ⟨f, real e.dom⟩
  | [], _ => ⟨[], rfl, by simp⟩
  | e :: es, h => by
    obtain ⟨f, hf⟩ := h e (by simp)
    obtain ⟨ps, h1, h2⟩ := parsedAll_spec es (fun e he => h e (by simp [he]))
    refine ⟨⟨f, real e.dom⟩ :: ps, ?_, fun p => ?_⟩
    · rw [parsedAll, parsed_reads hf, h1]; rfl
    · rw [List.mem_cons, h2]
      constructor
      · rintro (rfl | ⟨e', he', hh⟩)
        · exact ⟨e, by simp, f, hf, rfl⟩
        · exact ⟨e', by simp [he'], hh⟩
      · rintro ⟨e', he', f', hf', rfl⟩
        rcases List.mem_cons.mp he' with rfl | he'
        · rw [reads_unique hf' hf]; exact Or.inl rfl
        · exact Or.inr ⟨e', he', f', hf', rfl⟩

/-- A test for `Kind`. -/
def lfOk (g : LF) (I : Interval) : Bool :=
  decide (1 / 2 ≤ I.x0) && decide (I.x0 < I.x1) && decide (I.x1 ≤ 1) && decide (0 < g.a) && decide (0 < g.b * I.x0 + g.c) &&
    decide (0 < g.b * I.x1 + g.c)

theorem real_dom {f : ℝ → ℝ} {I : Interval} (h1 : 1 / 2 ≤ I.x0) (h2 : I.x0 < I.x1) (h3 : I.x1 ≤ 1) : Dom ⟨f, real I⟩ := by
  refine ⟨?_, ?_, ?_⟩ <;> simp only [real]
  · have : ((1 / 2 : ℚ) : ℝ) ≤ I.x0 := by exact_mod_cast h1
    push_cast at this; exact this
  · exact_mod_cast h2
  · exact_mod_cast h3

theorem quot_lin {a b c : ℝ} {h : Pc} (hf : ∀ x, h.fn x = a / (b * x + c)) (ha : 0 < a) (hd : ∀ x, h.dom.x0 < x → x < h.dom.x1 → 0 < b * x + c) :
    Quot h := by
  refine ⟨Polynomial.C a, Polynomial.C b * Polynomial.X + Polynomial.C c, ?_, ?_, ?_⟩
  · intro x; rw [hf]; simp
  · intro x _ _; simpa using ha
  · intro x l u; simpa using hd x l u

theorem lf_kind {g : LF} {I : Interval} (h : lfOk g I = true) : Kind ⟨g.val, real I⟩ := by
  simp only [lfOk, Bool.and_eq_true, decide_eq_true_eq] at h
  obtain ⟨⟨⟨⟨⟨h1, h2⟩, h3⟩, h4⟩, h5⟩, h6⟩ := h
  refine ⟨Or.inl (quot_lin (a := g.a) (b := g.b) (c := g.c) (fun x => rfl) (by exact_mod_cast h4) fun x l u => ?_), real_dom h1 h2 h3⟩
  exact Formula.lin_pos (L := (I.x0 : ℝ)) (H := (I.x1 : ℝ)) l.le u.le (by exact_mod_cast h5) (by exact_mod_cast h6)

theorem root_kind {k : ℝ} (hk : 6.42 ≤ k) {I : Interval} (h1 : 1 / 2 ≤ I.x0) (h2 : I.x0 < I.x1) (h3 : I.x1 ≤ 1) :
    Kind ⟨fun t => k * Real.sqrt (1 - t), real I⟩ := ⟨Or.inr ⟨k, hk, fun _ => rfl⟩, real_dom h1 h2 h3⟩

/-- Every estimate of the literature is of one of the two forms. -/
theorem lit_kind : ∃ es, LitZD.all = .ok es ∧ ∀ e ∈ es, ∃ f, Reads e.expr f ∧ Kind ⟨f, real e.dom⟩ := by
  obtain ⟨es, h1, h2⟩ := LitZD.C76_entries
  refine ⟨es, h1, fun e he => ?_⟩
  rcases (h2 e).mp he with h | ⟨k, hk, -, rfl⟩ | ⟨k, hk, -, rfl⟩
  · have hc : ∀ p ∈ LitZD.before ++ LitZD.middle ++ LitZD.after, chk lfOk p = true := by decide +kernel
    rcases chk_cases _ _ (hc _ h) with ⟨g, hg, hP⟩ | hsp
    · exact ⟨_, readLF_reads hg, lf_kind hP⟩
    · simp only [specials, List.mem_cons, List.not_mem_nil, or_false] at hsp
      rcases hsp with rfl | rfl | rfl | rfl | rfl | rfl
      · refine ⟨_, LitZD.reads_carlson, Or.inl ⟨Polynomial.C 4 * Polynomial.X, 1, fun x => by simp, fun x l _ => ?_, fun x _ _ => by simp⟩,
          real_dom (by norm_num) (by norm_num) (by norm_num)⟩
        simp only [real] at l
        push_cast at l
        simp only [Polynomial.eval_mul, Polynomial.eval_C, Polynomial.eval_X]
        linarith
      · exact ⟨_, LitZD.reads_montgomery, root_kind (by norm_num) (by norm_num) (by norm_num) (by norm_num)⟩
      · exact ⟨_, LitZD.reads_ford, root_kind (by norm_num) (by norm_num) (by norm_num) (by norm_num)⟩
      · exact ⟨_, LitZD.reads_heathBrown, root_kind (by norm_num) (by norm_num) (by norm_num) (by norm_num)⟩
      · refine ⟨_, LitZD.reads_jutila, Or.inl ⟨Polynomial.C (3 / 2) - Polynomial.X, 1 - Polynomial.X, fun x => by simp, fun x _ u => ?_, fun x _ u => ?_⟩,
          real_dom (by norm_num) (by norm_num) (by norm_num)⟩
        · simp only [real] at u
          push_cast at u
          simp only [Polynomial.eval_sub, Polynomial.eval_C, Polynomial.eval_X]
          linarith
        · simp only [real] at u
          push_cast at u
          simp only [Polynomial.eval_sub, Polynomial.eval_one, Polynomial.eval_X]
          linarith
      · refine ⟨_, LitZD.reads_conrey, Or.inl ⟨1 + (1 - 2 * Polynomial.X) * Polynomial.C (4 / 7), 1 - Polynomial.X, fun x => by simp [mul_div_assoc], fun x _ u => ?_,
          fun x _ u => ?_⟩, real_dom (by norm_num) (by norm_num) (by norm_num)⟩
        · simp only [real] at u
          push_cast at u
          simp only [Polynomial.eval_sub, Polynomial.eval_C, Polynomial.eval_X, Polynomial.eval_add, Polynomial.eval_mul, Polynomial.eval_one, Polynomial.eval_ofNat]
          linarith
        · simp only [real] at u
          push_cast at u
          simp only [Polynomial.eval_sub, Polynomial.eval_one, Polynomial.eval_X]
          linarith
  · have k3 : (3 : ℝ) ≤ k := by exact_mod_cast hk
    have l3 := LitZD.ivicLower_ge hk
    have l4 : LitZD.ivicLower k < 1 := by
      rw [LitZD.ivicLower_eq hk, div_lt_one (LitZD.gap hk).1]
      have : (3 : ℚ) ≤ k := by exact_mod_cast hk
      nlinarith
    refine ⟨_, LitZD.C76_ivic_formula k hk, Or.inl (quot_lin (a := 3 * k) (b := 3 * k - 2) (c := 2 - k) (fun x => rfl) (by linarith) fun x l u => ?_),
      real_dom (I := (ivicEntry k).dom) (by simp only [ivicEntry]; linarith) l4 le_rfl⟩
    simp only [real, ivicEntry] at l u
    have l' : (3 / 4 : ℝ) ≤ LitZD.ivicLower k := LitZD.cast_le' l3
    push_cast at u
    exact (LitZD.ivic_mono hk le_rfl (l'.trans l.le) u.le).1
  · have h6 : (6 : ℚ) ≤ k := by exact_mod_cast hk
    have r6 : (6 : ℝ) ≤ k := by exact_mod_cast hk
    obtain ⟨u1, u2⟩ := LitZD.pintzLower_lt (by omega : 2 ≤ k)
    have h60 : 59 / 60 ≤ LitZD.pintzLower k := by
      have : 1 / (2 * (k : ℚ) * (k - 1)) ≤ 1 / 60 := by
        apply one_div_le_one_div_of_le (by norm_num); nlinarith
      rw [LitZD.pintzLower]; linarith
    refine ⟨_, LitZD.C76_pintz_formula k, Or.inl (quot_lin (a := 3) (b := k * (2 * (k - 1))) (c := k * (1 - 2 * (k - 1))) (fun x => ?_) (by norm_num) fun x l u => ?_),
      real_dom (I := (pintzEntry k).dom) (by simp only [pintzEntry]; linarith) u1 u2.le⟩
    · congr 1; ring
    · simp only [real, pintzEntry] at l
      rw [LitZD.pintzLower] at l
      push_cast at l
      have e : 1 - x < 1 / (2 * (k : ℝ) * (k - 1)) := by linarith
      rw [lt_div_iff₀ (by nlinarith)] at e
      nlinarith

theorem newZD_eq : newZD = .ok [⟨"2/(9*x - 6)".toList, ⟨17 / 22, 38 / 49, true, true⟩⟩, ⟨"9/(8*(2*x - 1))".toList, ⟨38 / 49, 4 / 5, true, true⟩⟩,
    ⟨"3/(10 * x - 7)".toList, ⟨701 / 1000, 1, true, true⟩⟩, ⟨"3/(40 * x - 35)".toList, ⟨39 / 40, 40 / 41, true, false⟩⟩,
    ⟨"2/(13 * x - 10)".toList, ⟨40 / 41, 41 / 42, true, false⟩⟩] := by
  decide +kernel

theorem new_kind : ∃ es, newZD = .ok es ∧ ∀ e ∈ es, ∃ f, Reads e.expr f ∧ Kind ⟨f, real e.dom⟩ := by
  refine ⟨_, newZD_eq, fun e he => ?_⟩
  simp only [List.mem_cons, List.not_mem_nil, or_false] at he
  rcases he with rfl | rfl | rfl | rfl | rfl
  · exact ⟨_, readLF_reads (g := ⟨2, 9, -6⟩) (by decide +kernel), lf_kind (by decide +kernel)⟩
  · exact ⟨_, readLF_reads (g := ⟨9, 16, -8⟩) (by decide +kernel), lf_kind (by decide +kernel)⟩
  · exact ⟨_, readLF_reads (g := ⟨3, 10, -7⟩) (by decide +kernel), lf_kind (by decide +kernel)⟩
  · exact ⟨_, readLF_reads (g := ⟨3, 40, -35⟩) (by decide +kernel), lf_kind (by decide +kernel)⟩
  · exact ⟨_, readLF_reads (g := ⟨2, 13, -10⟩) (by decide +kernel), lf_kind (by decide +kernel)⟩

open PairZD (IsMinimum bourgainPairs bval bden blim) in
/-- The bounds of Bourgain. -/
theorem bourgain_kind {sol : List (PairZD.Sol ℝ)} (h : IsMinimum bourgainPairs sol) {s : PairZD.Sol ℝ} (hs : s ∈ sol) : Kind ⟨s.fn.at, s.dom⟩ := by
  obtain ⟨a1, a2, a3, a4⟩ := h.shape s hs
  obtain ⟨b1, b2, b3⟩ := h.bound s hs
  have hc : s.dom.contains s.dom.x0 = true := by
    simp only [Ival.contains, a1, a2, if_true, Bool.false_eq_true, if_false, Bool.and_eq_true]
    exact ⟨decide_eq_true le_rfl, decide_eq_true a3⟩
  have hl := h.valid s hs _ hc
  have hk : (0 : ℝ) < s.pair.1 := by exact_mod_cast b2.1
  refine ⟨Or.inl (quot_lin (a := 4 * s.pair.1) (b := 2 * (1 + s.pair.1)) (c := -1 - s.pair.2) (fun x => ?_) (by linarith) fun x l _ => ?_),
    (PairZD.half_le_blim _).trans hl, a3, a4⟩
  · show s.fn.at x = _
    rw [b3, bval, bden]; congr 1; ring
  · have := PairZD.bden_pos b2.1 (hl.trans_lt l)
    rw [bden] at this
    linarith

/-- All zero density estimates of the hypothesis set. -/
theorem gapZD_spec {sol : List (PairZD.Sol ℝ)} (h : PairZD.IsMinimum PairZD.bourgainPairs sol) :
    ∃ es ns zd, LitZD.all = .ok es ∧ newZD = .ok ns ∧ gapZD (.ok sol) = .ok zd ∧ (∀ p ∈ zd, Kind p) ∧
      ∀ p, p ∈ zd ↔ (∃ e, (e ∈ es ∨ e ∈ ns) ∧ ∃ f, Reads e.expr f ∧ p = ⟨f, real e.dom⟩) ∨ ∃ s ∈ sol, p = ⟨s.fn.at, s.dom⟩ := by
  obtain ⟨es, h1, h2⟩ := lit_kind
  obtain ⟨ns, h3, h4⟩ := new_kind
  have h5 : ∀ e ∈ es ++ ns, ∃ f, Reads e.expr f ∧ Kind ⟨f, real e.dom⟩ := by
    intro e he
    rcases List.mem_append.mp he with he | he
    · exact h2 e he
    · exact h4 e he
  obtain ⟨ps, h6, h7⟩ := parsedAll_spec (es ++ ns) (fun e he => by
    obtain ⟨f, hf, -⟩ := h5 e he
    exact ⟨f, hf⟩)
  have hm : ∀ p, p ∈ ps ++ sol.map (fun s => (⟨s.fn.at, s.dom⟩ : Pc)) ↔
      (∃ e, (e ∈ es ∨ e ∈ ns) ∧ ∃ f, Reads e.expr f ∧ p = ⟨f, real e.dom⟩) ∨ ∃ s ∈ sol, p = ⟨s.fn.at, s.dom⟩ := by
    intro p
    rw [List.mem_append, h7, List.mem_map]
    simp only [List.mem_append, eq_comm]
  refine ⟨es, ns, _, h1, h3, ?_, ?_, hm⟩
  · simp only [gapZD, h1, h3, bind, Except.bind, h6]
    rfl
  · intro p hp
    rcases (hm p).mp hp with ⟨e, he, f, hf, rfl⟩ | ⟨s, hs, rfl⟩
    · obtain ⟨g, hg, hk⟩ := h5 e (List.mem_append.mpr he)
      rw [reads_unique hf hg]
      exact hk
    · exact bourgain_kind h hs

/-! ### The energy estimates -/

theorem energy_eq : LitZD.energy = .ok [⟨"(10 - 11 * x) / ((2 - x) * (1 - x))".toList, ⟨1 / 2, 2 / 3, true, true⟩⟩,
    ⟨"(18 - 19 * x) / ((4 - 2 * x) * (1 - x))".toList, ⟨2 / 3, 3 / 4, true, true⟩⟩, ⟨"12 / (4 * x - 1)".toList, ⟨3 / 4, 1, true, true⟩⟩] := by
  decide +kernel

/-- The two decimal numbers of `prove_prime_gap2`. -/
def dec1 : ℚ := 7255782330963900973348270455 / 10000000000000000000000000000
/-- The second one. -/
def dec2 : ℚ := 7929182893891673924914902646 / 10000000000000000000000000000

theorem newEnergy_eq : newEnergy = .ok [⟨"5 * (18 - 19 * x) / ((2 * (5 * x + 3)) * (1 - x))".toList, ⟨7 / 10, dec1, true, false⟩⟩,
    ⟨"2 * (45 - 44 * x) / ((2 * x + 15) * (1 - x))".toList, ⟨dec1, 3 / 4, true, false⟩⟩,
    ⟨"(197 - 220 * x) / (8 * (5 * x - 1) * (1 - x))".toList, ⟨3 / 4, 289 / 380, true, false⟩⟩,
    ⟨"3 * (29 - 30 * x) / (5 * (5 * x - 1) * (1 - x))".toList, ⟨289 / 380, dec2, true, false⟩⟩,
    ⟨"(40 - 36 * x) / ((20 * x - 5) * (1 - x))".toList, ⟨dec2, 5 / 6, true, false⟩⟩] := by
  decide +kernel

/-- The estimates of the set, as functions. -/
noncomputable def energyFns : List Pc :=
  [⟨fun t => (10 - 11 * t) / ((2 - t) * (1 - t)), ⟨1 / 2, 2 / 3, true, true⟩⟩,
    ⟨fun t => (18 - 19 * t) / ((4 - 2 * t) * (1 - t)), ⟨2 / 3, 3 / 4, true, true⟩⟩,
    ⟨fun t => 12 / (4 * t - 1), ⟨3 / 4, 1, true, true⟩⟩,
    ⟨fun t => 5 * (18 - 19 * t) / (2 * (5 * t + 3) * (1 - t)), ⟨7 / 10, dec1, true, false⟩⟩,
    ⟨fun t => 2 * (45 - 44 * t) / ((2 * t + 15) * (1 - t)), ⟨dec1, 3 / 4, true, false⟩⟩,
    ⟨fun t => (197 - 220 * t) / (8 * (5 * t - 1) * (1 - t)), ⟨3 / 4, 289 / 380, true, false⟩⟩,
    ⟨fun t => 3 * (29 - 30 * t) / (5 * (5 * t - 1) * (1 - t)), ⟨289 / 380, dec2, true, false⟩⟩,
    ⟨fun t => (40 - 36 * t) / ((20 * t - 5) * (1 - t)), ⟨dec2, 5 / 6, true, false⟩⟩]

theorem real_mk {a b : ℚ} {a' b' : ℝ} {i j : Bool} (ha : (a : ℝ) = a') (hb : (b : ℝ) = b') : real ⟨a, b, i, j⟩ = ⟨a', b', i, j⟩ := by
  rw [real, ha, hb]

open Formula in
theorem gapEnergy_eq : gapEnergy = .ok energyFns := by
  have r1 := parsed_reads (e := ⟨"(10 - 11 * x) / ((2 - x) * (1 - x))".toList, ⟨1 / 2, 2 / 3, true, true⟩⟩) LitZD.reads_energy1
  have r2 := parsed_reads (e := ⟨"(18 - 19 * x) / ((4 - 2 * x) * (1 - x))".toList, ⟨2 / 3, 3 / 4, true, true⟩⟩) LitZD.reads_energy2
  have r3 := parsed_reads (e := ⟨"12 / (4 * x - 1)".toList, ⟨3 / 4, 1, true, true⟩⟩) LitZD.reads_energy3
  have r4 := parsed_reads (e := ⟨"5 * (18 - 19 * x) / ((2 * (5 * x + 3)) * (1 - x))".toList, ⟨7 / 10, dec1, true, false⟩⟩)
    (⟨.div (.mul (.num 5) (.sub (.num 18) (.mul (.num 19) .x))) (.mul (.mul (.num 2) (.add (.mul (.num 5) .x) (.num 3))) (.sub (.num 1) .x)),
      by decide +kernel, fun t => by simp [Fml.eval]⟩ :
    Reads "5 * (18 - 19 * x) / ((2 * (5 * x + 3)) * (1 - x))".toList (fun t => 5 * (18 - 19 * t) / (2 * (5 * t + 3) * (1 - t))))
  have r5 := parsed_reads (e := ⟨"2 * (45 - 44 * x) / ((2 * x + 15) * (1 - x))".toList, ⟨dec1, 3 / 4, true, false⟩⟩)
    (⟨.div (.mul (.num 2) (.sub (.num 45) (.mul (.num 44) .x))) (.mul (.add (.mul (.num 2) .x) (.num 15)) (.sub (.num 1) .x)),
      by decide +kernel, fun t => by simp [Fml.eval]⟩ :
    Reads "2 * (45 - 44 * x) / ((2 * x + 15) * (1 - x))".toList (fun t => 2 * (45 - 44 * t) / ((2 * t + 15) * (1 - t))))
  have r6 := parsed_reads (e := ⟨"(197 - 220 * x) / (8 * (5 * x - 1) * (1 - x))".toList, ⟨3 / 4, 289 / 380, true, false⟩⟩)
    (⟨.div (.sub (.num 197) (.mul (.num 220) .x)) (.mul (.mul (.num 8) (.sub (.mul (.num 5) .x) (.num 1))) (.sub (.num 1) .x)),
      by decide +kernel, fun t => by simp [Fml.eval]⟩ :
    Reads "(197 - 220 * x) / (8 * (5 * x - 1) * (1 - x))".toList (fun t => (197 - 220 * t) / (8 * (5 * t - 1) * (1 - t))))
  have r7 := parsed_reads (e := ⟨"3 * (29 - 30 * x) / (5 * (5 * x - 1) * (1 - x))".toList, ⟨289 / 380, dec2, true, false⟩⟩)
    (⟨.div (.mul (.num 3) (.sub (.num 29) (.mul (.num 30) .x))) (.mul (.mul (.num 5) (.sub (.mul (.num 5) .x) (.num 1))) (.sub (.num 1) .x)),
      by decide +kernel, fun t => by simp [Fml.eval]⟩ :
    Reads "3 * (29 - 30 * x) / (5 * (5 * x - 1) * (1 - x))".toList (fun t => 3 * (29 - 30 * t) / (5 * (5 * t - 1) * (1 - t))))
  have r8 := parsed_reads (e := ⟨"(40 - 36 * x) / ((20 * x - 5) * (1 - x))".toList, ⟨dec2, 5 / 6, true, false⟩⟩)
    (⟨.div (.sub (.num 40) (.mul (.num 36) .x)) (.mul (.sub (.mul (.num 20) .x) (.num 5)) (.sub (.num 1) .x)),
      by decide +kernel, fun t => by simp [Fml.eval]⟩ :
    Reads "(40 - 36 * x) / ((20 * x - 5) * (1 - x))".toList (fun t => (40 - 36 * t) / ((20 * t - 5) * (1 - t))))
  rw [real_mk (by push_cast; rfl) (by push_cast; rfl)] at r1 r2 r3 r6
  rw [real_mk (a' := 7 / 10) (by push_cast; rfl) rfl] at r4
  rw [real_mk (b' := 3 / 4) rfl (by push_cast; rfl)] at r5
  rw [real_mk (a' := 289 / 380) (by push_cast; rfl) rfl] at r7
  rw [real_mk (b' := 5 / 6) rfl (by push_cast; rfl)] at r8
  simp only [gapEnergy, energy_eq, newEnergy_eq, bind, Except.bind, List.cons_append, List.nil_append]
  simp only [parsedAll, r1, r2, r3, r4, r5, r6, r7, r8, bind, Except.bind, pure, Except.pure]
  rfl

/-- The decimal numbers to two digits. -/
theorem dec_bounds : (725 / 1000 : ℝ) < dec1 ∧ (dec1 : ℝ) < 726 / 1000 ∧ (792 / 1000 : ℝ) < dec2 ∧ (dec2 : ℝ) < 793 / 1000 := by
  refine ⟨?_, ?_, ?_, ?_⟩ <;> norm_num [dec1, dec2]

theorem energy_dom : ∀ q ∈ energyFns, Dom q := by
  obtain ⟨d1, d2, d3, d4⟩ := dec_bounds
  intro q hq
  simp only [energyFns, List.mem_cons, List.not_mem_nil, or_false] at hq
  rcases hq with rfl | rfl | rfl | rfl | rfl | rfl | rfl | rfl <;> refine ⟨?_, ?_, ?_⟩ <;> simp only <;> linarith

/-- Every energy estimate is more than `30/13` on its closed interval. -/
theorem energy_large : ∀ q ∈ energyFns, ∀ x, q.dom.x0 ≤ x → x ≤ q.dom.x1 → 30 / 13 < q.fn x := by
  obtain ⟨d1, d2, d3, d4⟩ := dec_bounds
  intro q hq x l u
  simp only [energyFns, List.mem_cons, List.not_mem_nil, or_false] at hq
  rcases hq with rfl | rfl | rfl | rfl | rfl | rfl | rfl | rfl <;> simp only at l u ⊢
  · rw [lt_div_iff₀ (by nlinarith)]; nlinarith
  · rw [lt_div_iff₀ (by nlinarith)]; nlinarith
  · rw [lt_div_iff₀ (by nlinarith)]; nlinarith
  · rw [lt_div_iff₀ (by nlinarith)]; nlinarith
  · rw [lt_div_iff₀ (by nlinarith)]; nlinarith
  · rw [lt_div_iff₀ (by nlinarith)]; nlinarith
  · rw [lt_div_iff₀ (by nlinarith)]; nlinarith
  · rw [lt_div_iff₀ (by nlinarith)]; nlinarith

theorem quot_poly {h : Pc} (N D : Polynomial ℝ) (hf : ∀ x, h.fn x = N.eval x / D.eval x) (hN : ∀ x, h.dom.x0 ≤ x → x ≤ h.dom.x1 → 0 < N.eval x)
    (hD : ∀ x, h.dom.x0 < x → x < h.dom.x1 → 0 < D.eval x) : Quot h := ⟨N, D, hf, hN, hD⟩

theorem energy_kind : ∀ q ∈ energyFns, Kind q := by
  obtain ⟨d1, d2, d3, d4⟩ := dec_bounds
  intro q hq
  refine ⟨Or.inl ?_, energy_dom q hq⟩
  simp only [energyFns, List.mem_cons, List.not_mem_nil, or_false] at hq
  rcases hq with rfl | rfl | rfl | rfl | rfl | rfl | rfl | rfl
  · refine quot_poly (10 - 11 * .X) ((2 - .X) * (1 - .X)) ?_ ?_ ?_ <;> simp only [Polynomial.eval_sub, Polynomial.eval_X, Polynomial.eval_add, Polynomial.eval_mul, Polynomial.eval_one, Polynomial.eval_ofNat]
    · intro x; trivial
    · intro x l u; linarith
    · intro x l u; nlinarith
  · refine quot_poly (18 - 19 * .X) ((4 - 2 * .X) * (1 - .X)) ?_ ?_ ?_ <;> simp only [Polynomial.eval_sub, Polynomial.eval_X, Polynomial.eval_add, Polynomial.eval_mul, Polynomial.eval_one, Polynomial.eval_ofNat]
    · intro x; trivial
    · intro x l u; linarith
    · intro x l u; nlinarith
  · refine quot_poly 12 (4 * .X - 1) ?_ ?_ ?_ <;> simp only [Polynomial.eval_sub, Polynomial.eval_X, Polynomial.eval_add, Polynomial.eval_mul, Polynomial.eval_one, Polynomial.eval_ofNat]
    · intro x; trivial
    · intro x l u; norm_num
    · intro x l u; linarith
  · refine quot_poly (5 * (18 - 19 * .X)) (2 * (5 * .X + 3) * (1 - .X)) ?_ ?_ ?_ <;> simp only [Polynomial.eval_sub, Polynomial.eval_X, Polynomial.eval_add, Polynomial.eval_mul, Polynomial.eval_one, Polynomial.eval_ofNat]
    · intro x; trivial
    · intro x l u; linarith
    · intro x l u; nlinarith
  · refine quot_poly (2 * (45 - 44 * .X)) ((2 * .X + 15) * (1 - .X)) ?_ ?_ ?_ <;> simp only [Polynomial.eval_sub, Polynomial.eval_X, Polynomial.eval_add, Polynomial.eval_mul, Polynomial.eval_one, Polynomial.eval_ofNat]
    · intro x; trivial
    · intro x l u; linarith
    · intro x l u; nlinarith
  · refine quot_poly (197 - 220 * .X) (8 * (5 * .X - 1) * (1 - .X)) ?_ ?_ ?_ <;> simp only [Polynomial.eval_sub, Polynomial.eval_X, Polynomial.eval_add, Polynomial.eval_mul, Polynomial.eval_one, Polynomial.eval_ofNat]
    · intro x; trivial
    · intro x l u; linarith
    · intro x l u; nlinarith
  · refine quot_poly (3 * (29 - 30 * .X)) (5 * (5 * .X - 1) * (1 - .X)) ?_ ?_ ?_ <;> simp only [Polynomial.eval_sub, Polynomial.eval_X, Polynomial.eval_add, Polynomial.eval_mul, Polynomial.eval_one, Polynomial.eval_ofNat]
    · intro x; trivial
    · intro x l u; linarith
    · intro x l u; nlinarith
  · refine quot_poly (40 - 36 * .X) ((20 * .X - 5) * (1 - .X)) ?_ ?_ ?_ <;> simp only [Polynomial.eval_sub, Polynomial.eval_X, Polynomial.eval_add, Polynomial.eval_mul, Polynomial.eval_one, Polynomial.eval_ofNat]
    · intro x; trivial
    · intro x l u; linarith
    · intro x l u; nlinarith

end PrimeGap
end Expdb
