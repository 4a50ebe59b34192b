import Verif.Model.FunctionText
import Verif.Props.Printing
import Verif.Props.IntervalText
import Verif.Props.RationalOps

/-!
# Property C106: printed functions

The reader of `Props/Printing` is used; for `RationalFunction2` it skips empty words.
-/

namespace Expdb
namespace FunctionText

open Printing

/-- Reading a text in which words may be separated by more than one space. -/
def evalSpaced (env : Str → Option ℚ) (s : Str) : Option ℚ :=
  (readWords env (0, 1) ((splitOn ' ' s).filter (fun w => w ≠ []))).map (·.1)

/-! ### `Affine` -/

/-- **C106** The text of an `Affine` object consists of an expression that reads back as `m x + c`, of the name of the variable and of a text
that `Interval.parse` reads as the domain; a label is appended in parentheses. -/
theorem C106_affine (f : Affine (Option ℕ)) (hd : f.dom.Constructible) (var : Str) (hv : IsName var) :
    ∃ e d, affineToStr f var = .ok (e ++ (" for ".toList ++ (var ++ (" \\in ".toList ++ (d ++
        (match f.label with | none => [] | some l => "  (".toList ++ (natChars l ++ ")".toList))))))) ∧
      (∀ x, evalText (linEnv [var] [x]) e = some (f.m * x + f.c)) ∧ Interval.parse d = .ok f.dom := by
  obtain ⟨s, h1, h2⟩ := C46_format f.c [f.m] [var] (by simp) (by simp) (by simpa using hv)
  refine ⟨s, f.dom.repr, ?_, fun x => ?_, Interval.C03_parse_repr f.dom hd⟩
  · unfold affineToStr
    rw [h1]
    simp only [bind, Except.bind, pure, Except.pure]
    cases f.label <;> rfl
  · rw [h2 [x] (by simp)]
    simp only [dot]
    congr 1; ring

example : affineRepr ⟨1 / 2, 13 / 84, ⟨3 / 7, 1 / 2, true, true⟩, none⟩ = .ok "13/84 + 1/2x for x \\in [3/7,1/2]".toList := by decide +kernel

theorem repr_no_space (I : Interval) : ' ' ∉ I.repr := by
  intro h
  unfold Interval.repr at h
  simp only [List.mem_cons, List.mem_append, List.not_mem_nil, or_false] at h
  rcases h with h | h | h | h | h
  · revert h; split <;> decide
  · exact fracChar_ne_space (ratChars_fracChar _ _ h) rfl
  · revert h; decide
  · exact fracChar_ne_space (ratChars_fracChar _ _ h) rfl
  · revert h; split <;> decide

theorem fracChar_ne_f {c : Char} (h : fracChar c) : c ≠ 'f' := by
  rintro rfl
  rcases h with h | h | h <;> revert h <;> decide

theorem format_no_f (c m : ℚ) (s : Str) (h : format [c, m] [['x']] = .ok s) : 'f' ∉ s := by
  have h0 : ∀ q : ℚ, 'f' ∉ ratChars q := fun q hq => fracChar_ne_f (ratChars_fracChar q _ hq) rfl
  have h1 : format [c, m] [['x']] = .ok (formatTerm (if c ≠ 0 then ratChars c else []) ['x'] m) := rfl
  rw [h1] at h
  cases h
  have h2 : 'f' ∉ (if c ≠ 0 then ratChars c else []) := by
    split
    · exact h0 c
    · simp
  generalize (if c ≠ 0 then ratChars c else []) = f at h2
  have e1 : 'f' ∉ " + ".toList := by decide
  have e2 : 'f' ∉ " - ".toList := by decide
  have e3 : 'f' ∉ "-".toList := by decide
  have e4 : 'f' ∉ ['x'] := by decide
  have happ : ∀ a b : Str, 'f' ∉ a → 'f' ∉ b → 'f' ∉ a ++ b := fun a b ha hb hm => by
    rcases List.mem_append.mp hm with h | h
    · exact ha h
    · exact hb h
  unfold formatTerm
  split
  · exact h2
  · have h3 : 'f' ∉ (if m > 0 then (if f.length ≠ 0 then f ++ " + ".toList else f)
        else f ++ (if f.length ≠ 0 then " - ".toList else "-".toList)) := by
      split
      · split
        · exact happ _ _ h2 e1
        · exact h2
      · refine happ _ _ h2 ?_
        split
        · exact e2
        · exact e3
    simp only
    split
    · exact happ _ _ h3 e4
    · exact happ _ _ h3 (happ _ _ (h0 _) e4)

/-- **C106** `Affine` objects that are printed alike are equal, including domain and label. -/
theorem C106_affine_injective (f g : Affine (Option ℕ)) (hf : f.dom.Constructible) (hg : g.dom.Constructible)
    (h : affineRepr f = affineRepr g) : f = g := by
  have hx : IsName ['x'] := ⟨⟨'x', [], rfl, by decide⟩, by decide⟩
  obtain ⟨s, h1, h2⟩ := C46_format f.c [f.m] [['x']] (by simp) (by simp) (by simpa using hx)
  obtain ⟨t, h3, h4⟩ := C46_format g.c [g.m] [['x']] (by simp) (by simp) (by simpa using hx)
  unfold affineRepr affineToStr at h
  rw [h1, h3] at h
  simp only [bind, Except.bind, pure, Except.pure, Except.ok.injEq] at h
  have e : ∀ u r : Str, u ++ (" for ".toList ++ (['x'] ++ (" \\in ".toList ++ r))) = (u ++ [' ']) ++ 'f' :: ("or x \\in ".toList ++ r) := by
    intro u r
    rw [List.append_assoc]; rfl
  rw [e, e] at h
  have hn : ∀ u : Str, 'f' ∉ u → 'f' ∉ u ++ [' '] := by
    intro u hu hm
    rcases List.mem_append.mp hm with hm | hm
    · exact hu hm
    · revert hm; decide
  obtain ⟨k1, k2⟩ := split_at (hn s (format_no_f _ _ s h1)) (hn t (format_no_f _ _ t h3)) h
  have k1' := List.append_cancel_right k1
  have k2' := List.append_cancel_left k2
  subst k1'
  have a0 : f.c = g.c := by
    have a := h2 [0] (by simp)
    rw [h4 [0] (by simp)] at a
    simpa [dot] using a.symm
  have a1 : f.m = g.m := by
    have a := h2 [1] (by simp)
    rw [h4 [1] (by simp)] at a
    simp only [dot, Option.some.injEq] at a
    linarith
  have hsp : ∀ (I : Interval) (l : ℕ), I.repr ++ labelStr (some l) = I.repr ++ ' ' :: (" (".toList ++ (natChars l ++ [')'])) := fun I l => rfl
  have hl : f.dom = g.dom ∧ f.label = g.label := by
    cases hfl : f.label with
    | none =>
      cases hgl : g.label with
      | none =>
        rw [hfl, hgl] at k2'
        exact ⟨Interval.C03_repr_injective _ _ hf hg (List.append_cancel_right k2'), rfl⟩
      | some l =>
        rw [hfl, hgl, hsp, labelStr, List.append_nil] at k2'
        exact absurd (by rw [k2']; simp) (repr_no_space f.dom)
    | some k =>
      cases hgl : g.label with
      | none =>
        rw [hfl, hgl, hsp] at k2'
        simp only [labelStr, List.append_nil] at k2'
        exact absurd (by rw [← k2']; simp) (repr_no_space g.dom)
      | some l =>
        rw [hfl, hgl, hsp, hsp] at k2'
        obtain ⟨d1, d2⟩ := split_at (repr_no_space _) (repr_no_space _) k2'
        have d3 := List.append_cancel_right (List.append_cancel_left d2)
        exact ⟨Interval.C03_repr_injective _ _ hf hg d1, by rw [natChars_injective d3]⟩
  cases f; cases g
  simp_all

example : affineRepr ⟨-1, 0, ⟨0, 1, true, false⟩, some 3⟩ = .ok "-x for x \\in [0,1)  (3)".toList ∧
    affineRepr ⟨0, 0, ⟨0, 1, true, false⟩, none⟩ = .ok " for x \\in [0,1)".toList := by decide +kernel

/-! ### `Affine2` -/

theorem x5_spec : (xNames 5).Nodup ∧ ∀ v ∈ xNames 5, IsName v := by
  have e : xNames 5 = [['x', '_', '1'], ['x', '_', '2'], ['x', '_', '3'], ['x', '_', '4'], ['x', '_', '5']] := by decide +kernel
  rw [e]
  refine ⟨by decide, ?_⟩
  intro v hv
  simp only [List.mem_cons, List.not_mem_nil, or_false] at hv
  rcases hv with rfl | rfl | rfl | rfl | rfl <;> exact ⟨⟨_, _, rfl, by decide⟩, by decide⟩

theorem symbols_spec (n : ℕ) : n ≤ (symbols n).length ∧ (symbols n).Nodup ∧ ∀ v ∈ symbols n, IsName v := by
  unfold symbols
  split
  · rename_i h
    by_cases h5 : n = 5
    · subst h5
      exact ⟨by decide +kernel, x5_spec.1, x5_spec.2⟩
    · have e : xNames n = polyNames n := by
        unfold polyNames
        rw [if_neg (by omega)]
      rw [e]
      exact ⟨(polyNames_spec n).1, (polyNames_spec n).2.1, (polyNames_spec n).2.2.1⟩
  · rename_i h
    refine ⟨?_, by decide, ?_⟩
    · have : (names "xyzw").length = 4 := by decide
      omega
    · intro v hv
      refine names_isName v ?_
      have e : names "xyzw" ⊆ names "xyzwu" := by decide
      exact e hv

/-- **C106** The text of an `Affine2` object consists of an expression that reads back as the affine function and of the list of the rows of the
domain, each of which reads back as the row. Except in dimension 5 both parts use the same names for the variables. -/
theorem C106_affine2_partial (f : Affine2) (hm : f.dom.WF) :
    ∃ e ss, affine2Repr f = .ok (e ++ (" on ".toList ++ listRepr ss)) ∧
      (∀ xs : List ℚ, xs.length = (symbols f.cs.length).length →
        evalText (linEnv (symbols f.cs.length) xs) e = some (f.c0 + dot f.cs xs)) ∧
      List.Forall₂ (Shows (polyNames (f.dom.cols - 1))) f.dom.rows ss ∧
      (f.dom.cols = f.cs.length + 1 → f.cs.length ≠ 5 →
        (symbols f.cs.length).take f.cs.length = (polyNames (f.dom.cols - 1)).take f.cs.length) := by
  obtain ⟨h1, h2, h3⟩ := symbols_spec f.cs.length
  obtain ⟨e, h4, h5⟩ := C46_affine f.c0 f.cs _ h1 h2 h3
  obtain ⟨ss, h6, h7⟩ := C46_polytope f.dom hm
  refine ⟨e, ss, ?_, h5, h7, ?_⟩
  · unfold affine2Repr
    rw [h4, h6]; rfl
  · intro hc hn
    rw [hc, Nat.add_sub_cancel]
    unfold symbols polyNames
    by_cases h : f.cs.length + 1 > 5
    · rw [if_pos h, if_neg (by omega)]
    · rw [if_neg h, if_pos (by omega)]
      have : ∀ n : ℕ, n ≤ 4 → (names "xyzw").take n = (names "xyzwu").take n := by decide
      exact this _ (by omega)

/-- A function on a triangle. -/
def exAffine2 : Affine2 := ⟨1 / 2, [0, -3], exPoly, none⟩

example : exAffine2.dom.WF ∧ affine2Repr exAffine2 =
    .ok "1/2 - 3y on ['x >= 0', 'y >= 0', '1 - x - 1/2y >= 0']".toList := by
  refine ⟨?_, by decide +kernel⟩
  unfold Mat.WF exAffine2 exPoly; decide

/-- Finding: a function of five variables is printed with the names `x_1, …, x_5`, its domain with the names `x, y, z, w, u`. -/
theorem C106_names_counterexample : affine2Repr ⟨0, [1, 2, 3, 4, 5], ⟨6, [⟨false, 0, [1, 0, 0, 0, 1]⟩]⟩, none⟩ =
    .ok "0 + x_1 + 2x_2 + 3x_3 + 4x_4 + 5x_5 on ['x + u >= 0']".toList := by decide +kernel

/-! ### `RationalFunction2` -/

theorem monomial_zero (var : Str) (deg : ℕ) : monomialStr 0 var deg = [] := by simp [monomialStr]

theorem polyWords2_reads {var : Str} (hv : IsName var) (x : ℚ) (cs : List ℚ) (front : Bool) (a : ℚ) :
    readWords (powEnv var x) (a, 1) ((polyWords2 var front (cs.length - 1) cs).filter (fun w => w ≠ [])) =
        some (a + Rational.horner cs x, 1) ∧
      ∀ w ∈ polyWords2 var front (cs.length - 1) cs, ∀ d ∈ w, d ≠ ' ' := by
  induction cs generalizing front a with
  | nil => simp [polyWords2, readWords, Rational.horner]
  | cons c cs ih =>
    obtain ⟨h1, h2⟩ := ih false (a + c * x ^ cs.length)
    rw [polyWords2]
    simp only [List.length_cons, Nat.add_sub_cancel]
    rw [Rational.horner_cons, ← add_assoc]
    have hsign : ∀ w ∈ (if front then (if c < 0 then [['-']] else []) else [if c < 0 then ['-'] else ['+']] : List Str),
        (∀ d ∈ w, d ≠ ' ') ∧ w ≠ [] := by
      intro w hw
      cases front <;> by_cases hc : c < 0 <;> simp [hc] at hw <;> subst hw <;> decide
    have hsf : ((if front then (if c < 0 then [['-']] else []) else [if c < 0 then ['-'] else ['+']] : List Str)).filter (fun w => w ≠ []) =
        (if front then (if c < 0 then [['-']] else []) else [if c < 0 then ['-'] else ['+']]) := by
      rw [List.filter_eq_self]
      intro w hw
      simpa using (hsign w hw).2
    rw [List.filter_append, hsf, readWords_append]
    have hread : ∀ sg : ℚ, sg * |c| = c → readWords (powEnv var x) (a, if c = 0 then 1 else sg)
        ((monomialStr c var cs.length :: polyWords2 var false (cs.length - 1) cs).filter (fun w => w ≠ [])) =
          some (a + c * x ^ cs.length + Rational.horner cs x, 1) := by
      intro sg hsg
      by_cases hc : c = 0
      · rw [if_pos hc, hc, monomial_zero, List.filter_cons_of_neg (by simp)]
        simpa [hc] using h1
      · obtain ⟨m1, m2, m3, m4⟩ := monomialStr_reads hv x c hc cs.length
        rw [if_neg hc, List.filter_cons_of_pos (by simpa using m1), readWords, readStep, if_neg m3.1, if_neg m3.2, m4]
        simp only [Option.map_some, ← mul_assoc, hsg]
        exact h1
    constructor
    · by_cases hneg : c < 0
      · have hsg : -1 * |c| = c := by rw [abs_of_neg hneg]; ring
        have := hread (-1) hsg
        rw [if_neg (ne_of_lt hneg)] at this
        cases front <;> simpa [hneg, readWords, readStep] using this
      · have hsg : 1 * |c| = c := by rw [abs_of_nonneg (not_lt.mp hneg)]; ring
        have := hread 1 hsg
        rw [ite_self] at this
        cases front <;> simpa [hneg, readWords, readStep] using this
    · intro w hw d hd
      rcases List.mem_append.mp hw with hw | hw
      · exact (hsign w hw).1 d hd
      · rcases List.mem_cons.mp hw with rfl | hw
        · by_cases hc : c = 0
          · rw [hc, monomial_zero] at hd; simp at hd
          · exact (monomialStr_reads hv x c hc cs.length).2.1 d hd
        · exact h2 w hw d hd

/-- **C106** The text of a polynomial with the coefficients `cs`, highest degree first, reads back as the polynomial. -/
theorem C106_polynomial (cs : List ℚ) (var : Str) (hv : IsName var) (x : ℚ) :
    evalSpaced (powEnv var x) (polyStr2 cs var) = some (Rational.horner cs x) := by
  obtain ⟨h1, h2⟩ := polyWords2_reads hv x cs true 0
  unfold polyStr2
  cases hw : polyWords2 var true (cs.length - 1) cs with
  | nil =>
    rw [hw] at h1
    simp only [List.filter_nil, readWords, Option.some.injEq, Prod.mk.injEq, and_true] at h1
    rw [zero_add] at h1
    rw [← h1]
    have e : (splitOn ' ' ['0']).filter (fun w => w ≠ []) = [ratChars 0] := by decide +kernel
    have hr := wordValue_rat (powEnv var x) (v := []) (Or.inl rfl) 0
    rw [List.append_nil] at hr
    simp only
    unfold evalSpaced
    rw [e, readWords, readStep, if_neg (ratChars_not_sign 0).1, if_neg (ratChars_not_sign 0).2, hr]
    simp [nameValue, readWords]
  | cons w ws =>
    rw [hw] at h1 h2
    simp only
    unfold evalSpaced
    rw [splitOn_join (w :: ws) (by simp) h2, h1]
    simp

example : polyStr2 [3, 0, -1 / 2] ['x'] = "3x^2 +  - 1/2".toList ∧ polyStr2 [-1, 1] ['x'] = "- x + 1".toList := by decide +kernel

/-- **C106** A `RationalFunction2` object that is neither reported to be zero nor reported to be constant is printed as a quotient of two texts that
read back as numerator and denominator, or as the numerator alone if the denominator is 1; each of the two is put in brackets if it has at
least two non-zero coefficients. -/
theorem C106_rational_partial (f : Rational.RF2) (dom : Interval) (hd : dom.Constructible) (hz : f.isZero = false)
    (hc : f.isConstant = false) :
    ∃ n d r, (∀ x, evalSpaced (powEnv ['x'] x) n = some (Rational.horner f.num x)) ∧
      (∀ x, evalSpaced (powEnv ['x'] x) d = some (Rational.horner f.den x)) ∧ Interval.parse r = .ok dom ∧
      ((rf2Repr f dom = .ok (n ++ (" on ".toList ++ r)) ∧ ∀ x, f.val x = Rational.horner f.num x) ∨
        ∃ n' d', rf2Repr f dom = .ok (n' ++ ("/".toList ++ (d' ++ (" on ".toList ++ r)))) ∧
          (n' = if 2 ≤ (f.num.countP (fun c => c ≠ 0)) then "(".toList ++ (n ++ ")".toList) else n) ∧
          d' = if 2 ≤ (f.den.countP (fun c => c ≠ 0)) then "(".toList ++ (d ++ ")".toList) else d) := by
  have hx : IsName ['x'] := ⟨⟨'x', [], rfl, by decide⟩, by decide⟩
  have hn := C106_polynomial f.num ['x'] hx
  have hdn := C106_polynomial f.den ['x'] hx
  refine ⟨_, _, dom.repr, hn, hdn, Interval.C03_parse_repr dom hd, ?_⟩
  unfold rf2Repr
  simp only [hz, hc, Bool.false_eq_true, if_false]
  split
  · rename_i h1
    refine Or.inl ⟨rfl, fun x => ?_⟩
    have h2 := hdn x
    rw [h1] at h2
    have e : (splitOn ' ' ['1']).filter (fun w => w ≠ []) = [ratChars 1] := by decide +kernel
    have hr := wordValue_rat (powEnv ['x'] x) (v := []) (Or.inl rfl) 1
    rw [List.append_nil] at hr
    unfold evalSpaced at h2
    rw [e, readWords, readStep, if_neg (ratChars_not_sign 1).1, if_neg (ratChars_not_sign 1).2, hr] at h2
    simp only [nameValue, readWords, if_true, Option.map_some, Option.some.injEq] at h2
    rw [Rational.RF2.val, ← h2]
    simp
  · refine Or.inr ⟨bracket f.num (polyStr2 f.num ['x']), bracket f.den (polyStr2 f.den ['x']), rfl, ?_, ?_⟩ <;>
    · unfold bracket
      rw [List.countP_eq_length_filter]
      rfl

example : (⟨[1, 0, -2], [3, 1]⟩ : Rational.RF2).isZero = false ∧ (⟨[1, 0, -2], [3, 1]⟩ : Rational.RF2).isConstant = false ∧
    rf2Repr ⟨[1, 0, -2], [3, 1]⟩ ⟨0, 1, true, true⟩ = .ok "(x^2 +  - 2)/(3x + 1) on [0,1]".toList := by decide +kernel

/-- **C106** An object reported to be zero is printed as `0`; it vanishes everywhere. One that is reported to be constant and has a single
coefficient in numerator and denominator is printed as its value. -/
theorem C106_rational_special_partial (f : Rational.RF2) (dom : Interval) (hd : dom.Constructible) :
    (f.isZero = true → ∃ r, rf2Repr f dom = .ok ("0 on ".toList ++ r) ∧ Interval.parse r = .ok dom ∧ ∀ x, f.val x = 0) ∧
    (∀ a b, f.num = [a] → f.den = [b] → a ≠ 0 → b ≠ 0 → ∃ s r, rf2Repr f dom = .ok (s ++ (" on ".toList ++ r)) ∧
      Interval.parse r = .ok dom ∧ parseFrac s = .ok (a / b) ∧ ∀ x, f.val x = a / b) := by
  constructor
  · intro hz
    refine ⟨dom.repr, ?_, Interval.C03_parse_repr dom hd, fun x => ?_⟩
    · unfold rf2Repr
      simp only [hz, if_true]
      rfl
    · have h0 : Rational.horner f.num x = 0 := by
        refine (Rational.horner_zero_iff f.num).mpr ?_ x
        intro c hc
        simpa using List.all_eq_true.mp hz c hc
      rw [Rational.RF2.val, h0, zero_div]
  · intro a b hn hdn ha hb
    refine ⟨ratChars (a / b), dom.repr, ?_, Interval.C03_parse_repr dom hd, parseFrac_ratChars _, fun x => ?_⟩
    · unfold rf2Repr
      have h1 : f.isZero = false := by simp [Rational.RF2.isZero, hn, ha]
      have h2 : f.isConstant = true := by simp [Rational.RF2.isConstant, hn, hdn]
      simp only [h1, h2, hn, hdn, Bool.false_eq_true, if_false, if_true, if_neg hb]
    · simp [Rational.RF2.val, Rational.horner, hn, hdn]

example : rf2Repr ⟨[0, 0], [1, 1]⟩ ⟨0, 1, true, true⟩ = .ok "0 on [0,1]".toList ∧
    rf2Repr ⟨[3], [4]⟩ ⟨0, 1, true, true⟩ = .ok "3/4 on [0,1]".toList := by decide +kernel

/-- Finding: `5 x` is printed as the constant `5`; and `1 / (2 x)` and `x / 2` have the same text, since a denominator with one term is not put
in brackets. -/
theorem C106_rational_counterexample :
    (rf2Repr ⟨[5, 0], [1]⟩ ⟨0, 1, true, true⟩ = .ok "5 on [0,1]".toList ∧ (⟨[5, 0], [1]⟩ : Rational.RF2).val 2 = 10) ∧
    (rf2Repr ⟨[0, 1], [2, 0]⟩ ⟨0, 1, true, true⟩ = .ok " + 1/2x +  on [0,1]".toList ∧
      rf2Repr ⟨[0, 1 / 2, 0], [1]⟩ ⟨0, 1, true, true⟩ = .ok " + 1/2x +  on [0,1]".toList ∧
      (⟨[0, 1], [2, 0]⟩ : Rational.RF2).val (1 / 2) = 1 ∧ (⟨[0, 1 / 2, 0], [1]⟩ : Rational.RF2).val (1 / 2) = 1 / 4) := by
  decide +kernel

end FunctionText
end Expdb
