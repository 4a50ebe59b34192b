import Verif.Props.Rational
import Verif.Model.BestEstimate
import Mathlib.Analysis.Calculus.Deriv.Add
import Mathlib.Analysis.Calculus.Deriv.Mul
import Mathlib.Analysis.Calculus.Deriv.Inv
import Mathlib.Analysis.Calculus.LocalExtr.Basic
import Mathlib.Analysis.Calculus.MeanValue

/-!
# Properties C09, C47, C48, C58 and C59: operations on rational functions, extreme values, best estimates
-/

namespace Expdb
namespace Rational

open Set

/-! ### C09: arithmetic -/

section
variable {K : Type} [Field K]

/-- The value of the polynomial with the given coefficients, highest degree first (independent of the model). -/
def horner (cs : List K) (x : K) : K := cs.foldl (fun v c => v * x + c) 0

theorem polyLoop_eval (x : K) (cs : List K) (p xn : Expr K) :
    (polyLoop cs p xn).eval x = p.eval x + xn.eval x * cs.foldr (fun c v => v * x + c) 0 := by
  induction cs generalizing p xn with
  | nil => simp [polyLoop]
  | cons c cs ih =>
    rw [polyLoop, ih]
    simp only [Expr.eval, List.foldr_cons]
    ring

/-- **C09** (constructor) The coefficients are read from the highest degree to the lowest. -/
theorem C09_make (num : List K) (den : Option (List K)) (x : K) :
    (RF.make num den).at x = horner num x / horner (den.getD [1]) x := by
  have h : ∀ cs : List K, (polyExpr cs).eval x = horner cs x := by
    intro cs
    unfold polyExpr horner
    rw [polyLoop_eval, List.foldr_reverse]
    simp [Expr.eval]
  unfold RF.at RF.make
  simp only [h]

/-- `x² + 3x` over `x + 1` at 2. -/
example : (RF.make [1, 3, 0] (some [1, 1])).at (2 : ℚ) = 10 / 3 := by decide +kernel

/-- **C09** (multiplication by a function or a number) -/
theorem C09_mul (f g : RF K) (c x : K) :
    (∃ r, f.mul (.fn g) = .ok (.fn r) ∧ r.at x = f.at x * g.at x) ∧
    ∃ r, f.mul (.number c) = .ok (.fn r) ∧ r.at x = f.at x * c := by
  refine ⟨⟨_, rfl, ?_⟩, _, rfl, ?_⟩
  · simp only [RF.at, Expr.eval]
    exact (div_mul_div_comm _ _ _ _).symm
  · simp only [RF.at, Expr.eval]
    rw [mul_div_right_comm]

/-- **C09** (division by a function) -/
theorem C09_div_function (f g : RF K) (x : K) :
    ∃ r, f.div (.fn g) = .ok (.fn r) ∧ r.at x = f.at x / g.at x := by
  refine ⟨_, rfl, ?_⟩
  simp only [RF.at, Expr.eval]
  exact (div_div_div_eq _ _ _ _).symm

/-- **C09** (addition and the method `subtract`, functions and numbers), where the denominators do not vanish. -/
theorem C09_add_subtract (f g : RF K) (c x : K) (hf : f.den.eval x ≠ 0) (hg : g.den.eval x ≠ 0) :
    (∃ r, f.add (.fn g) = .ok (.fn r) ∧ r.den.eval x ≠ 0 ∧ r.at x = f.at x + g.at x) ∧
    (∃ r, f.add (.number c) = .ok (.fn r) ∧ r.den.eval x ≠ 0 ∧ r.at x = f.at x + c) ∧
    (∃ r, f.subtract (.fn g) = .ok (.fn r) ∧ r.den.eval x ≠ 0 ∧ r.at x = f.at x - g.at x) ∧
    ∃ r, f.subtract (.number c) = .ok (.fn r) ∧ r.den.eval x ≠ 0 ∧ r.at x = f.at x - c := by
  refine ⟨⟨_, rfl, mul_ne_zero hf hg, ?_⟩, ⟨_, rfl, hf, ?_⟩, ⟨_, rfl, mul_ne_zero hf hg, ?_⟩, _, rfl, hf, ?_⟩
  all_goals simp only [RF.at, Expr.eval]; field_simp

example : (RF.make [1] (some [1, 1])).den.eval (2 : ℚ) ≠ 0 ∧ (RF.make [1, 3] none).den.eval (2 : ℚ) ≠ 0 := by decide +kernel

/-- Finding: division by a number multiplies: `x / 2` has the value 6 at 3. -/
theorem C09_div_number_counterexample : ∃ (f : RF ℚ) (r : RF ℚ), f.div (.number 2) = .ok (.fn r) ∧ f.at 3 = 3 ∧ r.at 3 = 6 :=
  ⟨RF.make [1, 0] none, ⟨.mul (RF.make [1, 0] none).num (.const 2), (RF.make [1, 0] none).den⟩, rfl, by decide +kernel,
    by decide +kernel⟩

/-- What division by a number does: it multiplies by it. So it is right exactly where `f x * c = f x / c`. -/
theorem C09_div_number_partial (f : RF K) (c x : K) :
    ∃ r, f.div (.number c) = .ok (.fn r) ∧ r.at x = f.at x * c := by
  refine ⟨_, rfl, ?_⟩
  simp only [RF.at, Expr.eval]
  rw [mul_div_right_comm]

end

/-- Finding: the operator `-` raises `AttributeError` for all arguments, and `+` with something that is neither a number
nor a function returns an exception object instead of raising. -/
theorem C09_operators_counterexample {K : Type} [Field K] (f : RF K) (a : Arg K) :
    f.opSub a = .error .attributeError ∧ f.add .other = .ok .exceptionObject := ⟨rfl, rfl⟩

/-! ### C47: classification of `RationalFunction2` -/

/-- The polynomial with the given coefficients, highest degree first. -/
noncomputable def hpoly (cs : List ℚ) : Polynomial ℚ := cs.foldl (fun p c => p * Polynomial.X + Polynomial.C c) 0

theorem hpoly_append (cs : List ℚ) (c : ℚ) : hpoly (cs ++ [c]) = hpoly cs * Polynomial.X + Polynomial.C c := by
  unfold hpoly
  rw [List.foldl_append]
  rfl

theorem horner_append (cs : List ℚ) (c x : ℚ) : horner (cs ++ [c]) x = horner cs x * x + c := by
  unfold horner
  rw [List.foldl_append]
  rfl

theorem hpoly_eval (cs : List ℚ) (x : ℚ) : (hpoly cs).eval x = horner cs x := by
  induction cs using List.reverseRecOn with
  | nil => simp [hpoly, horner]
  | append_singleton cs c ih => rw [hpoly_append, horner_append]; simp [ih]

theorem hpoly_natDegree (a : ℚ) (ha : a ≠ 0) (cs : List ℚ) :
    hpoly (a :: cs) ≠ 0 ∧ (hpoly (a :: cs)).natDegree = cs.length := by
  induction cs using List.reverseRecOn with
  | nil => simp [hpoly, ha]
  | append_singleton cs c ih =>
    obtain ⟨h1, h2⟩ := ih
    have e : a :: (cs ++ [c]) = (a :: cs) ++ [c] := rfl
    rw [e, hpoly_append]
    have hd : (hpoly (a :: cs) * Polynomial.X + Polynomial.C c).natDegree = cs.length + 1 := by
      rw [Polynomial.natDegree_add_C, Polynomial.natDegree_mul_X h1, h2]
    refine ⟨fun h => ?_, by rw [hd]; simp⟩
    rw [h] at hd
    simp at hd

theorem hpoly_zero_iff (cs : List ℚ) : hpoly cs = 0 ↔ ∀ c ∈ cs, c = 0 := by
  induction cs with
  | nil => simp [hpoly]
  | cons a cs ih =>
    by_cases ha : a = 0
    · subst ha
      have : hpoly (0 :: cs) = hpoly cs := by simp [hpoly]
      rw [this, ih]
      simp
    · refine ⟨fun h => absurd h (hpoly_natDegree a ha cs).1, fun h => absurd (h a (by simp)) ha⟩

/-- Two rational functions that agree off the zeros of a non-zero polynomial: the polynomials are equal. -/
theorem poly_eq_of_eval {p q r : Polynomial ℚ} (hr : r ≠ 0) (h : ∀ x, r.eval x ≠ 0 → p.eval x = q.eval x) : p = q := by
  have : (p - q) * r = 0 := Polynomial.funext (fun x => by
    by_cases hx : r.eval x = 0
    · simp [hx]
    · simp [h x hx])
  rcases mul_eq_zero.mp this with h | h
  · exact sub_eq_zero.mp h
  · exact absurd h hr

/-- The value of a `RationalFunction2`; the printing code reads the coefficients from the highest degree
(functions.py:699-720). -/
def RF2.val (f : RF2) (x : ℚ) : ℚ := horner f.num x / horner f.den x

/-- **C47** `is_zero` is true exactly when the function vanishes wherever it is defined. -/
theorem C47_isZero (f : RF2) (hden : ∃ c ∈ f.den, c ≠ 0) :
    f.isZero = true ↔ ∀ x, horner f.den x ≠ 0 → f.val x = 0 := by
  have hd : hpoly f.den ≠ 0 := by
    rw [Ne, hpoly_zero_iff]
    push Not
    exact hden
  have h1 : f.isZero = true ↔ hpoly f.num = 0 := by
    rw [hpoly_zero_iff]
    unfold RF2.isZero
    simp
  rw [h1]
  constructor
  · intro h x _
    unfold RF2.val
    rw [← hpoly_eval f.num, h]
    simp
  · intro h
    refine poly_eq_of_eval hd (fun x hx => ?_)
    rw [hpoly_eval] at hx ⊢
    have := h x hx
    unfold RF2.val at this
    rcases div_eq_zero_iff.mp this with h | h
    · rw [h]; simp
    · exact absurd h hx

/-- **C47** (one half of the claim, for a constant denominator and a numerator without leading zeros) A constant function
is recognised by `is_constant`, an affine one by `is_affine`. Missing: the converse, and functions whose denominator is
not a constant; both are false, see the counterexamples. -/
theorem C47_complete_partial (f : RF2) (d : ℚ) (hd : d ≠ 0) (hden : f.den = [d]) (hnum : ∀ a cs, f.num = a :: cs → a ≠ 0) :
    ((∃ k, ∀ x, f.val x = k) → f.isConstant = true) ∧ ((∃ m b, ∀ x, f.val x = m * x + b) → f.isAffine = true) := by
  have key : ∀ m b, (∀ x, f.val x = m * x + b) → hpoly f.num = Polynomial.C (m * d) * Polynomial.X + Polynomial.C (b * d) := by
    intro m b h
    refine Polynomial.funext (fun x => ?_)
    rw [hpoly_eval]
    have := h x
    unfold RF2.val at this
    have h2 : horner f.den x = d := by rw [hden]; simp [horner]
    rw [h2, div_eq_iff hd] at this
    rw [this]
    simp
    ring
  constructor
  · rintro ⟨k, h⟩
    have h0 := key 0 k (fun x => by rw [h x]; ring)
    unfold RF2.isConstant
    rw [hden]
    cases hn : f.num with
    | nil => simp
    | cons a cs =>
      have := (hpoly_natDegree a (hnum a cs hn) cs).2
      rw [← hn, h0, zero_mul, Polynomial.C_0, zero_mul, zero_add, Polynomial.natDegree_C] at this
      have : cs = [] := List.length_eq_zero_iff.mp this.symm
      simp [this]
  · rintro ⟨m, b, h⟩
    have h0 := key m b h
    unfold RF2.isAffine
    rw [hden]
    cases hn : f.num with
    | nil => simp
    | cons a cs =>
      have := (hpoly_natDegree a (hnum a cs hn) cs).2
      rw [← hn, h0] at this
      have hle := Polynomial.natDegree_linear_le (a := m * d) (b := b * d)
      rw [this] at hle
      cases cs with
      | nil => simp
      | cons c cs =>
        cases cs with
        | nil => simp
        | cons e cs => simp at hle

/-- Non-vacuity: `2x + 4` over 2. -/
example : (⟨[2, 4], [2]⟩ : RF2).isAffine = true ∧ (⟨[2, 4], [2]⟩ : RF2).val 3 = 1 * 3 + 2 ∧
    ∀ a cs, (⟨[2, 4], [2]⟩ : RF2).num = a :: cs → a ≠ 0 := by
  refine ⟨by decide +kernel, by decide +kernel, ?_⟩
  intro a cs h
  cases h
  norm_num

theorem horner_cons (a : ℚ) (cs : List ℚ) (x : ℚ) : horner (a :: cs) x = a * x ^ cs.length + horner cs x := by
  induction cs using List.reverseRecOn with
  | nil => simp [horner]
  | append_singleton cs c ih =>
    rw [show a :: (cs ++ [c]) = (a :: cs) ++ [c] from rfl, horner_append, ih, horner_append, List.length_append]
    simp only [List.length_cons, List.length_nil, zero_add, pow_succ]
    ring

theorem horner_zero_iff (cs : List ℚ) : (∀ x, horner cs x = 0) ↔ ∀ c ∈ cs, c = 0 := by
  rw [← hpoly_zero_iff]
  constructor
  · intro h
    exact Polynomial.funext (fun x => by rw [hpoly_eval, h x]; simp)
  · intro h x
    rw [← hpoly_eval, h]
    simp

/-- **C47** (what the tests recognise) `is_constant` is true exactly when numerator and denominator are multiples of the powers of `x`
that their numbers of coefficients give, and `is_affine` exactly when the numerator is `(a x + b) x ^ n` with the first two coefficients
and the denominator a multiple of such a power. -/
theorem C47_exact (a b d : ℚ) (ns ds : List ℚ) :
    ((⟨a :: ns, d :: ds⟩ : RF2).isConstant = true ↔
      ∀ x, horner (a :: ns) x = a * x ^ ns.length ∧ horner (d :: ds) x = d * x ^ ds.length) ∧
    ((⟨a :: b :: ns, d :: ds⟩ : RF2).isAffine = true ↔
      ∀ x, horner (a :: b :: ns) x = (a * x + b) * x ^ ns.length ∧ horner (d :: ds) x = d * x ^ ds.length) := by
  have h1 : ∀ (a : ℚ) (cs : List ℚ), (∀ x, horner (a :: cs) x = a * x ^ cs.length) ↔ ∀ c ∈ cs, c = 0 := by
    intro a cs
    rw [← horner_zero_iff]
    exact forall_congr' fun x => by rw [horner_cons]; constructor <;> intro h <;> linarith
  have h2 : (∀ x, horner (a :: b :: ns) x = (a * x + b) * x ^ ns.length) ↔ ∀ c ∈ ns, c = 0 := by
    rw [← horner_zero_iff]
    refine forall_congr' fun x => ?_
    rw [horner_cons, horner_cons, List.length_cons, pow_succ]
    constructor <;> intro h <;> linarith
  constructor
  · rw [forall_and, h1, h1]
    simp [RF2.isConstant]
  · rw [forall_and, h2, h1]
    simp [RF2.isAffine]

/-- Non-vacuity: `x ^ 3 + 2 x ^ 2` over 1 passes the test for affine functions, `x ^ 2 + 1` does not. -/
example : (⟨[1, 2, 0, 0], [1]⟩ : RF2).isAffine = true ∧ horner [1, 2, 0, 0] (3 : ℚ) = (1 * 3 + 2) * 3 ^ 2 ∧
    (⟨[1, 0, 1], [1]⟩ : RF2).isAffine = false := by decide +kernel

/-- **C47** (constants) The function built from one number has that value everywhere and passes the test for constants. -/
theorem C47_constant (c : ℚ) : ∃ f, RF2.make (.list [c]) = .ok f ∧ f.isConstant = true ∧ ∀ x, f.val x = c :=
  ⟨⟨[c], [1]⟩, rfl, rfl, fun x => by simp [RF2.val, horner]⟩

/-- Finding: `x²` is reported constant, and `x³ + 2x²` affine. -/
theorem C47_unsound_counterexample : ∃ f g : RF2, RF2.make (.tuple [[1, 0, 0], [1]]) = .ok f ∧ f.isConstant = true ∧
    f.val 1 ≠ f.val 2 ∧ RF2.make (.tuple [[1, 2, 0, 0], [1]]) = .ok g ∧ g.isAffine = true ∧
    ¬ ∃ m b, ∀ x, g.val x = m * x + b := by
  refine ⟨⟨[1, 0, 0], [1]⟩, ⟨[1, 2, 0, 0], [1]⟩, rfl, by decide +kernel, by decide +kernel, rfl, by decide +kernel, ?_⟩
  rintro ⟨m, b, h⟩
  have h0 := h 0
  have h1 := h 1
  have h2 := h 2
  simp [RF2.val, horner] at h0 h1 h2
  norm_num at h0 h1 h2
  linarith

/-- Finding: the constant function `(x + 1) / (x + 1)` is not recognised as constant, and neither is `0 x + 1`. -/
theorem C47_incomplete_counterexample : ∃ f g : RF2, RF2.make (.tuple [[1, 1], [1, 1]]) = .ok f ∧ f.isConstant = false ∧
    (∀ x, horner f.den x ≠ 0 → f.val x = 1) ∧ RF2.make (.tuple [[0, 1], [1]]) = .ok g ∧ g.isConstant = false ∧
    ∀ x, g.val x = 1 := by
  refine ⟨⟨[1, 1], [1, 1]⟩, ⟨[0, 1], [1]⟩, rfl, by decide +kernel, fun x hx => div_self hx, rfl, by decide +kernel, fun x => ?_⟩
  simp [RF2.val, horner]

/-! ### C58: extreme values on an interval -/

/-- Contract of `sympy.real_roots`, called for polynomials that are not constant: all real roots are listed, and only
these. -/
def RootsSpec (isConstant : Expr ℝ → Bool) (realRoots : Expr ℝ → List ℝ) : Prop :=
  ∀ e, isConstant e = false → ∀ x, x ∈ realRoots e ↔ e.eval x = 0

/-- Contract of `is_constant`. -/
def ConstSpec (isConstant : Expr ℝ → Bool) : Prop := ∀ e, isConstant e = true → ∀ x y, e.eval x = e.eval y

theorem Expr.hasDerivAt (e : Expr ℝ) (x : ℝ) : HasDerivAt e.eval (e.diff.eval x) x := by
  induction e with
  | const c => exact hasDerivAt_const x c
  | var => exact hasDerivAt_id x
  | add a b iha ihb => exact iha.add ihb
  | sub a b iha ihb => exact iha.sub ihb
  | mul a b iha ihb => exact iha.mul ihb

theorem RF.hasDerivAt (f : RF ℝ) (x : ℝ) (h : f.Def x) :
    HasDerivAt f.at (-(f.dnum.eval x) / f.den.eval x ^ 2) x := by
  have := (f.num.hasDerivAt x).div (f.den.hasDerivAt x) h
  refine this.congr_deriv ?_
  simp only [RF.dnum, Expr.eval]
  ring

theorem firstBest_spec (better : ℝ → ℝ → Bool) (s : ℝ) (hb : ∀ u v, better u v = decide (s * v < s * u)) (f : RF ℝ) (b : ℝ)
    (cs : List ℝ) : firstBest better f b cs ∈ b :: cs ∧ ∀ c ∈ b :: cs, s * f.at c ≤ s * f.at (firstBest better f b cs) := by
  induction cs generalizing b with
  | nil => simp [firstBest]
  | cons c cs ih =>
    unfold firstBest
    rw [hb]
    split
    · rename_i h
      have h := of_decide_eq_true h
      obtain ⟨h1, h2⟩ := ih c
      refine ⟨List.mem_cons_of_mem _ h1, fun e he => ?_⟩
      rcases List.mem_cons.mp he with rfl | he
      · exact h.le.trans (h2 c (by simp))
      · exact h2 e he
    · rename_i h
      have h : s * f.at c ≤ s * f.at b := by simpa using h
      obtain ⟨h1, h2⟩ := ih b
      refine ⟨?_, fun e he => ?_⟩
      · rcases List.mem_cons.mp h1 with h3 | h3
        · rw [h3]; simp
        · simp [h3]
      · rcases List.mem_cons.mp he with rfl | he
        · exact h2 _ (by simp)
        · rcases List.mem_cons.mp he with rfl | he
          · exact h.trans (h2 b (by simp))
          · exact h2 e (by simp [he])

/-- The best value over the closed interval is taken at one of the critical points. -/
theorem critPts_best {isConstant : Expr ℝ → Bool} {realRoots : Expr ℝ → List ℝ} (hr : RootsSpec isConstant realRoots)
    (hc : ConstSpec isConstant) (f : RF ℝ) (I : Ival ℝ) (hI : I.x0 ≤ I.x1) (hdef : ∀ x, I.x0 ≤ x → x ≤ I.x1 → f.Def x) (s : ℝ)
    (hs : s ≠ 0) : ∃ c ∈ critPts isConstant realRoots f I, ∀ x, I.x0 ≤ x → x ≤ I.x1 → s * f.at x ≤ s * f.at c := by
  have hcont : ContinuousOn f.at (Icc I.x0 I.x1) := f.continuousOn _ (fun x hx => hdef x hx.1 hx.2)
  obtain ⟨m, hm, hmax⟩ := isCompact_Icc.exists_isMaxOn (nonempty_Icc.mpr hI) (hcont.const_smul s)
  have hle : ∀ x, I.x0 ≤ x → x ≤ I.x1 → s * f.at x ≤ s * f.at m := fun x h1 h2 => hmax ⟨h1, h2⟩
  rcases eq_or_lt_of_le hm.1 with h0 | h0
  · exact ⟨m, by rw [← h0]; simp [critPts], hle⟩
  rcases eq_or_lt_of_le hm.2 with h1 | h1
  · exact ⟨m, by rw [h1]; simp [critPts], hle⟩
  have hd := f.hasDerivAt m (hdef m hm.1 hm.2)
  have hloc : IsLocalMax (fun x => s * f.at x) m := by
    filter_upwards [Icc_mem_nhds h0 h1] with x hx
    exact hmax hx
  have hz : f.dnum.eval m = 0 := by
    have h2 := hloc.hasDerivAt_eq_zero (hd.const_mul s)
    have h3 := hdef m hm.1 hm.2
    rcases mul_eq_zero.mp h2 with h | h
    · exact absurd h hs
    · rcases div_eq_zero_iff.mp h with h | h
      · exact neg_eq_zero.mp h
      · exact absurd h (pow_ne_zero 2 h3)
  cases hconst : isConstant f.dnum with
  | false =>
    refine ⟨m, ?_, hle⟩
    unfold critPts
    rw [hconst]
    simp only [Bool.false_eq_true, if_false, List.mem_append, List.mem_filter]
    right
    refine ⟨(hr _ hconst m).mpr hz, ?_⟩
    unfold Ival.contains
    rw [Bool.and_eq_true]
    constructor
    · split
      · exact decide_eq_true h0.le
      · exact decide_eq_true h0
    · split
      · exact decide_eq_true h1.le
      · exact decide_eq_true h1
  | true =>
    have hall : ∀ x, f.dnum.eval x = 0 := fun x => by rw [hc _ hconst x m, hz]
    have hk := constant_of_has_deriv_right_zero hcont (fun x hx => by
      have := f.hasDerivAt x (hdef x hx.1 hx.2.le)
      rw [hall x] at this
      simp at this
      exact this.hasDerivWithinAt)
    refine ⟨I.x0, by simp [critPts], fun x k1 k2 => ?_⟩
    rw [hk x ⟨k1, k2⟩]

theorem critPts_mem {isConstant : Expr ℝ → Bool} {realRoots : Expr ℝ → List ℝ} (f : RF ℝ) (I : Ival ℝ) (hI : I.x0 ≤ I.x1) (c : ℝ)
    (hcm : c ∈ critPts isConstant realRoots f I) : I.x0 ≤ c ∧ c ≤ I.x1 := by
  unfold critPts at hcm
  rcases List.mem_append.mp hcm with h | h
  · simp only [List.mem_cons, List.not_mem_nil, or_false] at h
    rcases h with rfl | rfl
    · exact ⟨le_refl _, hI⟩
    · exact ⟨hI, le_refl _⟩
  · split at h
    · simp at h
    · have h2 := (List.mem_filter.mp h).2
      unfold Ival.contains at h2
      rw [Bool.and_eq_true] at h2
      obtain ⟨l1, l2⟩ := h2
      constructor
      · split at l1
        · exact of_decide_eq_true l1
        · exact (of_decide_eq_true l1).le
      · split at l2
        · exact of_decide_eq_true l2
        · exact (of_decide_eq_true l2).le

/-- **C58** `maximise` returns a point of the closed interval and the value there, which is the greatest value on the
closed interval. -/
theorem C58_maximise (isConstant : Expr ℝ → Bool) (realRoots : Expr ℝ → List ℝ) (hr : RootsSpec isConstant realRoots)
    (hc : ConstSpec isConstant) (f : RF ℝ) (I : Ival ℝ) (hI : I.x0 ≤ I.x1) (hdef : ∀ x, I.x0 ≤ x → x ≤ I.x1 → f.Def x) :
    (f.maximise isConstant realRoots I).1 ∈ Icc I.x0 I.x1 ∧
      (f.maximise isConstant realRoots I).2 = f.at (f.maximise isConstant realRoots I).1 ∧
      IsGreatest (f.at '' Icc I.x0 I.x1) (f.maximise isConstant realRoots I).2 := by
  obtain ⟨c, h1, h2⟩ := critPts_best hr hc f I hI hdef 1 one_ne_zero
  have h3 := firstBest_spec (fun x y => decide (x > y)) 1 (fun u v => by simp) f I.x0 (critPts isConstant realRoots f I).tail
  have h4 : I.x0 :: (critPts isConstant realRoots f I).tail = critPts isConstant realRoots f I := rfl
  rw [h4] at h3
  have h5 := critPts_mem f I hI _ h3.1
  refine ⟨h5, rfl, ⟨_, h5, rfl⟩, ?_⟩
  rintro v ⟨x, hx, rfl⟩
  have := h2 x hx.1 hx.2
  have := h3.2 c h1
  simp only [RF.maximise]
  linarith

/-- **C58** `minimise` likewise, with the least value. -/
theorem C58_minimise (isConstant : Expr ℝ → Bool) (realRoots : Expr ℝ → List ℝ) (hr : RootsSpec isConstant realRoots)
    (hc : ConstSpec isConstant) (f : RF ℝ) (I : Ival ℝ) (hI : I.x0 ≤ I.x1) (hdef : ∀ x, I.x0 ≤ x → x ≤ I.x1 → f.Def x) :
    (f.minimise isConstant realRoots I).1 ∈ Icc I.x0 I.x1 ∧
      (f.minimise isConstant realRoots I).2 = f.at (f.minimise isConstant realRoots I).1 ∧
      IsLeast (f.at '' Icc I.x0 I.x1) (f.minimise isConstant realRoots I).2 := by
  obtain ⟨c, h1, h2⟩ := critPts_best hr hc f I hI hdef (-1) (by norm_num)
  have h3 := firstBest_spec (fun x y => decide (x < y)) (-1) (fun u v => by simp) f I.x0 (critPts isConstant realRoots f I).tail
  have h4 : I.x0 :: (critPts isConstant realRoots f I).tail = critPts isConstant realRoots f I := rfl
  rw [h4] at h3
  have h5 := critPts_mem f I hI _ h3.1
  refine ⟨h5, rfl, ⟨_, h5, rfl⟩, ?_⟩
  rintro v ⟨x, hx, rfl⟩
  have := h2 x hx.1 hx.2
  have := h3.2 c h1
  simp only [RF.minimise]
  linarith

/-- The contracts of `real_roots` and `is_constant` can be met. -/
theorem rootsSpec_satisfiable : ∃ isConstant realRoots, RootsSpec isConstant realRoots ∧ ConstSpec isConstant := by
  classical
  refine ⟨fun e => decide (∃ c, e.toPoly = Polynomial.C c), fun e => e.toPoly.roots.toList, fun e h x => ?_, fun e h x y => ?_⟩
  · have h := of_decide_eq_false h
    have h0 : e.toPoly ≠ 0 := fun h1 => h ⟨0, by rw [h1]; simp⟩
    rw [Multiset.mem_toList, Polynomial.mem_roots h0, Polynomial.IsRoot.def, Expr.eval_toPoly]
  · obtain ⟨c, hc⟩ := of_decide_eq_true h
    rw [← Expr.eval_toPoly, ← Expr.eval_toPoly, hc]
    simp

/-- Non-vacuity of C58: `x / (x² + 1)` on `[0, 3]`. -/
example : (Ival.mk (0 : ℝ) 3 true false).x0 ≤ (Ival.mk (0 : ℝ) 3 true false).x1 ∧
    ∀ x : ℝ, (RF.make [1, 0] (some [1, 0, 1])).Def x := by
  refine ⟨by norm_num, fun x => ?_⟩
  simp [RF.Def, RF.make, polyExpr, polyLoop, Expr.eval]
  nlinarith [sq_nonneg x]

/-! ### C59: intersections -/

/-- **C59** `intersections` lists exactly the points of the interval at which the two functions agree, unless the
functions agree everywhere they are defined, or nowhere; then the list is empty or consists of such points. -/
theorem C59_intersections (isConstant : Expr ℝ → Bool) (realRoots : Expr ℝ → List ℝ) (hr : RootsSpec isConstant realRoots)
    (hc : ConstSpec isConstant) (f g : RF ℝ) (I : Ival ℝ) :
    (∀ x, f.Def x → g.Def x → f.at x = g.at x) ∨
      ∀ x, f.Def x → g.Def x → (x ∈ f.intersections isConstant realRoots g I ↔ I.contains x = true ∧ f.at x = g.at x) := by
  have key : ∀ x, f.Def x → g.Def x → (f.at x = g.at x ↔ (Expr.sub (.mul f.num g.den) (.mul f.den g.num)).eval x = 0) := by
    intro x hf hg
    simp only [Expr.eval]
    unfold RF.at
    rw [div_eq_div_iff hf hg, sub_eq_zero, mul_comm (f.den.eval x)]
  unfold RF.intersections
  simp only
  cases hh : isConstant (.sub (.mul f.num g.den) (.mul f.den g.num)) with
  | false =>
    right
    intro x hf hg
    rw [key x hf hg]
    simp only [Bool.false_eq_true, if_false, List.mem_filter, hr _ hh x]
    tauto
  | true =>
    by_cases h0 : (Expr.sub (.mul f.num g.den) (.mul f.den g.num)).eval 0 = 0
    · left
      intro x hf hg
      rw [key x hf hg, hc _ hh x 0, h0]
    · right
      intro x hf hg
      rw [key x hf hg, hc _ hh x 0]
      simp [h0]

/-! ### C48: the best zero density estimate -/

theorem pack_ok {K : Type} (hs : List (Est K)) (ps : List (Piece K))
    (h : ∀ p ∈ ps, p.ref < 0 ∨ ∃ i : ℕ, p.ref = i ∧ ∃ e, hs[i]? = some e) :
    ∃ out, pack hs ps = .ok out ∧ List.Forall₂ (fun p e => packOne hs p = .ok e) ps out := by
  induction ps with
  | nil => exact ⟨[], rfl, .nil⟩
  | cons p ps ih =>
    obtain ⟨out, h1, h2⟩ := ih (fun q hq => h q (by simp [hq]))
    have : ∃ e, packOne hs p = .ok e := by
      unfold packOne
      rcases h p (by simp) with h | ⟨i, h, e, he⟩
      · rw [if_pos h]; exact ⟨_, rfl⟩
      · rw [if_neg (by omega), h, Int.toNat_natCast, he]
        exact ⟨_, rfl⟩
    obtain ⟨e, he⟩ := this
    refine ⟨e :: out, ?_, .cons he h2⟩
    unfold pack
    rw [he, h1]
    rfl

theorem packOne_dom {K : Type} {hs : List (Est K)} {p : Piece K} {e : Est K} (h : packOne hs p = .ok e) :
    e.dom = p.dom ∧ e.fn = p.fn := by
  unfold packOne at h
  split at h
  · cases h; exact ⟨rfl, rfl⟩
  · split at h
    · cases h
    · cases h; exact ⟨rfl, rfl⟩

/-- The estimates of a type, with the placeholder that the code uses where there is none. -/
def IsSource (H : List (Est ℝ)) (kind : String) (e : Est ℝ) : Prop :=
  (e.reference = none ∧ e.name = "Placeholder zero density estimate" ∧ ∀ x, e.fn.at x = 1000000) ∨
    ∃ h ∈ H, h.kind = kind ∧ e.fn = h.fn ∧ e.name = h.name ∧ e.kind = h.kind ∧ e.proof = h.proof ∧ e.reference = h.reference ∧
      h.dom.x0 ≤ e.dom.x0 ∧ e.dom.x1 ≤ h.dom.x1

theorem bestEstimate_spec (kind : String) (solve : RF ℝ → RF ℝ → List ℝ) (hs : SolveSpec solve) (isZero : Expr ℝ → Bool)
    (hz : ZeroSpec isZero) (H : List (Est ℝ)) (hH : ∀ h ∈ H, h.kind = kind → ArgOk (h.fn, h.dom)) :
    ∃ out, bestEstimate kind solve isZero H = .ok out ∧ (∀ e ∈ out, IsSource H kind e) ∧
      ∀ σ : ℝ, 1 / 2 ≤ σ → σ < 1 → ∃ e ∈ out, e.dom.x0 ≤ σ ∧ σ < e.dom.x1 ∧
        (∀ e' ∈ out, e'.dom.x0 ≤ σ → σ < e'.dom.x1 → e' = e) ∧
        ∀ h ∈ H, h.kind = kind → h.dom.x0 ≤ σ → σ < h.dom.x1 → e.fn.at σ ≤ h.fn.at σ := by
  set L := H.filter (fun h => h.kind == kind) with hL
  have hmem : ∀ h, h ∈ L ↔ h ∈ H ∧ h.kind = kind := by
    intro h
    rw [hL, List.mem_filter]
    simp
  have hargs : ∀ t ∈ L.map (fun h => (h.fn, h.dom)), ArgOk t := by
    intro t ht
    obtain ⟨h, hh, rfl⟩ := List.mem_map.mp ht
    exact hH h ((hmem h).mp hh).1 ((hmem h).mp hh).2
  obtain ⟨h1, h2⟩ := C08_min_partial solve hs isZero hz (L.map (fun h => (h.fn, h.dom))) hargs (Ival.half (1 / 2) 1)
    (by simp only [Ival.half]; norm_num)
  set M := rfMin solve isZero (L.map (fun h => (h.fn, h.dom))) (Ival.half (1 / 2) 1) true with hM
  have hidx : ∀ p ∈ M, (p.ref = -1 ∧ p.fn = RF.make [1000000] none) ∨ ∃ i : ℕ, p.ref = i ∧ ∃ h, L[i]? = some h ∧ p.fn = h.fn ∧
      h.dom.x0 ≤ p.dom.x0 ∧ p.dom.x1 ≤ h.dom.x1 := by
    intro p hp
    rcases (h2 p hp).2.1 with k | ⟨i, k1, J, k2, k3, k4⟩
    · exact Or.inl k
    · rw [List.getElem?_map] at k2
      cases hh : L[i]? with
      | none => rw [hh] at k2; cases k2
      | some h =>
        rw [hh] at k2
        have := Option.some.inj k2
        obtain ⟨e1, e2⟩ := Prod.mk.inj this
        exact Or.inr ⟨i, k1, h, hh, e1.symm, by rw [e2]; exact k3, by rw [e2]; exact k4⟩
  obtain ⟨out, ho, hF⟩ := pack_ok L M (fun p hp => by
    rcases hidx p hp with ⟨k, _⟩ | ⟨i, k1, h, k2, _⟩
    · left; omega
    · exact Or.inr ⟨i, k1, h, k2⟩)
  have hsrc : ∀ e ∈ out, ∃ p ∈ M, packOne L p = .ok e := by
    intro e he
    obtain ⟨p, hp, h⟩ := (List.forall₂_iff_get.mp hF |> fun hh => by
      obtain ⟨i, hi, rfl⟩ := List.mem_iff_getElem.mp he
      exact ⟨M[i]'(by rw [hh.1]; exact hi), List.getElem_mem _, hh.2 i (by rw [hh.1]; exact hi) hi⟩ :
        ∃ p, p ∈ M ∧ packOne L p = .ok e)
    exact ⟨p, hp, h⟩
  have hdst : ∀ p ∈ M, ∃ e ∈ out, packOne L p = .ok e := by
    intro p hp
    have hh := List.forall₂_iff_get.mp hF
    obtain ⟨i, hi, rfl⟩ := List.mem_iff_getElem.mp hp
    exact ⟨out[i]'(by rw [← hh.1]; exact hi), List.getElem_mem _, hh.2 i hi (by rw [← hh.1]; exact hi)⟩
  refine ⟨out, ho, fun e he => ?_, fun σ l1 l2 => ?_⟩
  · obtain ⟨p, hp, hpe⟩ := hsrc e he
    unfold packOne at hpe
    rcases hidx p hp with ⟨k1, k2⟩ | ⟨i, k1, h, k2, k3, k4, k5⟩
    · rw [if_pos (by omega)] at hpe
      cases hpe
      refine Or.inl ⟨rfl, rfl, fun x => ?_⟩
      simp only
      rw [k2, C09_make]
      simp [horner]
    · rw [if_neg (by omega), k1, Int.toNat_natCast, k2] at hpe
      cases hpe
      have := List.mem_of_getElem? k2
      exact Or.inr ⟨h, ((hmem h).mp this).1, ((hmem h).mp this).2, k3, rfl, rfl, rfl, rfl, k4, k5⟩
  · obtain ⟨p, hp, m1, m2, m3⟩ := h1.exists_unique σ l1 l2
    obtain ⟨e, he, hpe⟩ := hdst p hp
    obtain ⟨d1, d2⟩ := packOne_dom hpe
    refine ⟨e, he, by rw [d1]; exact m1, by rw [d1]; exact m2, fun e' he' n1 n2 => ?_, fun h hh hk n1 n2 => ?_⟩
    · obtain ⟨q, hq, hqe⟩ := hsrc e' he'
      obtain ⟨d3, _⟩ := packOne_dom hqe
      rw [d3] at n1 n2
      rw [m3 q hq n1 n2, hpe] at hqe
      exact (Except.ok.inj hqe).symm
    · rw [d2]
      exact ((h2 p hp).2.2 σ m1 m2).2.2 (h.fn, h.dom) (List.mem_map.mpr ⟨h, (hmem h).mpr ⟨hh, hk⟩, rfl⟩) n1 n2

/-- **C48** The best zero density estimate: it is computed without an exception; every piece carries the function, the
name, the proof and the reference of an input whose domain contains the piece, or is the placeholder 1000000; each
`σ` in `[1/2, 1)` lies in exactly one piece, whose value at `σ` is at most that of every input with `x0 ≤ σ < x1`.
Missing (and false, by `C08_closed_counterexample`): inputs that include the right end point `x1`, at `σ = x1`. -/
theorem C48_density_partial (solve : RF ℝ → RF ℝ → List ℝ) (hs : SolveSpec solve) (isZero : Expr ℝ → Bool) (hz : ZeroSpec isZero)
    (H : List (Est ℝ)) (hH : ∀ h ∈ H, h.kind = "Zero density estimate" → ArgOk (h.fn, h.dom)) :
    ∃ out, bestZeroDensity solve isZero H = .ok out ∧ (∀ e ∈ out, IsSource H "Zero density estimate" e) ∧
      ∀ σ : ℝ, 1 / 2 ≤ σ → σ < 1 → ∃ e ∈ out, e.dom.x0 ≤ σ ∧ σ < e.dom.x1 ∧
        (∀ e' ∈ out, e'.dom.x0 ≤ σ → σ < e'.dom.x1 → e' = e) ∧
        ∀ h ∈ H, h.kind = "Zero density estimate" → h.dom.x0 ≤ σ → σ < h.dom.x1 → e.fn.at σ ≤ h.fn.at σ :=
  bestEstimate_spec _ solve hs isZero hz H hH

/-- **C48** The best additive energy bound; as for `C48_density_partial`. -/
theorem C48_energy_partial (solve : RF ℝ → RF ℝ → List ℝ) (hs : SolveSpec solve) (isZero : Expr ℝ → Bool) (hz : ZeroSpec isZero)
    (H : List (Est ℝ)) (hH : ∀ h ∈ H, h.kind = "Zero density energy estimate" → ArgOk (h.fn, h.dom)) :
    ∃ out, bestEnergyBound solve isZero H = .ok out ∧ (∀ e ∈ out, IsSource H "Zero density energy estimate" e) ∧
      ∀ σ : ℝ, 1 / 2 ≤ σ → σ < 1 → ∃ e ∈ out, e.dom.x0 ≤ σ ∧ σ < e.dom.x1 ∧
        (∀ e' ∈ out, e'.dom.x0 ≤ σ → σ < e'.dom.x1 → e' = e) ∧
        ∀ h ∈ H, h.kind = "Zero density energy estimate" → h.dom.x0 ≤ σ → σ < h.dom.x1 → e.fn.at σ ≤ h.fn.at σ :=
  bestEstimate_spec _ solve hs isZero hz H hH

/-- Non-vacuity: Ingham's `3 / (2 - x)` on `[1/2, 1)`. -/
example : ∀ h ∈ [(⟨"Ingham (1940)", "Zero density estimate", RF.make [3] (some [-1, 2]), Ival.half (1 / 2) 1, "See", some 1, []⟩ : Est ℝ)],
    h.kind = "Zero density estimate" → ArgOk (h.fn, h.dom) := by
  intro h hh _
  rw [List.mem_singleton.mp hh]
  intro x h1 h2
  simp only [Ival.half] at h1 h2
  simp [RF.Def, RF.make, polyExpr, polyLoop, Expr.eval]
  intro h0
  linarith

/-- Finding: the pieces lose the dependencies of the estimate that they are taken from. -/
theorem C48_dependencies_counterexample : ∃ h : Est ℚ, h.deps ≠ [] ∧ ∃ out, bestZeroDensity (fun _ _ => []) (fun _ => false) [h] = .ok out ∧
    ∃ e ∈ out, e.reference = h.reference ∧ e.name = h.name ∧ e.deps = [] := by
  refine ⟨⟨"a", "Zero density estimate", RF.make [2] none, Ival.half (1 / 2) 1, "b", some 1, [1, 2]⟩, by decide,
    [⟨"a", "Zero density estimate", RF.make [2] none, Ival.half (1 / 2) 1, "b", some 1, []⟩], by decide +kernel, _, List.mem_singleton.mpr rfl, rfl, rfl, rfl⟩

/-- Finding: where no energy estimate is known, `compute_best_energy_bound` returns a hypothesis of type "Zero density
estimate". -/
theorem C48_energy_placeholder_counterexample : ∃ e : Est ℚ, bestEnergyBound (fun _ _ => []) (fun _ => false) [] = .ok [e] ∧
    e.kind = "Zero density estimate" :=
  ⟨⟨"Placeholder zero density estimate", "Zero density estimate", RF.make [1000000] none, Ival.half (1 / 2) 1,
    "Placeholder zero density estimate", none, []⟩, by decide +kernel, rfl⟩

end Rational
end Expdb
