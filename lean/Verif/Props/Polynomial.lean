import Verif.Model.Polynomial
import Verif.Tactics
import Mathlib.Algebra.BigOperators.Group.List.Basic

/-!
# Property C04: polynomial arithmetic
-/

namespace Expdb
namespace Poly

/-! ### Specification -/

/-- Value at `x` of the polynomial with the given coefficients, lowest degree first. -/
def evalList (x : ℚ) : List ℚ → ℚ
  | [] => 0
  | a :: l => a + x * evalList x l

/-- A polynomial object that the constructor can return. -/
def Constructible (p : Poly) : Prop := ∃ c, make c = .ok p

theorem constructible_iff (p : Poly) : p.Constructible ↔ p.coeffs.getLast? ≠ some 0 := by
  unfold Constructible make
  constructor
  · rintro ⟨c, h⟩
    split at h
    · rename_i a ha
      split at h
      · cases h
      · rename_i hz; cases h; rw [ha]; simpa using hz
    · rename_i ha; cases h; rw [ha]; simp
  · intro h
    refine ⟨p.coeffs, ?_⟩
    split
    · rename_i a ha
      rw [ha] at h
      rw [if_neg (by simpa using h)]
    · rfl

/-- The evaluation used as specification is `Σ aᵢ xⁱ`. -/
theorem evalList_eq_sum (x : ℚ) (l : List ℚ) :
    evalList x l = ((l.zipIdx).map (fun t => t.1 * x ^ t.2)).sum := by
  suffices h : ∀ (l : List ℚ) (k : Nat),
      ((l.zipIdx k).map (fun t => t.1 * x ^ t.2)).sum = x ^ k * evalList x l by
    rw [h l 0]; simp
  intro l
  induction l with
  | nil => intro k; simp [evalList]
  | cons a l ih =>
    intro k
    simp only [List.zipIdx_cons, List.map_cons, List.sum_cons, evalList]
    rw [ih (k + 1)]
    ring

/-! ### Auxiliary lemmas -/

theorem evalList_append (x : ℚ) (l r : List ℚ) :
    evalList x (l ++ r) = evalList x l + x ^ l.length * evalList x r := by
  induction l with
  | nil => simp [evalList]
  | cons a l ih => simp only [List.cons_append, evalList, ih, List.length_cons]; ring

theorem trimLoop_spec (c : List ℚ) (n : Nat) (hn : n ≤ c.length)
    (hz : ∀ x, evalList x c = evalList x (c.take n)) :
    (∀ x, evalList x (trimLoop c n) = evalList x c) ∧ (trimLoop c n).getLast? ≠ some 0 := by
  induction n with
  | zero => simp only [trimLoop]; exact ⟨fun x => by rw [hz]; simp, by simp⟩
  | succ n ih =>
    have hlt : n < c.length := hn
    unfold trimLoop
    rw [List.getElem?_eq_getElem hlt]
    have htake : c.take (n + 1) = c.take n ++ [c[n]] := by rw [List.take_append_getElem]
    by_cases h : c[n] = 0
    · simp only [h, ne_eq, not_true_eq_false, if_false]
      refine ih (by omega) (fun x => ?_)
      rw [hz, htake, evalList_append, h]; simp [evalList]
    · simp only [ne_eq, h, not_false_eq_true, if_true]
      refine ⟨fun x => (hz x).symm, ?_⟩
      rw [htake, List.getLast?_concat]
      simpa using h

theorem trim_spec (c : List ℚ) :
    (∀ x, evalList x (trim c) = evalList x c) ∧ (trim c).getLast? ≠ some 0 :=
  trimLoop_spec c c.length le_rfl (fun x => by simp)

theorem make_trim (c : List ℚ) : make (trim c) = .ok ⟨trim c⟩ := by
  have h := (trim_spec c).2
  unfold make
  split
  · rename_i a ha
    rw [ha] at h
    rw [if_neg (by simpa using h)]
  · rfl

theorem evalList_zipWith_add (x : ℚ) (p q : List ℚ) (h : p.length = q.length) :
    evalList x (List.zipWith (· + ·) p q) = evalList x p + evalList x q := by
  induction p generalizing q with
  | nil => cases q with
    | nil => simp [evalList]
    | cons b q => simp at h
  | cons a p ih => cases q with
    | nil => simp at h
    | cons b q =>
      simp only [List.zipWith_cons_cons, evalList]
      rw [ih q (by simpa using h)]; ring

theorem evalList_zipWith_sub (x : ℚ) (p q : List ℚ) (h : p.length = q.length) :
    evalList x (List.zipWith (· - ·) p q) = evalList x p - evalList x q := by
  induction p generalizing q with
  | nil => cases q with
    | nil => simp [evalList]
    | cons b q => simp at h
  | cons a p ih => cases q with
    | nil => simp at h
    | cons b q =>
      simp only [List.zipWith_cons_cons, evalList]
      rw [ih q (by simpa using h)]; ring

theorem evalList_neg (x : ℚ) (q : List ℚ) :
    evalList x (q.map (fun a => -a)) = - evalList x q := by
  induction q with
  | nil => simp [evalList]
  | cons a q ih => simp only [List.map_cons, evalList, ih]; ring

theorem evalList_split (x : ℚ) (p : List ℚ) (n : Nat) (hn : n ≤ p.length) :
    evalList x p = evalList x (p.take n) + x ^ n * evalList x (p.drop n) := by
  conv_lhs => rw [← List.take_append_drop n p]
  rw [evalList_append, List.length_take, Nat.min_eq_left hn]

theorem evalList_modify (x : ℚ) (c : List ℚ) (k : Nat) (d : ℚ) (hk : k < c.length) :
    evalList x (c.modify k (· + d)) = evalList x c + d * x ^ k := by
  induction c generalizing k with
  | nil => simp at hk
  | cons a c ih =>
    cases k with
    | zero => simp [List.modify_cons, evalList]; ring
    | succ k =>
      simp only [List.modify_succ_cons, evalList]
      rw [ih k (by simpa using hk)]; ring

theorem mulInner_spec (a : ℚ) (q : List ℚ) (c : List ℚ) (k : Nat) (h : k + q.length ≤ c.length) :
    (mulInner a c k q).length = c.length ∧
      ∀ x, evalList x (mulInner a c k q) = evalList x c + x ^ k * (a * evalList x q) := by
  induction q generalizing c k with
  | nil => simp [mulInner, evalList]
  | cons b q ih =>
    simp only [List.length_cons] at h
    have := ih (c.modify k (· + a * b)) (k + 1) (by rw [List.length_modify]; omega)
    unfold mulInner
    refine ⟨by rw [this.1, List.length_modify], fun x => ?_⟩
    rw [this.2 x, evalList_modify x c k (a * b) (by omega)]
    simp only [evalList]; ring

theorem mulOuter_spec (q p : List ℚ) (c : List ℚ) (i : Nat)
    (h : p = [] ∨ i + p.length + q.length ≤ c.length + 1) :
    ∀ x, evalList x (mulOuter c i q p) = evalList x c + x ^ i * (evalList x p * evalList x q) := by
  induction p generalizing c i with
  | nil => intro x; simp [mulOuter, evalList]
  | cons a p ih =>
    have h' : i + (p.length + 1) + q.length ≤ c.length + 1 := by
      rcases h with h | h
      · cases h
      · simpa using h
    obtain ⟨hl, he⟩ := mulInner_spec a q c i (by omega)
    intro x
    unfold mulOuter
    rw [ih (mulInner a c i q) (i + 1) (by right; omega) x, he x]
    simp only [evalList]; ring

theorem evalList_bounded (l : List ℚ) : ∃ M : ℚ, 0 ≤ M ∧ ∀ x, |x| ≤ 1 → |evalList x l| ≤ M := by
  induction l with
  | nil => exact ⟨0, le_rfl, fun x _ => by simp [evalList]⟩
  | cons a l ih =>
    obtain ⟨M, hM, h⟩ := ih
    refine ⟨|a| + M, by positivity, fun x hx => ?_⟩
    unfold evalList
    calc |a + x * evalList x l| ≤ |a| + |x * evalList x l| := abs_add_le _ _
      _ = |a| + |x| * |evalList x l| := by rw [abs_mul]
      _ ≤ |a| + 1 * M := by
        have := h x hx
        have h0 := abs_nonneg (evalList x l)
        have h1 := abs_nonneg x
        have : |x| * |evalList x l| ≤ 1 * M := mul_le_mul hx this h0 (by norm_num)
        linarith
      _ = |a| + M := by ring

/-- A list of coefficients that vanishes at all non-zero points is all zero. -/
theorem eq_zero_of_eval_zero (l : List ℚ) (h : ∀ x, x ≠ 0 → evalList x l = 0) :
    ∀ a ∈ l, a = 0 := by
  induction l with
  | nil => simp
  | cons a l ih =>
    obtain ⟨M, hM, hb⟩ := evalList_bounded l
    have ha : a = 0 := by
      by_contra hne
      have hpos : 0 < |a| := abs_pos.mpr hne
      -- choose x small
      set x : ℚ := min 1 (|a| / (2 * (M + 1))) with hx
      have hxpos : 0 < x := lt_min one_pos (by positivity)
      have hx1 : x ≤ 1 := min_le_left _ _
      have hx2 : x ≤ |a| / (2 * (M + 1)) := min_le_right _ _
      have h0 := h x hxpos.ne'
      unfold evalList at h0
      have h1 : a = -(x * evalList x l) := by linarith
      have h2 : |a| = x * |evalList x l| := by rw [h1, abs_neg, abs_mul, abs_of_pos hxpos]
      have h3 := hb x (by rw [abs_of_pos hxpos]; exact hx1)
      have h4 : x * |evalList x l| ≤ |a| / (2 * (M + 1)) * M :=
        mul_le_mul hx2 h3 (abs_nonneg _) (by positivity)
      have h5 : |a| / (2 * (M + 1)) * M ≤ |a| / 2 := by
        rw [div_mul_eq_mul_div, div_le_div_iff₀ (by positivity) (by norm_num)]
        nlinarith
      linarith
    intro b hbm
    rcases List.mem_cons.mp hbm with rfl | hbm
    · exact ha
    · refine ih (fun x hx => ?_) b hbm
      have h0 := h x hx
      unfold evalList at h0
      rw [ha, zero_add] at h0
      exact (mul_eq_zero.mp h0).resolve_left hx

/-! ### Theorems -/

/-- **C04** (degree) `degree` is the largest power with a nonzero coefficient, and `-inf` for the zero polynomial. -/
theorem C04_degree (p : Poly) (hp : p.Constructible) :
    (p.degree = none ↔ ∀ k, p.coeffs.getD k 0 = 0) ∧
      ∀ d, p.degree = some d ↔ p.coeffs.getD d 0 ≠ 0 ∧ ∀ k, d < k → p.coeffs.getD k 0 = 0 := by
  have out : ∀ (l : List ℚ) (k : ℕ), l.length ≤ k → l.getD k 0 = 0 := by
    intro l k hk
    rw [List.getD_eq_getElem?_getD, List.getElem?_eq_none hk]
    rfl
  rw [constructible_iff] at hp
  obtain ⟨c⟩ := p
  unfold degree
  simp only at hp ⊢
  rcases List.eq_nil_or_concat c with rfl | ⟨l, a, rfl⟩
  · simp
  · rw [List.concat_eq_append] at hp ⊢
    have ha : a ≠ 0 := by simpa using hp
    have hl : (l ++ [a]).getD l.length 0 = a := by simp
    have hlen : (l ++ [a]).length = l.length + 1 := by simp
    rw [if_neg (by simp)]
    constructor
    · simp only [reduceCtorEq, false_iff]
      intro h
      exact ha (by rw [← hl]; exact h _)
    · intro d
      rw [hlen, Nat.add_sub_cancel]
      constructor
      · intro h
        have := Option.some.inj h
        subst this
        exact ⟨by rw [hl]; exact ha, fun k hk => out _ k (by rw [hlen]; omega)⟩
      · rintro ⟨h1, h2⟩
        congr 1
        by_contra hne
        rcases lt_or_gt_of_ne hne with h | h
        · exact h1 (out _ d (by rw [hlen]; omega))
        · exact ha (by rw [← hl]; exact h2 _ h)

example : (⟨[1, 0, 3]⟩ : Poly).degree = some 2 :=
  ((C04_degree ⟨[1, 0, 3]⟩ ⟨[1, 0, 3], by decide +kernel⟩).2 2).mpr ⟨by norm_num, fun k hk => by
    rw [List.getD_eq_getElem?_getD, List.getElem?_eq_none (by simp only [List.length_cons, List.length_nil]; omega)]
    rfl⟩

/-- **C04 (sum)** `p + q` never raises, is canonical, and evaluates to the sum. -/
theorem C04_add (p q : Poly) :
    ∃ r, p.add q = .ok r ∧ r.Constructible ∧
      ∀ x, evalList x r.coeffs = evalList x p.coeffs + evalList x q.coeffs := by
  unfold add
  simp only [make_trim]
  refine ⟨_, rfl, ⟨_, make_trim _⟩, fun x => ?_⟩
  rw [(trim_spec _).1]
  split_ifs with h1 h2
  · exact evalList_zipWith_add x _ _ h1
  · rw [evalList_append, evalList_zipWith_add _ _ _ (by rw [List.length_take]; omega),
      evalList_split x p.coeffs q.coeffs.length (by omega), List.length_zipWith, List.length_take,
      Nat.min_eq_right (by omega)]
    ring
  · rw [evalList_append, evalList_zipWith_add _ _ _ (by rw [List.length_take]; omega),
      evalList_split x q.coeffs p.coeffs.length (by omega), List.length_zipWith, List.length_take,
      Nat.min_eq_left (by omega)]
    ring

/-- **C04 (difference)** -/
theorem C04_subtract (p q : Poly) :
    ∃ r, p.subtract q = .ok r ∧ r.Constructible ∧
      ∀ x, evalList x r.coeffs = evalList x p.coeffs - evalList x q.coeffs := by
  unfold subtract
  simp only [make_trim]
  refine ⟨_, rfl, ⟨_, make_trim _⟩, fun x => ?_⟩
  rw [(trim_spec _).1]
  split_ifs with h1 h2
  · exact evalList_zipWith_sub x _ _ h1
  · rw [evalList_append, evalList_zipWith_sub _ _ _ (by rw [List.length_take]; omega),
      evalList_split x p.coeffs q.coeffs.length (by omega), List.length_zipWith, List.length_take,
      Nat.min_eq_right (by omega)]
    ring
  · rw [evalList_append, evalList_zipWith_sub _ _ _ (by rw [List.length_take]; omega),
      evalList_split x q.coeffs p.coeffs.length (by omega), List.length_zipWith, List.length_take,
      Nat.min_eq_left (by omega), evalList_neg]
    ring

theorem evalList_replicate (x : ℚ) (n : Nat) : evalList x (List.replicate n 0) = 0 := by
  induction n with
  | zero => rfl
  | succ n ih => simp only [List.replicate_succ, evalList, ih]; ring

/-- **C04 (product)** -/
theorem C04_multiply (p q : Poly) :
    ∃ r, p.multiply q = .ok r ∧ r.Constructible ∧
      ∀ x, evalList x r.coeffs = evalList x p.coeffs * evalList x q.coeffs := by
  unfold multiply
  by_cases h : (p.isZero || q.isZero) = true
  · simp only [h, if_true]
    refine ⟨⟨[]⟩, rfl, ⟨[], rfl⟩, fun x => ?_⟩
    rw [Bool.or_eq_true] at h
    rcases h with h | h <;>
      (have := List.length_eq_zero_iff.mp (by simpa [isZero] using h)
       rw [this]; simp [evalList])
  · simp only [if_neg h, make_trim]
    refine ⟨_, rfl, ⟨_, make_trim _⟩, fun x => ?_⟩
    rw [(trim_spec _).1, mulOuter_spec, evalList_replicate]
    · ring
    · right; rw [List.length_replicate]
      simp only [isZero, Bool.or_eq_true, beq_iff_eq, not_or] at h
      omega

/-- **C04 (equality)** Two constructible polynomials compare equal (equal coefficient tuples)
exactly when they agree at every rational point. -/
theorem C04_eq_iff (p q : Poly) (hp : p.Constructible) (hq : q.Constructible) :
    p = q ↔ ∀ x, evalList x p.coeffs = evalList x q.coeffs := by
  constructor
  · rintro rfl x; rfl
  · intro h
    rw [constructible_iff] at hp hq
    suffices hl : ∀ (l r : List ℚ), l.getLast? ≠ some 0 → r.getLast? ≠ some 0 →
        (∀ x, x ≠ 0 → evalList x l = evalList x r) → l = r by
      have := hl _ _ hp hq (fun x _ => h x)
      cases p; cases q; simp only at this; rw [this]
    have hzero : ∀ l : List ℚ, l.getLast? ≠ some 0 → (∀ x, x ≠ 0 → evalList x l = 0) → l = [] := by
      intro l hl hz
      by_contra hne
      have := eq_zero_of_eval_zero l hz (l.getLast hne) (List.getLast_mem hne)
      exact hl (by rw [List.getLast?_eq_getLast_of_ne_nil hne, this])
    intro l
    induction l with
    | nil =>
      intro r _ hr he
      exact (hzero r hr (fun x hx => by rw [← he x hx]; rfl)).symm
    | cons a l ih =>
      intro r hl hr he
      cases r with
      | nil => exact hzero _ hl (fun x hx => by rw [he x hx]; rfl)
      | cons b r =>
        -- a = b from the difference list
        have hab : a = b ∧ ∀ x, x ≠ 0 → evalList x l = evalList x r := by
          obtain ⟨d, _, _, hd⟩ := C04_subtract ⟨l⟩ ⟨r⟩
          have := eq_zero_of_eval_zero ((a - b) :: d.coeffs) (fun x hx => by
            have := he x hx
            simp only [evalList, hd x] at this ⊢
            linarith)
          have h0 : a - b = 0 := this _ (by simp)
          have h1 : a = b := by linarith
          refine ⟨h1, fun x hx => ?_⟩
          have h2 := he x hx
          simp only [evalList, h1] at h2
          have h3 : x * evalList x l = x * evalList x r := by linarith
          exact mul_left_cancel₀ hx h3
        have htail : ∀ (c : ℚ) (s : List ℚ), (c :: s).getLast? ≠ some 0 → s.getLast? ≠ some 0 := by
          intro c s hs
          cases s with
          | nil => simp
          | cons d s => simpa [List.getLast?_cons_cons] using hs
        rw [hab.1, ih r (htail _ _ hl) (htail _ _ hr) hab.2]

/-- Non-vacuity for C04: `(1 + 2x) + (3 - 2x) = 4`, with the cancelled leading term trimmed, and
`(1 + x)(1 - x) = 1 - x²`. -/
example : (⟨[1, 2]⟩ : Poly).Constructible ∧ (⟨[3, -2]⟩ : Poly).Constructible ∧
    (⟨[1, 2]⟩ : Poly).add ⟨[3, -2]⟩ = .ok ⟨[4]⟩ ∧
    (⟨[1, 1]⟩ : Poly).multiply ⟨[1, -1]⟩ = .ok ⟨[1, 0, -1]⟩ := by
  refine ⟨?_, ?_, by decide +kernel, by decide +kernel⟩ <;> rw [constructible_iff] <;> simp

/-- Commutativity, as an observable law of the returned objects. -/
theorem C04_mul_comm (p q : Poly) : p.multiply q = q.multiply p := by
  obtain ⟨r, h1, c1, e1⟩ := C04_multiply p q
  obtain ⟨s, h2, c2, e2⟩ := C04_multiply q p
  rw [h1, h2, (C04_eq_iff r s c1 c2).mpr (fun x => by rw [e1, e2]; ring)]

/-- Distributivity, as an observable law of the returned objects. -/
theorem C04_mul_add (p q r : Poly) :
    (q.add r >>= fun s => p.multiply s) =
      (do let a ← p.multiply q; let b ← p.multiply r; a.add b) := by
  obtain ⟨s, hs, _, es⟩ := C04_add q r
  obtain ⟨t, ht, ct, et⟩ := C04_multiply p s
  obtain ⟨a, ha, _, ea⟩ := C04_multiply p q
  obtain ⟨b, hb, _, eb⟩ := C04_multiply p r
  obtain ⟨u, hu, cu, eu⟩ := C04_add a b
  rw [hs, ha, hb]
  simp only [bind, Except.bind]
  rw [ht, hu, (C04_eq_iff t u ct cu).mpr (fun x => by rw [et, es, eu, ea, eb]; ring)]

/-- Finding: `divide` never returns a value (polynomial.py:134 passes `Polynomial` objects to a
constructor that accepts only lists and tuples). -/
theorem C04_divide_always_raises {α : Type} (p q : Poly) :
    (p.divide q : Py α) = .error .valueError := by
  unfold divide; split <;> rfl

end Poly
end Expdb
