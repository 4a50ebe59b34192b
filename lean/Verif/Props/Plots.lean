import Verif.Model.Plots
import Verif.Props.LiteraturePairs
import Verif.Tactics

/-!
# Property C94: the functions and the polygon which are plotted

Compared with the statements of the text: Proposition beta-vdc, Corollary vdc-opt and Lemma beta-triv (beta.tex) and the
table of the vertices of the set of known exponent pairs (exponent_pairs.tex).
-/

namespace Expdb
namespace Plots

open EP LitPairs

/-! ### Specification -/

/-- The first term of the bound of van der Corput, which Corollary vdc-opt (beta.tex) optimizes over `k`. -/
def line (k : ℕ) (α : ℚ) : ℚ := α + (1 - k * α) / (2 ^ k - 2)

/-- The point `α_k` where the lines of `k` and `k + 1` meet (beta.tex, proof of Corollary vdc-opt). -/
def meet (k : ℕ) : ℚ := 2 ^ k / ((k - 1) * 2 ^ k + 2)

/-- The bound as printed in Proposition beta-vdc (beta.tex:127). -/
def textBound (k : ℕ) (α : ℚ) : ℚ := max (line k α) ((1 - 1 / 2 ^ (k - 2)) * α - (1 - α) / (2 ^ k - 2))

/-- Positive when `p`, `q`, `r` are in counterclockwise order, zero when they are on a line. -/
def turn (p q r : ℚ × ℚ) : ℚ := (q.1 - p.1) * (r.2 - p.2) - (q.2 - p.2) * (r.1 - p.1)

/-- The point is on the left of, or on, every edge of the polygon (in the order drawn, and closed). -/
def Inside (r : ℚ × ℚ) : Prop := ∀ e ∈ polygon.zip (polygon.rotate 1), 0 ≤ turn e.1 e.2 r

instance (r : ℚ × ℚ) : Decidable (Inside r) := by unfold Inside; infer_instance

/-- The pairs obtained from a list of pairs by the transforms A, B and C. -/
inductive Derivable (S : List (ℚ × ℚ)) : ℚ × ℚ → Prop
  | base (p) : p ∈ S → Derivable S p
  | stepA (p q) : Derivable S p → transA p.1 p.2 = .ok q → Derivable S q
  | stepB (p q) : Derivable S p → transB p.1 p.2 = .ok q → Derivable S q
  | stepC (p q) : Derivable S p → transC p.1 p.2 = .ok q → Derivable S q

/-- The four pairs of Theorem new-exp-pair (exponent_pairs.tex:265), see C89. -/
def newPairs : List (ℚ × ℚ) :=
  [(89 / 1282, 997 / 1282), (652397 / 9713986, 7599781 / 9713986), (10769 / 351096, 609317 / 702192),
   (89 / 3478, 15327 / 17390)]

/-! ### The bounds of van der Corput -/

theorem two_pow_big (k : ℕ) (hk : 2 ≤ k) : (4 : ℚ) ≤ 2 ^ k := by
  calc (4 : ℚ) = 2 ^ 2 := by norm_num
    _ ≤ 2 ^ k := pow_le_pow_right₀ (by norm_num) hk

theorem two_zpow (k : ℕ) : (2 : ℚ) ^ (2 - (k : ℤ)) = 4 / 2 ^ k := by
  rw [zpow_sub₀ (by norm_num), zpow_natCast]; norm_num

theorem vdc_eq (k : ℕ) (α : ℚ) : vanDerCorput k α = max (line k α) ((1 - 4 / 2 ^ k) * α - (1 - k * α) / (2 ^ k - 2)) := by
  unfold vanDerCorput line
  rw [two_zpow]

/-- The second term is at most the first one exactly when `α` is at most the meeting point of the preceding lines. -/
theorem second_le (k : ℕ) (hk : 2 ≤ k) (α : ℚ) :
    (1 - 4 / 2 ^ k) * α - (1 - k * α) / (2 ^ k - 2) ≤ line k α ↔ α * ((k - 2) * 2 ^ k + 4) ≤ 2 ^ k := by
  have h4 := two_pow_big k hk
  unfold line
  generalize (2 : ℚ) ^ k = u at *
  have hu : 0 < u := by linarith
  have hu2 : 0 < u - 2 := by linarith
  rw [← sub_nonneg]
  have e : α + (1 - k * α) / (u - 2) - ((1 - 4 / u) * α - (1 - k * α) / (u - 2)) =
      2 * (u - α * ((k - 2) * u + 4)) / (u * (u - 2)) := by
    field_simp; ring
  rw [e]
  constructor
  · intro h
    by_contra hc
    push Not at hc
    have : 2 * (u - α * ((k - 2) * u + 4)) / (u * (u - 2)) < 0 := div_neg_of_neg_of_pos (by linarith) (by positivity)
    linarith
  · intro h
    exact div_nonneg (by linarith) (by positivity)

theorem line_succ (k : ℕ) (hk : 2 ≤ k) (α : ℚ) :
    line (k + 1) α - line k α = (α * ((k - 1) * 2 ^ k + 2) - 2 ^ k) / ((2 * 2 ^ k - 2) * (2 ^ k - 2)) := by
  have h4 := two_pow_big k hk
  unfold line
  rw [pow_succ]
  generalize (2 : ℚ) ^ k = u at *
  have hu2 : u - 2 ≠ 0 := by intro h; linarith
  have hu3 : u - 1 ≠ 0 := by intro h; linarith
  rw [show u * 2 - 2 = 2 * (u - 1) by ring, show 2 * u - 2 = 2 * (u - 1) by ring]
  push_cast
  field_simp
  ring

theorem meet_pos (k : ℕ) (hk : 1 ≤ k) : (0 : ℚ) < (k - 1) * 2 ^ k + 2 := by
  have : (1 : ℚ) ≤ k := by exact_mod_cast hk
  have : (0 : ℚ) < 2 ^ k := by positivity
  nlinarith

theorem le_meet (k : ℕ) (hk : 1 ≤ k) (α : ℚ) : α ≤ meet k ↔ α * ((k - 1) * 2 ^ k + 2) ≤ 2 ^ k := by
  unfold meet
  rw [le_div_iff₀ (meet_pos k hk)]

theorem meet_le (k : ℕ) (hk : 1 ≤ k) (α : ℚ) : meet k ≤ α ↔ 2 ^ k ≤ α * ((k - 1) * 2 ^ k + 2) := by
  unfold meet
  rw [div_le_iff₀ (meet_pos k hk)]

theorem line_succ_le (k : ℕ) (hk : 2 ≤ k) (α : ℚ) : line (k + 1) α ≤ line k α ↔ α ≤ meet k := by
  rw [le_meet k (by omega), ← sub_nonpos, line_succ k hk]
  have h4 := two_pow_big k hk
  have hd : (0 : ℚ) < (2 * 2 ^ k - 2) * (2 ^ k - 2) := mul_pos (by linarith) (by linarith)
  rw [div_nonpos_iff]
  constructor
  · rintro (⟨_, h⟩ | ⟨h, _⟩) <;> linarith
  · intro h; right; exact ⟨by linarith, hd.le⟩

theorem le_line_succ (k : ℕ) (hk : 2 ≤ k) (α : ℚ) (h : meet k ≤ α) : line k α ≤ line (k + 1) α := by
  rw [meet_le k (by omega)] at h
  rw [← sub_nonneg, line_succ k hk]
  have h4 := two_pow_big k hk
  exact div_nonneg (by linarith) (mul_nonneg (by linarith) (by linarith))

theorem meet_anti (k : ℕ) (hk : 1 ≤ k) : meet (k + 1) ≤ meet k := by
  rw [meet_le (k + 1) (by omega)]
  unfold meet
  rw [div_mul_eq_mul_div, le_div_iff₀ (meet_pos k hk), pow_succ]
  have h1 : (1 : ℚ) ≤ k := by exact_mod_cast hk
  have h2 : (2 : ℚ) ≤ 2 ^ k := by
    calc (2 : ℚ) = 2 ^ 1 := by norm_num
      _ ≤ 2 ^ k := pow_le_pow_right₀ (by norm_num) hk
  push_cast
  nlinarith

theorem meet_mono {j k : ℕ} (hj : 1 ≤ j) (hjk : j ≤ k) : meet k ≤ meet j := by
  induction k, hjk using Nat.le_induction with
  | base => exact le_refl _
  | succ k hk ih => exact le_trans (meet_anti k (by omega)) ih

/-- For `α` at least `α_k` the lines increase with the index from `k` on. -/
theorem line_up (α : ℚ) {k j : ℕ} (hk : 2 ≤ k) (h : meet k ≤ α) (hj : k ≤ j) : line k α ≤ line j α := by
  induction j, hj using Nat.le_induction with
  | base => exact le_refl _
  | succ j hj ih => exact le_trans ih (le_line_succ j (by omega) α (le_trans (meet_mono (by omega) hj) h))

/-- For `α` at most `α_(k-1)` the lines decrease with the index up to `k`. -/
theorem line_down (α : ℚ) {k j : ℕ} (hj : 2 ≤ j) (hjk : j ≤ k) (h : α ≤ meet (k - 1)) : line k α ≤ line j α := by
  induction k, hjk using Nat.le_induction with
  | base => exact le_refl _
  | succ k hk ih =>
    refine le_trans ((line_succ_le k (by omega) α).mpr (by simpa using h)) (ih ?_)
    exact le_trans h (by simpa using meet_mono (j := k - 1) (k := k) (by omega) (by omega))

theorem foldl_min (f : ℕ → ℚ) (l : List ℕ) : ∀ b : ℚ, (∀ v, (v ≤ l.foldl (fun b k => min b (f k)) b ↔ v ≤ b ∧ ∀ k ∈ l, v ≤ f k)) := by
  induction l with
  | nil => intro b v; simp
  | cons k l ih =>
    intro b v
    rw [List.foldl_cons, ih, le_min_iff]
    simp only [List.mem_cons, forall_eq_or_imp]
    tauto

theorem mem_natRange (a b k : ℕ) : k ∈ natRange a b ↔ a ≤ k ∧ k < b := by
  unfold natRange
  simp only [List.mem_map, List.mem_range]
  constructor
  · rintro ⟨i, hi, rfl⟩; omega
  · rintro ⟨h1, h2⟩; exact ⟨k - a, by omega, by omega⟩

theorem le_optimized (α v : ℚ) : v ≤ optimized α ↔ v ≤ 1 ∧ ∀ k, 2 ≤ k → k < 30 → v ≤ vanDerCorput k α := by
  unfold optimized
  rw [foldl_min]
  simp only [mem_natRange, and_imp]

theorem optimized_le (α : ℚ) (k : ℕ) (h1 : 2 ≤ k) (h2 : k < 30) : optimized α ≤ vanDerCorput k α :=
  ((le_optimized α (optimized α)).mp (le_refl _)).2 k h1 h2

theorem vdc_line (k : ℕ) (hk : 2 ≤ k) (α : ℚ) (h : α ≤ meet (k - 1)) : vanDerCorput k α = line k α := by
  rw [vdc_eq]
  refine max_eq_left ((second_le k hk α).mpr ?_)
  have h1 := (le_meet (k - 1) (by omega) α).mp h
  have e : ((k - 1 : ℕ) : ℚ) = k - 1 := by push_cast [show 1 ≤ k by omega]; ring
  have e2 : (2 : ℚ) ^ k = 2 * 2 ^ (k - 1) := by rw [← pow_succ']; congr 1; omega
  rw [e] at h1
  rw [e2]
  nlinarith

theorem line_le_vdc (k : ℕ) (α : ℚ) : line k α ≤ vanDerCorput k α := by rw [vdc_eq]; exact le_max_left _ _

theorem meet_one : meet 1 = 1 := by unfold meet; norm_num

/-- Every `α` in [0, 1] is between two consecutive meeting points with index at most 29, or below the last one. -/
theorem exists_index (α : ℚ) (h1 : α ≤ 1) : ∃ k, 2 ≤ k ∧ k < 30 ∧ α ≤ meet (k - 1) ∧ (meet k ≤ α ∨ k = 29) := by
  have key : ∀ n, n ≤ 27 → (∃ k, 2 ≤ k ∧ k < 30 ∧ α ≤ meet (k - 1) ∧ (meet k ≤ α ∨ k = 29)) ∨ α ≤ meet (n + 1) := by
    intro n
    induction n with
    | zero => intro _; right; rw [zero_add, meet_one]; exact h1
    | succ n ih =>
      intro hn
      rcases ih (by omega) with h | h
      · exact Or.inl h
      · rcases le_total (meet (n + 1 + 1)) α with h2 | h2
        · left; exact ⟨n + 2, by omega, by omega, h, Or.inl h2⟩
        · right; exact h2
  rcases key 27 (le_refl _) with h | h
  · exact h
  · exact ⟨29, by omega, by omega, h, Or.inr rfl⟩

/-- **C94** For `α_k ≤ α ≤ α_(k-1)` with `2 ≤ k ≤ 29`, where `α_k` is the point of the text, `optimized_van_der_corput` is the
first term of the bound with index `k`; for `α` below `α_28` it is that with the index 29. -/
theorem C94_optimized_piece (k : ℕ) (h1 : 2 ≤ k) (h2 : k < 30) (α : ℚ) (h3 : α ≤ meet (k - 1)) (h4 : meet k ≤ α ∨ k = 29) :
    optimized α = line k α := by
  have hle : α ≤ 1 := le_trans h3 (by rw [← meet_one]; exact meet_mono (by omega) (by omega))
  refine le_antisymm (le_trans (optimized_le α k h1 h2) (le_of_eq (vdc_line k h1 α h3))) ?_
  rw [le_optimized]
  have h5 : ∀ j, 2 ≤ j → j < 30 → line k α ≤ line j α := by
    intro j j1 j2
    rcases le_total j k with h | h
    · exact line_down α j1 h h3
    · rcases h4 with h4 | rfl
      · exact line_up α h1 h4 h
      · rw [show j = 29 by omega]
  refine ⟨?_, fun j j1 j2 => le_trans (h5 j j1 j2) (line_le_vdc j α)⟩
  refine le_trans (h5 2 (by omega) (by omega)) ?_
  unfold line; norm_num; linarith

example : optimized (1 / 2) = line 3 (1 / 2) ∧ line 3 (1 / 2 : ℚ) = 5 / 12 :=
  ⟨C94_optimized_piece 3 (by norm_num) (by norm_num) _ (by unfold meet; norm_num) (Or.inl (by unfold meet; norm_num)),
   by unfold line; norm_num⟩

/-- **C94** For every `α ≤ 1` (the range of the plots of bounds is [0, 1]) the value of `optimized_van_der_corput` is the least of
the first terms with indices from 2 to 29, as in Corollary vdc-opt; above `α_29` it is the least for all indices. -/
theorem C94_optimized (α : ℚ) (h1 : α ≤ 1) :
    (∃ k, 2 ≤ k ∧ k < 30 ∧ optimized α = line k α) ∧ (∀ j, 2 ≤ j → j < 30 → optimized α ≤ line j α) ∧
      (meet 29 ≤ α → ∀ j, 2 ≤ j → optimized α ≤ line j α) := by
  obtain ⟨k, k1, k2, k3, k4⟩ := exists_index α h1
  have e := C94_optimized_piece k k1 k2 α k3 k4
  refine ⟨⟨k, k1, k2, e⟩, fun j j1 j2 => ?_, fun hm j j1 => ?_⟩
  · rw [e]
    rcases le_total j k with h | h
    · exact line_down α j1 h k3
    · rcases k4 with h4 | rfl
      · exact line_up α k1 h4 h
      · rw [show j = 29 by omega]
  · rw [e]
    have h4 : meet k ≤ α := by
      rcases k4 with h | rfl
      · exact h
      · exact hm
    rcases le_total j k with h | h
    · exact line_down α j1 h k3
    · exact line_up α k1 h4 h

example : (1 / 100 : ℚ) ≤ 1 ∧ meet 29 ≤ 1 / 2 := by unfold meet; norm_num

theorem pow_ge (k : ℕ) (hk : 3 ≤ k) : (2 : ℚ) * k ≤ 2 ^ k - 2 := by
  induction k, hk using Nat.le_induction with
  | base => norm_num
  | succ k hk ih =>
    rw [pow_succ]; push_cast
    have : (3 : ℚ) ≤ k := by exact_mod_cast hk
    linarith

/-- **C94** On the whole range [0, 2] of the plots the optimized bound is not below the conjectured value, which by Lemma
beta-triv is a lower bound for `β` (and its value for `α > 1`). -/
theorem C94_above_conjectured (α : ℚ) (h0 : 0 ≤ α) (h2 : α ≤ 2) : conjectured α ≤ optimized α := by
  rw [le_optimized]
  unfold conjectured
  refine ⟨by split <;> linarith, fun k k1 k2 => ?_⟩
  rcases Nat.lt_or_ge k 3 with hk | hk
  · have : k = 2 := by omega
    subst this
    rw [vdc_eq]
    unfold line
    split
    · refine le_trans ?_ (le_max_left _ _)
      norm_num; linarith
    · refine le_trans ?_ (le_max_right _ _)
      norm_num; linarith
  · refine le_trans ?_ (line_le_vdc k α)
    unfold line
    have h3 := pow_ge k hk
    have hk3 : (3 : ℚ) ≤ k := by exact_mod_cast hk
    generalize (2 : ℚ) ^ k = u at *
    have hu : 0 < u - 2 := by linarith
    split
    · have : (k * α - 1) / (u - 2) ≤ α / 2 := by
        rw [div_le_iff₀ hu]; nlinarith
      have e : (1 - k * α) / (u - 2) = - ((k * α - 1) / (u - 2)) := by rw [← neg_div]; congr 1; ring
      rw [e]; linarith
    · have : (k * α - 1) / (u - 2) ≤ 1 := by
        rw [div_le_iff₀ hu]; nlinarith
      have e : (1 - k * α) / (u - 2) = - ((k * α - 1) / (u - 2)) := by rw [← neg_div]; congr 1; ring
      rw [e]; linarith

example : conjectured 2 = 1 ∧ optimized 2 = 1 := by
  refine ⟨by unfold conjectured; norm_num, le_antisymm ((le_optimized 2 _).mp (le_refl _)).1 ?_⟩
  exact le_trans (by unfold conjectured; norm_num) (C94_above_conjectured 2 (by norm_num) (by norm_num))

/-- **C94** The instances of the bound for `k = 2` and `k = 4` are those printed in the text (beta.tex:129, 137). -/
theorem C94_instances (α : ℚ) : vanDerCorput 2 α = max (1 / 2) ((2 * α - 1) / 2) ∧
    vanDerCorput 3 α = max ((1 + 3 * α) / 6) ((6 * α - 1) / 6) ∧
    vanDerCorput 4 α = max ((10 * α + 1) / 14) ((29 * α - 2) / 28) := by
  refine ⟨?_, ?_, ?_⟩ <;> rw [vdc_eq] <;> unfold line <;> congr 1 <;> norm_num <;> ring

/-- The bound printed in Proposition beta-vdc (beta.tex:127), whose second term has `1 - α` where `van_der_corput` has `1 - kα`,
is false: for `k = 2` and `α = 2` it is 1/2, but `β(2) = 1` by Lemma beta-triv. The printed instance `(6α - 1)/3` for `k = 3` (beta.tex:135)
is not the second term for `k = 3` either, which is `(6α - 1)/6`. Corollary vdc-opt (beta.tex:148), stated for all `α > 0`, is false for `α = 2`:
the term with `k = 2` is 1/2; and its proof has the inequality between consecutive terms in the wrong direction: the
line of `k + 1` is at most that of `k` for `α ≤ α_k`, not for `α ≥ α_k`. -/
theorem C94_text_counterexample : textBound 2 2 < conjectured 2 ∧ vanDerCorput 3 1 ≠ max ((1 + 3 * 1) / 6) ((6 * 1 - 1) / 3) ∧
    line 2 2 < conjectured 2 ∧ ∃ α, meet 2 ≤ α ∧ ¬ line 3 α ≤ line 2 α := by
  refine ⟨?_, ?_, ?_, 1, ?_, ?_⟩
  · unfold textBound line conjectured; norm_num
  · rw [(C94_instances 1).2.1]; norm_num
  · unfold line conjectured; norm_num
  · unfold meet; norm_num
  · unfold line; norm_num

/-! ### The polygon of exponent pairs -/

/-- **C94** The polygon drawn by `exp_pair_plot` is convex: every vertex is to the left of, or on, every edge. -/
theorem C94_polygon_convex : ∀ p ∈ polygon, Inside p := by decide +kernel

/-- **C94** It contains the dual of each of its vertices, and all exponent pairs of the literature set (with the truncation 20 of the
code) and the four new pairs are inside. -/
theorem C94_polygon_contains : (∀ p ∈ polygon, (p.2 - 1 / 2, p.1 + 1 / 2) ∈ polygon) ∧
    (∀ l, allPairs 20 = .ok l → ∀ e ∈ l, Inside (e.k, e.l)) ∧ ∀ p ∈ newPairs, Inside p := by
  refine ⟨by decide +kernel, ?_, by decide +kernel⟩
  intro l hl e he
  have h : (match allPairs 20 with | .ok l => decide (∀ e ∈ l, Inside (e.k, e.l)) | .error _ => false) = true := by decide +kernel
  rw [hl] at h
  exact of_decide_eq_true h e he

theorem allPairs_ok : ∃ l, allPairs 20 = .ok l := by
  have h : (match allPairs 20 with | .ok _ => true | .error _ => false) = true := by decide +kernel
  cases e : allPairs 20 with
  | ok l => exact ⟨l, rfl⟩
  | error x => rw [e] at h; cases h

example : ∃ l, allPairs 20 = .ok l := allPairs_ok

/-- Whether `p` is the image of `q` under A or C. -/
def isImage (q p : ℚ × ℚ) : Bool :=
  (match transA q.1 q.2 with | .ok r => decide (r = p) | .error _ => false) ||
  (match transC q.1 q.2 with | .ok r => decide (r = p) | .error _ => false)

/-- Whether every point of the list is in `S` or the image of an earlier point. -/
def justified (S : List (ℚ × ℚ)) : List (ℚ × ℚ) → List (ℚ × ℚ) → Bool
  | _, [] => true
  | done, p :: ps => (decide (p ∈ S) || done.any (fun q => isImage q p)) && justified S (p :: done) ps

theorem isImage_derivable {S : List (ℚ × ℚ)} {q p : ℚ × ℚ} (hq : Derivable S q) (h : isImage q p = true) : Derivable S p := by
  unfold isImage at h
  rw [Bool.or_eq_true] at h
  rcases h with h | h
  · cases e : transA q.1 q.2 with
    | ok r =>
      rw [e] at h
      have : r = p := of_decide_eq_true h
      subst this
      exact .stepA q r hq e
    | error x => rw [e] at h; exact absurd h Bool.false_ne_true
  · cases e : transC q.1 q.2 with
    | ok r =>
      rw [e] at h
      have : r = p := of_decide_eq_true h
      subst this
      exact .stepC q r hq e
    | error x => rw [e] at h; exact absurd h Bool.false_ne_true

theorem justified_derivable (S : List (ℚ × ℚ)) : ∀ (ps done : List (ℚ × ℚ)), (∀ q ∈ done, Derivable S q) →
    justified S done ps = true → ∀ p ∈ ps, Derivable S p := by
  intro ps
  induction ps with
  | nil => intro _ _ _ p hp; simp at hp
  | cons p ps ih =>
    intro done hd h
    rw [justified, Bool.and_eq_true, Bool.or_eq_true] at h
    have hp : Derivable S p := by
      rcases h.1 with h1 | h1
      · exact .base p (of_decide_eq_true h1)
      · obtain ⟨q, hq, hi⟩ := List.any_eq_true.mp h1
        exact isImage_derivable (hd q hq) hi
    intro r hr
    rcases List.mem_cons.mp hr with rfl | hr
    · exact hp
    · refine ih (p :: done) ?_ h.2 r hr
      intro q hq
      rcases List.mem_cons.mp hq with rfl | hq
      · exact hp
      · exact hd q hq

/-- **C94** Every vertex of the polygon is obtained by the transforms A, B and C from the exponent pairs of the literature set and the
four new pairs. -/
theorem C94_polygon_known (l : List Ep) (hl : allPairs 20 = .ok l) :
    ∀ p ∈ polygon, Derivable (l.map Ep.key ++ newPairs) p := by
  have h : (match allPairs 20 with | .ok l => justified (l.map Ep.key ++ newPairs) [] expPairs.reverse | .error _ => false) = true := by
    decide +kernel
  rw [hl] at h
  have h1 : ∀ p ∈ expPairs, Derivable (l.map Ep.key ++ newPairs) p := fun p hp =>
    justified_derivable _ expPairs.reverse [] (by simp) h p (by simpa using hp)
  intro p hp
  unfold polygon at hp
  rcases List.mem_append.mp hp with hp | hp
  · exact h1 p hp
  · obtain ⟨q, hq, rfl⟩ := List.mem_map.mp hp
    exact .stepB q _ (h1 q (by simpa using hq)) rfl

/-- The polygon titled "Convex hull of known exponent pairs" does not contain all known pairs: the pair of Heath-Brown for `m = 20`
(the set of the literature stops at 19, but Theorem heath-brown_exp_pair_2017 has all `m`) is outside, and so is the image under A of
the vertex next to (0, 1). -/
theorem C94_polygon_counterexample : (∃ p, heathBrownPair 20 = .ok p ∧ ¬ Inside p) ∧
    ∃ v ∈ polygon, ∃ p, transA v.1 v.2 = .ok p ∧ ¬ Inside p := by
  refine ⟨⟨(1 / 3971, 4151 / 4180), by decide +kernel, by decide +kernel⟩, (1 / 980688, 3105401 / 3105512), by decide +kernel,
    (1 / 1961378, 37265497 / 37266182), ?_, ?_⟩
  · decide +kernel
  · decide +kernel

/-- The vertex with number `n ≥ 10` of the table exp_pair_table (exponent_pairs.tex:361-363), as printed: the pair of Heath-Brown for
`m = n + 4`. -/
def textVertex (n : ℕ) : Py (ℚ × ℚ) := heathBrownPair (n + 4)

/-- The table of the text lists as vertices the pair number 9, (89/3478, 15327/17390), and then the pairs of Heath-Brown for
`m = n + 4`, `n ≥ 10`. The pairs for `m = 6, ..., 13`, which the polygon has as vertices, are beyond the edge between the vertices number 9
and 10 of the table: the index should be `m = n - 4`, with which the table continues with the same vertices as the polygon (up to
`m = 19`). -/
theorem C94_table_counterexample : ∃ v, textVertex 10 = .ok v ∧
    (∀ m, 6 ≤ m → m ≤ 13 → ∃ p ∈ polygon, heathBrownPair m = .ok p ∧ turn v (89 / 3478, 15327 / 17390) p < 0) ∧
    ∀ n, 10 ≤ n → n ≤ 23 → ∃ p, heathBrownPair (n - 4) = .ok p ∧ expPairs[33 - n]? = some p := by
  refine ⟨(1 / 1352, 359 / 364), by decide +kernel, ?_, ?_⟩
  · intro m h1 h2
    have : m = 6 ∨ m = 7 ∨ m = 8 ∨ m = 9 ∨ m = 10 ∨ m = 11 ∨ m = 12 ∨ m = 13 := by omega
    rcases this with rfl | rfl | rfl | rfl | rfl | rfl | rfl | rfl
    · exact ⟨(1 / 100, 14 / 15), by decide +kernel⟩
    · exact ⟨(1 / 162, 359 / 378), by decide +kernel⟩
    · exact ⟨(1 / 245, 269 / 280), by decide +kernel⟩
    · exact ⟨(1 / 352, 767 / 792), by decide +kernel⟩
    · exact ⟨(1 / 486, 263 / 270), by decide +kernel⟩
    · exact ⟨(1 / 650, 1399 / 1430), by decide +kernel⟩
    · exact ⟨(1 / 847, 907 / 924), by decide +kernel⟩
    · exact ⟨(1 / 1080, 2303 / 2340), by decide +kernel⟩
  · intro n h1 h2
    have h : ∀ n ∈ natRange 10 24, (match heathBrownPair (n - 4) with | .ok p => decide (expPairs[33 - n]? = some p) | .error _ => false) = true := by
      decide +kernel
    have h3 := h n ((mem_natRange 10 24 n).mpr ⟨h1, by omega⟩)
    cases e : heathBrownPair (n - 4) with
    | ok p => rw [e] at h3; exact ⟨p, rfl, of_decide_eq_true h3⟩
    | error x => rw [e] at h3; exact absurd h3 Bool.false_ne_true

end Plots
end Expdb
