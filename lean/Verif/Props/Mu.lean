import Verif.Model.Mu
import Verif.Props.ExponentPair
import Mathlib.Data.Real.Basic

/-!
# Bounds on mu: validity and optimality (C34, C35, C36)
-/

namespace Expdb
namespace EP

open Hull

/-! ### Specification -/

/-- The properties of the function mu that the code uses: convexity, the functional equation, and
the trivial bound to the right of 1. -/
structure MuLike (M : ℝ → ℝ) : Prop where
  convex : ∀ x y t : ℝ, 0 ≤ t → t ≤ 1 → M ((1 - t) * x + t * y) ≤ (1 - t) * M x + t * M y
  funcEq : ∀ s : ℝ, M (1 - s) = M s + s - 1 / 2
  trivial : ∀ s : ℝ, 1 ≤ s → M s ≤ 0

/-- The bound `b` is true of `M`. -/
def Holds (M : ℝ → ℝ) (b : Mu) : Prop := M (b.sigma : ℝ) ≤ (b.mu : ℝ)

/-! ### C36 -/

/-- **C36** The functional equation step maps valid bounds to valid bounds. -/
theorem C36_functional_equation (M : ℝ → ℝ) (hM : MuLike M) (b : Mu) (h : Holds M b) : Holds M (.funcEq b) := by
  unfold Holds at *
  simp only [Mu.sigma, Mu.mu]
  push_cast
  rw [hM.funcEq]
  linarith

/-- **C36** The functional equation step is an involution. -/
theorem C36_functional_equation_involution (b : Mu) :
    (Mu.funcEq (.funcEq b)).sigma = b.sigma ∧ (Mu.funcEq (.funcEq b)).mu = b.mu := by
  simp only [Mu.sigma, Mu.mu]
  constructor <;> ring

/-- **C36** The functional equation step does not lose anything: the old bound is valid if the new one is. -/
theorem C36_functional_equation_iff (M : ℝ → ℝ) (hM : MuLike M) (b : Mu) : Holds M (.funcEq b) ↔ Holds M b := by
  constructor
  · intro h
    have := C36_functional_equation M hM (.funcEq b) h
    unfold Holds at *
    rwa [(C36_functional_equation_involution b).1, (C36_functional_equation_involution b).2] at this
  · exact C36_functional_equation M hM b

/-- **C36** (partial: `theta` outside [0, 1] is not rejected, see `C36_theta_counterexample`) A convexity
step with weight in [0, 1] gives a valid bound. -/
theorem C36_convexity_partial (M : ℝ → ℝ) (hM : MuLike M) (b1 b2 : Mu) (t : ℚ) (h0 : 0 ≤ t) (h1 : t ≤ 1)
    (hb1 : Holds M b1) (hb2 : Holds M b2) : Holds M (.convexity b1 b2 t) := by
  unfold Holds at *
  simp only [Mu.sigma, Mu.mu]
  push_cast
  have h0' : (0 : ℝ) ≤ t := by exact_mod_cast h0
  have h1' : (t : ℝ) ≤ 1 := by exact_mod_cast h1
  refine le_trans (hM.convex _ _ _ h0' h1') ?_
  have a := mul_le_mul_of_nonneg_left hb1 (by linarith : (0 : ℝ) ≤ 1 - t)
  have b := mul_le_mul_of_nonneg_left hb2 h0'
  linarith

/-- The function max(0, 1/2 − s), the value of mu on the Lindelöf hypothesis. -/
noncomputable def lindelof (s : ℝ) : ℝ := max 0 (1 / 2 - s)

theorem lindelof_muLike : MuLike lindelof := by
  refine ⟨?_, ?_, ?_⟩
  · intro x y t h0 h1
    unfold lindelof
    have a := mul_nonneg (by linarith : (0 : ℝ) ≤ 1 - t) (le_max_left 0 (1 / 2 - x))
    have b := mul_nonneg h0 (le_max_left 0 (1 / 2 - y))
    have c := mul_le_mul_of_nonneg_left (le_max_right 0 (1 / 2 - x)) (by linarith : (0 : ℝ) ≤ 1 - t)
    have d := mul_le_mul_of_nonneg_left (le_max_right 0 (1 / 2 - y)) h0
    refine max_le (by linarith) (by nlinarith)
  · intro s
    unfold lindelof
    rcases le_total s (1 / 2) with h | h
    · rw [max_eq_left (by linarith), max_eq_right (by linarith)]; ring
    · rw [max_eq_right (by linarith), max_eq_left (by linarith)]; ring
  · intro s h
    unfold lindelof
    rw [max_eq_left (by linarith)]

/-- **C36** is false for weights outside [0, 1]: a bound is returned, and it can be wrong for valid
inputs (here mu(0) ≤ −1/2 from mu(1) ≤ 0 and mu(2) ≤ 1/2). -/
theorem C36_theta_counterexample :
    ∃ (b1 b2 : Mu) (t : ℚ) (M : ℝ → ℝ), ¬ (0 ≤ t ∧ t ≤ 1) ∧ MuLike M ∧ Holds M b1 ∧ Holds M b2 ∧
      ¬ Holds M (.convexity b1 b2 t) := by
  refine ⟨.classical, .known 0 2 (1 / 2), -1, lindelof, by norm_num, lindelof_muLike, ?_, ?_, ?_⟩
  · unfold Holds lindelof; simp only [Mu.sigma, Mu.mu]; norm_num
  · unfold Holds lindelof; simp only [Mu.sigma, Mu.mu]; norm_num
  · unfold Holds lindelof; simp only [Mu.sigma, Mu.mu]; norm_num

/-- The hypotheses of the C36 theorems. -/
example : MuLike lindelof ∧ Holds lindelof .classical ∧ Holds lindelof (.known 0 (1 / 2) (1 / 6)) := by
  refine ⟨lindelof_muLike, ?_, ?_⟩ <;> unfold Holds lindelof <;> simp only [Mu.sigma, Mu.mu] <;> norm_num

/-! ### C34 -/

theorem feLoop_eq (todo bounds : List Mu) :
    feLoop todo bounds = bounds ++ (todo.filter (fun b => decide (2 * b.sigma > 1))).map .funcEq := by
  fun_induction feLoop todo bounds with
  | case1 bounds => simp
  | case2 bounds b todo h ih =>
    have h2 : ¬ (2 * (Mu.funcEq b).sigma > 1) := by simp only [Mu.sigma]; linarith
    rw [ih, List.filter_append, List.filter_cons, List.filter_cons]
    simp [h, h2]
  | case3 bounds b todo h ih =>
    rw [ih, List.filter_cons]
    simp [h]

/-- How a bound on mu may be derived from a hypothesis set. -/
inductive MuDerivable (mus : List Mu) (pairs : List Ep) (ts : List Tr) : Mu → Prop
  | input (b : Mu) (h : b ∈ mus) : MuDerivable mus pairs ts b
  | classical : MuDerivable mus pairs ts .classical
  | pair (e : Ep) (h : Derivable pairs ts e) : MuDerivable mus pairs ts (.fromPair e)
  | funcEq (b : Mu) (h : MuDerivable mus pairs ts b) : MuDerivable mus pairs ts (.funcEq b)
  | convexity (b1 b2 : Mu) (t : ℚ) (h1 : MuDerivable mus pairs ts b1) (h2 : MuDerivable mus pairs ts b2)
      (h3 : 0 ≤ t) (h4 : t ≤ 1) : MuDerivable mus pairs ts (.convexity b1 b2 t)
  | trivialAt (s : ℚ) : MuDerivable mus pairs ts (.trivialAt s)

/-- The list of `get_bounds`. -/
theorem getBounds_eq (hull : List (ℚ × ℚ) → Py (List ℕ)) (mus : List Mu) (pairs : List Ep) (ts : List Tr)
    (bounds : List Mu) (h : getBounds hull mus pairs ts = .ok bounds) :
    ∃ es, computeExpPairs hull pairs ts 5 true = .ok es ∧
      (∀ b, b ∈ bounds ↔ b ∈ mus ++ [.classical] ++ es.map .fromPair ∨
        ∃ b' ∈ mus ++ [.classical] ++ es.map .fromPair, 2 * b'.sigma > 1 ∧ b = .funcEq b') := by
  unfold getBounds at h
  cases hc : computeExpPairs hull pairs ts 5 true with
  | error e => rw [hc] at h; cases h
  | ok es =>
    rw [hc] at h
    have h' := Except.ok.inj (show (Except.ok _ : Py (List Mu)) = .ok bounds from h)
    refine ⟨es, rfl, fun b => ?_⟩
    rw [← h', feLoop_eq, List.mem_append]
    refine or_congr Iff.rfl ?_
    simp only [List.mem_map, List.mem_filter, decide_eq_true_eq]
    constructor
    · rintro ⟨b', ⟨h1, h2⟩, rfl⟩; exact ⟨b', h1, h2, rfl⟩
    · rintro ⟨b', h1, h2, rfl⟩; exact ⟨b', ⟨h1, h2⟩, rfl⟩

/-- **C34** Every bound of `get_bounds` is derivable from the set. -/
theorem C34_get_bounds (hull : List (ℚ × ℚ) → Py (List ℕ)) (mus : List Mu) (pairs : List Ep) (ts : List Tr)
    (bounds : List Mu) (h : getBounds hull mus pairs ts = .ok bounds) : ∀ b ∈ bounds, MuDerivable mus pairs ts b := by
  obtain ⟨es, h1, h2⟩ := getBounds_eq hull mus pairs ts bounds h
  have h3 : ∀ b ∈ mus ++ [.classical] ++ es.map .fromPair, MuDerivable mus pairs ts b := by
    intro b hb
    simp only [List.mem_append, List.mem_singleton, List.mem_map] at hb
    rcases hb with (hb | rfl) | ⟨e, he, rfl⟩
    · exact .input b hb
    · exact .classical
    · exact .pair e ((C31_sound hull _ _ 5 true es h1).1 e he)
  intro b hb
  rcases (h2 b).mp hb with hb | ⟨b', hb', _, rfl⟩
  · exact h3 b hb
  · exact .funcEq b' (h3 b' hb')

/-- One edge: the result is the old candidate, or a bound at `sigma` that is smaller. -/
theorem tryEdge_spec (P : Mu → Prop) (hP : ∀ b1 b2 t, P b1 → P b2 → 0 ≤ t → t ≤ 1 → P (.convexity b1 b2 t))
    (sigma : ℚ) (ans r : Mu) (e : Mu × Mu) (he1 : e.1 = .placeholder ∨ P e.1) (he2 : e.2 = .placeholder ∨ P e.2)
    (ha : P ans) (hs : ans.sigma = sigma) (hm : ans.mu ≤ 10) (h : tryEdge sigma ans e = .ok r) :
    P r ∧ r.sigma = sigma ∧ r.mu ≤ ans.mu := by
  unfold tryEdge at h
  split at h
  · rename_i hc
    simp only [bind, Except.bind] at h
    split at h
    · cases h
    · rename_i b hb
      unfold edgeBound at hb
      split at h
      · rename_i hlt
        have := Except.ok.inj h
        subst this
        split at hb
        · rename_i hv
          have hs1 : e.1.sigma = sigma := le_antisymm hc.1 (by rw [hv]; exact hc.2)
          have hs2 : e.2.sigma = sigma := by rw [← hv]; exact hs1
          have hnp : b ≠ .placeholder := by
            rintro rfl
            simp only [Mu.mu] at hlt
            linarith
          split at hb
          · have := Except.ok.inj hb
            subst this
            exact ⟨he1.resolve_left hnp, hs1, hlt.le⟩
          · have := Except.ok.inj hb
            subst this
            exact ⟨he2.resolve_left hnp, hs2, hlt.le⟩
        · rename_i hv
          split at hb
          · cases hb
          · rename_i hp
            push Not at hp
            have := Except.ok.inj hb
            subst this
            have hpos : 0 < e.2.sigma - e.1.sigma := by
              have : e.1.sigma < e.2.sigma := lt_of_le_of_ne (le_trans hc.1 hc.2) hv
              linarith
            refine ⟨hP _ _ _ (he1.resolve_left hp.1) (he2.resolve_left hp.2) ?_ ?_, ?_, hlt.le⟩
            · exact div_nonneg (by linarith) hpos.le
            · rw [div_le_one hpos]; linarith
            · simp only [Mu.sigma]
              field_simp
              ring
      · have := Except.ok.inj h
        subst this
        exact ⟨ha, hs, le_refl _⟩
  · have := Except.ok.inj h
    subst this
    exact ⟨ha, hs, le_refl _⟩

theorem bestLoop_spec (P : Mu → Prop) (hP : ∀ b1 b2 t, P b1 → P b2 → 0 ≤ t → t ≤ 1 → P (.convexity b1 b2 t))
    (sigma : ℚ) (r : Mu) : ∀ (es : List (Mu × Mu)) (ans : Mu), (∀ e ∈ es, (e.1 = .placeholder ∨ P e.1) ∧
    (e.2 = .placeholder ∨ P e.2)) → P ans → ans.sigma = sigma → ans.mu ≤ 10 → bestLoop sigma es ans = .ok r →
    P r ∧ r.sigma = sigma ∧ r.mu ≤ ans.mu := by
  intro es
  induction es with
  | nil =>
    intro ans _ ha hs _ h
    cases h
    exact ⟨ha, hs, le_refl _⟩
  | cons e es ih =>
    intro ans he ha hs hm h
    unfold bestLoop at h
    cases ht : tryEdge sigma ans e with
    | error x => rw [ht] at h; cases h
    | ok ans' =>
      rw [ht] at h
      obtain ⟨h1, h2, h3⟩ := tryEdge_spec P hP sigma ans ans' e (he e List.mem_cons_self).1
        (he e List.mem_cons_self).2 ha hs hm ht
      obtain ⟨g1, g2, g3⟩ := ih ans' (fun e' he' => he e' (List.mem_cons_of_mem _ he')) h1 h2 (le_trans h3 hm) h
      exact ⟨g1, g2, le_trans g3 h3⟩

/-- **C34** The bound returned by `best_mu_bound` is a bound at `sigma`, not larger than the trivial
bound, and has a derivation from the bounds on mu and the exponent pairs of the set (in particular the
placeholder is never used). -/
theorem C34_derivation (hull : List (ℚ × ℚ) → Py (List ℕ)) (mus : List Mu) (pairs : List Ep) (ts : List Tr)
    (sigma : ℚ) (r : Mu) (h : bestMuBound hull mus pairs ts sigma = .ok r) :
    r.sigma = sigma ∧ r.mu ≤ trivialMuBound sigma ∧ MuDerivable mus pairs ts r := by
  unfold bestMuBound at h
  split at h
  · cases h
    exact ⟨rfl, le_refl _, .trivialAt sigma⟩
  · rename_i hc
    push Not at hc
    cases hb : getBounds hull mus pairs ts with
    | error x => rw [hb] at h; cases h
    | ok bounds =>
      rw [hb] at h
      simp only [bind, Except.bind] at h
      cases hv : muHull hull (bounds ++ [.placeholder]) with
      | error x => rw [hv] at h; cases h
      | ok verts =>
        rw [hv] at h
        simp only at h
        have hmem : ∀ b ∈ verts, b = .placeholder ∨ MuDerivable mus pairs ts b := by
          intro b hbv
          unfold muHull at hv
          cases hh : hull ((bounds ++ [Mu.placeholder]).map Mu.pt) with
          | error x => rw [hh] at hv; cases hv
          | ok idx =>
            rw [hh] at hv
            have := pick_mem _ _ _ hv b hbv
            rw [List.mem_append, List.mem_singleton] at this
            rcases this with this | this
            · exact Or.inr (C34_get_bounds hull mus pairs ts bounds hb b this)
            · exact Or.inl this
        have h10 : (Mu.trivialAt sigma).mu ≤ 10 := by
          simp only [Mu.mu, trivialMuBound]
          split
          · linarith
          · split <;> linarith
        obtain ⟨a, b, c⟩ := bestLoop_spec (MuDerivable mus pairs ts) (fun b1 b2 t h1 h2 h3 h4 => .convexity b1 b2 t h1 h2 h3 h4)
          sigma r (cyclic verts) (.trivialAt sigma) (fun e he => by
            obtain ⟨h1, h2⟩ := cyclic_mem verts e he
            exact ⟨hmem _ h1, hmem _ h2⟩) (.trivialAt sigma) rfl h10 h
        exact ⟨b, c, a⟩

/-- **C34** A derivable bound is true of every function with the properties of mu that satisfies the
bounds of the set and those given by the exponent pairs. -/
theorem C34_sound (M : ℝ → ℝ) (hM : MuLike M) (mus : List Mu) (pairs : List Ep) (ts : List Tr)
    (h1 : ∀ b ∈ mus, Holds M b)
    (h2 : ∀ e, Derivable pairs ts e → M ((e.l - e.k : ℚ) : ℝ) ≤ (e.k : ℝ)) (b : Mu)
    (hb : MuDerivable mus pairs ts b) : Holds M b := by
  induction hb with
  | input b h => exact h1 b h
  | classical =>
    unfold Holds
    simp only [Mu.sigma, Mu.mu]
    push_cast
    exact hM.trivial 1 (le_refl _)
  | pair e h => exact h2 e h
  | funcEq b _ ih => exact C36_functional_equation M hM b ih
  | convexity b1 b2 t _ _ h3 h4 ih1 ih2 => exact C36_convexity_partial M hM b1 b2 t h3 h4 ih1 ih2
  | trivialAt s =>
    unfold Holds
    simp only [Mu.sigma, Mu.mu, trivialMuBound]
    have m1 := hM.trivial 1 (le_refl _)
    have m0 := hM.funcEq 1
    split
    · rename_i hs
      have hs' : (s : ℝ) ≤ 0 := by exact_mod_cast hs
      have a := hM.funcEq (1 - s)
      have b := hM.trivial (1 - s) (by linarith)
      rw [sub_sub_cancel] at a
      push_cast
      linarith
    · rename_i hs
      split
      · rename_i hs1
        push_cast
        exact hM.trivial s (by exact_mod_cast hs1)
      · rename_i hs1
        have c0 : (0 : ℝ) ≤ s := by exact_mod_cast (lt_of_not_ge hs).le
        have c1 : (s : ℝ) ≤ 1 := by exact_mod_cast (lt_of_not_ge hs1).le
        have a := hM.convex 0 1 s c0 c1
        rw [mul_zero, zero_add, mul_one] at a
        rw [sub_self] at m0
        have b := mul_le_mul_of_nonneg_left m1 c0
        have c := mul_le_mul_of_nonneg_left (show M 0 ≤ 1 / 2 by linarith) (by linarith : (0 : ℝ) ≤ 1 - s)
        push_cast
        linarith

/-- **C34** The value returned by `best_mu_bound(sigma)` is an upper bound at `sigma` for every function
with the properties of mu that satisfies the hypotheses. -/
theorem C34_valid (hull : List (ℚ × ℚ) → Py (List ℕ)) (mus : List Mu) (pairs : List Ep) (ts : List Tr)
    (sigma : ℚ) (r : Mu) (h : bestMuBound hull mus pairs ts sigma = .ok r)
    (M : ℝ → ℝ) (hM : MuLike M) (h1 : ∀ b ∈ mus, Holds M b)
    (h2 : ∀ e, Derivable pairs ts e → M ((e.l - e.k : ℚ) : ℝ) ≤ (e.k : ℝ)) : M (sigma : ℝ) ≤ (r.mu : ℝ) := by
  obtain ⟨a, _, c⟩ := C34_derivation hull mus pairs ts sigma r h
  have := C34_sound M hM mus pairs ts h1 h2 r c
  unfold Holds at this
  rwa [a] at this

/-! ### C35 -/

/-- The height at `s` of the line through two points with different first coordinates. -/
def lineAt (a b : ℚ × ℚ) (s : ℚ) : ℚ := a.2 + (s - a.1) / (b.1 - a.1) * (b.2 - a.2)

theorem area_eq_line (a b : ℚ × ℚ) (h : a.1 < b.1) (p : ℚ × ℚ) :
    area a b p = (b.1 - a.1) * (p.2 - lineAt a b p.1) := by
  unfold area lineAt
  have : b.1 - a.1 ≠ 0 := by linarith
  field_simp
  ring

theorem convexity_mu (b1 b2 : Mu) (sigma : ℚ) :
    (Mu.convexity b1 b2 ((sigma - b1.sigma) / (b2.sigma - b1.sigma))).mu = lineAt b1.pt b2.pt sigma := by
  unfold lineAt
  simp only [Mu.mu, Mu.pt]
  ring

theorem bestLoop_le (sigma : ℚ) (r : Mu) : ∀ (es : List (Mu × Mu)) (ans : Mu), bestLoop sigma es ans = .ok r →
    r.mu ≤ ans.mu ∧ ∀ e ∈ es, e.1.sigma ≤ sigma → sigma ≤ e.2.sigma → e.1.sigma < e.2.sigma →
      r.mu ≤ lineAt e.1.pt e.2.pt sigma := by
  intro es
  induction es with
  | nil => intro ans h; cases h; exact ⟨le_refl _, fun e he => by simp at he⟩
  | cons e es ih =>
    intro ans h
    unfold bestLoop at h
    cases ht : tryEdge sigma ans e with
    | error x => rw [ht] at h; cases h
    | ok ans' =>
      rw [ht] at h
      obtain ⟨h1, h2⟩ := ih ans' h
      have key : ans'.mu ≤ ans.mu ∧ (e.1.sigma ≤ sigma → sigma ≤ e.2.sigma → e.1.sigma < e.2.sigma →
          ans'.mu ≤ lineAt e.1.pt e.2.pt sigma) := by
        unfold tryEdge at ht
        split at ht
        · simp only [bind, Except.bind] at ht
          split at ht
          · cases ht
          · rename_i b hb
            have hbm : e.1.sigma < e.2.sigma → b.mu = lineAt e.1.pt e.2.pt sigma := by
              intro hlt
              unfold edgeBound at hb
              rw [if_neg hlt.ne] at hb
              split at hb
              · cases hb
              · cases hb
                exact convexity_mu e.1 e.2 sigma
            split at ht
            · rename_i hlt
              cases ht
              exact ⟨hlt.le, fun _ _ h => (hbm h).le⟩
            · rename_i hlt
              cases ht
              exact ⟨le_refl _, fun _ _ h => by rw [← hbm h]; exact le_of_not_gt hlt⟩
        · rename_i hc
          cases ht
          exact ⟨le_refl _, fun a b => absurd ⟨a, b⟩ hc⟩
      refine ⟨le_trans h1 key.1, ?_⟩
      intro e' he' a b c
      rcases List.mem_cons.mp he' with rfl | he'
      · exact le_trans h1 (key.2 a b c)
      · exact h2 e' he' a b c

theorem bestLoop_total (sigma : ℚ) : ∀ (es : List (Mu × Mu)) (ans : Mu),
    (∀ e ∈ es, e.1.sigma < e.2.sigma → e.1 ≠ .placeholder ∧ e.2 ≠ .placeholder) → ∃ r, bestLoop sigma es ans = .ok r := by
  intro es
  induction es with
  | nil => intro ans _; exact ⟨ans, rfl⟩
  | cons e es ih =>
    intro ans h
    have : ∃ ans', tryEdge sigma ans e = .ok ans' := by
      unfold tryEdge
      split
      · rename_i hc
        have : ∃ b, edgeBound sigma e = .ok b := by
          unfold edgeBound
          split
          · split <;> exact ⟨_, rfl⟩
          · rename_i hv
            have := h e List.mem_cons_self (lt_of_le_of_ne (le_trans hc.1 hc.2) hv)
            rw [if_neg (by tauto)]
            exact ⟨_, rfl⟩
        obtain ⟨b, hb⟩ := this
        rw [hb]
        simp only [bind, Except.bind]
        split <;> exact ⟨_, rfl⟩
      · exact ⟨_, rfl⟩
    obtain ⟨ans', ha⟩ := this
    obtain ⟨r, hr⟩ := ih ans' (fun e' he' => h e' (List.mem_cons_of_mem _ he'))
    refine ⟨r, ?_⟩
    unfold bestLoop
    rw [ha]
    exact hr

/-- The bound at (1, 0) and its image (0, 1/2) are always available. -/
theorem getBounds_classical (hull : List (ℚ × ℚ) → Py (List ℕ)) (mus : List Mu) (pairs : List Ep) (ts : List Tr)
    (bounds : List Mu) (h : getBounds hull mus pairs ts = .ok bounds) :
    Mu.classical ∈ bounds ∧ Mu.funcEq .classical ∈ bounds := by
  obtain ⟨es, _, h2⟩ := getBounds_eq hull mus pairs ts bounds h
  constructor
  · rw [h2]; left; simp
  · rw [h2]; right; exact ⟨.classical, by simp, by simp only [Mu.sigma]; norm_num, rfl⟩

theorem muHull_spec (hull : List (ℚ × ℚ) → Py (List ℕ)) (hs : HullSpec hull) (bounds : List Mu)
    (hf : ¬ Flat (bounds.map Mu.pt)) : ∃ verts, muHull hull bounds = .ok verts ∧ (∀ b ∈ verts, b ∈ bounds) ∧
      Ccw (verts.map Mu.pt) ∧ ∀ p ∈ bounds.map Mu.pt, InConv (verts.map Mu.pt) p := by
  obtain ⟨idx, vs, h1, h2, h3, h4⟩ := hs.ok _ hf
  obtain ⟨es, h5, h6⟩ := pick_map Mu.pt bounds idx vs h2
  refine ⟨es, ?_, pick_mem _ _ _ h5, by rw [h6]; exact h3, by rw [h6]; exact h4⟩
  unfold muHull
  rw [h1]
  exact h5

/-- A point strictly on one side of a vertical line forces a vertex there. -/
theorem exists_left {vs : List (ℚ × ℚ)} {p : ℚ × ℚ} (h : InConv vs p) (s : ℚ) (hp : p.1 < s) : ∃ v ∈ vs, v.1 < s := by
  by_contra hc
  push Not at hc
  have := h.linear 1 0 (-s) (fun q hq => by have := hc q hq; linarith)
  linarith

theorem exists_right {vs : List (ℚ × ℚ)} {p : ℚ × ℚ} (h : InConv vs p) (s : ℚ) (hp : s < p.1) : ∃ v ∈ vs, s < v.1 := by
  by_contra hc
  push Not at hc
  have := h.linear (-1) 0 s (fun q hq => by have := hc q hq; linarith)
  linarith

/-- All points of the hull are above the line of an edge that goes to the right. -/
theorem Ccw.above {vs : List (ℚ × ℚ)} (h : Ccw vs) (e : (ℚ × ℚ) × (ℚ × ℚ)) (he : e ∈ cyclic vs) (hlt : e.1.1 < e.2.1)
    (p : ℚ × ℚ) (hp : InConv vs p) : lineAt e.1 e.2 p.1 ≤ p.2 := by
  have h1 := hp.area_nonneg e.1 e.2 (h.cyclic_edge e he)
  rw [area_eq_line _ _ hlt] at h1
  have : 0 < e.2.1 - e.1.1 := by linarith
  have := nonneg_of_mul_nonneg_right h1 this
  linarith

/-- **C35** `best_mu_bound` never fails once the exponent pairs are computed, and its result at a point
of (0, 1) is not larger than any convex combination at `sigma` of any number of the available bounds. -/
theorem C35_optimal (hull : List (ℚ × ℚ) → Py (List ℕ)) (hs : HullSpec hull) (mus : List Mu) (pairs : List Ep)
    (ts : List Tr) (bounds : List Mu) (hb : getBounds hull mus pairs ts = .ok bounds) (sigma : ℚ) (h0 : 0 < sigma)
    (h1 : sigma < 1) :
    ∃ r, bestMuBound hull mus pairs ts sigma = .ok r ∧
      ∀ m, InConv (bounds.map (fun b => (b.sigma, b.mu))) (sigma, m) → r.mu ≤ m := by
  obtain ⟨c1, c2⟩ := getBounds_classical hull mus pairs ts bounds hb
  have hm1 : ((1 : ℚ), (0 : ℚ)) ∈ (bounds ++ [Mu.placeholder]).map Mu.pt :=
    List.mem_map.mpr ⟨.classical, List.mem_append_left _ c1, rfl⟩
  have hm0 : ((0 : ℚ), (1 / 2 : ℚ)) ∈ (bounds ++ [Mu.placeholder]).map Mu.pt := by
    refine List.mem_map.mpr ⟨.funcEq .classical, List.mem_append_left _ c2, ?_⟩
    simp only [Mu.pt, Mu.sigma, Mu.mu]
    norm_num
  have hmp : ((1 / 2 : ℚ), (10 : ℚ)) ∈ (bounds ++ [Mu.placeholder]).map Mu.pt :=
    List.mem_map.mpr ⟨.placeholder, by simp, rfl⟩
  have hflat : ¬ Flat ((bounds ++ [Mu.placeholder]).map Mu.pt) := by
    intro hf
    have := hf _ hm1 _ hm0 _ hmp
    unfold area at this
    norm_num at this
  obtain ⟨verts, hv, hmem, hccw, hall⟩ := muHull_spec hull hs _ hflat
  -- an edge to the right never ends in the placeholder
  have hplace : ∀ e ∈ cyclic verts, e.1.sigma < e.2.sigma → e.1 ≠ .placeholder ∧ e.2 ≠ .placeholder := by
    intro e he hlt
    have hmid : InConv (verts.map Mu.pt) (1 / 2, 1 / 4) := by
      have := InConv.mix _ _ (1 / 2) (hall _ hm1) (hall _ hm0) (by norm_num) (by norm_num)
      norm_num at this
      exact this
    have he' : (e.1.pt, e.2.pt) ∈ cyclic (verts.map Mu.pt) := by
      rw [cyclic_map]; exact List.mem_map.mpr ⟨e, he, rfl⟩
    have := Ccw.above hccw _ he' hlt _ hmid
    have hne : e.2.sigma - e.1.sigma ≠ 0 := by linarith
    constructor
    · intro h
      rw [h] at this
      unfold lineAt at this
      simp only [Mu.pt, Mu.sigma, Mu.mu] at this
      norm_num at this
    · intro h
      rw [h] at this hne
      unfold lineAt at this
      simp only [Mu.pt, Mu.sigma, Mu.mu] at this hne
      rw [div_self hne] at this
      norm_num at this
  obtain ⟨r, hr⟩ := bestLoop_total sigma (cyclic verts) (.trivialAt sigma) hplace
  refine ⟨r, ?_, ?_⟩
  · unfold bestMuBound
    rw [if_neg (by push Not; exact ⟨h0, h1⟩), hb]
    simp only [bind, Except.bind, hv]
    exact hr
  · intro m hm
    -- the edge to the right above sigma
    obtain ⟨a, ha, ha'⟩ := exists_left (hall _ hm0) sigma h0
    obtain ⟨b, hb', hb''⟩ := exists_right (hall _ hm1) sigma h1
    obtain ⟨e', he', p1, p2⟩ := cyclic_cross (fun v : ℚ × ℚ => v.1 ≤ sigma) (verts.map Mu.pt) a b ha hb' ha'.le
      (not_le.mpr hb'')
    rw [not_le] at p2
    have hab := Ccw.above hccw e' he' (lt_of_le_of_lt p1 p2) (sigma, m) (hm.trans (fun q hq => hall q (by
      obtain ⟨x, hx, rfl⟩ := List.mem_map.mp hq
      exact List.mem_map.mpr ⟨x, List.mem_append_left _ hx, rfl⟩)))
    rw [cyclic_map] at he'
    obtain ⟨e, he, rfl⟩ := List.mem_map.mp he'
    exact le_trans ((bestLoop_le sigma r _ _ hr).2 e he p1 p2.le (lt_of_le_of_lt p1 p2)) hab

/-- **C35** (two bounds) The form of the claim for two bounds. -/
theorem C35_two_bounds (hull : List (ℚ × ℚ) → Py (List ℕ)) (hs : HullSpec hull) (mus : List Mu) (pairs : List Ep)
    (ts : List Tr) (bounds : List Mu) (hb : getBounds hull mus pairs ts = .ok bounds) (sigma : ℚ) (h0 : 0 < sigma)
    (h1 : sigma < 1) (r : Mu) (hr : bestMuBound hull mus pairs ts sigma = .ok r) (b1 b2 : Mu) (hb1 : b1 ∈ bounds)
    (hb2 : b2 ∈ bounds) (t : ℚ) (ht0 : 0 ≤ t) (ht1 : t ≤ 1) (hsg : (1 - t) * b1.sigma + t * b2.sigma = sigma) :
    r.mu ≤ (1 - t) * b1.mu + t * b2.mu := by
  obtain ⟨r', hr', h⟩ := C35_optimal hull hs mus pairs ts bounds hb sigma h0 h1
  rw [hr] at hr'
  cases hr'
  apply h
  have := InConv.mix (ps := bounds.map (fun b => (b.sigma, b.mu))) _ _ t
    (.point (b1.sigma, b1.mu) (List.mem_map.mpr ⟨b1, hb1, rfl⟩)) (.point (b2.sigma, b2.mu) (List.mem_map.mpr ⟨b2, hb2, rfl⟩)) ht0 ht1
  rw [← hsg]
  exact this

/-- **C35** (available bounds) What is available: the bounds of the set, mu(1) ≤ 0, the bounds mu(l − k) ≤ k of
all computed exponent pairs, and the images of those to the right of 1/2 under the functional equation. -/
theorem C35_available (hull : List (ℚ × ℚ) → Py (List ℕ)) (mus : List Mu) (pairs : List Ep)
    (ts : List Tr) (bounds : List Mu) (hb : getBounds hull mus pairs ts = .ok bounds) :
    ∃ es, computeExpPairs hull pairs ts 5 true = .ok es ∧ ∀ p : ℚ × ℚ, p ∈ bounds.map (fun b => (b.sigma, b.mu)) ↔
      ∃ q : ℚ × ℚ, ((∃ b ∈ mus, q = (b.sigma, b.mu)) ∨ q = (1, 0) ∨ (∃ e ∈ es, q = (e.l - e.k, e.k))) ∧
        (p = q ∨ (1 / 2 < q.1 ∧ p = (1 - q.1, q.2 + q.1 - 1 / 2))) := by
  obtain ⟨es, h1, h2⟩ := getBounds_eq hull mus pairs ts bounds hb
  have h3 : ∀ q : ℚ × ℚ, ((∃ b ∈ mus, q = (b.sigma, b.mu)) ∨ q = (1, 0) ∨ (∃ e ∈ es, q = (e.l - e.k, e.k))) ↔
      ∃ b ∈ mus ++ [.classical] ++ es.map .fromPair, q = (b.sigma, b.mu) := by
    intro q
    constructor
    · rintro (⟨b, hb, rfl⟩ | rfl | ⟨e, he, rfl⟩)
      · exact ⟨b, by simp [hb], rfl⟩
      · exact ⟨.classical, by simp, rfl⟩
      · exact ⟨.fromPair e, by simp [he], rfl⟩
    · rintro ⟨b, hb, rfl⟩
      simp only [List.mem_append, List.mem_singleton, List.mem_map] at hb
      rcases hb with (hb | rfl) | ⟨e, he, rfl⟩
      · exact Or.inl ⟨b, hb, rfl⟩
      · exact Or.inr (Or.inl rfl)
      · exact Or.inr (Or.inr ⟨e, he, rfl⟩)
  refine ⟨es, h1, fun p => ?_⟩
  simp only [h3, List.mem_map, h2]
  constructor
  · rintro ⟨b, hb | ⟨b', hb', hs, rfl⟩, rfl⟩
    · exact ⟨(b.sigma, b.mu), ⟨b, hb, rfl⟩, Or.inl rfl⟩
    · exact ⟨(b'.sigma, b'.mu), ⟨b', hb', rfl⟩, Or.inr ⟨by simp only; linarith, rfl⟩⟩
  · rintro ⟨q, ⟨b, hb, rfl⟩, rfl | ⟨hs, rfl⟩⟩
    · exact ⟨b, Or.inl hb, rfl⟩
    · exact ⟨.funcEq b, Or.inr ⟨b, hb, by simp only at hs; linarith, rfl⟩, rfl⟩

/-! ### Examples -/

/-- A set with the bounds mu(1/2) ≤ 1/6 and mu(3/4) ≤ 1/12 and no exponent pairs. -/
def muSet : List Mu := [.known 0 (1 / 2) (1 / 6), .known 1 (3 / 4) (1 / 12)]

theorem getBounds_muSet (hull : List (ℚ × ℚ) → Py (List ℕ)) :
    ∃ bounds, getBounds hull muSet [] [] = .ok bounds := ⟨_, rfl⟩

/-- The hypotheses of the C34 and C35 theorems; at 1/2 the bound 1/6 is returned. -/
example : ∃ hull, HullSpec hull ∧ (∃ bounds, getBounds hull muSet [] [] = .ok bounds) ∧
    (∃ r, bestMuBound hull muSet [] [] (1 / 2) = .ok r ∧ r.mu ≤ 1 / 6) ∧
    (∀ b ∈ muSet, Holds lindelof b) ∧ MuLike lindelof ∧
    (∀ e, Derivable [] [] e → lindelof ((e.l - e.k : ℚ) : ℝ) ≤ (e.k : ℝ)) := by
  obtain ⟨hull, hs⟩ := hullSpec_satisfiable
  obtain ⟨bounds, hb⟩ := getBounds_muSet hull
  refine ⟨hull, hs, ⟨bounds, hb⟩, ?_, ?_, lindelof_muLike, ?_⟩
  · obtain ⟨r, h1, h2⟩ := C35_optimal hull hs muSet [] [] bounds hb (1 / 2) (by norm_num) (by norm_num)
    refine ⟨r, h1, h2 _ (.point _ ?_)⟩
    obtain ⟨es, _, h⟩ := C35_available hull muSet [] [] bounds hb
    rw [h]
    exact ⟨(1 / 2, 1 / 6), Or.inl ⟨.known 0 (1 / 2) (1 / 6), by simp [muSet], rfl⟩, Or.inl rfl⟩
  · intro b hb
    simp only [muSet, List.mem_cons, List.not_mem_nil, or_false] at hb
    rcases hb with rfl | rfl <;> unfold Holds lindelof <;> simp only [Mu.sigma, Mu.mu] <;> norm_num
  · intro e he
    exfalso
    induction he with
    | input e h => simp at h
    | step t ht => simp at ht

end EP
end Expdb
