import Verif.Props.DerivedZD

/-!
# C81: the zero density estimates that `derived.py` derives

The functions `prove_zero_density_*` (derived.py:365-369, 415-423, 437-449, 467-483, 532-542) print the estimates that they derive.
Here the returned pieces are determined at every real `sigma` of the interval.
-/

namespace Expdb
namespace DerivedZD

open Rational SupRatio Mat Region ZeroDensity

/-- The contracts of the external libraries. -/
structure Contracts (eng : Engine) (edges : Mat → List (Pt × Pt)) (solve : RF ℝ → RF ℝ → List ℝ) (isZero : Expr ℝ → Bool)
    (orderR : List (Region ℕ) → List (Region ℕ)) (orderK : List ℚ → List ℚ) : Prop where
  engine : EngineSpec eng
  neg : UnboundedNeg eng.lp
  edge : ∀ p : Mat, p.cols = 4 → p.Bounded → EdgesSpec edges p
  solves : SolveSpec solve
  zero : ZeroSpec isZero
  permR : ∀ l, (orderR l).Perm l
  permK : ∀ l, (orderK l).Perm l

/-- The contracts can be met. -/
theorem contracts_satisfiable : ∃ eng edges solve isZero orderR orderK, Contracts eng edges solve isZero orderR orderK := by
  obtain ⟨eng, heng, hneg⟩ := engineNeg_satisfiable
  obtain ⟨edges, solve, isZero, hs, hz, hed⟩ := C41_satisfiable
  exact ⟨eng, edges, solve, isZero, List.reverse, id, heng, hneg, hed, hs, hz, List.reverse_perm, fun l => .refl l⟩

variable {eng : Engine} {edges : Mat → List (Pt × Pt)} {solve : RF ℝ → RF ℝ → List ℝ} {isZero : Expr ℝ → Bool}
  {orderR : List (Region ℕ) → List (Region ℕ)} {orderK : List ℚ → List ℚ}

/-- From the greatest ratio at each rational `sigma` to the values of the pieces. -/
theorem derive (C : Contracts eng edges solve isZero orderR orderK) (LB ZB : List (List (ℚ × ℚ × ℚ))) (lvs zlvs : List (Region ℕ))
    (hL : Covers lvs (LB.map (fun bs => (bs, 1)))) (hZ : Covers zlvs (ZB.map (fun bs => (bs, 1))))
    (hdec : ∀ bs ∈ LB ++ ZB, ∀ b ∈ bs, b.2.1 < 0) (hmv : ∀ bs ∈ LB, (2, -2, 0) ∈ bs) (x0 x1 tau0 : ℚ) (hx : x0 < x1) (hx0 : 1 / 2 ≤ x0)
    (hx1 : x1 ≤ 1) (htau : 2 < tau0) (htau' : tau0 ≤ 1000)
    (hzp : ∀ s, x0 ≤ s → s < x1 → ∃ t, 2 ≤ t ∧ t ≤ tau0 ∧ ∀ bs ∈ ZB, ∃ b ∈ bs, 0 < bval b s t) (n u : ℚ → ℚ) (W : ℝ → ℝ)
    (hu : ∀ s, x0 ≤ s → s < x1 → 0 < u s) (hW : ∀ s, x0 ≤ s → s < x1 → W s = ((n s / u s : ℚ) : ℝ))
    (hWc : ∀ x : ℝ, x0 ≤ x → x < x1 → ContinuousAt W x)
    (hatt : ∀ s, x0 ≤ s → s < x1 → ∃ t r, Feasible LB ZB tau0 s t r ∧ r * u s = n s * t)
    (hub : ∀ s t r, x0 ≤ s → s < x1 → Feasible LB ZB tau0 s t r → r * u s ≤ n s * t) :
    ∃ out, proveZeroDensity eng edges solve isZero orderR orderK lvs zlvs x0 x1 tau0 = .ok out ∧ IsBound x0 x1 out W := by
  obtain ⟨out, h1, h2, h3⟩ := C81_value C.engine C.neg C.edge C.solves C.zero C.permR C.permK LB ZB lvs zlvs hL hZ hdec hmv x0 x1 tau0
    hx hx0 hx1 htau htau' hzp
  refine ⟨out, h1, isBound_of_rat h2 hWc fun s l1 l2 => ?_⟩
  obtain ⟨q, q1, q2, q3, _, q5⟩ := h3 s l1 l2
  refine ⟨q, q1, q2, q3, q5.unique ?_⟩
  have hpos : ∀ t r, Feasible LB ZB tau0 s t r → 0 < t := by
    rintro t r ⟨_, _, h | h⟩ <;> linarith [h.1]
  rw [hW s l1 l2]
  constructor
  · obtain ⟨t, r, hf, he⟩ := hatt s l1 l2
    refine ⟨t, r, hf, ?_⟩
    have : n s / u s = r / t := by
      rw [div_eq_div_iff (hu s l1 l2).ne' (hpos t r hf).ne', he]
    rw [this]
  · rintro v ⟨t, r, hf, rfl⟩
    have h := hub s t r l1 l2 hf
    have : r / t ≤ n s / u s := by
      rw [div_le_div_iff₀ (hpos t r hf) (hu s l1 l2)]
      exact h
    exact_mod_cast this

/-- The bounds of Jutila's estimate with `k = 3`. -/
def jut : List (ℚ × ℚ × ℚ) := [(2, -2, 0), (10 / 3, -(16 / 3), 1), (18, -24, 1)]

/-- The bounds of Heath-Brown's estimate. -/
def hb : List (ℚ × ℚ × ℚ) := [(2, -2, 0), (10, -13, 1)]

/-- The bounds of the estimate of Guth and Maynard. -/
def gm : List (ℚ × ℚ × ℚ) := [(2, -2, 0), (18 / 5, -4, 0), (12 / 5, -4, 1)]

/-- The bound from the twelfth moment. -/
def tw : List (ℚ × ℚ × ℚ) := [(6, -12, 2)]

theorem jut_staggered : Staggered [] jut := by
  unfold jut Staggered Staggered Staggered Staggered bval
  refine ⟨⟨3 / 4, 1, 1 / 4, by norm_num⟩, ⟨3 / 4, 2, 1, by norm_num⟩, ⟨3 / 5, 1, 2, by norm_num⟩, trivial⟩

theorem hb_staggered : Staggered [] hb := by
  unfold hb Staggered Staggered Staggered bval
  refine ⟨⟨3 / 4, 1, 1 / 4, by norm_num⟩, ⟨3 / 4, 2, 1, by norm_num⟩, trivial⟩

theorem gm_staggered : Staggered [] gm := by
  unfold gm Staggered Staggered Staggered Staggered bval
  refine ⟨⟨3 / 4, 1, 1 / 4, by norm_num⟩, ⟨3 / 4, 1, 11 / 20, by norm_num⟩, ⟨3 / 4, 2, 1, by norm_num⟩, trivial⟩

theorem tw_staggered : Staggered [] tw := by
  unfold tw Staggered Staggered bval
  exact ⟨⟨3 / 4, 3, 1, by norm_num⟩, trivial⟩

/-- A list of bounds becomes a region as required. -/
theorem covers_of (C : Contracts eng edges solve isZero orderR orderK) (bs : List (ℚ × ℚ × ℚ)) (hne : bs ≠ []) (h : Staggered [] bs) :
    ∃ R : Region ℕ, LargeValues.convertBounds eng.canon (bs.map (fun b => [b.1, b.2.1, b.2.2])) = .ok R ∧ Covers [R] [(bs, 1)] := by
  obtain ⟨ms, h1, _, _⟩ := convert_full C.engine.canon C.engine.canonNoZero bs hne h
  have := realises_convert C.engine.canon C.engine.canonNoZero bs hne h h1
  exact ⟨_, h1, by simpa using this, by simpa using this⟩

theorem covers_nil : Covers [] [] := ⟨by simp, by simp⟩

theorem jut_of (C : Contracts eng edges solve isZero orderR orderK) :
    ∃ R : Region ℕ, LargeValues.convertBounds eng.canon (Literature.jutila 3) = .ok R ∧ Covers [R] [(jut, 1)] := by
  obtain ⟨R, h1, h2⟩ := covers_of C jut (by simp [jut]) jut_staggered
  refine ⟨R, ?_, h2⟩
  rw [← h1]
  congr 1
  simp only [Literature.jutila, jut, List.map_cons, List.map_nil]
  norm_num

theorem l2_cases {LB : List (List (ℚ × ℚ × ℚ))} {s t r : ℚ} (h : LVOk LB s t r) (hm : l2 ∈ LB) (k : ℚ) (hk : k ∈ [(1 : ℚ), 2, 3, 4, 5]) :
    r ≤ k * (2 - 2 * s) ∨ r ≤ k * (1 - 2 * s) + t := by
  obtain ⟨b, hb, hle⟩ := h _ hm k hk
  have hk0 : k ≠ 0 := by have := five hk; intro h; linarith
  simp only [l2, List.mem_cons, List.not_mem_nil, or_false] at hb
  rcases hb with rfl | rfl
  · left; unfold bval at hle; linarith
  · right
    have e : k * bval (1, -2, 1) s (t / k) = k * (1 - 2 * s) + t := by unfold bval; field_simp; ring
    linarith

theorem jut_cases {LB : List (List (ℚ × ℚ × ℚ))} {s t r : ℚ} (h : LVOk LB s t r) (hm : jut ∈ LB) (k : ℚ) (hk : k ∈ [(1 : ℚ), 2, 3, 4, 5]) :
    r ≤ k * (2 - 2 * s) ∨ r ≤ k * (10 / 3 - 16 / 3 * s) + t ∨ r ≤ k * (18 - 24 * s) + t := by
  obtain ⟨b, hb, hle⟩ := h _ hm k hk
  have hk0 : k ≠ 0 := by have := five hk; intro h; linarith
  simp only [jut, List.mem_cons, List.not_mem_nil, or_false] at hb
  rcases hb with rfl | rfl | rfl
  · left; unfold bval at hle; linarith
  · right; left
    have e : k * bval (10 / 3, -(16 / 3), 1) s (t / k) = k * (10 / 3 - 16 / 3 * s) + t := by unfold bval; field_simp; ring
    linarith
  · right; right
    have e : k * bval (18, -24, 1) s (t / k) = k * (18 - 24 * s) + t := by unfold bval; field_simp; ring
    linarith

theorem hb_cases {LB : List (List (ℚ × ℚ × ℚ))} {s t r : ℚ} (h : LVOk LB s t r) (hm : hb ∈ LB) (k : ℚ) (hk : k ∈ [(1 : ℚ), 2, 3, 4, 5]) :
    r ≤ k * (2 - 2 * s) ∨ r ≤ k * (10 - 13 * s) + t := by
  obtain ⟨b, hb', hle⟩ := h _ hm k hk
  have hk0 : k ≠ 0 := by have := five hk; intro h; linarith
  simp only [hb, List.mem_cons, List.not_mem_nil, or_false] at hb'
  rcases hb' with rfl | rfl
  · left; unfold bval at hle; linarith
  · right
    have e : k * bval (10, -13, 1) s (t / k) = k * (10 - 13 * s) + t := by unfold bval; field_simp; ring
    linarith

theorem gm_cases {LB : List (List (ℚ × ℚ × ℚ))} {s t r : ℚ} (h : LVOk LB s t r) (hm : gm ∈ LB) (k : ℚ) (hk : k ∈ [(1 : ℚ), 2, 3, 4, 5]) :
    r ≤ k * (2 - 2 * s) ∨ r ≤ k * (18 / 5 - 4 * s) ∨ r ≤ k * (12 / 5 - 4 * s) + t := by
  obtain ⟨b, hb, hle⟩ := h _ hm k hk
  have hk0 : k ≠ 0 := by have := five hk; intro h; linarith
  simp only [gm, List.mem_cons, List.not_mem_nil, or_false] at hb
  rcases hb with rfl | rfl | rfl
  · left; unfold bval at hle; linarith
  · right; left; unfold bval at hle; linarith
  · right; right
    have e : k * bval (12 / 5, -4, 1) s (t / k) = k * (12 / 5 - 4 * s) + t := by unfold bval; field_simp; ring
    linarith

theorem tw_case {s t r : ℚ} (h : Under [tw] s t r) : r ≤ 6 - 12 * s + 2 * t := by
  obtain ⟨b, hb, hle⟩ := h tw (by simp)
  simp only [tw, List.mem_cons, List.not_mem_nil, or_false] at hb
  subst hb
  unfold bval at hle
  linarith

/-- To check that a point obeys a list of bounds. -/
theorem lvOk_cons {bs : List (ℚ × ℚ × ℚ)} {LB : List (List (ℚ × ℚ × ℚ))} {s t r : ℚ}
    (h1 : ∃ b ∈ bs, r ≤ bval b s t) (h2 : ∃ b ∈ bs, r ≤ 2 * bval b s (t / 2)) (h3 : ∃ b ∈ bs, r ≤ 3 * bval b s (t / 3))
    (h4 : ∃ b ∈ bs, r ≤ 4 * bval b s (t / 4)) (h5 : ∃ b ∈ bs, r ≤ 5 * bval b s (t / 5)) (h : LVOk LB s t r) :
    LVOk (bs :: LB) s t r := by
  intro cs hcs k hk
  rcases List.mem_cons.mp hcs with rfl | hcs
  · simp only [List.mem_cons, List.not_mem_nil, or_false] at hk
    rcases hk with rfl | rfl | rfl | rfl | rfl
    · simpa using h1
    · exact h2
    · exact h3
    · exact h4
    · exact h5
  · exact h cs hcs k hk

theorem lvOk_nil (s t r : ℚ) : LVOk [] s t r := by intro cs hcs; simp at hcs

theorem tw_pos {x0 x1 : ℚ} (hx1 : x1 ≤ 1) : ∀ s, x0 ≤ s → s < x1 → ∃ t, 2 ≤ t ∧ t ≤ 3 ∧ ∀ bs ∈ [tw], ∃ b ∈ bs, 0 < bval b s t := by
  intro s _ l2
  refine ⟨3, by norm_num, le_rfl, fun bs hbs => ?_⟩
  obtain rfl := List.mem_singleton.mp hbs
  exact ⟨(6, -12, 2), by simp [tw], by unfold bval; linarith⟩

/-- **C81** (Ingham) `prove_zero_density_ingham_1940` returns `3 (1 - sigma) / (2 - sigma)` on `[1/2, 3/4)`. -/
theorem C81_ingham (C : Contracts eng edges solve isZero orderR orderK) :
    ∃ out, proveIngham eng edges solve isZero orderR orderK = .ok out ∧ IsBound (1 / 2) (3 / 4) out (fun x => 3 * (1 - x) / (2 - x)) := by
  refine derive C [] [] [] [] covers_nil covers_nil (by simp) (by simp) (1 / 2) (3 / 4) 3 (by norm_num) (by norm_num) (by norm_num) (by norm_num)
    (by norm_num) (fun s _ _ => ⟨2, by norm_num⟩) (fun s => 3 * (1 - s)) (fun s => 2 - s) _ (fun s l1 l2 => by linarith)
    (fun s l1 l2 => by push_cast; rfl) ?_ ?_ ?_
  · intro x l1 l2
    push_cast at l2
    exact ContinuousAt.div (by fun_prop) (by fun_prop) (by intro h; linarith)
  · intro s l1 l2
    refine ⟨4 - 2 * s, 6 * (1 - s), ⟨by linarith, lvOk_cons ?_ ?_ ?_ ?_ ?_ (lvOk_nil _ _ _), ?_⟩, by ring⟩
    · exact ⟨(1, -2, 1), by simp [DerivedZD.l2], by unfold bval; linarith⟩
    · exact ⟨(1, -2, 1), by simp [DerivedZD.l2], by unfold bval; linarith⟩
    · exact ⟨(2, -2, 0), by simp [DerivedZD.l2], by unfold bval; linarith⟩
    · exact ⟨(2, -2, 0), by simp [DerivedZD.l2], by unfold bval; linarith⟩
    · exact ⟨(2, -2, 0), by simp [DerivedZD.l2], by unfold bval; linarith⟩
    · by_cases h : 3 ≤ 4 - 2 * s
      · exact .inl ⟨h, by linarith⟩
      · exact .inr ⟨by linarith, by linarith, by intro bs hbs; simp at hbs⟩
  · rintro s t r l1 l2 ⟨h0, hlv, ht⟩
    have ht1 : 2 ≤ t := by rcases ht with h | h <;> linarith [h.1]
    have ht2 : t ≤ 6 := by rcases ht with h | h <;> linarith [h.2]
    have key : ∀ k ∈ [(1 : ℚ), 2, 3, 4, 5], 2 * k * (2 - s) ≤ 3 * t → t ≤ k * (2 - s) → r * (2 - s) ≤ 3 * (1 - s) * t := by
      intro k hk k1 k2
      rcases l2_cases hlv (by simp) k hk with h | h
      · nlinarith [mul_le_mul_of_nonneg_right h (show 0 ≤ 2 - s by linarith), mul_le_mul_of_nonneg_left k1 (show 0 ≤ 1 - s by linarith)]
      · nlinarith [mul_le_mul_of_nonneg_right h (show 0 ≤ 2 - s by linarith), mul_le_mul_of_nonneg_left k2 (show 0 ≤ 2 * s - 1 by linarith)]
    by_cases c2 : t ≤ 2 * (2 - s)
    · exact key 2 (by simp) (by linarith) c2
    by_cases c3 : t ≤ 3 * (2 - s)
    · exact key 3 (by simp) (by linarith) c3
    by_cases c4 : t ≤ 4 * (2 - s)
    · exact key 4 (by simp) (by linarith) c4
    · exact key 5 (by simp) (by linarith) (by linarith)

/-- The value at `3 / 5`. -/
example : ∃ eng edges solve isZero orderR orderK out, proveIngham eng edges solve isZero orderR orderK = .ok out ∧
    ∃ q ∈ out, q.fn.at (3 / 5) = (6 / 7 : ℝ) := by
  obtain ⟨eng, edges, solve, isZero, orderR, orderK, C⟩ := contracts_satisfiable
  obtain ⟨out, h1, h2⟩ := C81_ingham C
  obtain ⟨q, q1, _, _, _, q5⟩ := h2 (3 / 5) (by norm_num) (by norm_num)
  exact ⟨eng, edges, solve, isZero, orderR, orderK, out, h1, q, q1, by rw [q5]; norm_num⟩

/-- **C81** (Jutila) `prove_zero_density_jutila_1977` returns `2 (1 - sigma)` on `[11/14, 1)`. -/
theorem C81_jutila (C : Contracts eng edges solve isZero orderR orderK) :
    ∃ out, proveJutila eng edges solve isZero orderR orderK = .ok out ∧ IsBound (11 / 14) 1 out (fun x => 2 * (1 - x)) := by
  obtain ⟨R, e1, e2⟩ := jut_of C
  have := derive C [jut] [] [R] [] e2 covers_nil (by decide +kernel) (by simp [jut]) (11 / 14) 1 3 (by norm_num) (by norm_num) (by norm_num)
    (by norm_num) (by norm_num) (fun s _ _ => ⟨2, by norm_num⟩) (fun s => 2 * (1 - s)) (fun s => 1) (fun x => 2 * (1 - x)) (fun s l1 l2 => by norm_num)
    (fun s l1 l2 => by push_cast; ring) (fun x _ _ => by fun_prop) ?_ ?_
  · obtain ⟨out, o1, o2⟩ := this
    exact ⟨out, by unfold proveJutila; rw [e1]; exact o1, o2⟩
  · intro s l1 l2
    refine ⟨2, 4 * (1 - s), ⟨by linarith, lvOk_cons ?_ ?_ ?_ ?_ ?_ (lvOk_cons ?_ ?_ ?_ ?_ ?_ (lvOk_nil _ _ _)),
      .inr ⟨le_rfl, by norm_num, by intro bs hbs; simp at hbs⟩⟩, by ring⟩
    · exact ⟨(1, -2, 1), by simp [DerivedZD.l2], by unfold bval; linarith⟩
    · exact ⟨(2, -2, 0), by simp [DerivedZD.l2], by unfold bval; linarith⟩
    · exact ⟨(2, -2, 0), by simp [DerivedZD.l2], by unfold bval; linarith⟩
    · exact ⟨(2, -2, 0), by simp [DerivedZD.l2], by unfold bval; linarith⟩
    · exact ⟨(2, -2, 0), by simp [DerivedZD.l2], by unfold bval; linarith⟩
    · exact ⟨(10 / 3, -(16 / 3), 1), by simp [jut], by unfold bval; linarith⟩
    · exact ⟨(2, -2, 0), by simp [jut], by unfold bval; linarith⟩
    · exact ⟨(2, -2, 0), by simp [jut], by unfold bval; linarith⟩
    · exact ⟨(2, -2, 0), by simp [jut], by unfold bval; linarith⟩
    · exact ⟨(2, -2, 0), by simp [jut], by unfold bval; linarith⟩
  · rintro s t r l1 l2 ⟨h0, hlv, ht⟩
    have ht1 : 2 ≤ t := by rcases ht with h | h <;> linarith [h.1]
    have ht2 : t ≤ 6 := by rcases ht with h | h <;> linarith [h.2]
    have key : ∀ k ∈ [(1 : ℚ), 2, 3, 4, 5], k ≤ t → 2 * t ≤ 3 * k → r * 1 ≤ 2 * (1 - s) * t := by
      intro k hk k1 k2
      have kp := (five hk).1
      rcases jut_cases hlv (by simp) k hk with h | h | h
      · nlinarith [mul_le_mul_of_nonneg_left k1 (show 0 ≤ 1 - s by linarith)]
      · nlinarith [mul_le_mul_of_nonneg_left k2 (show 0 ≤ 2 * s - 1 by linarith), mul_nonneg (show 0 ≤ s - 11 / 14 by linarith) (show 0 ≤ k by linarith)]
      · nlinarith [mul_le_mul_of_nonneg_left k2 (show 0 ≤ 2 * s - 1 by linarith), mul_nonneg (show 0 ≤ s - 11 / 14 by linarith) (show 0 ≤ k by linarith)]
    by_cases c2 : t ≤ 3
    · exact key 2 (by simp) (by linarith) (by linarith)
    by_cases c3 : t ≤ 9 / 2
    · exact key 3 (by simp) (by linarith) (by linarith)
    · exact key 4 (by simp) (by linarith) (by linarith)

/-- The value at `4 / 5`. -/
example : ∃ eng edges solve isZero orderR orderK out, proveJutila eng edges solve isZero orderR orderK = .ok out ∧
    ∃ q ∈ out, q.fn.at (4 / 5) = (2 / 5 : ℝ) := by
  obtain ⟨eng, edges, solve, isZero, orderR, orderK, C⟩ := contracts_satisfiable
  obtain ⟨out, h1, h2⟩ := C81_jutila C
  obtain ⟨q, q1, _, _, _, q5⟩ := h2 (4 / 5) (by norm_num) (by norm_num)
  exact ⟨eng, edges, solve, isZero, orderR, orderK, out, h1, q, q1, by rw [q5]; norm_num⟩

/-- **C81** (Heath-Brown, first estimate) `prove_zero_density_heathbrown_1979a` returns `9 (1 - sigma) / (7 sigma - 1)` on `[11/14, 1)`. -/
theorem C81_heathBrown_a (C : Contracts eng edges solve isZero orderR orderK) :
    ∃ out, proveHB79a eng edges solve isZero orderR orderK = .ok out ∧ IsBound (11 / 14) 1 out (fun x => 9 * (1 - x) / (7 * x - 1)) := by
  obtain ⟨R, e1, e2⟩ := jut_of C
  obtain ⟨Z, z1, z2⟩ := covers_of C tw (by simp [tw]) tw_staggered
  replace z1 : LargeValues.convertBounds eng.canon Literature.heathBrownTwelfth = .ok Z := z1
  have := derive C [jut] [tw] [R] [Z] e2 z2 (by decide +kernel) (by simp [jut]) (11 / 14) 1 3 (by norm_num) (by norm_num) (by norm_num)
    (by norm_num) (by norm_num) (tw_pos (by norm_num)) (fun s => 9 * (1 - s)) (fun s => 7 * s - 1) (fun x => 9 * (1 - x) / (7 * x - 1))
    (fun s l1 l2 => by linarith) (fun s l1 l2 => by push_cast; rfl) ?_ ?_ ?_
  · obtain ⟨out, o1, o2⟩ := this
    exact ⟨out, by unfold proveHB79a; rw [e1, z1]; exact o1, o2⟩
  · intro x l1 l2
    push_cast at l1
    exact ContinuousAt.div (by fun_prop) (by fun_prop) (by intro h; linarith)
  · intro s l1 l2
    refine ⟨(14 * s - 2) / 3, 6 * (1 - s), ⟨by linarith, lvOk_cons ?_ ?_ ?_ ?_ ?_ (lvOk_cons ?_ ?_ ?_ ?_ ?_ (lvOk_nil _ _ _)),
      .inl ⟨by linarith, by linarith⟩⟩, by ring⟩
    · exact ⟨(1, -2, 1), by simp [DerivedZD.l2], by unfold bval; linarith⟩
    · exact ⟨(1, -2, 1), by simp [DerivedZD.l2], by unfold bval; linarith⟩
    · exact ⟨(2, -2, 0), by simp [DerivedZD.l2], by unfold bval; linarith⟩
    · exact ⟨(2, -2, 0), by simp [DerivedZD.l2], by unfold bval; linarith⟩
    · exact ⟨(2, -2, 0), by simp [DerivedZD.l2], by unfold bval; linarith⟩
    · exact ⟨(10 / 3, -(16 / 3), 1), by simp [jut], by unfold bval; linarith⟩
    · exact ⟨(10 / 3, -(16 / 3), 1), by simp [jut], by unfold bval; linarith⟩
    · exact ⟨(2, -2, 0), by simp [jut], by unfold bval; linarith⟩
    · exact ⟨(2, -2, 0), by simp [jut], by unfold bval; linarith⟩
    · exact ⟨(2, -2, 0), by simp [jut], by unfold bval; linarith⟩
  · rintro s t r l1 l2 ⟨h0, hlv, ht⟩
    have ht1 : 2 ≤ t := by rcases ht with h | h <;> linarith [h.1]
    have ht2 : t ≤ 6 := by rcases ht with h | h <;> linarith [h.2]
    have key : ∀ k ∈ [(1 : ℚ), 2, 3, 4, 5], 2 * k * (7 * s - 1) ≤ 9 * t → 3 * t ≤ k * (7 * s - 1) →
        r * (7 * s - 1) ≤ 9 * (1 - s) * t := by
      intro k hk k1 k2
      have kp := (five hk).1
      have u0 : 0 ≤ 7 * s - 1 := by linarith
      rcases jut_cases hlv (by simp) k hk with h | h | h
      · nlinarith [mul_le_mul_of_nonneg_right h u0, mul_le_mul_of_nonneg_left k1 (show 0 ≤ 1 - s by linarith)]
      · nlinarith [mul_le_mul_of_nonneg_right h u0, mul_le_mul_of_nonneg_left k2 (show 0 ≤ 16 * s - 10 by linarith)]
      · nlinarith [mul_le_mul_of_nonneg_right h u0, mul_le_mul_of_nonneg_left k2 (show 0 ≤ 16 * s - 10 by linarith),
          mul_nonneg (mul_nonneg (show 0 ≤ s - 11 / 14 by linarith) (show 0 ≤ k by linarith)) u0]
    by_cases c1 : 9 * t ≤ 4 * (7 * s - 1)
    · rcases ht with h | h
      · linarith [h.1]
      · have h2 := tw_case h.2.2
        nlinarith [mul_le_mul_of_nonneg_right h2 (show 0 ≤ 7 * s - 1 by linarith), mul_le_mul_of_nonneg_left c1 (show 0 ≤ 23 * s - 11 by linarith),
          mul_nonneg (show 0 ≤ 16 * s - 10 by linarith) (show 0 ≤ 7 * s - 1 by linarith)]
    by_cases c2 : 3 * t ≤ 2 * (7 * s - 1)
    · exact key 2 (by simp) (by linarith) (by linarith)
    by_cases c3 : t ≤ 7 * s - 1
    · exact key 3 (by simp) (by linarith) (by linarith)
    · exact key 4 (by simp) (by linarith) (by linarith)

/-- The value at `4 / 5`. -/
example : ∃ eng edges solve isZero orderR orderK out, proveHB79a eng edges solve isZero orderR orderK = .ok out ∧
    ∃ q ∈ out, q.fn.at (4 / 5) = (9 / 23 : ℝ) := by
  obtain ⟨eng, edges, solve, isZero, orderR, orderK, C⟩ := contracts_satisfiable
  obtain ⟨out, h1, h2⟩ := C81_heathBrown_a C
  obtain ⟨q, q1, _, _, _, q5⟩ := h2 (4 / 5) (by norm_num) (by norm_num)
  exact ⟨eng, edges, solve, isZero, orderR, orderK, out, h1, q, q1, by rw [q5]; norm_num⟩

/-- **C81** (Heath-Brown, second estimate) `prove_zero_density_heathbrown_1979b` returns `3 (1 - sigma) / (10 sigma - 7)` on
`[20/23, 25/28)` and `4 (1 - sigma) / (4 sigma - 1)` on `[25/28, 1)`. -/
theorem C81_heathBrown_b (C : Contracts eng edges solve isZero orderR orderK) :
    ∃ a b, proveHB79b eng edges solve isZero orderR orderK = .ok (a, b) ∧
      IsBound (20 / 23) (25 / 28) a (fun x => 3 * (1 - x) / (10 * x - 7)) ∧ IsBound (25 / 28) 1 b (fun x => 4 * (1 - x) / (4 * x - 1)) := by
  obtain ⟨R, e1, e2⟩ := jut_of C
  obtain ⟨H, h1, h2⟩ := covers_of C hb (by simp [hb]) hb_staggered
  replace h1 : LargeValues.convertBounds eng.canon Literature.heathBrown = .ok H := h1
  obtain ⟨Z, z1, z2⟩ := covers_of C tw (by simp [tw]) tw_staggered
  replace z1 : LargeValues.convertBounds eng.canon Literature.heathBrownTwelfth = .ok Z := z1
  have e3 : Covers [R, H] [(jut, 1), (hb, 1)] := e2.append h2
  have first := derive C [jut, hb] [tw] [R, H] [Z] e3 z2 (by decide +kernel) (by simp [jut, hb]) (20 / 23) (25 / 28) 3 (by norm_num) (by norm_num)
    (by norm_num) (by norm_num) (by norm_num) (tw_pos (by norm_num)) (fun s => 3 * (1 - s)) (fun s => 10 * s - 7)
    (fun x => 3 * (1 - x) / (10 * x - 7)) (fun s l1 l2 => by linarith) (fun s l1 l2 => by push_cast; rfl) ?_ ?_ ?_
  have second := derive C [jut, hb] [tw] [R, H] [Z] e3 z2 (by decide +kernel) (by simp [jut, hb]) (25 / 28) 1 3 (by norm_num) (by norm_num)
    (by norm_num) (by norm_num) (by norm_num) (tw_pos (by norm_num)) (fun s => 4 * (1 - s)) (fun s => 4 * s - 1)
    (fun x => 4 * (1 - x) / (4 * x - 1)) (fun s l1 l2 => by linarith) (fun s l1 l2 => by push_cast; rfl) ?_ ?_ ?_
  · obtain ⟨a, a1, a2⟩ := first
    obtain ⟨b, b1, b2⟩ := second
    refine ⟨a, b, ?_, a2, b2⟩
    unfold proveHB79b
    rw [e1, h1, z1]
    simp only [bind, Except.bind]
    rw [a1, b1]
    rfl
  · intro x l1 l2
    push_cast at l1
    exact ContinuousAt.div (by fun_prop) (by fun_prop) (by intro h; linarith)
  · intro s l1 l2
    refine ⟨4 * s - 1, 4 * (1 - s), ⟨by linarith, lvOk_cons ?_ ?_ ?_ ?_ ?_ (lvOk_cons ?_ ?_ ?_ ?_ ?_ (lvOk_cons ?_ ?_ ?_ ?_ ?_ (lvOk_nil _ _ _))),
      .inr ⟨by linarith, by linarith, ?_⟩⟩, by ring⟩
    · exact ⟨(1, -2, 1), by simp [DerivedZD.l2], by unfold bval; linarith⟩
    · exact ⟨(2, -2, 0), by simp [DerivedZD.l2], by unfold bval; linarith⟩
    · exact ⟨(2, -2, 0), by simp [DerivedZD.l2], by unfold bval; linarith⟩
    · exact ⟨(2, -2, 0), by simp [DerivedZD.l2], by unfold bval; linarith⟩
    · exact ⟨(2, -2, 0), by simp [DerivedZD.l2], by unfold bval; linarith⟩
    · exact ⟨(10 / 3, -(16 / 3), 1), by simp [jut], by unfold bval; linarith⟩
    · exact ⟨(2, -2, 0), by simp [jut], by unfold bval; linarith⟩
    · exact ⟨(2, -2, 0), by simp [jut], by unfold bval; linarith⟩
    · exact ⟨(2, -2, 0), by simp [jut], by unfold bval; linarith⟩
    · exact ⟨(2, -2, 0), by simp [jut], by unfold bval; linarith⟩
    · exact ⟨(10, -13, 1), by simp [hb], by unfold bval; linarith⟩
    · exact ⟨(2, -2, 0), by simp [hb], by unfold bval; linarith⟩
    · exact ⟨(2, -2, 0), by simp [hb], by unfold bval; linarith⟩
    · exact ⟨(2, -2, 0), by simp [hb], by unfold bval; linarith⟩
    · exact ⟨(2, -2, 0), by simp [hb], by unfold bval; linarith⟩
    · intro bs hbs
      obtain rfl := List.mem_singleton.mp hbs
      exact ⟨(6, -12, 2), by simp [tw], by unfold bval; linarith⟩
  · rintro s t r l1 l2 ⟨h0, hlv, ht⟩
    have ht1 : 2 ≤ t := by rcases ht with h | h <;> linarith [h.1]
    have ht2 : t ≤ 6 := by rcases ht with h | h <;> linarith [h.2]
    have key : ∀ k ∈ [(1 : ℚ), 2, 3, 4, 5], k * (4 * s - 1) ≤ 2 * t → 4 * t ≤ 3 * k * (4 * s - 1) →
        r * (4 * s - 1) ≤ 4 * (1 - s) * t := by
      intro k hk k1 k2
      have kp := (five hk).1
      have u0 : 0 ≤ 4 * s - 1 := by linarith
      rcases hb_cases hlv (by simp) k hk with h | h
      · nlinarith [mul_le_mul_of_nonneg_right h u0, mul_le_mul_of_nonneg_left k1 (show 0 ≤ 1 - s by linarith)]
      · nlinarith [mul_le_mul_of_nonneg_right h u0, mul_le_mul_of_nonneg_left k2 (show 0 ≤ 8 * s - 5 by linarith),
          mul_nonneg (mul_nonneg (show 0 ≤ s - 25 / 28 by linarith) (show 0 ≤ k by linarith)) u0]
    by_cases c1 : t ≤ 4 * s - 1
    · rcases ht with h | h
      · linarith [h.1]
      · have h2 := tw_case h.2.2
        nlinarith [mul_le_mul_of_nonneg_right h2 (show 0 ≤ 4 * s - 1 by linarith), mul_le_mul_of_nonneg_left c1 (show 0 ≤ 12 * s - 6 by linarith)]
    by_cases c2 : 2 * t ≤ 3 * (4 * s - 1)
    · exact key 2 (by simp) (by linarith) (by linarith)
    by_cases c3 : 4 * t ≤ 9 * (4 * s - 1)
    · exact key 3 (by simp) (by linarith) (by linarith)
    · exact key 4 (by simp) (by linarith) (by linarith)
  · intro x l1 l2
    push_cast at l1
    exact ContinuousAt.div (by fun_prop) (by fun_prop) (by intro h; linarith)
  · intro s l1 l2
    refine ⟨20 * s - 14, 6 * (1 - s), ⟨by linarith, lvOk_cons ?_ ?_ ?_ ?_ ?_ (lvOk_cons ?_ ?_ ?_ ?_ ?_ (lvOk_cons ?_ ?_ ?_ ?_ ?_ (lvOk_nil _ _ _))),
      .inl ⟨by linarith, by linarith⟩⟩, by ring⟩
    · exact ⟨(1, -2, 1), by simp [DerivedZD.l2], by unfold bval; linarith⟩
    · exact ⟨(1, -2, 1), by simp [DerivedZD.l2], by unfold bval; linarith⟩
    · exact ⟨(2, -2, 0), by simp [DerivedZD.l2], by unfold bval; linarith⟩
    · exact ⟨(2, -2, 0), by simp [DerivedZD.l2], by unfold bval; linarith⟩
    · exact ⟨(2, -2, 0), by simp [DerivedZD.l2], by unfold bval; linarith⟩
    · exact ⟨(10 / 3, -(16 / 3), 1), by simp [jut], by unfold bval; linarith⟩
    · exact ⟨(10 / 3, -(16 / 3), 1), by simp [jut], by unfold bval; linarith⟩
    · exact ⟨(2, -2, 0), by simp [jut], by unfold bval; linarith⟩
    · exact ⟨(2, -2, 0), by simp [jut], by unfold bval; linarith⟩
    · exact ⟨(2, -2, 0), by simp [jut], by unfold bval; linarith⟩
    · exact ⟨(10, -13, 1), by simp [hb], by unfold bval; linarith⟩
    · exact ⟨(10, -13, 1), by simp [hb], by unfold bval; linarith⟩
    · exact ⟨(2, -2, 0), by simp [hb], by unfold bval; linarith⟩
    · exact ⟨(2, -2, 0), by simp [hb], by unfold bval; linarith⟩
    · exact ⟨(2, -2, 0), by simp [hb], by unfold bval; linarith⟩
  · rintro s t r l1 l2 ⟨h0, hlv, ht⟩
    have ht1 : 2 ≤ t := by rcases ht with h | h <;> linarith [h.1]
    have ht2 : t ≤ 6 := by rcases ht with h | h <;> linarith [h.2]
    have key : ∀ k ∈ [(1 : ℚ), 2, 3, 4, 5], 2 * k * (10 * s - 7) ≤ 3 * t → t ≤ k * (10 * s - 7) →
        r * (10 * s - 7) ≤ 3 * (1 - s) * t := by
      intro k hk k1 k2
      have kp := (five hk).1
      have u0 : 0 ≤ 10 * s - 7 := by linarith
      rcases hb_cases hlv (by simp) k hk with h | h
      · nlinarith [mul_le_mul_of_nonneg_right h u0, mul_le_mul_of_nonneg_left k1 (show 0 ≤ 1 - s by linarith)]
      · nlinarith [mul_le_mul_of_nonneg_right h u0, mul_le_mul_of_nonneg_left k2 (show 0 ≤ 13 * s - 10 by linarith)]
    by_cases c1 : 3 * t ≤ 4 * (10 * s - 7)
    · rcases ht with h | h
      · linarith [h.1]
      · have h2 := tw_case h.2.2
        nlinarith [mul_le_mul_of_nonneg_right h2 (show 0 ≤ 10 * s - 7 by linarith), mul_le_mul_of_nonneg_left c1 (show 0 ≤ 23 * s - 17 by linarith),
          mul_nonneg (show 0 ≤ 25 - 28 * s by linarith) (show 0 ≤ 10 * s - 7 by linarith)]
    by_cases c2 : t ≤ 2 * (10 * s - 7)
    · exact key 2 (by simp) (by linarith) (by linarith)
    by_cases c3 : t ≤ 3 * (10 * s - 7)
    · exact key 3 (by simp) (by linarith) (by linarith)
    · exact key 4 (by simp) (by linarith) (by linarith)

/-- The values at `7 / 8` and `9 / 10`. -/
example : ∃ eng edges solve isZero orderR orderK a b, proveHB79b eng edges solve isZero orderR orderK = .ok (a, b) ∧
    (∃ q ∈ a, q.fn.at (7 / 8) = (3 / 14 : ℝ)) ∧ ∃ q ∈ b, q.fn.at (9 / 10) = (2 / 13 : ℝ) := by
  obtain ⟨eng, edges, solve, isZero, orderR, orderK, C⟩ := contracts_satisfiable
  obtain ⟨a, b, h1, h2, h3⟩ := C81_heathBrown_b C
  obtain ⟨q, q1, _, _, _, q5⟩ := h2 (7 / 8) (by norm_num) (by norm_num)
  obtain ⟨p, p1, _, _, _, p5⟩ := h3 (9 / 10) (by norm_num) (by norm_num)
  exact ⟨eng, edges, solve, isZero, orderR, orderK, a, b, h1, ⟨q, q1, by rw [q5]; norm_num⟩, p, p1, by rw [p5]; norm_num⟩

/-- **C81** (Guth and Maynard) `prove_zero_density_guth_maynard_2024` returns `15 (1 - sigma) / (5 sigma + 3)` on `[7/10, 9/10)`. -/
theorem C81_guthMaynard (C : Contracts eng edges solve isZero orderR orderK) :
    ∃ out, proveGuthMaynard eng edges solve isZero orderR orderK = .ok out ∧
      IsBound (7 / 10) (9 / 10) out (fun x => 15 * (1 - x) / (5 * x + 3)) := by
  obtain ⟨G, g1, g2⟩ := covers_of C gm (by simp [gm]) gm_staggered
  replace g1 : LargeValues.convertBounds eng.canon Literature.guthMaynard = .ok G := g1
  have := derive C [gm] [] [G] [] g2 covers_nil (by decide +kernel) (by simp [gm]) (7 / 10) (9 / 10) 3 (by norm_num) (by norm_num) (by norm_num)
    (by norm_num) (by norm_num) (fun s _ _ => ⟨2, by norm_num⟩) (fun s => 15 * (1 - s)) (fun s => 5 * s + 3) (fun x => 15 * (1 - x) / (5 * x + 3))
    (fun s l1 l2 => by linarith) (fun s l1 l2 => by push_cast; rfl) ?_ ?_ ?_
  · obtain ⟨out, o1, o2⟩ := this
    exact ⟨out, by unfold proveGuthMaynard; rw [g1]; exact o1, o2⟩
  · intro x l1 l2
    push_cast at l1
    exact ContinuousAt.div (by fun_prop) (by fun_prop) (by intro h; linarith)
  · intro s l1 l2
    refine ⟨2 * s + 6 / 5, 6 * (1 - s), ⟨by linarith, lvOk_cons ?_ ?_ ?_ ?_ ?_ (lvOk_cons ?_ ?_ ?_ ?_ ?_ (lvOk_nil _ _ _)),
      .inr ⟨by linarith, by linarith, by intro bs hbs; simp at hbs⟩⟩, by ring⟩
    · exact ⟨(1, -2, 1), by simp [DerivedZD.l2], by unfold bval; linarith⟩
    · exact ⟨(1, -2, 1), by simp [DerivedZD.l2], by unfold bval; linarith⟩
    · exact ⟨(2, -2, 0), by simp [DerivedZD.l2], by unfold bval; linarith⟩
    · exact ⟨(2, -2, 0), by simp [DerivedZD.l2], by unfold bval; linarith⟩
    · exact ⟨(2, -2, 0), by simp [DerivedZD.l2], by unfold bval; linarith⟩
    · exact ⟨(12 / 5, -4, 1), by simp [gm], by unfold bval; linarith⟩
    · exact ⟨(12 / 5, -4, 1), by simp [gm], by unfold bval; linarith⟩
    · exact ⟨(2, -2, 0), by simp [gm], by unfold bval; linarith⟩
    · exact ⟨(2, -2, 0), by simp [gm], by unfold bval; linarith⟩
    · exact ⟨(2, -2, 0), by simp [gm], by unfold bval; linarith⟩
  · rintro s t r l1 l2 ⟨h0, hlv, ht⟩
    have ht1 : 2 ≤ t := by rcases ht with h | h <;> linarith [h.1]
    have ht2 : t ≤ 6 := by rcases ht with h | h <;> linarith [h.2]
    have key : ∀ k ∈ [(1 : ℚ), 2, 3, 4, 5], 2 * k * (5 * s + 3) ≤ 15 * t → 5 * t ≤ k * (5 * s + 3) →
        r * (5 * s + 3) ≤ 15 * (1 - s) * t := by
      intro k hk k1 k2
      have kp := (five hk).1
      have u0 : 0 ≤ 5 * s + 3 := by linarith
      have first : r ≤ k * (2 - 2 * s) → r * (5 * s + 3) ≤ 15 * (1 - s) * t := by
        intro h
        nlinarith [mul_le_mul_of_nonneg_right h u0, mul_le_mul_of_nonneg_left k1 (show 0 ≤ 1 - s by linarith)]
      rcases gm_cases hlv (by simp) k hk with h | h | h
      · exact first h
      · rcases l2_cases hlv (by simp) k hk with h' | h'
        · exact first h'
        · have e1 := mul_le_mul_of_nonneg_left h (show 0 ≤ 20 * s - 12 by linarith)
          have e2 := mul_le_mul_of_nonneg_left h' (show 0 ≤ 15 * (1 - s) by linarith)
          have q : 0 ≤ 50 * s ^ 2 - 75 * s + 141 / 5 := by nlinarith [sq_nonneg (s - 3 / 4)]
          nlinarith [mul_nonneg (show 0 ≤ k by linarith) q]
      · nlinarith [mul_le_mul_of_nonneg_right h u0, mul_le_mul_of_nonneg_left k2 (show 0 ≤ 20 * s - 12 by linarith)]
    by_cases c2 : 5 * t ≤ 2 * (5 * s + 3)
    · exact key 2 (by simp) (by linarith) (by linarith)
    by_cases c3 : 5 * t ≤ 3 * (5 * s + 3)
    · exact key 3 (by simp) (by linarith) (by linarith)
    by_cases c4 : 5 * t ≤ 4 * (5 * s + 3)
    · exact key 4 (by simp) (by linarith) (by linarith)
    · exact key 5 (by simp) (by linarith) (by linarith)

/-- The value at `3 / 4`. -/
example : ∃ eng edges solve isZero orderR orderK out, proveGuthMaynard eng edges solve isZero orderR orderK = .ok out ∧
    ∃ q ∈ out, q.fn.at (3 / 4) = (5 / 9 : ℝ) := by
  obtain ⟨eng, edges, solve, isZero, orderR, orderK, C⟩ := contracts_satisfiable
  obtain ⟨out, h1, h2⟩ := C81_guthMaynard C
  obtain ⟨q, q1, _, _, _, q5⟩ := h2 (3 / 4) (by norm_num) (by norm_num)
  exact ⟨eng, edges, solve, isZero, orderR, orderK, out, h1, q, q1, by rw [q5]; norm_num⟩

/-- **C81** (finding: the factor `1 / (1 - sigma)`) A `Zero_Density_Estimate` states `A(sigma) <= f(sigma)` (zero_density_estimate.py:20-57).
`lv_zlv_to_zd`, `lv_zlv_to_zd2` and `lver_to_zd` (zero_density_estimate.py:374-387, 452-465, 519-530) put the supremum of `rho / tau` into it,
which is a bound on `A(sigma) (1 - sigma)` (zero_density.tex:125-126). The values are therefore too small at every `sigma`: the
estimates derived by `prove_zero_density_ingham_1940` are below `3 / (2 - sigma)` everywhere, and at `sigma = 1/2` the derived estimate
states `A(1/2) <= 1`, while `A(1/2) = 2` (zero_density.tex:16). `prove_zero_density` itself divides by `1 - sigma` before
plotting (derived.py:355). -/
theorem C81_factor_counterexample (C : Contracts eng edges solve isZero orderR orderK) :
    ∃ out, proveIngham eng edges solve isZero orderR orderK = .ok out ∧
      (∀ x : ℝ, 1 / 2 ≤ x → x < 3 / 4 → ∃ q ∈ out, q.dom.x0 ≤ x ∧ x < q.dom.x1 ∧ q.fn.at x < 3 / (2 - x)) ∧
      ∃ q ∈ out, q.dom.x0 ≤ 1 / 2 ∧ 1 / 2 < q.dom.x1 ∧ q.fn.at (1 / 2) = (1 : ℝ) := by
  obtain ⟨out, h1, h2⟩ := C81_ingham C
  refine ⟨out, h1, fun x l1 l2 => ?_, ?_⟩
  · obtain ⟨q, q1, q2, q3, _, q5⟩ := h2 x (by push_cast; exact l1) (by push_cast; exact l2)
    refine ⟨q, q1, q2, q3, ?_⟩
    rw [q5]
    exact div_lt_div_of_pos_right (by linarith) (by linarith)
  · obtain ⟨q, q1, q2, q3, _, q5⟩ := h2 (1 / 2) (by norm_num) (by norm_num)
    exact ⟨q, q1, q2, q3, by rw [q5]; norm_num⟩

end DerivedZD
end Expdb
