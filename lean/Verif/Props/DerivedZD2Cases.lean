import Verif.Props.DerivedZD2

/-!
# C87: the estimates returned by the functions `prove_zero_density_*_v2`

`tau` in the second region of `lv_zlv_to_zd2` is not bounded by `4/3 tau0`, since the sign of `tau` in zero_density_estimate.py:442 is wrong
(`C70_zeta_counterexample`). The greatest ratio `rho / tau` there is that at `tau = 10 ^ 6`, the bound on `tau` in the regions of all large
value estimates, and it is close to `1`.
-/

namespace Expdb
namespace DerivedZD

open Rational SupRatio Mat Region ZeroDensity

variable {eng : Engine} {edges : Mat → List (Pt × Pt)} {solve : RF ℝ → RF ℝ → List ℝ} {isZero : Expr ℝ → Bool}
  {orderR : List (Region ℕ) → List (Region ℕ)} {orderK : List ℚ → List ℚ}

theorem IsBound.congr {x0 x1 : ℚ} {out : List (Rational.Piece ℝ)} {v w : ℝ → ℝ} (h : IsBound x0 x1 out v) (e : ∀ x, v x = w x) :
    IsBound x0 x1 out w := by
  obtain rfl : v = w := funext e
  exact h

/-- `C87_value_partial` where the second region gives `(10 ^ 6 + a + b sigma) / 10 ^ 6` and this is the greater value. -/
theorem derive2_high (C : Contracts eng edges solve isZero orderR orderK) (LB ZB : List (List (ℚ × ℚ × ℚ))) (lvs zlvs : List (Region ℕ))
    (hL : Covers lvs (LB.map (fun bs => (bs, 1)))) (hZ : Covers zlvs (ZB.map (fun bs => (bs, 1)))) (x0 x1 m c : ℚ) (hx : x0 < x1)
    (hx0 : 1 / 2 ≤ x0) (hx1 : x1 ≤ 1) (ht0 : 0 < m * x0 + c) (ht1 : 0 < m * x1 + c) (hm0 : m * x0 + c ≤ 3) (hm1 : m * x1 + c ≤ 3)
    (n1 u1 : ℚ → ℚ) (a b : ℚ) (hb : b < 0) (ha : a + b * x0 ≤ 0) (ha' : -100 ≤ a + b)
    (hu1 : ∀ s, x0 ≤ s → s < x1 → 0 < u1 s)
    (hd1 : ∀ s s', x0 ≤ s → s < s' → s' < x1 → n1 s' * u1 s < n1 s * u1 s')
    (hle : ∀ s, x0 ≤ s → s < x1 → n1 s * 1000000 ≤ (1000000 + a + b * s) * u1 s)
    (hatt1 : ∀ s, x0 ≤ s → s < x1 → ∃ t r, (2 / 3 * (m * s + c) ≤ t ∧ t ≤ m * s + c) ∧ (0 < r ∧ r ≤ 1000000) ∧ Under (l2 :: LB) s t r ∧
      r * u1 s = n1 s * t)
    (hatt2 : ∀ s, x0 ≤ s → s < x1 → Under (l2 :: LB ++ ZB) s 1000000 (1000000 + a + b * s))
    (hub1 : ∀ s t r, x0 ≤ s → s < x1 → 2 / 3 * (m * s + c) ≤ t → t ≤ m * s + c → 0 ≤ r → Under (l2 :: LB) s t r → r * u1 s ≤ n1 s * t)
    (hub2 : ∀ s t r, x0 ≤ s → s < x1 → 2 ≤ t → t ≤ 1000000 → 0 ≤ r → Under (l2 :: LB ++ ZB) s t r → r ≤ 1 ∨ r ≤ a + b * s + t) :
    ∃ out, proveZeroDensity2 eng edges solve isZero orderR lvs zlvs x0 x1 m c = .ok out ∧ IsBound x0 x1 out (fun x => 1 + (a + b * x) / 1000000) := by
  refine C87_value_partial C LB ZB lvs zlvs hL hZ x0 x1 m c hx hx0 hx1 ht0 ht1 (by linarith) (by linarith) n1 u1 (fun s => 1000000 + a + b * s) (fun _ => 1000000)
    (fun x => 1 + (a + b * x) / 1000000) hu1 (fun s _ _ => by norm_num) ?_ (fun x _ _ => by fun_prop) hd1 ?_ hatt1 ?_ hub1 ?_
  · intro s l1 l2
    rw [max_eq_right ((div_le_div_iff₀ (hu1 s l1 l2) (by norm_num)).mpr (hle s l1 l2))]
    push_cast
    ring
  · intro s s' k1 k2 k3
    have := mul_pos_of_neg_of_neg hb (show s - s' < 0 by linarith)
    linarith
  · intro s l1 l2
    have h1 : a + b * s ≤ 0 := by nlinarith
    have h2 : -100 ≤ a + b * s := by nlinarith
    exact ⟨1000000, 1000000 + a + b * s, ⟨by norm_num, le_rfl⟩, ⟨by linarith, by linarith⟩, hatt2 s l1 l2, by ring⟩
  · intro s t r l1 l2 t1 t2 r0 h
    have h1 : a + b * s ≤ 0 := by nlinarith
    have h2 : -100 ≤ a + b * s := by nlinarith
    rcases hub2 s t r l1 l2 t1 t2 r0 h with k | k
    · nlinarith
    · nlinarith

theorem under_nil (s t r : ℚ) : Under [] s t r := by intro cs hcs; simp at hcs

theorem under_cons {bs : List (ℚ × ℚ × ℚ)} {B : List (List (ℚ × ℚ × ℚ))} {s t r : ℚ} (h1 : ∃ b ∈ bs, r ≤ bval b s t) (h : Under B s t r) :
    Under (bs :: B) s t r := by
  intro cs hcs
  rcases List.mem_cons.mp hcs with rfl | hcs
  · exact h1
  · exact h cs hcs

theorem l2_under {B : List (List (ℚ × ℚ × ℚ))} {s t r : ℚ} (h : Under B s t r) (hm : l2 ∈ B) : r ≤ 2 - 2 * s ∨ r ≤ 1 - 2 * s + t := by
  obtain ⟨b, hb, hle⟩ := h _ hm
  simp only [l2, List.mem_cons, List.not_mem_nil, or_false] at hb
  rcases hb with rfl | rfl <;> unfold bval at hle
  · left; linarith
  · right; linarith

theorem jut_under {B : List (List (ℚ × ℚ × ℚ))} {s t r : ℚ} (h : Under B s t r) (hm : jut ∈ B) :
    r ≤ 2 - 2 * s ∨ r ≤ 10 / 3 - 16 / 3 * s + t ∨ r ≤ 18 - 24 * s + t := by
  obtain ⟨b, hb, hle⟩ := h _ hm
  simp only [jut, List.mem_cons, List.not_mem_nil, or_false] at hb
  rcases hb with rfl | rfl | rfl <;> unfold bval at hle
  · left; linarith
  · right; left; linarith
  · right; right; linarith

theorem hb_under {B : List (List (ℚ × ℚ × ℚ))} {s t r : ℚ} (h : Under B s t r) (hm : hb ∈ B) :
    r ≤ 2 - 2 * s ∨ r ≤ 10 - 13 * s + t := by
  obtain ⟨b, hb', hle⟩ := h _ hm
  simp only [hb, List.mem_cons, List.not_mem_nil, or_false] at hb'
  rcases hb' with rfl | rfl <;> unfold bval at hle
  · left; linarith
  · right; linarith

theorem gm_under {B : List (List (ℚ × ℚ × ℚ))} {s t r : ℚ} (h : Under B s t r) (hm : gm ∈ B) :
    r ≤ 2 - 2 * s ∨ r ≤ 18 / 5 - 4 * s ∨ r ≤ 12 / 5 - 4 * s + t := by
  obtain ⟨b, hb, hle⟩ := h _ hm
  simp only [gm, List.mem_cons, List.not_mem_nil, or_false] at hb
  rcases hb with rfl | rfl | rfl <;> unfold bval at hle
  · left; linarith
  · right; left; linarith
  · right; right; linarith

/-- **C87** (Ingham) `prove_zero_density_ingham_1940_v2` does not return `3 (1 - sigma) / (2 - sigma)`, as `prove_zero_density_ingham_1940`
does, but `1 + (1 - 2 sigma) / 10 ^ 6` on `[1/2, 3/4)`. -/
theorem C87_ingham_counterexample (C : Contracts eng edges solve isZero orderR orderK) :
    ∃ out, proveInghamV2 eng edges solve isZero orderR = .ok out ∧ IsBound (1 / 2) (3 / 4) out (fun x => 1 + (1 - 2 * x) / 1000000) := by
  have := derive2_high C [] [] [] [] covers_nil covers_nil (1 / 2) (3 / 4) (-1) 2 (by norm_num) (by norm_num) (by norm_num) (by norm_num)
    (by norm_num) (by norm_num) (by norm_num) (fun s => 3 * (1 - s)) (fun s => 2 - s) 1 (-2) (by norm_num) (by norm_num) (by norm_num)
    (fun s l1 l2 => by linarith) (fun s s' k1 k2 k3 => by nlinarith) (fun s l1 l2 => by nlinarith) ?_ ?_ ?_ ?_
  · obtain ⟨out, o1, o2⟩ := this
    exact ⟨out, o1, o2.congr (fun x => by push_cast; ring)⟩
  · intro s l1 l2
    refine ⟨2 - s, 3 * (1 - s), ⟨by linarith, by linarith⟩, ⟨by linarith, by linarith⟩, under_cons ?_ (under_nil _ _ _), by ring⟩
    exact ⟨(1, -2, 1), by simp [DerivedZD.l2], by unfold bval; linarith⟩
  · intro s l1 l2
    exact under_cons ⟨(1, -2, 1), by simp [DerivedZD.l2], by unfold bval; linarith⟩ (under_nil _ _ _)
  · intro s t r l1 l2 t1 t2 r0 h
    have p := mul_nonneg (show 0 ≤ 1 - s by linarith) (show 0 ≤ t - 2 / 3 * (-1 * s + 2) by linarith)
    have q := mul_nonneg (show 0 ≤ 2 * s - 1 by linarith) (show 0 ≤ -1 * s + 2 - t by linarith)
    rcases l2_under h (by simp) with h | h
    · nlinarith [mul_le_mul_of_nonneg_right h (show 0 ≤ 2 - s by linarith)]
    · nlinarith [mul_le_mul_of_nonneg_right h (show 0 ≤ 2 - s by linarith)]
  · intro s t r l1 l2 t1 t2 r0 h
    rcases l2_under h (by simp) with h | h
    · left; linarith
    · right; linarith

/-- The value at `3 / 5`. -/
example : ∃ eng edges solve isZero orderR, ∃ out, proveInghamV2 eng edges solve isZero orderR = .ok out ∧
    ∃ q ∈ out, q.fn.at (3 / 5) = (4999999 / 5000000 : ℝ) := by
  obtain ⟨eng, edges, solve, isZero, orderR, orderK, C⟩ := contracts_satisfiable
  obtain ⟨out, h1, h2⟩ := C87_ingham_counterexample C
  obtain ⟨q, q1, _, _, _, q5⟩ := h2 (3 / 5) (by norm_num) (by norm_num)
  exact ⟨eng, edges, solve, isZero, orderR, out, h1, q, q1, by rw [q5]; norm_num⟩

/-- **C87** (Jutila) `prove_zero_density_jutila_1977_v2` does not return `2 (1 - sigma)`, as `prove_zero_density_jutila_1977` does, but
`1 + (10/3 - 16/3 sigma) / 10 ^ 6` on `[11/14, 1)`. -/
theorem C87_jutila_counterexample (C : Contracts eng edges solve isZero orderR orderK) :
    ∃ out, proveJutilaV2 eng edges solve isZero orderR = .ok out ∧ IsBound (11 / 14) 1 out (fun x => 1 + (10 / 3 - 16 / 3 * x) / 1000000) := by
  obtain ⟨R, e1, e2⟩ := jut_of C
  have := derive2_high C [jut] [] [R] [] e2 covers_nil (11 / 14) 1 0 (3 / 2) (by norm_num) (by norm_num) (by norm_num) (by norm_num)
    (by norm_num) (by norm_num) (by norm_num) (fun s => 2 * (1 - s)) (fun s => 1) (10 / 3) (-(16 / 3)) (by norm_num) (by norm_num) (by norm_num)
    (fun s l1 l2 => by norm_num) (fun s s' k1 k2 k3 => by linarith) (fun s l1 l2 => by linarith) ?_ ?_ ?_ ?_
  · obtain ⟨out, o1, o2⟩ := this
    exact ⟨out, by unfold proveJutilaV2; rw [e1]; exact o1, o2.congr (fun x => by push_cast; ring)⟩
  · intro s l1 l2
    refine ⟨1, 2 * (1 - s), ⟨by linarith, by linarith⟩, ⟨by linarith, by linarith⟩, under_cons ?_ (under_cons ?_ (under_nil _ _ _)), by ring⟩
    · exact ⟨(2, -2, 0), by simp [DerivedZD.l2], by unfold bval; linarith⟩
    · exact ⟨(2, -2, 0), by simp [jut], by unfold bval; linarith⟩
  · intro s l1 l2
    exact under_cons ⟨(1, -2, 1), by simp [DerivedZD.l2], by unfold bval; linarith⟩
      (under_cons ⟨(10 / 3, -(16 / 3), 1), by simp [jut], by unfold bval; linarith⟩ (under_nil _ _ _))
  · intro s t r l1 l2 t1 t2 r0 h
    have p := mul_nonneg (show 0 ≤ 1 - s by linarith) (show 0 ≤ t - 1 by linarith)
    have q := mul_nonneg (show 0 ≤ 2 * s - 1 by linarith) (show 0 ≤ 3 / 2 - t by linarith)
    rcases jut_under h (by simp) with h | h | h <;> nlinarith
  · intro s t r l1 l2 t1 t2 r0 h
    rcases jut_under h (by simp) with h | h | h
    · left; linarith
    · right; linarith
    · right; linarith

/-- The value at `4 / 5`. -/
example : ∃ eng edges solve isZero orderR, ∃ out, proveJutilaV2 eng edges solve isZero orderR = .ok out ∧
    ∃ q ∈ out, q.fn.at (4 / 5) = (7499993 / 7500000 : ℝ) := by
  obtain ⟨eng, edges, solve, isZero, orderR, orderK, C⟩ := contracts_satisfiable
  obtain ⟨out, h1, h2⟩ := C87_jutila_counterexample C
  obtain ⟨q, q1, _, _, _, q5⟩ := h2 (4 / 5) (by norm_num) (by norm_num)
  exact ⟨eng, edges, solve, isZero, orderR, out, h1, q, q1, by rw [q5]; norm_num⟩

/-- **C87** (Heath-Brown, first estimate) `prove_zero_density_heathbrown_1979a_v2` does not return `9 (1 - sigma) / (7 sigma - 1)`, as
`prove_zero_density_heathbrown_1979a` does, but `1 + (10/3 - 16/3 sigma) / 10 ^ 6` on `[11/14, 1)`. -/
theorem C87_heathBrown_a_counterexample (C : Contracts eng edges solve isZero orderR orderK) :
    ∃ out, proveHB79aV2 eng edges solve isZero orderR = .ok out ∧ IsBound (11 / 14) 1 out (fun x => 1 + (10 / 3 - 16 / 3 * x) / 1000000) := by
  obtain ⟨R, e1, e2⟩ := jut_of C
  obtain ⟨Z, z1, z2⟩ := covers_of C tw (by simp [tw]) tw_staggered
  replace z1 : LargeValues.convertBounds eng.canon Literature.heathBrownTwelfth = .ok Z := z1
  have := derive2_high C [jut] [tw] [R] [Z] e2 z2 (11 / 14) 1 (7 / 3) (-(1 / 3)) (by norm_num) (by norm_num) (by norm_num) (by norm_num)
    (by norm_num) (by norm_num) (by norm_num) (fun s => 9 * (1 - s)) (fun s => 7 * s - 1) (10 / 3) (-(16 / 3)) (by norm_num) (by norm_num) (by norm_num)
    (fun s l1 l2 => by linarith) (fun s s' k1 k2 k3 => by nlinarith) (fun s l1 l2 => by nlinarith) ?_ ?_ ?_ ?_
  · obtain ⟨out, o1, o2⟩ := this
    exact ⟨out, by unfold proveHB79aV2; rw [e1, z1]; exact o1, o2.congr (fun x => by push_cast; ring)⟩
  · intro s l1 l2
    refine ⟨2 / 9 * (7 * s - 1), 2 * (1 - s), ⟨by linarith, by linarith⟩, ⟨by linarith, by linarith⟩, under_cons ?_ (under_cons ?_ (under_nil _ _ _)),
      by ring⟩
    · exact ⟨(2, -2, 0), by simp [DerivedZD.l2], by unfold bval; linarith⟩
    · exact ⟨(2, -2, 0), by simp [jut], by unfold bval; linarith⟩
  · intro s l1 l2
    exact under_cons ⟨(1, -2, 1), by simp [DerivedZD.l2], by unfold bval; linarith⟩
      (under_cons ⟨(10 / 3, -(16 / 3), 1), by simp [jut], by unfold bval; linarith⟩
        (under_cons ⟨(6, -12, 2), by simp [tw], by unfold bval; linarith⟩ (under_nil _ _ _)))
  · intro s t r l1 l2 t1 t2 r0 h
    have u0 : 0 ≤ 7 * s - 1 := by linarith
    rcases jut_under h (by simp) with h | h | h
    · nlinarith [mul_le_mul_of_nonneg_right h u0, mul_nonneg (show 0 ≤ 1 - s by linarith) (show 0 ≤ t - 2 / 9 * (7 * s - 1) by linarith)]
    · nlinarith [mul_le_mul_of_nonneg_right h u0, mul_nonneg (show 0 ≤ 16 * s - 10 by linarith) (show 0 ≤ (7 * s - 1) / 3 - t by linarith)]
    · nlinarith [mul_le_mul_of_nonneg_right h u0, mul_nonneg (show 0 ≤ 16 * s - 10 by linarith) (show 0 ≤ (7 * s - 1) / 3 - t by linarith),
        mul_nonneg (show 0 ≤ s - 11 / 14 by linarith) u0]
  · intro s t r l1 l2 t1 t2 r0 h
    rcases jut_under h (by simp) with h | h | h
    · left; linarith
    · right; linarith
    · right; linarith

/-- The value at `4 / 5`. -/
example : ∃ eng edges solve isZero orderR, ∃ out, proveHB79aV2 eng edges solve isZero orderR = .ok out ∧
    ∃ q ∈ out, q.fn.at (4 / 5) = (7499993 / 7500000 : ℝ) := by
  obtain ⟨eng, edges, solve, isZero, orderR, orderK, C⟩ := contracts_satisfiable
  obtain ⟨out, h1, h2⟩ := C87_heathBrown_a_counterexample C
  obtain ⟨q, q1, _, _, _, q5⟩ := h2 (4 / 5) (by norm_num) (by norm_num)
  exact ⟨eng, edges, solve, isZero, orderR, out, h1, q, q1, by rw [q5]; norm_num⟩

/-- **C87** (Heath-Brown, second estimate) `prove_zero_density_heathbrown_1979b_v2` does not return `3 (1 - sigma) / (10 sigma - 7)` on
`[20/23, 25/28)` and `4 (1 - sigma) / (4 sigma - 1)` on `[25/28, 1)`, as `prove_zero_density_heathbrown_1979b` does, but
`1 + (10 - 13 sigma) / 10 ^ 6` on both intervals. -/
theorem C87_heathBrown_b_counterexample (C : Contracts eng edges solve isZero orderR orderK) :
    ∃ a b, proveHB79bV2 eng edges solve isZero orderR = .ok (a, b) ∧
      IsBound (20 / 23) (25 / 28) a (fun x => 1 + (10 - 13 * x) / 1000000) ∧ IsBound (25 / 28) 1 b (fun x => 1 + (10 - 13 * x) / 1000000) := by
  obtain ⟨R, e1, e2⟩ := jut_of C
  obtain ⟨H, h1, h2⟩ := covers_of C hb (by simp [hb]) hb_staggered
  replace h1 : LargeValues.convertBounds eng.canon Literature.heathBrown = .ok H := h1
  obtain ⟨Z, z1, z2⟩ := covers_of C tw (by simp [tw]) tw_staggered
  replace z1 : LargeValues.convertBounds eng.canon Literature.heathBrownTwelfth = .ok Z := z1
  have e3 : Covers [R, H] [(jut, 1), (hb, 1)] := e2.append h2
  have high : ∀ s : ℚ, 20 / 23 ≤ s → s < 1 → Under (DerivedZD.l2 :: [jut, hb] ++ [tw]) s 1000000 (1000000 + 10 + -13 * s) := by
    intro s l1 l2
    exact under_cons ⟨(1, -2, 1), by simp [DerivedZD.l2], by unfold bval; linarith⟩
      (under_cons ⟨(10 / 3, -(16 / 3), 1), by simp [jut], by unfold bval; linarith⟩
        (under_cons ⟨(10, -13, 1), by simp [hb], by unfold bval; linarith⟩
          (under_cons ⟨(6, -12, 2), by simp [tw], by unfold bval; linarith⟩ (under_nil _ _ _))))
  have first := derive2_high C [jut, hb] [tw] [R, H] [Z] e3 z2 (20 / 23) (25 / 28) 10 (-7) (by norm_num) (by norm_num) (by norm_num) (by norm_num)
    (by norm_num) (by norm_num) (by norm_num) (fun s => 3 * (1 - s)) (fun s => 10 * s - 7) 10 (-13) (by norm_num) (by norm_num) (by norm_num)
    (fun s l1 l2 => by linarith) (fun s s' k1 k2 k3 => by nlinarith) (fun s l1 l2 => by nlinarith) ?_ (fun s l1 l2 => high s l1 (by linarith)) ?_ ?_
  have second := derive2_high C [jut, hb] [tw] [R, H] [Z] e3 z2 (25 / 28) 1 3 (-(3 / 4)) (by norm_num) (by norm_num) (by norm_num) (by norm_num)
    (by norm_num) (by norm_num) (by norm_num) (fun s => 4 * (1 - s)) (fun s => 4 * s - 1) 10 (-13) (by norm_num) (by norm_num) (by norm_num)
    (fun s l1 l2 => by linarith) (fun s s' k1 k2 k3 => by nlinarith) (fun s l1 l2 => by nlinarith) ?_ (fun s l1 l2 => high s (by linarith) l2) ?_ ?_
  · obtain ⟨a, a1, a2⟩ := first
    obtain ⟨b, b1, b2⟩ := second
    refine ⟨a, b, ?_, a2.congr (fun x => by push_cast; ring), b2.congr (fun x => by push_cast; ring)⟩
    unfold proveHB79bV2
    rw [e1, h1, z1]
    simp only [bind, Except.bind]
    rw [a1, b1]
    rfl
  · intro s l1 l2
    refine ⟨1 / 2 * (4 * s - 1), 2 * (1 - s), ⟨by linarith, by linarith⟩, ⟨by linarith, by linarith⟩,
      under_cons ?_ (under_cons ?_ (under_cons ?_ (under_nil _ _ _))), by ring⟩
    · exact ⟨(2, -2, 0), by simp [DerivedZD.l2], by unfold bval; linarith⟩
    · exact ⟨(2, -2, 0), by simp [jut], by unfold bval; linarith⟩
    · exact ⟨(2, -2, 0), by simp [hb], by unfold bval; linarith⟩
  · intro s t r l1 l2 t1 t2 r0 h
    have u0 : 0 ≤ 4 * s - 1 := by linarith
    rcases hb_under h (by simp) with h | h
    · nlinarith [mul_le_mul_of_nonneg_right h u0, mul_nonneg (show 0 ≤ 1 - s by linarith) (show 0 ≤ t - 1 / 2 * (4 * s - 1) by linarith)]
    · nlinarith [mul_le_mul_of_nonneg_right h u0, mul_nonneg (show 0 ≤ 8 * s - 5 by linarith) (show 0 ≤ 3 / 4 * (4 * s - 1) - t by linarith),
        mul_nonneg (show 0 ≤ s - 25 / 28 by linarith) u0]
  · intro s t r l1 l2 t1 t2 r0 h
    rcases hb_under h (by simp) with h | h
    · left; linarith
    · right; linarith
  · intro s l1 l2
    refine ⟨2 / 3 * (10 * s - 7), 2 * (1 - s), ⟨by linarith, by linarith⟩, ⟨by linarith, by linarith⟩,
      under_cons ?_ (under_cons ?_ (under_cons ?_ (under_nil _ _ _))), by ring⟩
    · exact ⟨(2, -2, 0), by simp [DerivedZD.l2], by unfold bval; linarith⟩
    · exact ⟨(2, -2, 0), by simp [jut], by unfold bval; linarith⟩
    · exact ⟨(2, -2, 0), by simp [hb], by unfold bval; linarith⟩
  · intro s t r l1 l2 t1 t2 r0 h
    have u0 : 0 ≤ 10 * s - 7 := by linarith
    rcases hb_under h (by simp) with h | h
    · nlinarith [mul_le_mul_of_nonneg_right h u0, mul_nonneg (show 0 ≤ 1 - s by linarith) (show 0 ≤ t - 2 / 3 * (10 * s - 7) by linarith)]
    · nlinarith [mul_le_mul_of_nonneg_right h u0, mul_nonneg (show 0 ≤ 13 * s - 10 by linarith) (show 0 ≤ 10 * s - 7 - t by linarith)]
  · intro s t r l1 l2 t1 t2 r0 h
    rcases hb_under h (by simp) with h | h
    · left; linarith
    · right; linarith

/-- The values at `7 / 8` and `9 / 10`. -/
example : ∃ eng edges solve isZero orderR, ∃ a b, proveHB79bV2 eng edges solve isZero orderR = .ok (a, b) ∧
    (∃ q ∈ a, q.fn.at (7 / 8) = (7999989 / 8000000 : ℝ)) ∧ ∃ q ∈ b, q.fn.at (9 / 10) = (9999983 / 10000000 : ℝ) := by
  obtain ⟨eng, edges, solve, isZero, orderR, orderK, C⟩ := contracts_satisfiable
  obtain ⟨a, b, h1, h2, h3⟩ := C87_heathBrown_b_counterexample C
  obtain ⟨q, q1, _, _, _, q5⟩ := h2 (7 / 8) (by norm_num) (by norm_num)
  obtain ⟨p, p1, _, _, _, p5⟩ := h3 (9 / 10) (by norm_num) (by norm_num)
  exact ⟨eng, edges, solve, isZero, orderR, a, b, h1, ⟨q, q1, by rw [q5]; norm_num⟩, p, p1, by rw [p5]; norm_num⟩

/-- **C87** (Guth and Maynard) `prove_zero_density_guth_maynard_2024_v2` does not return `15 (1 - sigma) / (5 sigma + 3)`, as
`prove_zero_density_guth_maynard_2024` does, but `1 + (12/5 - 4 sigma) / 10 ^ 6` on `[7/10, 9/10)`. -/
theorem C87_guthMaynard_counterexample (C : Contracts eng edges solve isZero orderR orderK) :
    ∃ out, proveGuthMaynardV2 eng edges solve isZero orderR = .ok out ∧
      IsBound (7 / 10) (9 / 10) out (fun x => 1 + (12 / 5 - 4 * x) / 1000000) := by
  obtain ⟨G, g1, g2⟩ := covers_of C gm (by simp [gm]) gm_staggered
  replace g1 : LargeValues.convertBounds eng.canon Literature.guthMaynard = .ok G := g1
  have := derive2_high C [gm] [] [G] [] g2 covers_nil (7 / 10) (9 / 10) 1 (3 / 5) (by norm_num) (by norm_num) (by norm_num) (by norm_num)
    (by norm_num) (by norm_num) (by norm_num) (fun s => 15 * (1 - s)) (fun s => 5 * s + 3) (12 / 5) (-4) (by norm_num) (by norm_num) (by norm_num)
    (fun s l1 l2 => by linarith) (fun s s' k1 k2 k3 => by nlinarith) (fun s l1 l2 => by nlinarith) ?_ ?_ ?_ ?_
  · obtain ⟨out, o1, o2⟩ := this
    exact ⟨out, by unfold proveGuthMaynardV2; rw [g1]; exact o1, o2.congr (fun x => by push_cast; ring)⟩
  · intro s l1 l2
    refine ⟨2 / 3 * (s + 3 / 5), 2 * (1 - s), ⟨by linarith, by linarith⟩, ⟨by linarith, by linarith⟩, under_cons ?_ (under_cons ?_ (under_nil _ _ _)),
      by ring⟩
    · exact ⟨(2, -2, 0), by simp [DerivedZD.l2], by unfold bval; linarith⟩
    · exact ⟨(2, -2, 0), by simp [gm], by unfold bval; linarith⟩
  · intro s l1 l2
    exact under_cons ⟨(1, -2, 1), by simp [DerivedZD.l2], by unfold bval; linarith⟩
      (under_cons ⟨(12 / 5, -4, 1), by simp [gm], by unfold bval; linarith⟩ (under_nil _ _ _))
  · intro s t r l1 l2 t1 t2 r0 h
    have u0 : 0 ≤ 5 * s + 3 := by linarith
    have first : r ≤ 2 - 2 * s → r * (5 * s + 3) ≤ 15 * (1 - s) * t := by
      intro h
      nlinarith [mul_le_mul_of_nonneg_right h u0, mul_nonneg (show 0 ≤ 1 - s by linarith) (show 0 ≤ t - 2 / 3 * (s + 3 / 5) by linarith)]
    rcases gm_under h (by simp) with k | k | k
    · exact first k
    · rcases l2_under h (by simp) with h' | h'
      · exact first h'
      · have e1 := mul_le_mul_of_nonneg_left k (show 0 ≤ 20 * s - 12 by linarith)
        have e2 := mul_le_mul_of_nonneg_left h' (show 0 ≤ 15 * (1 - s) by linarith)
        have q : 0 ≤ 50 * s ^ 2 - 75 * s + 141 / 5 := by nlinarith [sq_nonneg (s - 3 / 4)]
        nlinarith
    · nlinarith [mul_le_mul_of_nonneg_right k u0, mul_nonneg (show 0 ≤ 20 * s - 12 by linarith) (show 0 ≤ s + 3 / 5 - t by linarith)]
  · intro s t r l1 l2 t1 t2 r0 h
    rcases gm_under h (by simp) with h | h | h
    · left; linarith
    · left; linarith
    · right; linarith

/-- The value at `3 / 4`. -/
example : ∃ eng edges solve isZero orderR, ∃ out, proveGuthMaynardV2 eng edges solve isZero orderR = .ok out ∧
    ∃ q ∈ out, q.fn.at (3 / 4) = (4999997 / 5000000 : ℝ) := by
  obtain ⟨eng, edges, solve, isZero, orderR, orderK, C⟩ := contracts_satisfiable
  obtain ⟨out, h1, h2⟩ := C87_guthMaynard_counterexample C
  obtain ⟨q, q1, _, _, _, q5⟩ := h2 (3 / 4) (by norm_num) (by norm_num)
  exact ⟨eng, edges, solve, isZero, orderR, out, h1, q, q1, by rw [q5]; norm_num⟩

end DerivedZD
end Expdb
