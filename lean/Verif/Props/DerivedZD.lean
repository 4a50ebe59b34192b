import Verif.Props.ZeroDensity
import Verif.Model.DerivedZD

/-!
# Suprema over regions given by lists of bounds

If all bounds decrease in `sigma`, the supremum of `rho / tau` is strictly decreasing. Then no function which is returned has a
common zero of numerator and denominator, and the hypothesis of C66 on poles is not needed.
-/

namespace Expdb
namespace DerivedZD

open Rational SupRatio Mat Region ZeroDensity

theorem noCommonZero_of_decreasing {edges : Mat → List (Pt × Pt)} {x0 x1 : ℚ} {incL incU : Bool} {ms : List Mat}
    {o : List (Rational.Piece ℝ)} {A : Pt → Prop} (g : SupOut edges ⟨x0, x1, incL, incU⟩ ms o) (hc : Chain x0 x1 o)
    (a3 : ∀ s t r, RightLimit A s t r → ((r / t : ℚ) : ℝ) ∈ Ratios ms s)
    (a4 : ∀ s, ∀ v ∈ Ratios ms s, ∃ t r, A [s, t, r] ∧ v = ((r / t : ℚ) : ℝ))
    (hdec : ∀ s s' t r, x0 ≤ s → s < s' → s' < x1 → A [s', t, r] → ∃ t' r', RightLimit A s t' r' ∧ r / t < r' / t')
    (hpos : ∀ s, x0 ≤ s → s < x1 → ∃ t r, RightLimit A s t r ∧ 0 ≤ r / t) :
    ∀ p ∈ o, ∀ x, (x0 : ℝ) ≤ x → x < x1 → p.fn.NoCommonZero x := by
  intro p hp x _ _
  rcases g.fns p hp with k | ⟨m, hm, s1, t1, r1, s2, t2, r2, he, hne, k⟩
  · rw [k]; exact .inl (default_def _ _)
  by_contra hcz
  unfold RF.NoCommonZero RF.Def at hcz
  push Not at hcz
  obtain ⟨z1, z2⟩ := hcz
  have hd : (s1 : ℝ) - s2 ≠ 0 := sub_ne_zero.mpr (by exact_mod_cast hne)
  have hconst : ∀ y : ℝ, p.dom.x0 ≤ y → y < p.dom.x1 → p.fn.at y = (r1 - r2) / (t1 - t2) := by
    intro y l1 l2
    have hdef := g.args p hp y l1 l2
    unfold RF.Def at hdef
    simp only [k] at hdef z1 z2 ⊢
    unfold RF.at
    rw [(quotient_values s1 t1 r1 s2 t2 r2 hne x).2, div_eq_zero_iff, or_iff_left hd] at z1
    rw [(quotient_values s1 t1 r1 s2 t2 r2 hne x).1, div_eq_zero_iff, or_iff_left hd] at z2
    rw [(quotient_values s1 t1 r1 s2 t2 r2 hne y).2] at hdef ⊢
    rw [(quotient_values s1 t1 r1 s2 t2 r2 hne y).1]
    have e1 : (t1 : ℝ) * (y - s2) - t2 * (y - s1) = (t1 - t2) * (y - x) := by linarith
    have e2 : (r1 : ℝ) * (y - s2) - r2 * (y - s1) = (r1 - r2) * (y - x) := by linarith
    rw [e1] at hdef ⊢
    rw [e2]
    have h3 : (t1 : ℝ) - t2 ≠ 0 ∧ y - x ≠ 0 := by
      constructor <;> intro h <;> exact hdef (by rw [h]; simp)
    rw [div_div_div_cancel_right₀ hd]
    exact mul_div_mul_right _ _ h3.2
  obtain ⟨c1, c2, c3⟩ := hc.lt p hp
  obtain ⟨s', u1, u2⟩ := exists_rat_btwn c1
  obtain ⟨s, v1, v2⟩ := exists_rat_btwn u1
  have hss : s < s' := by exact_mod_cast v2
  have hx0 : x0 ≤ s := by exact_mod_cast (c2.trans v1.le)
  have hx1 : s' < x1 := by exact_mod_cast (u2.trans_le c3)
  have low : ∀ y : ℚ, x0 ≤ y → y < x1 → p.dom.x0 ≤ y → y < p.dom.x1 → ∀ v ∈ Ratios ms y, v ≤ p.fn.at y := by
    intro y l1 l2 l3 l4 v hv
    obtain ⟨q, q1, q2, q3, q4⟩ := g.le y (by simpa using l1) (by simpa using l2) v hv
    obtain ⟨w, _, _, _, w4⟩ := hc.exists_unique (y : ℝ) (by exact_mod_cast l1) (by exact_mod_cast l2)
    rw [w4 p hp l3 l4, ← w4 q q1 q2 q3]
    exact q4
  obtain ⟨t0, r0, k1, k2⟩ := hpos s' (hx0.trans hss.le) hx1
  have h0 : (0 : ℝ) ≤ p.fn.at s' :=
    le_trans (by exact_mod_cast k2) (low s' (hx0.trans hss.le) hx1 u1.le u2 _ (a3 _ _ _ k1))
  have hv := g.val s' (by simpa using hx0.trans hss.le) (by simpa using hx1) p hp u1.le u2
  rcases hv with hv | hv
  · linarith
  obtain ⟨t, r, d1, d2⟩ := a4 s' _ hv
  obtain ⟨t', r', d3, d4⟩ := hdec s s' t r hx0 hss hx1 d1
  have h5 := low s hx0 (hss.trans hx1) v1.le (v2.trans u2) _ (a3 _ _ _ d3)
  rw [hconst s v1.le (v2.trans u2)] at h5
  rw [hconst s' u1.le u2] at d2
  rw [d2] at h5
  have h6 : r' / t' ≤ r / t := by exact_mod_cast h5
  linarith

/-! ### Sets given by lists of bounds -/

/-- The bound `b` at `(s, t)`. -/
def bval (b : ℚ × ℚ × ℚ) (s t : ℚ) : ℚ := b.1 + b.2.1 * s + b.2.2 * t

/-- For each list of bounds, `r` is at most the maximum of the bounds at `(s, t)`. -/
def Under (B : List (List (ℚ × ℚ × ℚ))) (s t r : ℚ) : Prop := ∀ bs ∈ B, ∃ b ∈ bs, r ≤ bval b s t

/-- The triples of the set `A` are those in the box with `rho` under the bounds `B`. -/
def Given (A : Pt → Prop) (x0 x1 a b : ℚ) (B : List (List (ℚ × ℚ × ℚ))) : Prop :=
  ∀ s t r, A [s, t, r] ↔ (x0 ≤ s ∧ s ≤ x1) ∧ (a ≤ t ∧ t ≤ b) ∧ (0 ≤ r ∧ r ≤ 1000000) ∧ Under B s t r

theorem slopes (B : List (List (ℚ × ℚ × ℚ))) : ∃ M : ℚ, 1 ≤ M ∧ ∀ bs ∈ B, ∀ b ∈ bs, |b.2.1| ≤ M ∧ |b.2.2| ≤ M := by
  have key : ∀ l : List (ℚ × ℚ × ℚ), ∃ M : ℚ, 1 ≤ M ∧ ∀ b ∈ l, |b.2.1| ≤ M ∧ |b.2.2| ≤ M := by
    intro l
    induction l with
    | nil => exact ⟨1, le_refl _, by simp⟩
    | cons c l ih =>
      obtain ⟨M, h1, h2⟩ := ih
      refine ⟨M + |c.2.1| + |c.2.2|, by linarith [abs_nonneg c.2.1, abs_nonneg c.2.2], fun b hb => ?_⟩
      rcases List.mem_cons.mp hb with rfl | hb
      · constructor <;> linarith [abs_nonneg b.2.1, abs_nonneg b.2.2]
      · constructor <;> linarith [h2 b hb, abs_nonneg c.2.1, abs_nonneg c.2.2]
  obtain ⟨M, h1, h2⟩ := key B.flatten
  exact ⟨M, h1, fun bs hbs b hb => h2 b (List.mem_flatten.mpr ⟨bs, hbs, hb⟩)⟩

theorem least_slope (B : List (List (ℚ × ℚ × ℚ))) (h : ∀ bs ∈ B, ∀ b ∈ bs, b.2.1 < 0) :
    ∃ c : ℚ, 0 < c ∧ ∀ bs ∈ B, ∀ b ∈ bs, b.2.1 ≤ -c := by
  have key : ∀ l : List (ℚ × ℚ × ℚ), (∀ b ∈ l, b.2.1 < 0) → ∃ c : ℚ, 0 < c ∧ ∀ b ∈ l, b.2.1 ≤ -c := by
    intro l
    induction l with
    | nil => exact fun _ => ⟨1, by norm_num, by simp⟩
    | cons d l ih =>
      intro h
      obtain ⟨c, h1, h2⟩ := ih (fun b hb => h b (by simp [hb]))
      have hd := h d (by simp)
      refine ⟨min c (-d.2.1), lt_min h1 (by linarith), fun b hb => ?_⟩
      rcases List.mem_cons.mp hb with rfl | hb
      · linarith [min_le_right c (-b.2.1)]
      · linarith [h2 b hb, min_le_left c (-d.2.1)]
  obtain ⟨c, h1, h2⟩ := key B.flatten (fun b hb => by
    obtain ⟨bs, k1, k2⟩ := List.mem_flatten.mp hb
    exact h bs k1 b k2)
  exact ⟨c, h1, fun bs hbs b hb => h2 b (List.mem_flatten.mpr ⟨bs, hbs, hb⟩)⟩

/-- Points with `rho > 0` that are not at the right end are limits from the right of interior points. -/
theorem rightLimit_of_mem {A : Pt → Prop} {x0 x1 a b : ℚ} {B : List (List (ℚ × ℚ × ℚ))} (hA : Given A x0 x1 a b B) (hab : a < b)
    {s t r : ℚ} (h : A [s, t, r]) (hr : 0 < r) (hs : s < x1) : RightLimit A s t r := by
  obtain ⟨⟨h1, _⟩, ⟨h3, h4⟩, ⟨_, h6⟩, h7⟩ := (hA s t r).mp h
  obtain ⟨M, m1, m2⟩ := slopes B
  intro ε hε
  have hM : 0 < 8 * M := by linarith
  obtain ⟨η, e0, e1, e2, e3, e4⟩ : ∃ η : ℚ, 0 < η ∧ η * (8 * M) ≤ ε ∧ η * (8 * M) ≤ r ∧ η ≤ (x1 - s) / 2 ∧ η ≤ (b - a) / 4 := by
    refine ⟨min (min (ε / (8 * M)) (r / (8 * M))) (min ((x1 - s) / 2) ((b - a) / 4)), ?_, ?_, ?_, ?_, ?_⟩
    · exact lt_min (lt_min (by positivity) (by positivity)) (lt_min (by linarith) (by linarith))
    · rw [← le_div_iff₀ hM]; exact (min_le_left _ _).trans (min_le_left _ _)
    · rw [← le_div_iff₀ hM]; exact (min_le_left _ _).trans (min_le_right _ _)
    · exact (min_le_right _ _).trans (min_le_left _ _)
    · exact (min_le_right _ _).trans (min_le_right _ _)
  have eM : η ≤ η * M := by nlinarith
  obtain ⟨t', f1, f2, f3⟩ : ∃ t' : ℚ, |t' - t| ≤ η ∧ a + η ≤ t' ∧ t' + η ≤ b := by
    rcases le_total t ((a + b) / 2) with hle | hle
    · exact ⟨t + η, by rw [add_sub_cancel_left, abs_of_pos e0], by linarith, by linarith⟩
    · exact ⟨t - η, by rw [sub_sub_cancel_left, abs_neg, abs_of_pos e0], by linarith, by linarith⟩
  refine ⟨s + η, t', r - 6 * (η * M), ?_, by linarith, η / 2, by linarith, ?_⟩
  · refine .cons ?_ (.cons ?_ (.cons ?_ .nil))
    · rw [add_sub_cancel_left, abs_of_pos e0]; linarith
    · linarith
    · rw [sub_sub_cancel_left, abs_neg, abs_of_pos (by linarith)]; linarith
  · intro z hz
    obtain _ | ⟨n1, hz⟩ := hz
    obtain _ | ⟨n2, hz⟩ := hz
    obtain _ | ⟨n3, hz⟩ := hz
    cases hz
    rename_i u v w
    rw [abs_lt] at n1 n2 n3
    rw [abs_le] at f1
    refine (hA _ _ _).mpr ⟨⟨by linarith, by linarith⟩, ⟨by linarith, by linarith⟩, ⟨by linarith, by linarith⟩, ?_⟩
    intro bs hbs
    obtain ⟨c, hc, hle⟩ := h7 bs hbs
    refine ⟨c, hc, ?_⟩
    obtain ⟨g1, g2⟩ := m2 bs hbs c hc
    unfold bval at hle ⊢
    have k1 : |c.2.1 * (u - s)| ≤ M * (2 * η) := by
      rw [abs_mul]
      exact mul_le_mul g1 (abs_le.mpr ⟨by linarith, by linarith⟩) (abs_nonneg _) (by linarith)
    have k2 : |c.2.2 * (v - t)| ≤ M * (2 * η) := by
      rw [abs_mul]
      exact mul_le_mul g2 (abs_le.mpr ⟨by linarith, by linarith⟩) (abs_nonneg _) (by linarith)
    rw [abs_le] at k1 k2
    nlinarith

/-- If all bounds decrease in `sigma`, a point to the right leaves room above. -/
theorem higher_of_mem {A : Pt → Prop} {x0 x1 a b : ℚ} {B : List (List (ℚ × ℚ × ℚ))} (hA : Given A x0 x1 a b B) (hab : a < b) (ha : 0 < a)
    (hneg : ∀ bs ∈ B, ∀ c ∈ bs, c.2.1 < 0) (hcap : ∀ s t r, A [s, t, r] → r ≤ 999999) (s s' t r : ℚ) (h0 : x0 ≤ s) (h1 : s < s')
    (h2 : s' < x1) (h : A [s', t, r]) : ∃ t' r', RightLimit A s t' r' ∧ r / t < r' / t' := by
  obtain ⟨c, c1, c2⟩ := least_slope B hneg
  have hr := hcap _ _ _ h
  obtain ⟨_, ⟨h3, h4⟩, ⟨h5, _⟩, h7⟩ := (hA s' t r).mp h
  have hd : 0 < min (c * (s' - s)) 1 := lt_min (mul_pos c1 (by linarith)) (by norm_num)
  have hmem : A [s, t, r + min (c * (s' - s)) 1] := by
    refine (hA _ _ _).mpr ⟨⟨h0, by linarith⟩, ⟨h3, h4⟩, ⟨by linarith, by linarith [min_le_right (c * (s' - s)) 1]⟩, ?_⟩
    intro bs hbs
    obtain ⟨d, hd, hle⟩ := h7 bs hbs
    refine ⟨d, hd, ?_⟩
    unfold bval at hle ⊢
    have := c2 bs hbs d hd
    nlinarith [min_le_left (c * (s' - s)) 1]
  refine ⟨t, _, rightLimit_of_mem hA hab hmem (by linarith) (by linarith), ?_⟩
  rw [div_lt_div_iff_of_pos_right (by linarith)]
  linarith

/-- Somewhere above `s` all maxima are positive. -/
theorem some_of_pos {A : Pt → Prop} {x0 x1 a b : ℚ} {B : List (List (ℚ × ℚ × ℚ))} (hA : Given A x0 x1 a b B) (hab : a < b) (ha : 0 < a)
    {s t : ℚ} (h0 : x0 ≤ s) (h1 : s < x1) (h2 : a ≤ t) (h3 : t ≤ b) (hp : ∀ bs ∈ B, ∃ c ∈ bs, 0 < bval c s t) :
    ∃ t r, RightLimit A s t r ∧ 0 ≤ r / t := by
  obtain ⟨e, e1, e2⟩ : ∃ e : ℚ, 0 < e ∧ ∀ bs ∈ B, ∃ c ∈ bs, e ≤ bval c s t := by
    clear hA
    induction B with
    | nil => exact ⟨1, by norm_num, by simp⟩
    | cons bs B ih =>
      obtain ⟨e, e1, e2⟩ := ih (fun bs hbs => hp bs (by simp [hbs]))
      obtain ⟨c, c1, c2⟩ := hp bs (by simp)
      refine ⟨min e (bval c s t), lt_min e1 c2, fun bs' hbs => ?_⟩
      rcases List.mem_cons.mp hbs with rfl | hbs
      · exact ⟨c, c1, min_le_right _ _⟩
      · obtain ⟨d, d1, d2⟩ := e2 bs' hbs
        exact ⟨d, d1, (min_le_left _ _).trans d2⟩
  have hr : 0 < min e 1 := lt_min e1 (by norm_num)
  refine ⟨t, min e 1, rightLimit_of_mem hA hab ?_ hr h1, div_nonneg hr.le (by linarith)⟩
  refine (hA _ _ _).mpr ⟨⟨h0, by linarith⟩, ⟨h2, h3⟩, ⟨hr.le, by linarith [min_le_right e 1]⟩, fun bs hbs => ?_⟩
  obtain ⟨c, c1, c2⟩ := e2 bs hbs
  exact ⟨c, c1, (min_le_left _ _).trans c2⟩

/-- The values `rho / tau` of the triples of either set above `s`. -/
def RatioSet (A1 A2 : Pt → Prop) (s : ℚ) : Set ℝ := {v | ∃ t r, (A1 [s, t, r] ∨ A2 [s, t, r]) ∧ v = ((r / t : ℚ) : ℝ)}

theorem greatest_of_valueAt {A1 A2 : Pt → Prop} {x0 x1 a1 b1 a2 b2 : ℚ} {B1 B2 : List (List (ℚ × ℚ × ℚ))}
    (hA1 : Given A1 x0 x1 a1 b1 B1) (hA2 : Given A2 x0 x1 a2 b2 B2) (h1 : a1 < b1) (h2 : a2 < b2) {s : ℚ} (l2 : s < x1)
    (hpos : ∃ t r, (RightLimit A1 s t r ∨ RightLimit A2 s t r) ∧ 0 ≤ r / t) {v : ℝ} (h : ValueAt A1 A2 s v) :
    IsGreatest (RatioSet A1 A2 s) v := by
  obtain ⟨t0, r0, k1, k2⟩ := hpos
  have hv : 0 ≤ v := le_trans (by exact_mod_cast k2) (h.1 t0 r0 k1)
  refine ⟨?_, ?_⟩
  · rcases h.2 with h | h
    · linarith
    · exact h
  · rintro u ⟨t, r, hA, rfl⟩
    have hr : 0 ≤ r := by
      rcases hA with hA | hA
      · exact ((hA1 _ _ _).mp hA).2.2.1.1
      · exact ((hA2 _ _ _).mp hA).2.2.1.1
    rcases hr.eq_or_lt with rfl | hr
    · simpa using hv
    · refine h.1 t r ?_
      rcases hA with hA | hA
      · exact .inl (rightLimit_of_mem hA1 h1 hA hr l2)
      · exact .inr (rightLimit_of_mem hA2 h2 hA hr l2)

/-! ### The regions made from lists of bounds have interior points -/

/-- Each bound is, somewhere inside the box, above all bounds before it (those in `pre` and those earlier in the list). -/
def Staggered (pre : List (ℚ × ℚ × ℚ)) : List (ℚ × ℚ × ℚ) → Prop
  | [] => True
  | b :: bs => (∃ s t r, 1 / 2 < s ∧ s < 1 ∧ 0 < t ∧ t < 1000000 ∧ 0 < r ∧ r < 1000000 ∧ r < bval b s t ∧
      ∀ c ∈ pre, bval c s t < r) ∧ Staggered (pre ++ [b]) bs

/-- The region with the polytopes `ms`. -/
def unionOf (ms : List Mat) : Region ℕ := .disjoint (ms.map (fun m => .polytope m none))

theorem unionOf_mem (ms : List Mat) (x : Pt) : (unionOf ms).Mem x ↔ ∃ m ∈ ms, m.Contains x := by
  unfold unionOf Mem
  rw [memAny_iff]
  constructor
  · rintro ⟨r, hr, hx⟩
    obtain ⟨p, hp, rfl⟩ := List.mem_map.mp hr
    unfold Mem at hx
    exact ⟨p, hp, hx⟩
  · rintro ⟨p, hp, hx⟩
    exact ⟨_, List.mem_map.mpr ⟨p, hp, rfl⟩, by unfold Mem; exact hx⟩

theorem unionOf_leaves (ms : List Mat) : (unionOf ms).leaves = ms := by
  unfold unionOf
  rw [leaves]
  induction ms with
  | nil => rfl
  | cons m ms ih => simp [leavesList, leaves, ih]

theorem unionOf_plain (ms : List Mat) : Plain false (unionOf ms) := by
  unfold unionOf
  rw [Plain, plainList_iff]
  intro r hr
  obtain ⟨m, _, rfl⟩ := List.mem_map.mp hr
  simp [Plain]

/-- The row of the bound `b`. -/
def bRow (b : ℚ × ℚ × ℚ) : Row := LargeValues.rowOf [b.1, b.2.1, b.2.2, -1]

theorem rowOf_strict4 (a b c d x y z : ℚ) : (LargeValues.rowOf [a, b, c, d]).Strict [x, y, z] ↔ 0 < a + b * x + c * y + d * z := by
  simp only [LargeValues.rowOf, Row.Strict, dot, true_and]
  have e : a + (b * x + (c * y + (d * z + 0))) = a + b * x + c * y + d * z := by ring
  rw [e]

theorem lvBox_length : ∀ r ∈ LargeValues.lvBox, r.cs.length = 3 := by
  intro r hr
  unfold LargeValues.lvBox at hr
  simp only [List.mem_cons, List.not_mem_nil, or_false] at hr
  rcases hr with rfl | rfl | rfl | rfl | rfl | rfl <;> rfl

theorem loop_full {canon : Mat → Mat} (hc : CanonSpec canon) (hz : CanonNoZero canon) (bs pre : List (ℚ × ℚ × ℚ))
    (h : Staggered pre bs) : ∃ ms : List Mat, halfplaneLoop (L := ℕ) canon LargeValues.lvBox (pre.map (fun b => (bRow b).negIneq)) (bs.map bRow) =
      .ok (ms.map (fun m => .polytope m none)) ∧ ∀ m ∈ ms, FullDim 4 m := by
  induction bs generalizing pre with
  | nil => exact ⟨[], rfl, by simp⟩
  | cons b bs ih =>
    obtain ⟨⟨s, t, r, k1, k2, k3, k4, k5, k6, k7, k8⟩, h⟩ := h
    obtain ⟨ms, e1, e2⟩ := ih _ h
    have hlen : ∀ q ∈ LargeValues.lvBox ++ [bRow b] ++ pre.map (fun b => (bRow b).negIneq), q.cs.length = 3 := by
      intro q hq
      simp only [List.mem_append, List.mem_singleton, List.mem_map] at hq
      rcases hq with (hq | rfl) | ⟨c, _, rfl⟩
      · exact lvBox_length q hq
      · rfl
      · rfl
    obtain ⟨m, h1, h2, h3, h4, h5⟩ := ofConstraints_exact _ 3 hlen
      ⟨LargeValues.rowOf [-(1 / 2), 1, 0, 0], by simp [LargeValues.lvBox], by decide +kernel⟩
    obtain ⟨c1, c2, c3⟩ := hc m h3
    refine ⟨canon m :: ms, ?_, ?_⟩
    · rw [List.map_append] at e1
      simp only [List.map_cons]
      unfold halfplaneLoop
      rw [h1]
      simp only [bind, Except.bind]
      rw [show [(bRow b).negIneq] = [b].map (fun b => (bRow b).negIneq) from rfl, e1]
      rfl
    · intro p hp
      rcases List.mem_cons.mp hp with rfl | hp
      · refine ⟨c2, by rw [c1, h2], hz m h3 h4, ⟨1000000, ?_⟩, ⟨[s, t, r], rfl, ?_⟩⟩
        · intro x hx
          have hl := contains_length hx
          rw [contains_iff_holds _ _ hl, c3 x (by rw [hl, c1]), h5] at hx
          rw [c1, h2] at hl
          match x, hl with
          | [u, v, w], _ =>
            obtain ⟨b1, b2, b3, b4, b5, b6⟩ := (LargeValues.lvBox_holds u v w).mp (fun q hq => hx q (by simp [hq]))
            intro c hc
            simp only [List.mem_cons, List.not_mem_nil, or_false] at hc
            rcases hc with rfl | rfl | rfl <;> rw [abs_le] <;> constructor <;> linarith
        · rw [interior_congr 4 (m' := ⟨4, LargeValues.lvBox ++ [bRow b] ++ pre.map (fun b => (bRow b).negIneq)⟩) (fun x hx => by
            rw [c3 x (by rw [h2]; exact hx), h5]; rfl) _ rfl]
          apply Strict.interior
          intro q hq
          simp only [List.mem_append, List.mem_singleton, List.mem_map] at hq
          rcases hq with (hq | rfl) | ⟨c, hc, rfl⟩
          · unfold LargeValues.lvBox LargeValues.tauLimit LargeValues.lvLimit at hq
            simp only [List.mem_cons, List.not_mem_nil, or_false] at hq
            rcases hq with rfl | rfl | rfl | rfl | rfl | rfl <;> rw [rowOf_strict4] <;> linarith
          · unfold bRow
            rw [rowOf_strict4]
            unfold bval at k7
            linarith
          · have := k8 c hc
            rw [Row.negIneq_strict]
            unfold bval at this
            simp only [bRow, LargeValues.rowOf, dot]
            linarith
      · exact e2 p hp

/-- The region of a staggered list of bounds. -/
theorem convert_full {canon : Mat → Mat} (hc : CanonSpec canon) (hz : CanonNoZero canon) (bs : List (ℚ × ℚ × ℚ)) (hne : bs ≠ [])
    (h : Staggered [] bs) : ∃ ms, LargeValues.convertBounds (L := ℕ) canon (bs.map (fun b => [b.1, b.2.1, b.2.2])) = .ok (unionOf ms) ∧
      (∀ m ∈ ms, FullDim 4 m) ∧
      ∀ s t r, (unionOf ms).Mem [s, t, r] ↔ LargeValues.InBox s t r ∧ ∃ b ∈ bs, r ≤ bval b s t := by
  obtain ⟨ms, h1, h2⟩ := loop_full hc hz bs [] h
  obtain ⟨r, h3, h4⟩ := LargeValues.C38_convertBounds (L := ℕ) canon hc bs hne
  have e : r = unionOf ms := by
    unfold LargeValues.convertBounds fromHalfplanes at h3
    rw [List.map_map, show (fun b => LargeValues.rowOf (b ++ [-1])) ∘ (fun b : ℚ × ℚ × ℚ => [b.1, b.2.1, b.2.2]) = bRow from rfl] at h3
    rw [List.map_nil] at h1
    rw [h1] at h3
    simp only [bind, Except.bind, pure, Except.pure, List.map_eq_nil_iff, hne, if_false] at h3
    exact (Except.ok.inj h3).symm
  subst e
  refine ⟨ms, h3, h2, fun s t r => ?_⟩
  refine Iff.trans ?_ (h4 s t r)
  rw [contains_iff_mem]
  · rw [allMat_iff_leaves, unionOf_leaves]
    intro m hm
    rw [(h2 m hm).cols]
    rfl

/-- Scaling keeps interior points. -/
theorem scale_full {m : Mat} (h : FullDim 4 m) (k : ℚ) (hk : 0 < k) : ∃ m', m.scaleAll [1, k, k] = .ok m' ∧ FullDim 4 m' ∧
    ∀ s t r, m'.Contains [s, t, r] ↔ m.Contains [s, t / k, r / k] := by
  have hnz : ∀ f ∈ [1, k, k], f ≠ 0 := by
    intro f hf
    simp only [List.mem_cons, List.not_mem_nil, or_false] at hf
    rcases hf with rfl | rfl | rfl
    · norm_num
    · exact hk.ne'
    · exact hk.ne'
  have hrows : m.rows ≠ [] := by
    intro he
    obtain ⟨B, hB⟩ := h.bounded
    have := hB [|B| + 1, 0, 0] ((contains_iff_holds _ _ (by rw [h.cols]; rfl)).mpr (by intro r hr; rw [he] at hr; simp at hr))
      (|B| + 1) (by simp)
    rw [abs_of_nonneg (by positivity)] at this
    linarith [le_abs_self B]
  obtain ⟨m', h1, h2, h3, h4⟩ := C11_scaleAll_exact m h.wf [1, k, k] (by rw [h.cols]; rfl) hnz hrows
  have h5 : ∀ s t r, m'.Contains [s, t, r] ↔ m.Contains [s, t / k, r / k] := by
    intro s t r
    rw [h4 [s, t, r] rfl]
    simp
  refine ⟨m', h1, ⟨h2, by rw [h3, h.cols], ?_, ?_, ?_⟩, h5⟩
  · unfold Mat.scaleAll at h1
    rw [if_neg (by simp [h.cols]), if_neg (by rintro ⟨_, h⟩; exact hnz 0 h rfl),
      if_neg (by rw [List.length_eq_zero_iff]; exact hrows)] at h1
    rw [← Except.ok.inj h1]
    intro r hr
    simp only [List.mem_map, List.mem_append, mem_asList] at hr
    obtain ⟨q, hq, rfl⟩ := hr
    have hq : q ∈ m.rows := by rcases hq with h | h <;> exact h.1
    have hl := h.wf q hq
    have hz := h.noZero q hq
    rw [h.cols] at hl
    obtain ⟨b, c0, cs⟩ := q
    match cs, hl with
    | [u, v, w], _ =>
      simp only [Row.isZero, scaleRow, Bool.and_eq_false_iff, decide_eq_false_iff_not, List.all_eq_false, List.mem_cons,
        List.not_mem_nil, or_false, decide_eq_true_eq, List.zipWith_cons_cons, List.zipWith_nil_right] at hz ⊢
      rcases hz with hz | ⟨x, hx, hz⟩
      · exact .inl hz
      · right
        rcases hx with rfl | rfl | rfl
        · exact ⟨x / 1, by simp, by simpa using hz⟩
        · exact ⟨x / k, by simp, by simp [hz, hk.ne']⟩
        · exact ⟨x / k, by simp, by simp [hz, hk.ne']⟩
  · obtain ⟨B, hB⟩ := h.bounded
    refine ⟨|B| * (1 + k), fun x hx c hc => ?_⟩
    have hl := contains_length hx
    rw [h3, h.cols] at hl
    match x, hl with
    | [s, t, r], _ =>
      have h6 := hB _ ((h5 s t r).mp hx)
      have hle := le_abs_self B
      have hab := abs_nonneg B
      simp only [List.mem_cons, List.not_mem_nil, or_false, forall_eq_or_imp, forall_eq] at h6 hc
      obtain ⟨i1, i2, i3⟩ := h6
      rw [abs_div, abs_of_pos hk, div_le_iff₀ hk] at i2 i3
      rcases hc with rfl | rfl | rfl <;> nlinarith
  · obtain ⟨x, hx, ε, e1, e2⟩ := h.inner
    match x, hx with
    | [s, t, r], _ =>
      refine ⟨[s, t * k, r * k], rfl, min ε (ε * k), lt_min e1 (mul_pos e1 hk), fun y hy => ?_⟩
      rw [← contains_iff_holds _ _ (by rw [hy.length, h3, h.cols]; rfl)]
      obtain _ | ⟨n1, hy⟩ := hy
      obtain _ | ⟨n2, hy⟩ := hy
      obtain _ | ⟨n3, hy⟩ := hy
      cases hy
      rename_i u v w
      rw [h5, contains_iff_holds _ _ (by rw [h.cols]; rfl)]
      apply e2
      have hdiv : ∀ p q : ℚ, |q - p * k| < min ε (ε * k) → |q / k - p| < ε := by
        intro p q hpq
        have : q / k - p = (q - p * k) / k := by field_simp
        rw [this, abs_div, abs_of_pos hk, div_lt_iff₀ hk]
        exact hpq.trans_le (min_le_right _ _)
      exact .cons (n1.trans_le (min_le_left _ _)) (.cons (hdiv _ _ n2) (.cons (hdiv _ _ n3) .nil))

/-- Raising such a region to a power. -/
theorem raise_full {ms : List Mat} (h : ∀ m ∈ ms, FullDim 4 m) (k : ℚ) (hk : 0 < k) :
    ∃ ms', LargeValues.raiseToPower k (unionOf ms) = .ok (unionOf ms') ∧ (∀ m ∈ ms', FullDim 4 m) ∧
      ∀ s t r, (unionOf ms').Mem [s, t, r] ↔ (unionOf ms).Mem [s, t / k, r / k] := by
  have key : ∃ ms' : List Mat, mapMatList (L := ℕ) (fun m => m.scaleAll [1, k, k]) (ms.map (fun m => .polytope m none)) =
      .ok (ms'.map (fun m => .polytope m none)) ∧ (∀ m ∈ ms', FullDim 4 m) ∧
      ∀ s t r, (∃ m ∈ ms', m.Contains [s, t, r]) ↔ ∃ m ∈ ms, m.Contains [s, t / k, r / k] := by
    induction ms with
    | nil => exact ⟨[], rfl, by simp, by simp⟩
    | cons m ms ih =>
      obtain ⟨ms', h1, h2, h3⟩ := ih (fun m hm => h m (by simp [hm]))
      obtain ⟨m', h4, h5, h6⟩ := scale_full (h m (by simp)) k hk
      refine ⟨m' :: ms', ?_, ?_, ?_⟩
      · simp only [List.map_cons]
        unfold mapMatList mapMat
        rw [h4, h1]
        rfl
      · intro p hp
        rcases List.mem_cons.mp hp with rfl | hp
        · exact h5
        · exact h2 p hp
      · intro s t r
        simp only [List.mem_cons, exists_eq_or_imp, h6, h3]
  obtain ⟨ms', h1, h2, h3⟩ := key
  refine ⟨ms', ?_, h2, fun s t r => by rw [unionOf_mem, unionOf_mem]; exact h3 s t r⟩
  unfold LargeValues.raiseToPower Region.scaleAll unionOf mapMat
  rw [h1]
  rfl

/-! ### All estimates used in a derivation -/

/-- The region `R` is the `k`-th power of the region of the bounds `bs`. -/
def Realises (bs : List (ℚ × ℚ × ℚ)) (k : ℚ) (R : Region ℕ) : Prop :=
  (∃ ms, R = unionOf ms ∧ ∀ m ∈ ms, FullDim 4 m) ∧
    ∀ s t r, R.Mem [s, t, r] ↔ LargeValues.InBox s (t / k) (r / k) ∧ ∃ b ∈ bs, r / k ≤ bval b s (t / k)

/-- The regions `rs` are those of the lists of bounds with powers in `B`, in some order. -/
def Covers (rs : List (Region ℕ)) (B : List (List (ℚ × ℚ × ℚ) × ℚ)) : Prop :=
  (∀ R ∈ rs, ∃ p ∈ B, Realises p.1 p.2 R) ∧ ∀ p ∈ B, ∃ R ∈ rs, Realises p.1 p.2 R

theorem Covers.append {rs1 rs2 : List (Region ℕ)} {B1 B2 : List (List (ℚ × ℚ × ℚ) × ℚ)} (h1 : Covers rs1 B1) (h2 : Covers rs2 B2) :
    Covers (rs1 ++ rs2) (B1 ++ B2) := by
  constructor
  · intro R hR
    rcases List.mem_append.mp hR with hR | hR
    · obtain ⟨p, hp, h⟩ := h1.1 R hR; exact ⟨p, by simp [hp], h⟩
    · obtain ⟨p, hp, h⟩ := h2.1 R hR; exact ⟨p, by simp [hp], h⟩
  · intro p hp
    rcases List.mem_append.mp hp with hp | hp
    · obtain ⟨R, hR, h⟩ := h1.2 p hp; exact ⟨R, by simp [hR], h⟩
    · obtain ⟨R, hR, h⟩ := h2.2 p hp; exact ⟨R, by simp [hR], h⟩

theorem Covers.perm {rs rs' : List (Region ℕ)} {B : List (List (ℚ × ℚ × ℚ) × ℚ)} (h : Covers rs B) (hp : rs'.Perm rs) : Covers rs' B :=
  ⟨fun R hR => h.1 R (hp.mem_iff.mp hR), fun p hB => by
    obtain ⟨R, hR, k⟩ := h.2 p hB
    exact ⟨R, hp.mem_iff.mpr hR, k⟩⟩

theorem Covers.congr {rs : List (Region ℕ)} {B B' : List (List (ℚ × ℚ × ℚ) × ℚ)} (h : Covers rs B) (hp : ∀ p, p ∈ B ↔ p ∈ B') :
    Covers rs B' :=
  ⟨fun R hR => by
    obtain ⟨p, hB, k⟩ := h.1 R hR
    exact ⟨p, (hp p).mp hB, k⟩, fun p hB => h.2 p ((hp p).mpr hB)⟩

/-- The bound for the `k`-th power. -/
def pw (k : ℚ) (b : ℚ × ℚ × ℚ) : ℚ × ℚ × ℚ := (k * b.1, k * b.2.1, b.2.2)

theorem bval_pw {k : ℚ} (hk : k ≠ 0) (b : ℚ × ℚ × ℚ) (s t : ℚ) : bval (pw k b) s t = k * bval b s (t / k) := by
  unfold bval pw
  field_simp

/-- All bounds with their powers. -/
def powered (B : List (List (ℚ × ℚ × ℚ) × ℚ)) : List (List (ℚ × ℚ × ℚ)) := B.map (fun p => p.1.map (pw p.2))

theorem Covers.mem {rs : List (Region ℕ)} {B : List (List (ℚ × ℚ × ℚ) × ℚ)} (h : Covers rs B) (hB : ∀ p ∈ B, 1 ≤ p.2) {s t r : ℚ}
    (hs1 : 1 / 2 ≤ s) (hs2 : s ≤ 1) (ht1 : 0 ≤ t) (ht2 : t ≤ 1000000) (hr1 : 0 ≤ r) (hr2 : r ≤ 1000000) :
    (∀ R ∈ rs, R.Mem [s, t, r]) ↔ Under (powered B) s t r := by
  have one : ∀ p ∈ B, ∀ R, Realises p.1 p.2 R → (R.Mem [s, t, r] ↔ ∃ b ∈ p.1.map (pw p.2), r ≤ bval b s t) := by
    intro p hp R hR
    have h1 := hB p hp
    have h0 : (0 : ℚ) < p.2 := by linarith
    rw [hR.2]
    constructor
    · rintro ⟨_, b, hb, hle⟩
      refine ⟨pw p.2 b, List.mem_map.mpr ⟨b, hb, rfl⟩, ?_⟩
      rw [bval_pw h0.ne']
      rwa [div_le_iff₀' h0] at hle
    · rintro ⟨c, hc, hle⟩
      obtain ⟨b, hb, rfl⟩ := List.mem_map.mp hc
      refine ⟨⟨hs1, hs2, by positivity, ?_, by positivity, ?_⟩, b, hb, ?_⟩
      · exact (div_le_self ht1 h1).trans ht2
      · exact (div_le_self hr1 h1).trans hr2
      · rw [bval_pw h0.ne'] at hle
        rwa [div_le_iff₀' h0]
  constructor
  · intro hall bs hbs
    obtain ⟨p, hp, rfl⟩ := List.mem_map.mp hbs
    obtain ⟨R, hR, hr⟩ := h.2 p hp
    exact (one p hp R hr).mp (hall R hR)
  · intro hu R hR
    obtain ⟨p, hp, hr⟩ := h.1 R hR
    exact (one p hp R hr).mpr (hu _ (List.mem_map.mpr ⟨p, hp, rfl⟩))

theorem realises_plain {bs : List (ℚ × ℚ × ℚ)} {k : ℚ} {R : Region ℕ} (h : Realises bs k R) :
    Plain false R ∧ ∀ m ∈ R.leaves, FullDim 4 m := by
  obtain ⟨⟨ms, rfl, h⟩, _⟩ := h
  refine ⟨unionOf_plain ms, ?_⟩
  rw [unionOf_leaves]
  exact h

theorem realises_convert {canon : Mat → Mat} (hc : CanonSpec canon) (hz : CanonNoZero canon) (bs : List (ℚ × ℚ × ℚ)) (hne : bs ≠ [])
    (h : Staggered [] bs) {R : Region ℕ} (hR : LargeValues.convertBounds canon (bs.map (fun b => [b.1, b.2.1, b.2.2])) = .ok R) :
    Realises bs 1 R := by
  obtain ⟨ms, h1, h2, h3⟩ := convert_full hc hz bs hne h
  rw [h1] at hR
  obtain rfl := Except.ok.inj hR
  exact ⟨⟨ms, rfl, h2⟩, fun s t r => by rw [div_one, div_one]; exact h3 s t r⟩

theorem realises_raise {bs : List (ℚ × ℚ × ℚ)} {R : Region ℕ} (h : Realises bs 1 R) (k : ℚ) (hk : 0 < k) :
    ∃ R', LargeValues.raiseToPower k R = .ok R' ∧ Realises bs k R' := by
  obtain ⟨⟨ms, rfl, h1⟩, h2⟩ := h
  obtain ⟨ms', h3, h4, h5⟩ := raise_full h1 k hk
  refine ⟨_, h3, ⟨ms', rfl, h4⟩, fun s t r => ?_⟩
  rw [h5, h2, div_one, div_one]

/-- What the transforms give. -/
theorem covers_transforms {lvs : List (Region ℕ)} {LB : List (List (ℚ × ℚ × ℚ))} (h : Covers lvs (LB.map (fun bs => (bs, 1)))) (ks : List ℚ)
    (hk : ∀ k ∈ ks, 0 < k) : ∃ tl, LargeValues.applyTransforms lvs (ks.map LargeValues.raiseToPower) = .ok tl ∧
      Covers tl (ks.flatMap (fun k => LB.map (fun bs => (bs, k)))) := by
  induction ks with
  | nil => exact ⟨[], rfl, by simp, by simp⟩
  | cons k ks ih =>
    obtain ⟨tl, h1, h2⟩ := ih (fun q hq => hk q (by simp [hq]))
    obtain ⟨rs, h3, h4⟩ := LargeValues.applyAll_ok (LargeValues.raiseToPower k) (fun R R' => ∀ bs, Realises bs 1 R → Realises bs k R')
      lvs (by
        intro R hR
        obtain ⟨p, hp, hr⟩ := h.1 R hR
        obtain ⟨bs, _, rfl⟩ := List.mem_map.mp hp
        obtain ⟨R', e1, _⟩ := realises_raise hr k (hk k (by simp))
        refine ⟨R', e1, fun bs' hr' => ?_⟩
        obtain ⟨R'', e3, e4⟩ := realises_raise hr' k (hk k (by simp))
        rw [e1] at e3
        rw [Except.ok.inj e3]
        exact e4)
    refine ⟨rs ++ tl, ?_, ?_⟩
    · simp only [List.map_cons]
      unfold LargeValues.applyTransforms
      rw [h3, h1]
      rfl
    · rw [List.flatMap_cons]
      refine Covers.append ⟨?_, ?_⟩ h2
      · intro R' hR'
        obtain ⟨R, hR, hrel⟩ : ∃ R ∈ lvs, ∀ bs, Realises bs 1 R → Realises bs k R' := by
          clear h1 h2 h3 h ih
          induction h4 with
          | nil => simp at hR'
          | cons hab hrest ih' =>
            rcases List.mem_cons.mp hR' with rfl | hR'
            · exact ⟨_, by simp, hab⟩
            · obtain ⟨R, e1, e2⟩ := ih' hR'
              exact ⟨R, by simp [e1], e2⟩
        obtain ⟨p, hp, hr⟩ := h.1 R hR
        obtain ⟨bs, hbs, rfl⟩ := List.mem_map.mp hp
        exact ⟨(bs, k), List.mem_map.mpr ⟨bs, hbs, rfl⟩, hrel bs hr⟩
      · intro p hp
        obtain ⟨bs, hbs, rfl⟩ := List.mem_map.mp hp
        obtain ⟨R, hR, hr⟩ := h.2 (bs, 1) (List.mem_map.mpr ⟨bs, hbs, rfl⟩)
        obtain ⟨R', hR', hrel⟩ : ∃ R' ∈ rs, ∀ bs, Realises bs 1 R → Realises bs k R' := by
          clear h1 h2 h3 h ih
          induction h4 with
          | nil => simp at hR
          | cons hab hrest ih' =>
            rcases List.mem_cons.mp hR with rfl | hR
            · exact ⟨_, by simp, hab⟩
            · obtain ⟨R', e1, e2⟩ := ih' hR
              exact ⟨R', by simp [e1], e2⟩
        exact ⟨R', hR', hrel bs hr⟩

theorem lvToZlv_eq (lvs : List (Region ℕ)) (trs : List (Region ℕ → Py (Region ℕ))) (tl : List (Region ℕ))
    (h : LargeValues.applyTransforms lvs trs = .ok tl) :
    LargeValues.lvToZlv lvs trs = .ok ((lvs ++ tl).map (fun r => .intersect [.polytope tauTwo none, r])) := by
  unfold LargeValues.lvToZlv
  rw [h, show Mat.ofConstraints [LargeValues.rowOf [-2, 0, 1, 0]] = .ok tauTwo by
    simp [Mat.ofConstraints, Mat.ofRows, LargeValues.rowOf, Row.isZero, tauTwo]]
  rfl

/-! ### The value computed by `prove_zero_density` -/

/-- The pieces cover the interval without overlap and their functions are defined on them. -/
def Pieces (x0 x1 : ℚ) (out : List (Rational.Piece ℝ)) : Prop :=
  Chain x0 x1 out ∧ ∀ p ∈ out, ∀ x, p.dom.x0 ≤ x → x < p.dom.x1 → p.fn.Def x

theorem pieces_max {edges : Mat → List (Pt × Pt)} {solve : RF ℝ → RF ℝ → List ℝ} (hs : SolveSpec solve)
    {isZero : Expr ℝ → Bool} (hz : ZeroSpec isZero) {x0 x1 : ℚ} (hx : x0 < x1) {incL incU : Bool} {ms1 ms2 : List Mat}
    {o1 o2 : List (Rational.Piece ℝ)} (g2 : SupOut edges ⟨x0, x1, incL, incU⟩ ms1 o1) (g4 : SupOut edges ⟨x0, x1, incL, incU⟩ ms2 o2)
    (hpole : ∀ p ∈ o1 ++ o2, ∀ x, (x0 : ℝ) ≤ x → x < x1 → p.fn.NoCommonZero x) :
    Pieces x0 x1 (rfMax solve isZero (funcDomains o1 ++ funcDomains o2) ⟨x0, x1, incL, incU⟩ false) := by
  have hfs : ∀ t ∈ funcDomains o1 ++ funcDomains o2, ArgOk t := by
    intro t ht
    rcases List.mem_append.mp ht with ht | ht
    · obtain ⟨p, hp, rfl⟩ := List.mem_map.mp ht
      exact g2.args p hp
    · obtain ⟨p, hp, rfl⟩ := List.mem_map.mp ht
      exact g4.args p hp
  obtain ⟨h1, h2⟩ := computeOptimal_ok (s := 1) (default := -1000000) (track := false) (cmp := fun x y => decide (x > y)) hs hz
    (fun u v => by simp) (by norm_num) _ ⟨x0, x1, incL, incU⟩ (by simpa using hx) hfs (by
      intro _ x l1 l2 t ht
      rcases List.mem_append.mp ht with ht | ht
      · obtain ⟨p, hp, rfl⟩ := List.mem_map.mp ht
        exact hpole p (by simp [hp]) x l1 l2
      · obtain ⟨p, hp, rfl⟩ := List.mem_map.mp ht
        exact hpole p (by simp [hp]) x l1 l2)
  exact ⟨h1, fun p hp => (h2 p hp).1.dfn⟩

/-- At each real number of the interval exactly one of the pieces gives a value, and it is `w`. -/
def IsBound (x0 x1 : ℚ) (out : List (Rational.Piece ℝ)) (w : ℝ → ℝ) : Prop :=
  ∀ x : ℝ, x0 ≤ x → x < x1 → ∃ q ∈ out, q.dom.x0 ≤ x ∧ x < q.dom.x1 ∧ (∀ q' ∈ out, q'.dom.x0 ≤ x → x < q'.dom.x1 → q' = q) ∧
    q.fn.at x = w x

/-- It is enough to know the values at rational numbers. -/
theorem isBound_of_rat {x0 x1 : ℚ} {out : List (Rational.Piece ℝ)} (hp : Pieces x0 x1 out) {w : ℝ → ℝ}
    (hw : ∀ x : ℝ, x0 ≤ x → x < x1 → ContinuousAt w x)
    (h : ∀ s : ℚ, x0 ≤ s → s < x1 → ∃ q ∈ out, q.dom.x0 ≤ s ∧ s < q.dom.x1 ∧ q.fn.at s = w s) : IsBound x0 x1 out w := by
  intro x l1 l2
  obtain ⟨q, q1, q2, q3, q4⟩ := hp.1.exists_unique x l1 l2
  refine ⟨q, q1, q2, q3, q4, ?_⟩
  have hc : ContinuousAt q.fn.at x := by
    unfold RF.at
    exact (Expr.continuous _).continuousAt.div (Expr.continuous _).continuousAt (hp.2 q q1 x q2 q3)
  by_contra hne
  have hev : ∀ᶠ y in nhds x, q.fn.at y - w y ≠ 0 := (hc.sub (hw x l1 l2)).eventually_ne (sub_ne_zero.mpr hne)
  obtain ⟨ε, e1, e2⟩ := Metric.eventually_nhds_iff.mp hev
  obtain ⟨s, s1, s2⟩ := exists_rat_btwn (show x < min (x + ε) q.dom.x1 from lt_min (by linarith) q3)
  have hx1 := (hp.1.lt q q1).2.2
  have s3 := s2.trans_le (min_le_left _ _)
  have s4 := s2.trans_le (min_le_right _ _)
  obtain ⟨q', k1, k2, k3, k4⟩ := h s (by exact_mod_cast l1.trans s1.le) (by exact_mod_cast s4.trans_le hx1)
  obtain ⟨p, _, _, _, hu⟩ := hp.1.exists_unique (s : ℝ) (l1.trans s1.le) (s4.trans_le hx1)
  rw [hu q' k1 k2 k3, ← hu q q1 (q2.trans s1.le) s4] at k4
  exact e2 (by rw [Real.dist_eq, abs_lt]; constructor <;> linarith) (sub_eq_zero.mpr k4)

/-- The bounds `2 - 2 sigma` and `1 - 2 sigma + tau` of the mean value theorem. -/
def l2 : List (ℚ × ℚ × ℚ) := [(2, -2, 0), (1, -2, 1)]

/-- `rho` obeys all large value estimates, each given as a list of bounds of which the maximum is taken, and the consequences
`LV(sigma, tau) ≤ k LV(sigma, tau / k)` for `k ≤ 5`. -/
def LVOk (LB : List (List (ℚ × ℚ × ℚ))) (s t r : ℚ) : Prop :=
  ∀ bs ∈ LB, ∀ k ∈ [1, 2, 3, 4, 5], ∃ b ∈ bs, r ≤ k * bval b s (t / k)

/-- The pairs `(tau, rho)` over which the supremum is taken at `sigma = s`: for `tau` in `[tau0, 2 tau0]` the large value estimates
hold, for `tau` in `[2, tau0]` also the zeta large value estimates. -/
def Feasible (LB ZB : List (List (ℚ × ℚ × ℚ))) (tau0 s t r : ℚ) : Prop :=
  0 ≤ r ∧ LVOk (l2 :: LB) s t r ∧ (tau0 ≤ t ∧ t ≤ 2 * tau0 ∨ 2 ≤ t ∧ t ≤ tau0 ∧ Under ZB s t r)

/-- The list with all powers. -/
def withPowers (ks : List ℚ) (LB : List (List (ℚ × ℚ × ℚ))) : List (List (ℚ × ℚ × ℚ) × ℚ) :=
  LB.map (fun bs => (bs, 1)) ++ ks.flatMap (fun k => LB.map (fun bs => (bs, k)))

theorem mem_withPowers {ks : List ℚ} (hk : ks.Perm [2, 3, 4, 5]) (LB : List (List (ℚ × ℚ × ℚ))) (p : List (ℚ × ℚ × ℚ) × ℚ) :
    p ∈ withPowers ks LB ↔ p.1 ∈ LB ∧ p.2 ∈ [1, 2, 3, 4, 5] := by
  unfold withPowers
  simp only [List.mem_append, List.mem_map, List.mem_flatMap]
  constructor
  · rintro (⟨bs, h, rfl⟩ | ⟨k, hk', bs, h, rfl⟩)
    · exact ⟨h, by simp⟩
    · exact ⟨h, List.mem_cons_of_mem _ (hk.mem_iff.mp hk')⟩
  · rintro ⟨h1, h2⟩
    rcases List.mem_cons.mp h2 with h2 | h2
    · exact .inl ⟨p.1, h1, by rw [← h2]⟩
    · exact .inr ⟨p.2, hk.mem_iff.mpr h2, p.1, h1, rfl⟩

theorem five {k : ℚ} (h : k ∈ [(1 : ℚ), 2, 3, 4, 5]) : 1 ≤ k ∧ k ≤ 5 := by
  simp only [List.mem_cons, List.not_mem_nil, or_false] at h
  rcases h with rfl | rfl | rfl | rfl | rfl <;> norm_num

theorem under_withPowers {ks : List ℚ} (hk : ks.Perm [2, 3, 4, 5]) (LB : List (List (ℚ × ℚ × ℚ))) (s t r : ℚ) :
    Under (powered (withPowers ks LB)) s t r ↔ LVOk LB s t r := by
  have one : ∀ (bs : List (ℚ × ℚ × ℚ)) (k : ℚ), k ∈ [(1 : ℚ), 2, 3, 4, 5] →
      ((∃ b ∈ bs.map (pw k), r ≤ bval b s t) ↔ ∃ b ∈ bs, r ≤ k * bval b s (t / k)) := by
    intro bs k hk
    have := five hk
    constructor
    · rintro ⟨c, hc, hle⟩
      obtain ⟨b, hb, rfl⟩ := List.mem_map.mp hc
      rw [bval_pw (by linarith)] at hle
      exact ⟨b, hb, hle⟩
    · rintro ⟨b, hb, hle⟩
      exact ⟨pw k b, List.mem_map.mpr ⟨b, hb, rfl⟩, by rw [bval_pw (by linarith)]; exact hle⟩
  constructor
  · intro h bs hbs k hk'
    exact (one bs k hk').mp (h _ (List.mem_map.mpr ⟨(bs, k), (mem_withPowers hk LB _).mpr ⟨hbs, hk'⟩, rfl⟩))
  · intro h cs hcs
    obtain ⟨p, hp, rfl⟩ := List.mem_map.mp hcs
    obtain ⟨h1, h2⟩ := (mem_withPowers hk LB p).mp hp
    exact (one p.1 p.2 h2).mpr (h p.1 h1 p.2 h2)

theorem l2_staggered : Staggered [] l2 := by
  unfold l2 Staggered Staggered Staggered bval
  refine ⟨⟨3 / 4, 1, 1 / 4, ?_⟩, ⟨3 / 4, 2, 1, ?_⟩, trivial⟩
  · norm_num
  · norm_num

/-- **C81** (general part) Suppose that the additional large value estimates and zeta large value estimates are maxima of bounds that
decrease in `sigma`. Then `prove_zero_density` does not raise, and at each `s` of the interval exactly one of the returned pieces gives a
value; this value is the maximum of `rho / tau` over all `(tau, rho)` with `tau` in `[tau0, 2 tau0]` for which `rho` obeys the large value
estimates and their powers up to 5, and with `tau` in `[2, tau0]` for which `rho` also obeys the zeta large value estimates. The
order in which the hypotheses are listed does not matter. -/
theorem C81_value {eng : Engine} (heng : EngineSpec eng) (hneg : UnboundedNeg eng.lp) {edges : Mat → List (Pt × Pt)}
    (hed : ∀ p : Mat, p.cols = 4 → p.Bounded → EdgesSpec edges p) {solve : RF ℝ → RF ℝ → List ℝ} (hs : SolveSpec solve)
    {isZero : Expr ℝ → Bool} (hz : ZeroSpec isZero) {orderR : List (Region ℕ) → List (Region ℕ)} (hR : ∀ l, (orderR l).Perm l)
    {orderK : List ℚ → List ℚ} (hK : ∀ l, (orderK l).Perm l) (LB ZB : List (List (ℚ × ℚ × ℚ))) (lvs zlvs : List (Region ℕ))
    (hL : Covers lvs (LB.map (fun bs => (bs, 1)))) (hZ : Covers zlvs (ZB.map (fun bs => (bs, 1))))
    (hdec : ∀ bs ∈ LB ++ ZB, ∀ b ∈ bs, b.2.1 < 0) (hmv : ∀ bs ∈ LB, (2, -2, 0) ∈ bs) (x0 x1 tau0 : ℚ) (hx : x0 < x1) (hx0 : 1 / 2 ≤ x0)
    (hx1 : x1 ≤ 1) (htau : 2 < tau0) (htau' : tau0 ≤ 1000)
    (hzp : ∀ s, x0 ≤ s → s < x1 → ∃ t, 2 ≤ t ∧ t ≤ tau0 ∧ ∀ bs ∈ ZB, ∃ b ∈ bs, 0 < bval b s t) :
    ∃ out, proveZeroDensity eng edges solve isZero orderR orderK lvs zlvs x0 x1 tau0 = .ok out ∧ Pieces x0 x1 out ∧
      ∀ s, x0 ≤ s → s < x1 → ∃ q ∈ out, q.dom.x0 ≤ s ∧ s < q.dom.x1 ∧ (∀ q' ∈ out, q'.dom.x0 ≤ s → s < q'.dom.x1 → q' = q) ∧
        IsGreatest {v : ℝ | ∃ t r, Feasible LB ZB tau0 s t r ∧ v = ((r / t : ℚ) : ℝ)} (q.fn.at s) := by
  obtain ⟨ml, e1, _, _⟩ := convert_full heng.canon heng.canonNoZero l2 (by simp [l2]) l2_staggered
  have hl2 := realises_convert heng.canon heng.canonNoZero l2 (by simp [l2]) l2_staggered e1
  replace e1 : LargeValues.convertBounds eng.canon l2Bounds = .ok (unionOf ml) := e1
  set lv := orderR (unionOf ml :: lvs) with hlv
  set ks := orderK [2, 3, 4, 5] with hks
  have hkp : ks.Perm [2, 3, 4, 5] := hK _
  have hcl : Covers lv ((l2 :: LB).map (fun bs => (bs, 1))) := by
    refine Covers.perm ?_ (hR _)
    have : Covers [unionOf ml] [(l2, 1)] := ⟨by simpa using hl2, by simpa using hl2⟩
    exact this.append hL
  obtain ⟨tl, t1, t2⟩ := covers_transforms hcl ks (by
    intro k hk
    have := hkp.mem_iff.mp hk
    simp only [List.mem_cons, List.not_mem_nil, or_false] at this
    rcases this with rfl | rfl | rfl | rfl <;> norm_num)
  have hB1 : Covers (lv ++ tl) (withPowers ks (l2 :: LB)) := hcl.append t2
  set derived : List (Region ℕ) := (lv ++ tl).map (fun r => .intersect [.polytope tauTwo none, r]) with hder
  set zl := orderR (zlvs ++ derived) with hzl
  have hzm : ∀ R, R ∈ zl ↔ R ∈ zlvs ∨ R ∈ derived := fun R => by rw [hzl, (hR _).mem_iff, List.mem_append]
  have hle1 : ∀ p ∈ withPowers ks (l2 :: LB), 1 ≤ p.2 := fun p hp => (five ((mem_withPowers hkp _ p).mp hp).2).1
  have hG1 : Given (Allowed x0 x1 tau0 (2 * tau0) (lv ++ tl)) x0 x1 tau0 (2 * tau0) (powered (withPowers ks (l2 :: LB))) := by
    intro s t r
    unfold Allowed
    constructor
    · rintro ⟨s', t', r', e, k1, k2, k3, k4⟩
      simp only [List.cons.injEq, and_true] at e
      obtain ⟨rfl, rfl, rfl⟩ := e
      exact ⟨k1, k2, k3, (hB1.mem hle1 (by linarith [k1.1]) (by linarith [k1.2]) (by linarith [k2.1]) (by linarith [k2.2])
        k3.1 k3.2).mp k4⟩
    · rintro ⟨k1, k2, k3, k4⟩
      exact ⟨s, t, r, rfl, k1, k2, k3, (hB1.mem hle1 (by linarith [k1.1]) (by linarith [k1.2]) (by linarith [k2.1])
        (by linarith [k2.2]) k3.1 k3.2).mpr k4⟩
  have hG2 : Given (Allowed x0 x1 2 tau0 (lv ++ tl ++ zl)) x0 x1 2 tau0
      (powered (withPowers ks (l2 :: LB) ++ ZB.map (fun bs => (bs, 1)))) := by
    have hB2 := hB1.append hZ
    have hle2 : ∀ p ∈ withPowers ks (l2 :: LB) ++ ZB.map (fun bs => (bs, 1)), 1 ≤ p.2 := by
      intro p hp
      rcases List.mem_append.mp hp with hp | hp
      · exact hle1 p hp
      · obtain ⟨bs, _, rfl⟩ := List.mem_map.mp hp
        exact le_refl _
    have hmem : ∀ s t r, 2 ≤ t → ((∀ R ∈ lv ++ tl ++ zl, R.Mem [s, t, r]) ↔ ∀ R ∈ lv ++ tl ++ zlvs, R.Mem [s, t, r]) := by
      intro s t r ht
      constructor
      · intro h R hR'
        rcases List.mem_append.mp hR' with hR' | hR'
        · exact h R (List.mem_append_left _ hR')
        · exact h R (List.mem_append_right _ ((hzm R).mpr (.inl hR')))
      · intro h R hR'
        rcases List.mem_append.mp hR' with hR' | hR'
        · exact h R (List.mem_append_left _ hR')
        · rcases (hzm R).mp hR' with hR' | hR'
          · exact h R (List.mem_append_right _ hR')
          · obtain ⟨R', hR'', rfl⟩ := List.mem_map.mp hR'
            rw [mem_pair]
            exact ⟨(tauTwo_contains _).mpr ⟨s, t, r, rfl, ht⟩, h R' (List.mem_append_left _ hR'')⟩
    intro s t r
    unfold Allowed
    constructor
    · rintro ⟨s', t', r', e, k1, k2, k3, k4⟩
      simp only [List.cons.injEq, and_true] at e
      obtain ⟨rfl, rfl, rfl⟩ := e
      exact ⟨k1, k2, k3, (hB2.mem hle2 (by linarith [k1.1]) (by linarith [k1.2]) (by linarith [k2.1]) (by linarith [k2.2])
        k3.1 k3.2).mp ((hmem s t r k2.1).mp k4)⟩
    · rintro ⟨k1, k2, k3, k4⟩
      exact ⟨s, t, r, rfl, k1, k2, k3, (hmem s t r k2.1).mpr ((hB2.mem hle2 (by linarith [k1.1]) (by linarith [k1.2])
        (by linarith [k2.1]) (by linarith [k2.2]) k3.1 k3.2).mpr k4)⟩
  have hsplit : ∀ s t r, Under (powered (withPowers ks (l2 :: LB) ++ ZB.map (fun bs => (bs, 1)))) s t r ↔
      LVOk (l2 :: LB) s t r ∧ Under ZB s t r := by
    intro s t r
    rw [← under_withPowers hkp]
    unfold Under powered
    rw [List.map_append, List.map_map]
    have e : (ZB.map ((fun p : List (ℚ × ℚ × ℚ) × ℚ => p.1.map (pw p.2)) ∘ fun bs => (bs, 1))) = ZB := by
      have h1 : pw 1 = id := by funext b; simp [pw]
      simp [Function.comp_def, h1]
    rw [e]
    simp only [List.mem_append]
    exact ⟨fun h => ⟨fun bs hb => h bs (.inl hb), fun bs hb => h bs (.inr hb)⟩,
      fun h bs hb => hb.elim (h.1 bs) (h.2 bs)⟩
  have hcapL : ∀ s t r, 1 / 2 ≤ s → t ≤ 2000 → LVOk (l2 :: LB) s t r → r ≤ 999999 := by
    intro s t r h1 h2 h
    obtain ⟨b, hb, hle⟩ := h l2 (by simp) 1 (by simp)
    unfold l2 at hb
    simp only [List.mem_cons, List.not_mem_nil, or_false] at hb
    unfold bval at hle
    rcases hb with rfl | rfl <;> norm_num at hle <;> linarith
  have hposL : ∀ s t : ℚ, s < x1 → ∀ cs ∈ powered (withPowers ks (l2 :: LB)), ∃ c ∈ cs, 0 < bval c s t := by
    intro s t h1 cs hcs
    obtain ⟨p, hp, rfl⟩ := List.mem_map.mp hcs
    obtain ⟨k1, k2⟩ := (mem_withPowers hkp _ p).mp hp
    have h5 := five k2
    refine ⟨pw p.2 (2, -2, 0), List.mem_map.mpr ⟨_, ?_, rfl⟩, ?_⟩
    · rcases List.mem_cons.mp k1 with h | h
      · rw [h]; simp [l2]
      · exact hmv _ h
    · rw [bval_pw (by linarith)]
      unfold bval
      simp only
      nlinarith
  have hnegL : ∀ cs ∈ powered (withPowers ks (l2 :: LB) ++ ZB.map (fun bs => (bs, 1))), ∀ c ∈ cs, c.2.1 < 0 := by
    intro cs hcs c hc
    obtain ⟨p, hp, rfl⟩ := List.mem_map.mp hcs
    obtain ⟨b, hb, rfl⟩ := List.mem_map.mp hc
    rcases List.mem_append.mp hp with hp | hp
    · obtain ⟨k1, k2⟩ := (mem_withPowers hkp _ p).mp hp
      have h5 := five k2
      have : b.2.1 < 0 := by
        rcases List.mem_cons.mp k1 with h | h
        · rw [h] at hb
          unfold l2 at hb
          simp only [List.mem_cons, List.not_mem_nil, or_false] at hb
          rcases hb with rfl | rfl <;> norm_num
        · exact hdec _ (List.mem_append_left _ h) b hb
      unfold pw
      simp only
      nlinarith
    · obtain ⟨bs, hbs, rfl⟩ := List.mem_map.mp hp
      unfold pw
      simpa using hdec _ (List.mem_append_right _ hbs) b hb
  have hrs : ∀ r ∈ lv ++ tl ++ zl, Hyp 4 (FullDim 4) r := by
    intro R hR'
    rcases List.mem_append.mp hR' with hR' | hR'
    · obtain ⟨p, _, hr⟩ := hB1.1 R hR'
      exact .inl (realises_plain hr)
    · rcases (hzm R).mp hR' with hR' | hR'
      · obtain ⟨p, _, hr⟩ := hZ.1 R hR'
        exact .inl (realises_plain hr)
      · obtain ⟨R', hR'', rfl⟩ := List.mem_map.mp hR'
        obtain ⟨p, _, hr⟩ := hB1.1 R' hR''
        exact .inr ⟨tauTwo, none, R', rfl, tauTwo_unb, realises_plain hr⟩
  obtain ⟨ms1, d1, ms2, d2, o1, o2, _, _, h3, ⟨a1, a2, a3, a4⟩, b1, b2, b3, b4⟩ :=
    zd_core heng hed hs hz lv (ks.map LargeValues.raiseToPower) tl t1 zl (by
      rw [hlv]; intro h; simpa [h] using (hR (unionOf ml :: lvs)).length_eq) hrs (.inl hneg) x0 x1 tau0 hx htau true false
  have hp1 : ∀ s, x0 ≤ s → s < x1 → ∃ t r, RightLimit (Allowed x0 x1 tau0 (2 * tau0) (lv ++ tl)) s t r ∧ 0 ≤ r / t :=
    fun s l1 l2 => some_of_pos hG1 (by linarith) (by linarith) l1 l2 (le_refl tau0) (by linarith) (hposL s tau0 l2)
  have hp2 : ∀ s, x0 ≤ s → s < x1 → ∃ t r, RightLimit (Allowed x0 x1 2 tau0 (lv ++ tl ++ zl)) s t r ∧ 0 ≤ r / t := by
    intro s l1 l2
    obtain ⟨t, k1, k2, k3⟩ := hzp s l1 l2
    refine some_of_pos hG2 htau (by norm_num) l1 l2 k1 k2 ?_
    intro cs hcs
    unfold powered at hcs
    rw [List.map_append, List.mem_append] at hcs
    rcases hcs with hcs | hcs
    · exact hposL s t l2 cs hcs
    · rw [List.map_map] at hcs
      obtain ⟨bs, hbs, rfl⟩ := List.mem_map.mp hcs
      obtain ⟨b, hb, hlt⟩ := k3 bs hbs
      exact ⟨pw 1 b, List.mem_map.mpr ⟨b, hb, rfl⟩, by rw [bval_pw one_ne_zero, div_one, one_mul]; exact hlt⟩
  have hout : proveZeroDensity eng edges solve isZero orderR orderK lvs zlvs x0 x1 tau0 =
      .ok (rfMax solve isZero (funcDomains o1 ++ funcDomains o2) ⟨x0, x1, true, false⟩ false) := by
    unfold proveZeroDensity
    rw [e1]
    simp only [bind, Except.bind]
    rw [← hlv, ← hks, lvToZlv_eq lv _ tl t1]
    exact h3
  have hpole : ∀ p ∈ o1 ++ o2, ∀ x, (x0 : ℝ) ≤ x → x < x1 → p.fn.NoCommonZero x := by
    intro p hp
    rcases List.mem_append.mp hp with hp | hp
    · exact noCommonZero_of_decreasing a1 a2 a3 a4 (higher_of_mem hG1 (by linarith) (by linarith)
        (fun cs hcs => hnegL cs (by unfold powered at hcs ⊢; rw [List.map_append]; exact List.mem_append_left _ hcs))
        (fun s t r h => by
          obtain ⟨k1, k2, k3, k4⟩ := (hG1 s t r).mp h
          exact hcapL s t r (by linarith [k1.1]) (by linarith [k2.2]) ((under_withPowers hkp _ _ _ _).mp k4))) hp1 p hp
    · exact noCommonZero_of_decreasing b1 b2 b3 b4 (higher_of_mem hG2 htau (by norm_num) hnegL
        (fun s t r h => by
          obtain ⟨k1, k2, k3, k4⟩ := (hG2 s t r).mp h
          exact hcapL s t r (by linarith [k1.1]) (by linarith [k2.2]) ((hsplit _ _ _).mp k4).1)) hp2 p hp
  refine ⟨_, hout, pieces_max hs hz hx a1 b1 hpole, fun s l1 l2 => ?_⟩
  obtain ⟨q, q1, q2, q3, q4, q5⟩ := zd_finish hs hz hx a1 a3 a4 b1 b3 b4 hpole s l1 l2
  refine ⟨q, q1, q2, q3, q4, ?_⟩
  have hg := greatest_of_valueAt hG1 hG2 (by linarith) htau l2 (by
    obtain ⟨t, r, k1, k2⟩ := hp1 s l1 l2
    exact ⟨t, r, .inl k1, k2⟩) q5
  have e : RatioSet (Allowed x0 x1 tau0 (2 * tau0) (lv ++ tl)) (Allowed x0 x1 2 tau0 (lv ++ tl ++ zl)) s =
      {v : ℝ | ∃ t r, Feasible LB ZB tau0 s t r ∧ v = ((r / t : ℚ) : ℝ)} := by
    ext v
    unfold RatioSet Feasible
    simp only [Set.mem_ofPred_eq]
    constructor
    · rintro ⟨t, r, h | h, rfl⟩
      · obtain ⟨k1, k2, k3, k4⟩ := (hG1 s t r).mp h
        exact ⟨t, r, ⟨k3.1, (under_withPowers hkp _ _ _ _).mp k4, .inl k2⟩, rfl⟩
      · obtain ⟨k1, k2, k3, k4⟩ := (hG2 s t r).mp h
        obtain ⟨k5, k6⟩ := (hsplit _ _ _).mp k4
        exact ⟨t, r, ⟨k3.1, k5, .inr ⟨k2.1, k2.2, k6⟩⟩, rfl⟩
    · rintro ⟨t, r, ⟨k1, k2, k3 | ⟨k3, k4, k5⟩⟩, rfl⟩
      · refine ⟨t, r, .inl ((hG1 s t r).mpr ⟨⟨l1, l2.le⟩, k3, ⟨k1, ?_⟩, (under_withPowers hkp _ _ _ _).mpr k2⟩), rfl⟩
        linarith [hcapL s t r (by linarith) (by linarith [k3.2]) k2]
      · refine ⟨t, r, .inr ((hG2 s t r).mpr ⟨⟨l1, l2.le⟩, ⟨k3, k4⟩, ⟨k1, ?_⟩, (hsplit _ _ _).mpr ⟨k2, k5⟩⟩), rfl⟩
        linarith [hcapL s t r (by linarith) (by linarith) k2]
  rw [← e]
  exact hg

/-- The hypotheses of `C81_value` can be met: Heath-Brown's large value estimate and the zeta large value estimate from the twelfth moment. -/
example : ∃ (eng : Engine) (edges : Mat → List (Pt × Pt)) (solve : RF ℝ → RF ℝ → List ℝ) (isZero : Expr ℝ → Bool) (R Z : Region ℕ)
    (out : List (Rational.Piece ℝ)),
    LargeValues.convertBounds eng.canon [[2, -2, 0], [10, -13, 1]] = .ok R ∧ LargeValues.convertBounds eng.canon [[6, -12, 2]] = .ok Z ∧
    proveZeroDensity eng edges solve isZero List.reverse id [R] [Z] (4 / 5) 1 3 = .ok out ∧ Pieces (4 / 5) 1 out := by
  obtain ⟨eng, heng, hneg⟩ := engineNeg_satisfiable
  obtain ⟨edges, solve, isZero, hs, hz, hed⟩ := C41_satisfiable
  have st1 : Staggered [] [(2, -2, 0), (10, -13, 1)] := by
    unfold Staggered Staggered Staggered bval
    exact ⟨⟨3 / 4, 1, 1 / 4, by norm_num⟩, ⟨3 / 4, 2, 1, by norm_num⟩, trivial⟩
  have st2 : Staggered [] [(6, -12, 2)] := by
    unfold Staggered Staggered bval
    exact ⟨⟨3 / 4, 3, 1, by norm_num⟩, trivial⟩
  obtain ⟨m1, a1, _, _⟩ := convert_full heng.canon heng.canonNoZero _ (by simp) st1
  have a2 := realises_convert heng.canon heng.canonNoZero _ (by simp) st1 a1
  obtain ⟨m2, b1, _, _⟩ := convert_full heng.canon heng.canonNoZero _ (by simp) st2
  have b2 := realises_convert heng.canon heng.canonNoZero _ (by simp) st2 b1
  obtain ⟨out, o1, o2, _⟩ := C81_value heng hneg hed hs hz List.reverse_perm (orderK := id) (fun l => .refl l) [[(2, -2, 0), (10, -13, 1)]]
    [[(6, -12, 2)]] [unionOf m1] [unionOf m2] ⟨by simpa using a2, by simpa using a2⟩ ⟨by simpa using b2, by simpa using b2⟩ (by decide +kernel)
    (by decide +kernel) (4 / 5) 1 3 (by norm_num) (by norm_num) (by norm_num) (by norm_num) (by norm_num) (fun s _ l => by
      refine ⟨3, by norm_num, le_rfl, fun bs hbs => ?_⟩
      obtain rfl := List.mem_singleton.mp hbs
      exact ⟨(6, -12, 2), by simp, by unfold bval; linarith⟩)
  exact ⟨eng, edges, solve, isZero, _, _, out, a1, b1, o1, o2⟩

end DerivedZD
end Expdb
