import Verif.Props.DerivedEnergyValue

/-!
# Preparations for the derived zero density energy estimates

The estimates as lists of bounds, the linear forms as disjunctions, and the two findings about the older functions
`prove_heath_brown_energy_estimate` and `prove_improved_heath_brown_energy_estimate`.
-/

namespace Expdb
namespace DerivedEnergy

open Rational SupRatio Mat Region ZeroDensity DerivedZD

/-! ### The estimates -/

/-- Huxley's estimate. -/
def hux : List (ℚ × ℚ × ℚ) := [(2, -2, 0), (4, -6, 1)]

/-- Jutila's estimate. -/
def jutK (j : ℕ) : List (ℚ × ℚ × ℚ) := [(2, -2, 0), (4 - 2 / (j : ℚ), -(6 - 2 / (j : ℚ)), 1), (6 * (j : ℚ), -8 * (j : ℚ), 1)]

theorem hux_staggered : Staggered [] hux := by
  unfold hux Staggered Staggered Staggered bval
  refine ⟨⟨3 / 4, 1, 1 / 4, by norm_num⟩, ⟨3 / 4, 2, 1, by norm_num⟩, trivial⟩

theorem jutK_staggered {j : ℕ} (hj : 1 ≤ j) : Staggered [] (jutK j) := by
  have h1 : (1 : ℚ) ≤ j := by exact_mod_cast hj
  have h2 : 1 / (j : ℚ) ≤ 1 := by rw [div_le_one (by linarith)]; exact h1
  have h3 : 0 < 1 / (j : ℚ) := by positivity
  have h4 : (2 : ℚ) / j = 2 * (1 / j) := by ring
  unfold jutK Staggered Staggered Staggered Staggered bval
  rw [h4]
  refine ⟨⟨3 / 4, 1, 1 / 4, by norm_num⟩, ⟨3 / 4, 2, 3 / 4, by norm_num, by norm_num, by norm_num, by norm_num, by norm_num, by norm_num, ?_, ?_⟩,
    ⟨3 / 5, 1, 3 / 2, by norm_num, by norm_num, by norm_num, by norm_num, by norm_num, by norm_num, ?_, ?_⟩, trivial⟩
  · simp only; linarith
  · intro c hc
    simp only [List.nil_append, List.mem_singleton] at hc
    subst hc
    norm_num
  · simp only; linarith
  · intro c hc
    simp only [List.nil_append, List.cons_append, List.mem_cons, List.not_mem_nil, or_false] at hc
    rcases hc with rfl | rfl
    · norm_num
    · simp only; linarith

theorem toBounds_jutK (j : ℕ) : (jutK j).map (fun b => [b.1, b.2.1, b.2.2]) = Literature.jutila j := rfl

theorem toBounds_gm : gm.map (fun b => [b.1, b.2.1, b.2.2]) = Literature.guthMaynard := rfl

theorem toBounds_hux : hux.map (fun b => [b.1, b.2.1, b.2.2]) = Literature.huxley := rfl

theorem toBounds_l2 : l2.map (fun b => [b.1, b.2.1, b.2.2]) = l2Bounds := rfl

theorem toBounds_tw : tw.map (fun b => [b.1, b.2.1, b.2.2]) = Literature.heathBrownTwelfth := rfl

theorem good_gm : gm ≠ [] ∧ Staggered [] gm := ⟨by simp [gm], gm_staggered⟩

theorem good_l2 : l2 ≠ [] ∧ Staggered [] l2 := ⟨by simp [DerivedZD.l2], l2_staggered⟩

theorem good_hux : hux ≠ [] ∧ Staggered [] hux := ⟨by simp [hux], hux_staggered⟩

theorem good_tw : tw ≠ [] ∧ Staggered [] tw := ⟨by simp [tw], tw_staggered⟩

theorem good_jutK {j : ℕ} (hj : 1 ≤ j) : jutK j ≠ [] ∧ Staggered [] (jutK j) := ⟨by simp [jutK], jutK_staggered hj⟩

/-! ### Decidability, for numerical tuples -/

instance (s t a b : ℚ) : Decidable (Literature.HBRelation s t a b) := inferInstanceAs (Decidable (_ ≤ _))

instance (ks : List ℚ) (LB ZB : List (List (ℚ × ℚ × ℚ))) (s t a b : ℚ) : Decidable (TupleOK ks LB ZB s t a b) :=
  inferInstanceAs (Decidable ((0 ≤ a ∧ a ≤ 1000000) ∧ (0 ≤ b ∧ b ≤ 1000000) ∧
    (∀ k ∈ 1 :: ks, Literature.HBRelation s (t / k) (a / k) (b / k) ∧ ∀ bs ∈ LB, ∃ q ∈ bs, a ≤ k * bval q s (t / k)) ∧
    ∀ bs ∈ ZB, ∃ q ∈ bs, a ≤ bval q s t))

instance (ks : List ℚ) (LB ZB : List (List (ℚ × ℚ × ℚ))) (m1 c1 m2 c2 s t a b : ℚ) : Decidable (Inside ks LB ZB m1 c1 m2 c2 s t a b) :=
  inferInstanceAs (Decidable (m1 * s + c1 < t ∧ t < m2 * s + c2 ∧ 0 < a ∧ a < 1000000 ∧ 0 < b ∧ b < 1000000 ∧
    TupleOK ks LB ZB s t a b))

/-! ### Tuples and forms -/

/-- Some form of Heath-Brown's relation with the power `k` is nonnegative. -/
def HBCond (k s t a b : ℚ) : Prop := ∃ c ∈ formsOf none k, 0 ≤ lin c s t a b

/-- Some bound of an estimate with the power `k` is obeyed. -/
def LVCond (bs : List (ℚ × ℚ × ℚ)) (k s t a : ℚ) : Prop := ∃ c ∈ formsOf (some bs) k, 0 ≤ lin c s t a 0

theorem lv_any (bs : List (ℚ × ℚ × ℚ)) (k s t a b : ℚ) : (∃ c ∈ formsOf (some bs) k, 0 ≤ lin c s t a b) ↔ LVCond bs k s t a := by
  unfold LVCond
  simp only [formsOf, List.mem_map, exists_exists_and_eq_and, lin, zero_mul]

theorem tuple_hb {ks : List ℚ} (hk : ∀ k ∈ ks, 1 ≤ k) {LB ZB : List (List (ℚ × ℚ × ℚ))} {s t a b : ℚ} (h : TupleOK ks LB ZB s t a b)
    {k : ℚ} (hm : k ∈ 1 :: ks) : HBCond k s t a b := by
  have h1 := ((tupleOK_iff hk LB ZB s t a b).mp h).2.2 (none, k) ((conds_mem _ _ _ _).mpr (.inl ⟨hm, .inl rfl⟩))
  refine (obeys_iff none ?_ s t a b).mp h1
  rcases List.mem_cons.mp hm with rfl | hm
  · exact one_pos
  · linarith [hk k hm]

theorem tuple_lv {ks : List ℚ} (hk : ∀ k ∈ ks, 1 ≤ k) {LB ZB : List (List (ℚ × ℚ × ℚ))} {s t a b : ℚ} (h : TupleOK ks LB ZB s t a b)
    {k : ℚ} (hm : k ∈ 1 :: ks) {bs : List (ℚ × ℚ × ℚ)} (hbs : bs ∈ LB) : LVCond bs k s t a := by
  have h1 := ((tupleOK_iff hk LB ZB s t a b).mp h).2.2 (some bs, k) ((conds_mem _ _ _ _).mpr (.inl ⟨hm, .inr ⟨bs, hbs, rfl⟩⟩))
  refine (lv_any bs k s t a b).mp ((obeys_iff (some bs) ?_ s t a b).mp h1)
  rcases List.mem_cons.mp hm with rfl | hm
  · exact one_pos
  · linarith [hk k hm]

theorem tuple_zeta {ks : List ℚ} (hk : ∀ k ∈ ks, 1 ≤ k) {LB ZB : List (List (ℚ × ℚ × ℚ))} {s t a b : ℚ} (h : TupleOK ks LB ZB s t a b)
    {bs : List (ℚ × ℚ × ℚ)} (hbs : bs ∈ ZB) : LVCond bs 1 s t a := by
  have h1 := ((tupleOK_iff hk LB ZB s t a b).mp h).2.2 (some bs, 1) ((conds_mem _ _ _ _).mpr (.inr ⟨rfl, bs, hbs, rfl⟩))
  exact (lv_any bs 1 s t a b).mp ((obeys_iff (some bs) one_pos s t a b).mp h1)

theorem tuple_of {ks : List ℚ} (hk : ∀ k ∈ ks, 1 ≤ k) {LB ZB : List (List (ℚ × ℚ × ℚ))} {s t a b : ℚ}
    (ha : 0 ≤ a ∧ a ≤ 1000000) (hb : 0 ≤ b ∧ b ≤ 1000000)
    (h1 : ∀ k ∈ 1 :: ks, HBCond k s t a b ∧ ∀ bs ∈ LB, LVCond bs k s t a) (h2 : ∀ bs ∈ ZB, LVCond bs 1 s t a) :
    TupleOK ks LB ZB s t a b := by
  refine (tupleOK_iff hk LB ZB s t a b).mpr ⟨ha, hb, ?_⟩
  rintro ⟨o, k⟩ hp
  have hpos := conds_one_le hk LB ZB _ hp
  simp only at hpos
  refine (obeys_iff o (by linarith) s t a b).mpr ?_
  rcases (conds_mem _ _ _ _).mp hp with ⟨i1, i2 | ⟨bs, i2, i3⟩⟩ | ⟨i1, bs, i2, i3⟩
  · simp only at i1 i2
    subst i2
    exact (h1 k i1).1
  · simp only at i1 i3
    subst i3
    exact (lv_any bs k s t a b).mpr ((h1 k i1).2 bs i2)
  · simp only at i1 i3
    subst i1 i3
    exact (lv_any bs 1 s t a b).mpr (h2 bs i2)

theorem tuple_mono {ks : List ℚ} {LB ZB : List (List (ℚ × ℚ × ℚ))} {s t a b : ℚ} (h : TupleOK ks LB ZB s t a b) :
    TupleOK ks LB [] s t a b := ⟨h.1, h.2.1, h.2.2.1, by simp⟩

theorem hbCond_iff (k s t a b : ℚ) : HBCond k s t a b ↔
    0 ≤ k * 2 - k * 2 * s + a / 2 - b / 2 ∨ 0 ≤ k * (3 / 2) - k * 2 * s + a - b / 2 ∨
    0 ≤ k * (3 / 2) - k * 2 * s + t / 4 + 5 / 8 * a - b / 2 ∨ 0 ≤ k * (3 / 2) - k * 2 * s + 5 / 2 * a - b ∨
    0 ≤ k - k * 2 * s + 3 * a - b ∨ 0 ≤ k - k * 2 * s + t / 4 + 21 / 8 * a - b ∨
    0 ≤ k * (3 / 2) - k * 2 * s + t / 4 + a - 5 / 8 * b ∨ 0 ≤ k - k * 2 * s + t / 4 + 3 / 2 * a - 5 / 8 * b ∨
    0 ≤ k - k * 2 * s + t / 2 + 9 / 8 * a - 5 / 8 * b := by
  unfold HBCond formsOf hbForms lin
  simp only [List.map_cons, List.map_nil, List.exists_mem_cons_iff, List.not_mem_nil, false_and, exists_false, or_false]
  refine or_congr ?_ (or_congr ?_ (or_congr ?_ (or_congr ?_ (or_congr ?_ (or_congr ?_ (or_congr ?_ (or_congr ?_ ?_))))))) <;>
    (constructor <;> intro h <;> linarith)

theorem lv1_iff (p : ℚ × ℚ × ℚ) (k s t a : ℚ) : LVCond [p] k s t a ↔ 0 ≤ k * p.1 + k * p.2.1 * s + p.2.2 * t - a := by
  unfold LVCond formsOf lin
  simp only [List.map_cons, List.map_nil, List.exists_mem_cons_iff, List.not_mem_nil, false_and, exists_false, or_false]
  constructor <;> intro h <;> linarith

theorem lv2_iff (p q : ℚ × ℚ × ℚ) (k s t a : ℚ) : LVCond [p, q] k s t a ↔
    0 ≤ k * p.1 + k * p.2.1 * s + p.2.2 * t - a ∨ 0 ≤ k * q.1 + k * q.2.1 * s + q.2.2 * t - a := by
  unfold LVCond formsOf lin
  simp only [List.map_cons, List.map_nil, List.exists_mem_cons_iff, List.not_mem_nil, false_and, exists_false, or_false]
  refine or_congr ?_ ?_ <;> (constructor <;> intro h <;> linarith)

theorem lv3_iff (p q r : ℚ × ℚ × ℚ) (k s t a : ℚ) : LVCond [p, q, r] k s t a ↔
    0 ≤ k * p.1 + k * p.2.1 * s + p.2.2 * t - a ∨ 0 ≤ k * q.1 + k * q.2.1 * s + q.2.2 * t - a ∨
    0 ≤ k * r.1 + k * r.2.1 * s + r.2.2 * t - a := by
  unfold LVCond formsOf lin
  simp only [List.map_cons, List.map_nil, List.exists_mem_cons_iff, List.not_mem_nil, false_and, exists_false, or_false]
  refine or_congr ?_ (or_congr ?_ ?_) <;> (constructor <;> intro h <;> linarith)

theorem jut_iff (j : ℕ) (k s t a : ℚ) : LVCond (jutK j) k s t a ↔ 0 ≤ k * 2 - k * 2 * s - a ∨
    0 ≤ k * (4 - 2 / (j : ℚ)) - k * (6 - 2 / (j : ℚ)) * s + t - a ∨ 0 ≤ k * (6 * (j : ℚ)) - k * (8 * (j : ℚ)) * s + t - a := by
  unfold jutK
  rw [lv3_iff]
  simp only
  refine or_congr ?_ (or_congr ?_ ?_) <;> (constructor <;> intro h <;> linarith)

theorem gm_iff (k s t a : ℚ) : LVCond gm k s t a ↔ 0 ≤ k * 2 - k * 2 * s - a ∨
    0 ≤ k * (18 / 5) - k * 4 * s - a ∨ 0 ≤ k * (12 / 5) - k * 4 * s + t - a := by
  unfold gm
  rw [lv3_iff]
  simp only
  refine or_congr ?_ (or_congr ?_ ?_) <;> (constructor <;> intro h <;> linarith)

theorem hux_iff (k s t a : ℚ) : LVCond hux k s t a ↔ 0 ≤ k * 2 - k * 2 * s - a ∨ 0 ≤ k * 4 - k * 6 * s + t - a := by
  unfold hux
  rw [lv2_iff]
  simp only
  refine or_congr ?_ ?_ <;> (constructor <;> intro h <;> linarith)

theorem l2_iff (k s t a : ℚ) : LVCond l2 k s t a ↔ 0 ≤ k * 2 - k * 2 * s - a ∨ 0 ≤ k - k * 2 * s + t - a := by
  unfold DerivedZD.l2
  rw [lv2_iff]
  simp only
  refine or_congr ?_ ?_ <;> (constructor <;> intro h <;> linarith)

theorem tw_iff (k s t a : ℚ) : LVCond tw k s t a ↔ 0 ≤ k * 6 - k * 12 * s + 2 * t - a := by
  unfold tw
  rw [lv1_iff]
  simp only
  constructor <;> intro h <;> linarith

theorem le_quot {b u n t : ℚ} (hu : 0 < u) (h : b * u ≤ n * t) : b ≤ n / u * t := by
  rw [div_mul_eq_mul_div, le_div_iff₀ hu]
  exact h

theorem eq_quot {b u n t : ℚ} (hu : 0 < u) (h : b * u = n * t) : b = n / u * t := by
  rw [div_mul_eq_mul_div, eq_div_iff hu.ne']
  exact h

/-! ### The calls with the old signature -/

/-- **C85** (old calls) `prove_heath_brown_energy_estimate` and `prove_improved_heath_brown_energy_estimate` (derived.py:662-812) never
return an estimate: whatever the rest of `lver_to_energy_bound` does, passing two hypotheses where a `Hypothesis_Set` and an `Affine`
are expected raises `ValueError`. -/
theorem C85_old_calls_counterexample {α : Type} (b : Arg) (run : Py α) : callEnergyBound .hypothesis b run = .error .valueError := rfl

/-- A call with the current signature runs. -/
example : callEnergyBound (α := ℕ) .hypothesisSet .affine (.ok 3) = .ok 3 := rfl

end DerivedEnergy
end Expdb
