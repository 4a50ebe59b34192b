import Verif.Props.DerivedEnergy

/-!
# The value that `lver_to_energy_bound` returns in the derivations of zero density energy estimates
-/

namespace Expdb
namespace DerivedEnergy

open Rational SupRatio Mat Region ZeroDensity DerivedZD

/-! ### Linear forms in `sigma, tau, rho, rho*` -/

/-- Coefficients of `1, sigma, tau, rho, rho*`. -/
abbrev Form := ℚ × ℚ × ℚ × ℚ × ℚ

/-- The value of a form. -/
def lin (c : Form) (s t a b : ℚ) : ℚ := c.1 + c.2.1 * s + c.2.2.1 * t + c.2.2.2.1 * a + c.2.2.2.2 * b

/-- The nine forms of Heath-Brown's relation. -/
def hbForms : List Form := [(2, -2, 0, 1 / 2, -(1 / 2)), (3 / 2, -2, 0, 1, -(1 / 2)), (3 / 2, -2, 1 / 4, 5 / 8, -(1 / 2)),
  (3 / 2, -2, 0, 5 / 2, -1), (1, -2, 0, 3, -1), (1, -2, 1 / 4, 21 / 8, -1), (3 / 2, -2, 1 / 4, 1, -(5 / 8)),
  (1, -2, 1 / 4, 3 / 2, -(5 / 8)), (1, -2, 1 / 2, 9 / 8, -(5 / 8))]

/-- The forms of an estimate raised to the power `k`. -/
def formsOf : Option (List (ℚ × ℚ × ℚ)) → ℚ → List Form
  | none, k => hbForms.map (fun c => (k * c.1, k * c.2.1, c.2.2))
  | some bs, k => bs.map (fun q => (k * q.1, k * q.2.1, q.2.2, -1, 0))

theorem hb_iff (s t a b : ℚ) : Literature.HBRelation s t a b ↔ ∃ c ∈ hbForms, 0 ≤ lin c s t a b := by
  have hb : Literature.HBRelation s t a b ↔ 2 * b - 2 + 4 * s ≤
      max (a + 1) (max (2 * a) (5 / 4 * a + t / 2)) + max (b + 1) (max (4 * a) (3 / 4 * b + a + t / 2)) := by
    unfold Literature.HBRelation
    constructor <;> intro h <;> linarith
  rw [hb, LargeValues.max_sum]
  unfold hbForms lin
  simp only [List.exists_mem_cons_iff, List.not_mem_nil, false_and, exists_false, or_false]
  constructor
  · rintro (h | h | h | h | h | h | h | h | h)
    · left; linarith
    · right; right; right; left; linarith
    · right; right; right; right; right; right; left; linarith
    · right; left; linarith
    · right; right; right; right; left; linarith
    · right; right; right; right; right; right; right; left; linarith
    · right; right; left; linarith
    · right; right; right; right; right; left; linarith
    · right; right; right; right; right; right; right; right; linarith
  · rintro (h | h | h | h | h | h | h | h | h)
    · left; linarith
    · right; right; right; left; linarith
    · right; right; right; right; right; right; left; linarith
    · right; left; linarith
    · right; right; right; right; left; linarith
    · right; right; right; right; right; right; right; left; linarith
    · right; right; left; linarith
    · right; right; right; right; right; left; linarith
    · right; right; right; right; right; right; right; right; linarith

theorem obeys_iff (o : Option (List (ℚ × ℚ × ℚ))) {k : ℚ} (hk : 0 < k) (s t a b : ℚ) :
    Obeys o s (t / k) (a / k) (b / k) ↔ ∃ c ∈ formsOf o k, 0 ≤ lin c s t a b := by
  cases o with
  | none =>
    simp only [Obeys, formsOf, hb_iff, List.mem_map, exists_exists_and_eq_and]
    refine exists_congr fun c => and_congr_right fun _ => ?_
    have e : lin (k * c.1, k * c.2.1, c.2.2) s t a b = k * lin c s (t / k) (a / k) (b / k) := by
      unfold lin
      field_simp
    rw [e, mul_nonneg_iff_of_pos_left hk]
  | some bs =>
    simp only [Obeys, formsOf, List.mem_map, exists_exists_and_eq_and]
    refine exists_congr fun q => and_congr_right fun _ => ?_
    have e : lin (k * q.1, k * q.2.1, q.2.2, -1, 0) s t a b = k * bval q s (t / k) - a := by
      unfold lin bval
      field_simp
      ring
    rw [e, div_le_iff₀ hk, sub_nonneg, mul_comm]

/-- Going down in `rho`, and faster in `rho*`, all forms of a list increase. -/
theorem direction (cs : List Form) (h : ∀ c ∈ cs, c.2.2.2.2 < 0 ∨ (c.2.2.2.2 = 0 ∧ c.2.2.2.1 < 0)) :
    ∃ A M : ℚ, 0 ≤ A ∧ 0 ≤ M ∧ ∀ c ∈ cs, 0 < c.2.1 - c.2.2.2.1 * A - c.2.2.2.2 * M := by
  have h1 : ∃ A : ℚ, 0 ≤ A ∧ ∀ c ∈ cs, c.2.2.2.2 = 0 → 0 < c.2.1 - c.2.2.2.1 * A := by
    have key : ∃ A0 : ℚ, ∀ A, A0 ≤ A → ∀ c ∈ cs, c.2.2.2.2 = 0 → 0 < c.2.1 - c.2.2.2.1 * A := by
      induction cs with
      | nil => exact ⟨0, by simp⟩
      | cons c cs ih =>
        obtain ⟨A0, hA⟩ := ih (fun c hc => h c (by simp [hc]))
        refine ⟨max A0 ((|c.2.1| + 1) / (-c.2.2.2.1)), fun A hA' c' hc' hz => ?_⟩
        rcases List.mem_cons.mp hc' with rfl | hc'
        · have hneg : c'.2.2.2.1 < 0 := by
            rcases h c' (by simp) with k | k
            · linarith
            · exact k.2
          have h3 := (le_max_right _ _).trans hA'
          rw [div_le_iff₀ (by linarith)] at h3
          have := neg_abs_le c'.2.1
          linarith
        · exact hA A ((le_max_left _ _).trans hA') c' hc' hz
    obtain ⟨A0, hA⟩ := key
    exact ⟨max A0 0, le_max_right _ _, hA _ (le_max_left _ _)⟩
  obtain ⟨A, hA0, hA⟩ := h1
  have h2 : ∃ M0 : ℚ, ∀ M, M0 ≤ M → ∀ c ∈ cs, 0 < c.2.1 - c.2.2.2.1 * A - c.2.2.2.2 * M := by
    clear hA0
    induction cs with
    | nil => exact ⟨0, by simp⟩
    | cons c cs ih =>
      obtain ⟨M0, hM⟩ := ih (fun c hc => h c (by simp [hc])) (fun c hc => hA c (by simp [hc]))
      rcases h c (by simp) with k | k
      · refine ⟨max M0 ((|c.2.1 - c.2.2.2.1 * A| + 1) / (-c.2.2.2.2)), fun M hM' c' hc' => ?_⟩
        rcases List.mem_cons.mp hc' with rfl | hc'
        · have h3 := (le_max_right _ _).trans hM'
          rw [div_le_iff₀ (by linarith)] at h3
          have := neg_abs_le (c'.2.1 - c'.2.2.2.1 * A)
          linarith
        · exact hM M ((le_max_left _ _).trans hM') c' hc'
      · refine ⟨M0, fun M hM' c' hc' => ?_⟩
        rcases List.mem_cons.mp hc' with rfl | hc'
        · rw [k.1]
          have := hA c' (by simp) k.1
          linarith
        · exact hM M hM' c' hc'
  obtain ⟨M0, hM⟩ := h2
  exact ⟨A, max M0 0, hA0, le_max_right _ _, hM _ (le_max_left _ _)⟩

/-- Forms that are nonnegative and increase in a direction are positive a little further. -/
theorem along (cs : List Form) (s t a b A M : ℚ)
    (h : ∀ c ∈ cs, 0 < lin c s t a b ∨ (0 ≤ lin c s t a b ∧ 0 < c.2.1 - c.2.2.2.1 * A - c.2.2.2.2 * M)) :
    ∃ η0 : ℚ, 0 < η0 ∧ ∀ η, 0 < η → η < η0 → ∀ c ∈ cs, 0 < lin c (s + η) t (a - η * A) (b - η * M) := by
  induction cs with
  | nil => exact ⟨1, one_pos, by simp⟩
  | cons c cs ih =>
    obtain ⟨η0, h0, h1⟩ := ih (fun c hc => h c (by simp [hc]))
    have e : ∀ η : ℚ, lin c (s + η) t (a - η * A) (b - η * M) = lin c s t a b + η * (c.2.1 - c.2.2.2.1 * A - c.2.2.2.2 * M) := by
      intro η; unfold lin; ring
    set d := c.2.1 - c.2.2.2.1 * A - c.2.2.2.2 * M with hd
    obtain ⟨η1, k0, k1⟩ : ∃ η1 : ℚ, 0 < η1 ∧ ∀ η, 0 < η → η < η1 → 0 < lin c s t a b + η * d := by
      rcases h c (by simp) with k | ⟨k, k'⟩
      · refine ⟨lin c s t a b / (|d| + 1), by positivity, fun η i1 i2 => ?_⟩
        rw [lt_div_iff₀ (by positivity)] at i2
        have h3 : -(η * |d|) ≤ η * d := by
          rw [← mul_neg]; exact mul_le_mul_of_nonneg_left (neg_abs_le d) i1.le
        linarith
      · refine ⟨1, one_pos, fun η i1 _ => ?_⟩
        have := mul_pos i1 k'
        linarith
    refine ⟨min η0 η1, lt_min h0 k0, fun η i1 i2 c' hc' => ?_⟩
    rcases List.mem_cons.mp hc' with rfl | hc'
    · rw [e]; exact k1 η i1 (i2.trans_le (min_le_right _ _))
    · exact h1 η i1 (i2.trans_le (min_le_left _ _)) c' hc'

/-- Positive forms are positive nearby. -/
theorem nearby (cs : List Form) (s t a b : ℚ) (h : ∀ c ∈ cs, 0 < lin c s t a b) :
    ∃ δ : ℚ, 0 < δ ∧ ∀ s' t' a' b', |s' - s| < δ → |t' - t| < δ → |a' - a| < δ → |b' - b| < δ → ∀ c ∈ cs, 0 < lin c s' t' a' b' := by
  induction cs with
  | nil => exact ⟨1, one_pos, by simp⟩
  | cons c cs ih =>
    obtain ⟨δ, h0, h1⟩ := ih (fun c hc => h c (by simp [hc]))
    have hp := h c (by simp)
    set K := |c.2.1| + |c.2.2.1| + |c.2.2.2.1| + |c.2.2.2.2| + 1 with hK
    have hKp : 0 < K := by positivity
    refine ⟨min δ (lin c s t a b / K), lt_min h0 (by positivity), fun s' t' a' b' k1 k2 k3 k4 c' hc' => ?_⟩
    rcases List.mem_cons.mp hc' with rfl | hc'
    · set e := lin c' s t a b / K with he
      have hle : e * K = lin c' s t a b := by rw [he]; field_simp
      have hb : ∀ u v w : ℚ, |v - w| < e → -(|u| * e) ≤ u * (v - w) := by
        intro u v w hv
        have : |u * (v - w)| ≤ |u| * e := by
          rw [abs_mul]; exact mul_le_mul_of_nonneg_left hv.le (abs_nonneg _)
        exact (abs_le.mp this).1
      have b1 := hb c'.2.1 s' s (k1.trans_le (min_le_right _ _))
      have b2 := hb c'.2.2.1 t' t (k2.trans_le (min_le_right _ _))
      have b3 := hb c'.2.2.2.1 a' a (k3.trans_le (min_le_right _ _))
      have b4 := hb c'.2.2.2.2 b' b (k4.trans_le (min_le_right _ _))
      have hpos : 0 < e := by positivity
      have : lin c' s' t' a' b' = lin c' s t a b + c'.2.1 * (s' - s) + c'.2.2.1 * (t' - t) + c'.2.2.2.1 * (a' - a) +
          c'.2.2.2.2 * (b' - b) := by unfold lin; ring
      rw [this, ← hle, hK]
      nlinarith
    · exact h1 s' t' a' b' (k1.trans_le (min_le_left _ _)) (k2.trans_le (min_le_left _ _)) (k3.trans_le (min_le_left _ _))
        (k4.trans_le (min_le_left _ _)) c' hc'

/-! ### Tuples -/

/-- `(sigma, tau, rho, rho*)` obeys Heath-Brown's relation and the large value estimates (each a maximum of bounds), and these raised
to the powers in `ks`, and the zeta large value estimates; `rho` and `rho*` are between 0 and 1000000. -/
def TupleOK (ks : List ℚ) (LB ZB : List (List (ℚ × ℚ × ℚ))) (s t a b : ℚ) : Prop :=
  (0 ≤ a ∧ a ≤ 1000000) ∧ (0 ≤ b ∧ b ≤ 1000000) ∧
  (∀ k ∈ 1 :: ks, Literature.HBRelation s (t / k) (a / k) (b / k) ∧ ∀ bs ∈ LB, ∃ q ∈ bs, a ≤ k * bval q s (t / k)) ∧
  ∀ bs ∈ ZB, ∃ q ∈ bs, a ≤ bval q s t

/-- The estimates and powers. -/
def conds (ks : List ℚ) (LB ZB : List (List (ℚ × ℚ × ℚ))) : List (Option (List (ℚ × ℚ × ℚ)) × ℚ) :=
  (1 :: ks).flatMap (fun k => (none :: LB.map some).map (fun o => (o, k))) ++ ZB.map (fun bs => (some bs, 1))

theorem conds_mem (ks : List ℚ) (LB ZB : List (List (ℚ × ℚ × ℚ))) (p : Option (List (ℚ × ℚ × ℚ)) × ℚ) :
    p ∈ conds ks LB ZB ↔ (p.2 ∈ 1 :: ks ∧ (p.1 = none ∨ ∃ bs ∈ LB, p.1 = some bs)) ∨ (p.2 = 1 ∧ ∃ bs ∈ ZB, p.1 = some bs) := by
  obtain ⟨o, k⟩ := p
  unfold conds
  simp only [List.mem_append, List.mem_flatMap, List.mem_map, List.mem_cons, Prod.mk.injEq]
  constructor
  · rintro (⟨k', hk, o', h, rfl, rfl⟩ | ⟨bs, h1, rfl, rfl⟩)
    · refine .inl ⟨hk, ?_⟩
      rcases h with rfl | ⟨bs, h, rfl⟩
      · exact .inl rfl
      · exact .inr ⟨bs, h, rfl⟩
    · exact .inr ⟨rfl, bs, h1, rfl⟩
  · rintro (⟨hk, h⟩ | ⟨rfl, bs, h1, rfl⟩)
    · refine .inl ⟨k, hk, o, ?_, rfl, rfl⟩
      rcases h with rfl | ⟨bs, h, rfl⟩
      · exact .inl rfl
      · exact .inr ⟨bs, h, rfl⟩
    · exact .inr ⟨bs, h1, rfl, rfl⟩

theorem tupleOK_iff {ks : List ℚ} (hk : ∀ k ∈ ks, 1 ≤ k) (LB ZB : List (List (ℚ × ℚ × ℚ))) (s t a b : ℚ) :
    TupleOK ks LB ZB s t a b ↔ (0 ≤ a ∧ a ≤ 1000000) ∧ (0 ≤ b ∧ b ≤ 1000000) ∧
      ∀ p ∈ conds ks LB ZB, Obeys p.1 s (t / p.2) (a / p.2) (b / p.2) := by
  have hpos : ∀ k ∈ 1 :: ks, 0 < k := by
    intro k h
    rcases List.mem_cons.mp h with rfl | h
    · exact one_pos
    · linarith [hk k h]
  unfold TupleOK
  refine and_congr_right fun _ => and_congr_right fun _ => ?_
  constructor
  · rintro ⟨h1, h2⟩ ⟨o, k⟩ hp
    rcases (conds_mem _ _ _ _).mp hp with ⟨i1, i2 | ⟨bs, i2, i3⟩⟩ | ⟨i1, bs, i2, i3⟩
    · simp only at i1 i2
      subst i2
      exact (h1 k i1).1
    · simp only at i1 i3
      subst i3
      obtain ⟨q, hq, hle⟩ := (h1 k i1).2 bs i2
      exact ⟨q, hq, by rw [div_le_iff₀ (hpos k i1), mul_comm]; exact hle⟩
    · simp only at i1 i3
      subst i1 i3
      obtain ⟨q, hq, hle⟩ := h2 bs i2
      exact ⟨q, hq, by simpa using hle⟩
  · intro h
    refine ⟨fun k i1 => ⟨h (none, k) ((conds_mem _ _ _ _).mpr (.inl ⟨i1, .inl rfl⟩)), fun bs hbs => ?_⟩, fun bs hbs => ?_⟩
    · obtain ⟨q, hq, hle⟩ := h (some bs, k) ((conds_mem _ _ _ _).mpr (.inl ⟨i1, .inr ⟨bs, hbs, rfl⟩⟩))
      exact ⟨q, hq, by rw [div_le_iff₀ (hpos k i1), mul_comm] at hle; exact hle⟩
    · obtain ⟨q, hq, hle⟩ := h (some bs, 1) ((conds_mem _ _ _ _).mpr (.inr ⟨rfl, bs, hbs, rfl⟩))
      exact ⟨q, hq, by simpa using hle⟩

theorem conds_one_le {ks : List ℚ} (hk : ∀ k ∈ ks, 1 ≤ k) (LB ZB : List (List (ℚ × ℚ × ℚ))) : ∀ p ∈ conds ks LB ZB, 1 ≤ p.2 := by
  intro p hp
  rcases (conds_mem _ _ _ _).mp hp with ⟨h, _⟩ | ⟨h, _⟩
  · rcases List.mem_cons.mp h with h | h
    · rw [h]
    · exact hk _ h
  · rw [h]

/-- Membership in all regions. -/
theorem CoversE.mem {rs : List (Region ℕ)} {B : List (Option (List (ℚ × ℚ × ℚ)) × ℚ)} (h : CoversE rs B) (hB : ∀ p ∈ B, 1 ≤ p.2)
    {s t a b c : ℚ} (hs : 1 / 2 ≤ s ∧ s ≤ 1) (ht : 0 ≤ t ∧ t ≤ 1000000) (ha : 0 ≤ a ∧ a ≤ 1000000) (hb : 0 ≤ b ∧ b ≤ 1000000)
    (hc : 0 ≤ c ∧ c ≤ 1000000) :
    (∀ R ∈ rs, R.Mem [s, t, a, b, c]) ↔ ∀ p ∈ B, Obeys p.1 s (t / p.2) (a / p.2) (b / p.2) := by
  have hbox : ∀ k : ℚ, 1 ≤ k → LargeValues.InEnergyBox s (t / k) (a / k) (b / k) (c / k) := by
    intro k hk
    have hd : ∀ v : ℚ, 0 ≤ v ∧ v ≤ 1000000 → 0 ≤ v / k ∧ v / k ≤ 1000000 := by
      intro v hv
      refine ⟨div_nonneg hv.1 (by linarith), ?_⟩
      rw [div_le_iff₀ (by linarith)]
      nlinarith [hv.1, hv.2]
    exact ⟨⟨hs.1, hs.2, (hd t ht).1, (hd t ht).2, (hd a ha).1, (hd a ha).2⟩, (hd b hb).1, (hd b hb).2, (hd c hc).1, (hd c hc).2⟩
  constructor
  · intro hm p hp
    obtain ⟨R, hR, hr⟩ := h.2 p hp
    exact ((hr.2 s t a b c).mp (hm R hR)).2
  · intro ho R hR
    obtain ⟨p, hp, hr⟩ := h.1 R hR
    exact (hr.2 s t a b c).mpr ⟨hbox p.2 (hB p hp), ho p hp⟩

theorem madeBy_plain {o : Option (List (ℚ × ℚ × ℚ))} {k : ℚ} {R : Region ℕ} (h : MadeBy o k R) :
    Plain false R ∧ ∀ m ∈ R.leaves, FullDim 6 m := by
  obtain ⟨⟨ms, rfl, h1⟩, _⟩ := h
  exact ⟨unionOf_plain ms, by rw [unionOf_leaves]; exact h1⟩

theorem formsOf_down (o : Option (List (ℚ × ℚ × ℚ))) (k : ℚ) :
    ∀ c ∈ formsOf o k, c.2.2.2.2 < 0 ∨ (c.2.2.2.2 = 0 ∧ c.2.2.2.1 < 0) := by
  intro c hc
  cases o with
  | none =>
    simp only [formsOf, List.mem_map] at hc
    obtain ⟨d, hd, rfl⟩ := hc
    exact .inl ((by decide +kernel : ∀ d ∈ hbForms, d.2.2.2.2 < 0) d hd)
  | some bs =>
    simp only [formsOf, List.mem_map] at hc
    obtain ⟨d, _, rfl⟩ := hc
    right
    norm_num

/-- Choosing one form of each estimate. -/
theorem choose_forms (B : List (Option (List (ℚ × ℚ × ℚ)) × ℚ)) (hB : ∀ p ∈ B, 1 ≤ p.2) (s t a b : ℚ)
    (h : ∀ p ∈ B, Obeys p.1 s (t / p.2) (a / p.2) (b / p.2)) :
    ∃ cs : List Form, (∀ c ∈ cs, 0 ≤ lin c s t a b ∧ (c.2.2.2.2 < 0 ∨ (c.2.2.2.2 = 0 ∧ c.2.2.2.1 < 0))) ∧
      ∀ s' t' a' b', (∀ c ∈ cs, 0 ≤ lin c s' t' a' b') → ∀ p ∈ B, Obeys p.1 s' (t' / p.2) (a' / p.2) (b' / p.2) := by
  induction B with
  | nil => exact ⟨[], by simp, by simp⟩
  | cons p B ih =>
    obtain ⟨cs, h1, h2⟩ := ih (fun q hq => hB q (by simp [hq])) (fun q hq => h q (by simp [hq]))
    have hp : 0 < p.2 := by linarith [hB p (by simp)]
    obtain ⟨c, hc, hle⟩ := (obeys_iff p.1 hp s t a b).mp (h p (by simp))
    refine ⟨c :: cs, ?_, ?_⟩
    · intro d hd
      rcases List.mem_cons.mp hd with rfl | hd
      · exact ⟨hle, formsOf_down _ _ _ hc⟩
      · exact h1 d hd
    · intro s' t' a' b' hcs q hq
      rcases List.mem_cons.mp hq with rfl | hq
      · exact (obeys_iff q.1 hp s' t' a' b').mpr ⟨c, hc, hcs c (by simp)⟩
      · exact h2 s' t' a' b' (fun d hd => hcs d (by simp [hd])) q hq

/-- The tuples of a strip. -/
theorem tuples_strip {rs : List (Region ℕ)} {ks : List ℚ} (hk : ∀ k ∈ ks, 1 ≤ k) {LB ZB : List (List (ℚ × ℚ × ℚ))}
    (h : CoversE rs (conds ks LB ZB)) {x0 x1 m1 c1 m2 c2 : ℚ} (hx0 : 1 / 2 ≤ x0) (hx1 : x1 ≤ 1)
    (ht0 : ∀ s, x0 ≤ s → s ≤ x1 → 0 ≤ m1 * s + c1 ∧ m2 * s + c2 ≤ 1000000) (s t a b c : ℚ) :
    Tuples (ZeroDensity.strip x0 x1 m1 c1 m2 c2) rs [s, t, a, b, c] ↔
      (x0 ≤ s ∧ s ≤ x1) ∧ (m1 * s + c1 ≤ t ∧ t ≤ m2 * s + c2) ∧ TupleOK ks LB ZB s t a b ∧ 0 ≤ c ∧ c ≤ 1000000 := by
  have hB := conds_one_le hk LB ZB
  unfold Tuples
  constructor
  · rintro ⟨s', t', a', b', c', e, k1, k2, k3, k4, k5⟩
    simp only [List.cons.injEq, and_true] at e
    obtain ⟨rfl, rfl, rfl, rfl, rfl⟩ := e
    obtain ⟨s', t', e, i1, i2, i3⟩ := (strip_contains _ _ _ _ _ _ _).mp k1
    simp only [List.cons.injEq, and_true] at e
    obtain ⟨rfl, rfl⟩ := e
    have ht := ht0 s i1.1 i1.2
    refine ⟨i1, ⟨i2, i3⟩, (tupleOK_iff hk LB ZB s t a b).mpr ⟨k2, k3, ?_⟩, k4⟩
    exact (h.mem hB ⟨by linarith [i1.1], by linarith [i1.2]⟩ ⟨by linarith [ht.1], by linarith [ht.2]⟩ k2 k3 k4).mp k5
  · rintro ⟨i1, ⟨i2, i3⟩, hT, k4⟩
    obtain ⟨k2, k3, k5⟩ := (tupleOK_iff hk LB ZB s t a b).mp hT
    have ht := ht0 s i1.1 i1.2
    exact ⟨s, t, a, b, c, rfl, (strip_contains _ _ _ _ _ _ _).mpr ⟨s, t, rfl, i1, i2, i3⟩, k2, k3, k4,
      (h.mem hB ⟨by linarith [i1.1], by linarith [i1.2]⟩ ⟨by linarith [ht.1], by linarith [ht.2]⟩ k2 k3 k4).mpr k5⟩

/-- Tuples with positive `rho` and `rho*` can be approached from the right by interior points. -/
theorem rightLimit_strip {rs : List (Region ℕ)} {ks : List ℚ} (hk : ∀ k ∈ ks, 1 ≤ k) {LB ZB : List (List (ℚ × ℚ × ℚ))}
    (h : CoversE rs (conds ks LB ZB)) {x0 x1 m1 c1 m2 c2 : ℚ} (hx0 : 1 / 2 ≤ x0) (hx1 : x1 ≤ 1)
    (ht0 : ∀ s, x0 ≤ s → s ≤ x1 → 0 ≤ m1 * s + c1 ∧ m2 * s + c2 ≤ 1000000) {s t a b : ℚ} (hs : x0 ≤ s) (hs' : s < x1)
    (ht1 : m1 * s + c1 < t) (ht2 : t < m2 * s + c2) (ha : 0 < a) (ha' : a < 1000000) (hb : 0 < b) (hb' : b < 1000000)
    (hT : TupleOK ks LB ZB s t a b) : RightLimit5 (Tuples (ZeroDensity.strip x0 x1 m1 c1 m2 c2) rs) s t a b 1 := by
  obtain ⟨_, _, k5⟩ := (tupleOK_iff hk LB ZB s t a b).mp hT
  obtain ⟨cs, g1, g2⟩ := choose_forms _ (conds_one_le hk LB ZB) s t a b k5
  obtain ⟨A, M, hA, hM, hd⟩ := direction cs (fun c hc => (g1 c hc).2)
  set box : List Form := [(-x0, 1, 0, 0, 0), (x1, -1, 0, 0, 0), (-c1, -m1, 1, 0, 0), (c2, m2, -1, 0, 0), (0, 0, 0, 1, 0),
    (1000000, 0, 0, -1, 0), (0, 0, 0, 0, 1), (1000000, 0, 0, 0, -1)] with hbox
  have hall : ∀ c ∈ box ++ cs, 0 < lin c s t a b ∨ (0 ≤ lin c s t a b ∧ 0 < c.2.1 - c.2.2.2.1 * A - c.2.2.2.2 * M) := by
    intro c hc
    rcases List.mem_append.mp hc with hc | hc
    · rw [hbox] at hc
      simp only [List.mem_cons, List.not_mem_nil, or_false] at hc
      unfold lin
      rcases hc with rfl | rfl | rfl | rfl | rfl | rfl | rfl | rfl
      · right; constructor <;> simp <;> linarith
      all_goals (left; simp; linarith)
    · exact .inr ⟨(g1 c hc).1, hd c hc⟩
  obtain ⟨η0, e1, e2⟩ := along _ s t a b A M hall
  intro ε hε
  set K := A + M + 1 with hK
  have hKp : 0 < K := by linarith
  set η := min (η0 / 2) (ε / (2 * K)) with hη
  have hηp : 0 < η := lt_min (by linarith) (by positivity)
  have hη0 : η < η0 := (min_le_left _ _).trans_lt (by linarith)
  have hηε : η * K < ε := by
    have : η ≤ ε / (2 * K) := min_le_right _ _
    rw [le_div_iff₀ (by positivity)] at this
    linarith
  have hst := e2 η hηp hη0
  obtain ⟨δ, d1, d2⟩ := nearby _ _ _ _ _ hst
  have hAe : η * A < ε := lt_of_le_of_lt (mul_le_mul_of_nonneg_left (by linarith) hηp.le) hηε
  have hMe : η * M < ε := lt_of_le_of_lt (mul_le_mul_of_nonneg_left (by linarith) hηp.le) hηε
  have h1e : η < ε := by
    refine lt_of_le_of_lt ?_ hηε
    have := mul_le_mul_of_nonneg_left (show (1 : ℚ) ≤ K by linarith) hηp.le
    linarith
  have hA0 : 0 ≤ η * A := mul_nonneg hηp.le hA
  have hM0 : 0 ≤ η * M := mul_nonneg hηp.le hM
  refine ⟨s + η, t, a - η * A, b - η * M, 1, ?_, by linarith, min δ 1, lt_min d1 one_pos, ?_⟩
  · refine .cons ?_ (.cons ?_ (.cons ?_ (.cons ?_ (.cons ?_ .nil)))) <;> rw [abs_lt] <;> constructor <;> linarith
  · intro z hz
    match z, hz with
    | [s', t', a', b', c'], .cons h1 (.cons h2 (.cons h3 (.cons h4 (.cons h5 .nil)))) =>
      have hp := d2 s' t' a' b' (h1.trans_le (min_le_left _ _)) (h2.trans_le (min_le_left _ _)) (h3.trans_le (min_le_left _ _))
        (h4.trans_le (min_le_left _ _))
      have hc' := abs_lt.mp (h5.trans_le (min_le_right _ _))
      have b1 := hp (-x0, 1, 0, 0, 0) (by simp [hbox])
      have b2 := hp (x1, -1, 0, 0, 0) (by simp [hbox])
      have b3 := hp (-c1, -m1, 1, 0, 0) (by simp [hbox])
      have b4 := hp (c2, m2, -1, 0, 0) (by simp [hbox])
      have b5 := hp (0, 0, 0, 1, 0) (by simp [hbox])
      have b6 := hp (1000000, 0, 0, -1, 0) (by simp [hbox])
      have b7 := hp (0, 0, 0, 0, 1) (by simp [hbox])
      have b8 := hp (1000000, 0, 0, 0, -1) (by simp [hbox])
      unfold lin at b1 b2 b3 b4 b5 b6 b7 b8
      simp at b1 b2 b3 b4 b5 b6 b7 b8
      rw [tuples_strip hk h hx0 hx1 ht0]
      refine ⟨⟨by linarith, by linarith⟩, ⟨by linarith, by linarith⟩, ?_, by linarith [hc'.1], by linarith [hc'.2]⟩
      refine (tupleOK_iff hk LB ZB s' t' a' b').mpr ⟨⟨b5.le, by linarith⟩, ⟨b7.le, by linarith⟩, ?_⟩
      exact g2 s' t' a' b' (fun c hc => (hp c (List.mem_append_right _ hc)).le)

theorem rightLimit_inner {S : Pt → Prop} {s t a b c : ℚ} (h : RightLimit5 S s t a b c) : InnerLimit S [s, t, a, b, c] := by
  intro ε hε
  obtain ⟨s', t', a', b', c', h1, _, h3⟩ := h ε hε
  exact ⟨_, h1, h3⟩

theorem dot_mid : ∀ (cs x y : List ℚ), x.length = y.length →
    dot cs (List.zipWith (fun u v => (u + v) / 2) x y) = (dot cs x + dot cs y) / 2 := by
  intro cs
  induction cs with
  | nil => intro x y _; simp
  | cons c cs ih =>
    intro x y hl
    match x, y, hl with
    | [], [], _ => simp
    | a :: x, b :: y, hl =>
      have := ih x y (by simpa using hl)
      simp only [List.zipWith_cons_cons, dot_cons, this]
      ring

/-- Polytopes are convex. -/
theorem contains_mid {m : Mat} {s t a b c s' t' a' b' c' : ℚ} (h1 : m.Contains [s, t, a, b, c]) (h2 : m.Contains [s', t', a', b', c']) :
    m.Contains [(s + s') / 2, (t + t') / 2, (a + a') / 2, (b + b') / 2, (c + c') / 2] := by
  have hl := contains_length h1
  rw [contains_iff_holds _ _ hl] at h1
  rw [contains_iff_holds _ _ (by simpa using hl)] at h2
  rw [contains_iff_holds _ _ (by simpa using hl)]
  intro r hr
  have hd := dot_mid r.cs [s, t, a, b, c] [s', t', a', b', c'] rfl
  simp only [List.zipWith_cons_cons, List.zipWith_nil_left] at hd
  unfold Row.Holds
  rw [hd]
  refine ⟨fun hlin => ?_, fun hlin => ?_⟩
  · have e1 := (h1 r hr).1 hlin
    have e2 := (h2 r hr).1 hlin
    linarith
  · have e1 := (h1 r hr).2 hlin
    have e2 := (h2 r hr).2 hlin
    linarith

/-! ### A domain without interior points -/

/-- A thin polytope and a full-dimensional one, neither inside the other. -/
theorem pieceInter_thin {eng : Engine} (heng : EngineSpec eng) {D q : Mat} (hD : Base 6 D) (hDb : D.Bounded)
    (hthin : ∀ x : Pt, x.length + 1 = 6 → ¬ D.Interior x) (hq : FullDim 6 q) (hnot : ∃ x, D.Contains x ∧ ¬ q.Contains x) :
    pieceInter (L := ℕ) eng false ⟨D, []⟩ ⟨q, []⟩ = .ok none := by
  obtain ⟨x, hx1, hx2⟩ := hnot
  have h1 : ¬ Mat.isSubsetOf eng.lp D q = true := by
    rw [C15_isSubsetOf_partial eng.lp heng.lp D q hD.wf hq.wf (by rw [hD.cols, hq.cols]) ⟨x, hx1⟩ (fun ab _ => hDb.below ab)]
    exact fun h => hx2 (h x hx1)
  have h2 : ¬ Mat.isSubsetOf eng.lp q D = true := by
    rw [subset_iffW heng hq hD]
    intro h
    obtain ⟨s, hs, hi⟩ := hq.inner
    exact hthin s hs (interior_of_subset 6 hq.cols hD.cols h hs hi)
  obtain ⟨i, e1, e2, e3, e4⟩ := C10_intersection_exact eng.canon heng.canon true [D, q] (by simp) 6 (by
    intro p hp
    simp only [List.mem_cons, List.not_mem_nil, or_false] at hp
    rcases hp with rfl | rfl
    · exact ⟨hD.wf, hD.cols⟩
    · exact ⟨hq.wf, hq.cols⟩)
  have hi : Mat.intersect eng.canon D q = .ok i := e1
  have hem : Mat.isEmptyExcl eng.lp i = true := by
    rw [C14_isEmptyExcl_iff eng.lp heng.lp i e2 (base_intersect_noZero heng hD hq.base hi) (by omega)]
    intro y hy hint
    exact hthin y (by rw [← e3]; exact hy)
      (interior_of_subset 6 e3 hD.cols (fun z hz => (e4 z).mp hz D (by simp)) (by rw [← e3]; exact hy) hint)
  unfold pieceInter
  rw [if_neg h1, if_neg h2]
  simp only
  rw [hi]
  simp only [bind, Except.bind]
  rw [if_pos hem]
  rfl

theorem inters_thin {eng : Engine} (heng : EngineSpec eng) {D : Mat} (hD : Base 6 D) (hDb : D.Bounded)
    (hthin : ∀ x : Pt, x.length + 1 = 6 → ¬ D.Interior x) (qs : List Mat) (hq : ∀ q ∈ qs, FullDim 6 q)
    (hnot : ∀ q ∈ qs, ∃ x, D.Contains x ∧ ¬ q.Contains x) :
    inters (L := ℕ) eng false ⟨D, []⟩ (qs.map (fun m => ⟨m, []⟩)) = .ok [] := by
  induction qs with
  | nil => rfl
  | cons q qs ih =>
    rw [List.map_cons, inters, pieceInter_thin heng hD hDb hthin (hq q (by simp)) (hnot q (by simp)),
      ih (fun q hq' => hq q (by simp [hq'])) (fun q hq' => hnot q (by simp [hq']))]
    rfl

theorem asDisjoint_unionOf (eng : Engine) (ms : List Mat) : asDisjoint eng false (unionOf ms) = .ok (ms.map (fun m => ⟨m, []⟩)) := by
  have key : asDisjointList eng false (ms.map (fun m => (.polytope m none : Region ℕ))) = .ok (ms.map (fun m => [⟨m, []⟩])) := by
    induction ms with
    | nil => simp [asDisjointList]
    | cons m ms ih =>
      rw [List.map_cons, asDisjointList, ih, asDisjoint, leafPieces]
      rfl
  have hfl : ∀ ms : List Mat, (ms.map (fun m => [(⟨m, []⟩ : Expdb.Piece ℕ)])).flatten = ms.map (fun m => ⟨m, []⟩) := by
    intro ms
    induction ms with
    | nil => rfl
    | cons m ms ih => simp [ih]
  unfold unionOf
  rw [asDisjoint, key]
  simp only [bind, Except.bind, pure, Except.pure, hfl]

theorem asDisjointList_unions (eng : Engine) (rs : List (Region ℕ)) (h : ∀ R ∈ rs, ∃ ms, R = unionOf ms) :
    ∃ ps, asDisjointList eng false rs = .ok ps := by
  induction rs with
  | nil => exact ⟨[], by simp [asDisjointList]⟩
  | cons R rs ih =>
    obtain ⟨ps, h1⟩ := ih (fun R hR => h R (by simp [hR]))
    obtain ⟨ms, rfl⟩ := h R (by simp)
    rw [asDisjointList, asDisjoint_unionOf, h1]
    exact ⟨_, rfl⟩

theorem intersectLoop_nil (eng : Engine) (Bs : List (List (Expdb.Piece ℕ))) : ∀ i, intersectLoop eng false i [] Bs = .ok [] := by
  induction Bs with
  | nil => intro i; rfl
  | cons B Bs ih =>
    intro i
    rw [intersectLoop, distribute]
    simp only [bind, Except.bind, pure, Except.pure]
    have : periodicSimplify (L := ℕ) eng false (i + 1) [] = .ok [] := by
      unfold periodicSimplify
      rw [if_neg (by simp)]
    rw [this]
    exact ih _

/-- If the domain has no interior points, and is not inside a polytope of the first region, then nothing is left. -/
theorem energySup_thin {eng : Engine} (heng : EngineSpec eng) (hrep : List Pt → Mat) (edges : Mat → List (Pt × Pt))
    (solve : RF ℝ → RF ℝ → List ℝ) (isZero : Expr ℝ → Bool) (lvers tl : List (Region ℕ)) (transforms : List (Region ℕ → Py (Region ℕ)))
    (ht : LargeValues.applyTransforms lvers transforms = .ok tl) (zlvers : List (Region ℕ)) (o : Option (List (ℚ × ℚ × ℚ)))
    (R1 : Region ℕ) (rest : List (Region ℕ)) (hl : lvers = R1 :: rest) (hR1 : MadeBy o 1 R1)
    (hall : ∀ R ∈ lvers ++ tl ++ zlvers, ∃ o k, MadeBy o k R) (x0 x1 s0 : ℚ) (hs0 : x0 ≤ s0 ∧ s0 ≤ x1)
    (hcap : ∀ bs, o = some bs → ∀ q ∈ bs, bval q s0 2 < 1000000) (hs1 : 0 ≤ s0) (D : Ival ℝ) :
    energySup eng hrep edges solve isZero lvers transforms true zlvers (ZeroDensity.strip x0 x1 0 2 0 2) D = .ok [] := by
  have hnz : (ZeroDensity.strip x0 x1 0 2 0 2).NoZero := by
    intro r hr
    simp only [ZeroDensity.strip, List.mem_cons, List.not_mem_nil, or_false] at hr
    rcases hr with rfl | rfl | rfl | rfl <;> simp [Row.isZero]
  have hbd : (ZeroDensity.strip x0 x1 0 2 0 2).Bounded := by
    refine ⟨max (max |x0| |x1|) 2, fun x hx v hv => ?_⟩
    obtain ⟨s, t, rfl, ⟨k1, k2⟩, k3, k4⟩ := (strip_contains _ _ _ _ _ _ x).mp hx
    simp only [List.mem_cons, List.not_mem_nil, or_false] at hv
    rcases hv with rfl | rfl
    · exact (abs_le_max_abs_abs k1 k2).trans (le_max_left _ _)
    · have : v = 2 := by linarith
      rw [this]
      norm_num
  obtain ⟨D', g1, g2, g3, g4⟩ := lift_domain_base (L := ℕ) (d := ZeroDensity.strip x0 x1 0 2 0 2) ⟨strip_wf _ _ _ _ _ _, rfl, hnz⟩ hbd
  have hthin : ∀ x : Pt, x.length + 1 = 6 → ¬ D'.Interior x := by
    intro x hx ⟨ε, hε, hi⟩
    match x, hx with
    | [s, t, a, b, c], _ =>
      have hc : ∀ η, |η| < ε → t + η = 2 := by
        intro η hη
        have hn : Near ε [s, t, a, b, c] [s, t + η, a, b, c] := by
          refine .cons ?_ (.cons ?_ (.cons ?_ (.cons ?_ (.cons ?_ .nil)))) <;> simp [hε, hη]
        have hc : D'.Contains [s, t + η, a, b, c] := (contains_iff_holds _ _ (by rw [g2.cols]; rfl)).mpr (hi _ hn)
        obtain ⟨s', t', a', b', c', e, k1, _⟩ := (g4 _).mp hc
        simp only [List.cons.injEq, and_true] at e
        obtain ⟨s'', t'', e', _, k3, k4⟩ := (strip_contains _ _ _ _ _ _ _).mp k1
        simp only [List.cons.injEq, and_true] at e'
        rw [e.2.1, e'.2]
        linarith
      have h1 := hc 0 (by simpa using hε)
      have h2 := hc (ε / 2) (by rw [abs_of_pos (by linarith)]; linarith)
      linarith
  obtain ⟨⟨ms, rfl, hms⟩, hmem⟩ := hR1
  have hnot : ∀ q ∈ ms, ∃ x, D'.Contains x ∧ ¬ q.Contains x := by
    intro q hq
    have hin : ∀ a b : ℚ, (0 ≤ a ∧ a ≤ 1000000) → (0 ≤ b ∧ b ≤ 1000000) → D'.Contains [s0, 2, a, b, 0] := by
      intro a b ha hb
      exact (g4 _).mpr ⟨_, _, _, _, _, rfl, (strip_contains _ _ _ _ _ _ _).mpr ⟨s0, 2, rfl, hs0, by norm_num, by norm_num⟩, ha, hb,
        by norm_num⟩
    have hob : ∀ a b : ℚ, q.Contains [s0, 2, a, b, 0] → Obeys o s0 2 a b := by
      intro a b hc
      have := ((hmem s0 2 a b 0).mp ((unionOf_mem _ _).mpr ⟨q, hq, hc⟩)).2
      simpa using this
    cases o with
    | none =>
      refine ⟨[s0, 2, 0, 1000000, 0], hin _ _ (by norm_num) (by norm_num), fun hc => ?_⟩
      have h := hob _ _ hc
      unfold Obeys Literature.HBRelation at h
      norm_num at h
      linarith
    | some bs =>
      refine ⟨[s0, 2, 1000000, 0, 0], hin _ _ (by norm_num) (by norm_num), fun hc => ?_⟩
      obtain ⟨q', hq', hle⟩ := hob _ _ hc
      exact absurd (hcap bs rfl q' hq') (not_lt.mpr hle)
  have hE : LargeValues.bestLver eng lvers transforms true zlvers (.polytope (ZeroDensity.strip x0 x1 0 2 0 2) none) =
      .ok (.disjoint []) := by
    obtain ⟨ps, hps⟩ := asDisjointList_unions eng (rest ++ tl ++ zlvers) (by
      intro R hR
      obtain ⟨o', k, ⟨ms', rfl, _⟩, _⟩ := hall R (by rw [hl]; simp at hR ⊢; tauto)
      exact ⟨ms', rfl⟩)
    unfold LargeValues.bestLver
    rw [ht]
    simp only [bind, Except.bind]
    rw [g1]
    simp only [if_true]
    unfold asDisjointUnion
    rw [hl, asDisjoint, List.cons_append, List.cons_append, asDisjointList, asDisjointList, asDisjoint_unionOf, hps, asDisjoint, leafPieces]
    simp only [Bool.false_eq_true, if_false, bind, Except.bind, pure, Except.pure]
    simp only [intersectSets]
    rw [intersectLoop, distribute, inters_thin heng g2 g3 hthin ms hms hnot]
    simp only [bind, Except.bind, pure, Except.pure]
    have hm0 : mergeInters (L := ℕ) eng false [] = .ok [] := by
      unfold mergeInters
      rw [if_neg (by simp)]
    have hp0 : periodicSimplify (L := ℕ) eng false (0 + 1) [] = .ok [] := by
      unfold periodicSimplify
      rw [if_neg (by simp)]
    rw [hm0]
    simp only [distribute, List.append_nil]
    rw [hp0]
    simp only
    rw [intersectLoop_nil]
    rfl
  unfold energySup lverToEnergy
  rw [hE]
  simp only
  have := asDisjointUnion_polys (L := ℕ) (eng := eng) []
  rw [List.map_nil] at this
  rw [this]
  simp only [projectSimplify, Region.project, projectList]

/-! ### The value -/

/-- A tuple with `tau` strictly between `m1 sigma + c1` and `m2 sigma + c2`, and `rho` and `rho*` strictly between 0 and 1000000. -/
def Inside (ks : List ℚ) (LB ZB : List (List (ℚ × ℚ × ℚ))) (m1 c1 m2 c2 s t a b : ℚ) : Prop :=
  m1 * s + c1 < t ∧ t < m2 * s + c2 ∧ 0 < a ∧ a < 1000000 ∧ 0 < b ∧ b < 1000000 ∧ TupleOK ks LB ZB s t a b

/-- Two such tuples whose midpoint does not obey the estimates. -/
def NotConvex (ks : List ℚ) (LB ZB : List (List (ℚ × ℚ × ℚ))) (x0 x1 m1 c1 m2 c2 : ℚ) : Prop :=
  ∃ s t a b s' t' a' b', (x0 ≤ s ∧ s < x1) ∧ (x0 ≤ s' ∧ s' < x1) ∧ Inside ks LB ZB m1 c1 m2 c2 s t a b ∧
    Inside ks LB ZB m1 c1 m2 c2 s' t' a' b' ∧ ¬ TupleOK ks LB ZB ((s + s') / 2) ((t + t') / 2) ((a + a') / 2) ((b + b') / 2)

/-- The tuples of the two ranges of `tau`, with `tau0 = m sigma + c`. -/
def FeasibleE (ks : List ℚ) (LB ZB : List (List (ℚ × ℚ × ℚ))) (m c s t a b : ℚ) : Prop :=
  ((m * s + c ≤ t ∧ t ≤ 2 * (m * s + c)) ∧ TupleOK ks LB [] s t a b) ∨ ((2 ≤ t ∧ t ≤ m * s + c) ∧ TupleOK ks LB ZB s t a b)

theorem disjoint_inj {ms ms' : List Mat} (h : (.ok (.disjoint (ms.map (fun m => .polytope m none))) : Py (Region ℕ)) =
    .ok (.disjoint (ms'.map (fun m => .polytope m none)))) : ms.length = ms'.length := by
  have := Except.ok.inj h
  simp only [Region.disjoint.injEq] at this
  simpa using congrArg List.length this

theorem not_single {eng : Engine} (heng : EngineSpec eng) (lvers tl : List (Region ℕ)) (transforms : List (Region ℕ → Py (Region ℕ)))
    (ht : LargeValues.applyTransforms lvers transforms = .ok tl) (zeta : Bool) (zlvers : List (Region ℕ))
    {ks : List ℚ} (hk : ∀ k ∈ ks, 1 ≤ k) {LB ZB : List (List (ℚ × ℚ × ℚ))}
    (hcov : CoversE (lvers ++ tl ++ (if zeta then zlvers else [])) (conds ks LB ZB)) {x0 x1 m1 c1 m2 c2 : ℚ} (hx0 : 1 / 2 ≤ x0) (hx1 : x1 ≤ 1)
    (ht0 : ∀ s, x0 ≤ s → s ≤ x1 → 0 ≤ m1 * s + c1 ∧ m2 * s + c2 ≤ 1000000) (hd : FullDim 3 (ZeroDensity.strip x0 x1 m1 c1 m2 c2))
    (hn : NotConvex ks LB ZB x0 x1 m1 c1 m2 c2) (ms : List Mat)
    (hms : LargeValues.bestLver eng lvers transforms zeta zlvers (.polytope (ZeroDensity.strip x0 x1 m1 c1 m2 c2) none) =
        .ok (.disjoint (ms.map (fun m => .polytope m none)))) : ms.length ≠ 1 := by
  obtain ⟨ms', h1, h2, h3, h4⟩ := best_spec heng lvers tl transforms ht zeta zlvers (by
    intro R hR
    obtain ⟨p, _, hm⟩ := hcov.1 R hR
    exact madeBy_plain hm) _ hd
  rw [h1] at hms
  rw [← disjoint_inj hms]
  intro hl
  obtain ⟨m, rfl⟩ := List.length_eq_one_iff.mp hl
  obtain ⟨s, t, a, b, s', t', a', b', i1, i2, ⟨k1, k2, k3, k4, k5, k6, k7⟩, ⟨l1, l2, l3, l4, l5, l6, l7⟩, hno⟩ := hn
  have r1 := rightLimit_inner (rightLimit_strip hk hcov hx0 hx1 ht0 i1.1 i1.2 k1 k2 k3 k4 k5 k6 k7)
  have r2 := rightLimit_inner (rightLimit_strip hk hcov hx0 hx1 ht0 i2.1 i2.2 l1 l2 l3 l4 l5 l6 l7)
  have hlim : ∀ x : Pt, x.length = 5 → InnerLimit (Tuples (ZeroDensity.strip x0 x1 m1 c1 m2 c2)
      (lvers ++ tl ++ (if zeta then zlvers else []))) x → m.Contains x := by
    intro x hx hi
    obtain ⟨m', hm', _, hc⟩ := h4 x hx (fun _ => True) (fun ε hε => by
      obtain ⟨y, e1, δ, e2, e3⟩ := hi ε hε
      exact ⟨y, e1, δ, e2, fun z hz => ⟨e3 z hz, fun _ _ _ => trivial⟩⟩)
    rw [List.mem_singleton.mp hm'] at hc
    exact hc
  have hmid := contains_mid (hlim _ rfl r1) (hlim _ rfl r2)
  have := h3 m (by simp) _ hmid
  rw [tuples_strip hk hcov hx0 hx1 ht0] at this
  exact hno this.2.2.1

theorem pieces_maxE {edges : Mat → List (Pt × Pt)} {solve : RF ℝ → RF ℝ → List ℝ} (hs : SolveSpec solve)
    {isZero : Expr ℝ → Bool} (hz : ZeroSpec isZero) {x0 x1 : ℚ} (hx : x0 < x1) {incL incU : Bool} {ms1 ms2 : List Mat}
    {o1 o2 : List (Rational.Piece ℝ)} (g2 : SupOut edges ⟨x0, x1, incL, incU⟩ ms1 o1) (g4 : SupOut edges ⟨x0, x1, incL, incU⟩ ms2 o2) :
    Pieces x0 x1 (rfMax solve isZero (funcDomains o1 ++ funcDomains o2) ⟨x0, x1, incL, incU⟩ true) := by
  have hfs : ∀ t ∈ funcDomains o1 ++ funcDomains o2, ArgOk t := by
    intro t ht
    rcases List.mem_append.mp ht with ht | ht
    · obtain ⟨p, hp, rfl⟩ := List.mem_map.mp ht
      exact g2.args p hp
    · obtain ⟨p, hp, rfl⟩ := List.mem_map.mp ht
      exact g4.args p hp
  obtain ⟨h1, h2⟩ := computeOptimal_ok (s := 1) (default := -1000000) (track := true) (cmp := fun x y => decide (x > y)) hs hz
    (fun u v => by simp) (by norm_num) _ ⟨x0, x1, incL, incU⟩ (by simpa using hx) hfs (by simp)
  exact ⟨h1, fun p hp => (h2 p hp).1.dfn⟩

variable {eng : Engine} {edges : Mat → List (Pt × Pt)} {solve : RF ℝ → RF ℝ → List ℝ} {isZero : Expr ℝ → Bool}
  {orderR : List (Region ℕ) → List (Region ℕ)} {orderK : List ℚ → List ℚ} {hrep : List Pt → Mat}

/-- The bounds as lists of coefficients. -/
def toBounds (LB : List (List (ℚ × ℚ × ℚ))) : List (List (List ℚ)) := LB.map (fun bs => bs.map (fun b => [b.1, b.2.1, b.2.2]))

/-- **C85** (general part) Suppose that the large value estimates and the zeta large value estimates are maxima of bounds each of which is
the largest somewhere, that `tau0 = m sigma + c` is at least 2, and either equal to 2 throughout or not always equal to 2, and that in
the two ranges of `tau` the tuples do not form a convex set. Then the functions `prove_zero_density_energy_*` do not raise, and at each
`s` of the interval the returned function is `v / (1 - s)`, where `v` is at least `rho* / tau` for all tuples
with `rho`, `rho*` positive and `tau` not at the ends of the range, and (if there is such a tuple) equal to `rho* / tau` for some tuple. The
order in which the hypotheses are listed does not matter. -/
theorem C85_value (C : Contracts eng edges solve isZero orderR orderK) (hh : HRepSpec hrep) (hhz : HRepNoZero hrep) (ks : List ℚ)
    (hk : ∀ k ∈ ks, 1 ≤ k) (LB ZB : List (List (ℚ × ℚ × ℚ))) (hLB : ∀ bs ∈ LB, bs ≠ [] ∧ Staggered [] bs)
    (hZB : ∀ bs ∈ ZB, bs ≠ [] ∧ Staggered [] bs) (m c x0 x1 : ℚ) (hx : x0 < x1) (hx0 : 1 / 2 ≤ x0) (hx1 : x1 ≤ 1)
    (hcap : ∀ bs ∈ LB, ∀ q ∈ bs, bval q x0 2 < 1000000) (h0 : 2 ≤ m * x0 + c) (h1 : 2 ≤ m * x1 + c)
    (h0' : m * x0 + c ≤ 1000) (h1' : m * x1 + c ≤ 1000) (hn1 : NotConvex ks LB [] x0 x1 m c (2 * m) (2 * c))
    (hn2 : (m = 0 ∧ c = 2) ∨ ((2 < m * x0 + c ∨ 2 < m * x1 + c) ∧ NotConvex ks LB ZB x0 x1 0 2 m c)) :
    ∃ ps, proveEnergy eng hrep edges solve isZero orderR orderK ks (toBounds LB) (toBounds ZB) m c x0 x1 =
        .ok (ps.map (fun p => (quotient p.fn (RF.make [-1, 1] none), p.dom))) ∧ Pieces x0 x1 ps ∧
      ∀ s, x0 ≤ s → s < x1 → ∃ q ∈ ps, q.dom.x0 ≤ s ∧ s < q.dom.x1 ∧
        (∀ t a b, (Inside ks LB [] m c (2 * m) (2 * c) s t a b ∨ Inside ks LB ZB 0 2 m c s t a b) → ((b / t : ℚ) : ℝ) ≤ q.fn.at s) ∧
        (q.fn.at s = -1000000 ∨ ∃ t a b, FeasibleE ks LB ZB m c s t a b ∧ q.fn.at s = ((b / t : ℚ) : ℝ)) := by
  have heng := C.engine
  obtain ⟨lvs, l1, l2⟩ := convertAll_ok heng.canon heng.canonNoZero LB hLB
  obtain ⟨zlvs, z1, z2⟩ := convertAll_ok heng.canon heng.canonNoZero ZB hZB
  obtain ⟨H, e1, e2⟩ := made_hb heng.canon heng.canonNoZero
  obtain ⟨as, a1, a2⟩ := lverAll_ok (orderR lvs) LB (l2.perm (C.permR _))
  obtain ⟨zs, b1, b2⟩ := lverAll_ok (orderR zlvs) ZB (z2.perm (C.permR _))
  have hcl : CoversE (orderR (H :: as)) ((none :: LB.map some).map (fun o => (o, 1))) := by
    refine CoversE.perm ?_ (C.permR _)
    have hH : CoversE [H] [(none, 1)] := ⟨by simpa using e2, by simpa using e2⟩
    have := hH.append a2
    simpa [List.map_map, Function.comp_def] using this
  have hcz : CoversE (orderR zs) (ZB.map (fun bs => (some bs, 1))) := b2.perm (C.permR _)
  set lv := orderR (H :: as) with hlv
  set zl := orderR zs with hzl
  set K := orderK ks with hK
  have hKp : K.Perm ks := C.permK _
  obtain ⟨tl, t1, t2⟩ := coversE_transforms hcl K (by
    intro k hk'
    linarith [hk k (hKp.mem_iff.mp hk')])
  have congr : ∀ {rs : List (Region ℕ)} {B B' : List (Option (List (ℚ × ℚ × ℚ)) × ℚ)}, CoversE rs B → (∀ p, p ∈ B ↔ p ∈ B') → CoversE rs B' := by
    intro rs B B' h hp
    refine ⟨fun R hR => ?_, fun p hp' => h.2 p ((hp p).mpr hp')⟩
    obtain ⟨p, k1, k2⟩ := h.1 R hR
    exact ⟨p, (hp p).mp k1, k2⟩
  have hmemK : ∀ p : Option (List (ℚ × ℚ × ℚ)) × ℚ, p ∈ (none :: LB.map some).map (fun o => (o, (1 : ℚ))) ++
      K.flatMap (fun k => (none :: LB.map some).map (fun o => (o, k))) ↔ p ∈ conds ks LB [] := by
    intro p
    unfold conds
    rw [List.map_nil, List.append_nil, List.flatMap_cons, List.mem_append, List.mem_append, List.mem_flatMap, List.mem_flatMap]
    simp only [hKp.mem_iff]
  have hB1 : CoversE (lv ++ tl) (conds ks LB []) := congr (hcl.append t2) hmemK
  have hB2 : CoversE (lv ++ tl ++ zl) (conds ks LB ZB) := by
    refine congr (hB1.append hcz) fun p => ?_
    unfold conds
    simp
  have hbetween : ∀ s, x0 ≤ s → s ≤ x1 → 2 ≤ m * s + c ∧ m * s + c ≤ 1000 := by
    intro s k1 k2
    rcases le_total 0 m with hm | hm
    · have i1 := mul_le_mul_of_nonneg_left k1 hm
      have i2 := mul_le_mul_of_nonneg_left k2 hm
      exact ⟨by linarith, by linarith⟩
    · have i1 := mul_le_mul_of_nonpos_left k1 hm
      have i2 := mul_le_mul_of_nonpos_left k2 hm
      exact ⟨by linarith, by linarith⟩
  have ht1 : ∀ s, x0 ≤ s → s ≤ x1 → 0 ≤ m * s + c ∧ 2 * m * s + 2 * c ≤ 1000000 := by
    intro s k1 k2
    have := hbetween s k1 k2
    exact ⟨by linarith, by linarith⟩
  have ht2 : ∀ s, x0 ≤ s → s ≤ x1 → 0 ≤ 0 * s + 2 ∧ m * s + c ≤ 1000000 := by
    intro s k1 k2
    have := hbetween s k1 k2
    exact ⟨by linarith, by linarith⟩
  have hD : ((⟨x0, x1, true, false⟩ : Ival ℝ)).x0 < (⟨x0, x1, true, false⟩ : Ival ℝ).x1 := by
    simpa using hx
  have hmid := hbetween ((x0 + x1) / 2) (by linarith) (by linarith)
  have hfd1 : FullDim 3 (ZeroDensity.strip x0 x1 m c (2 * m) (2 * c)) :=
    strip_fullDim _ _ _ _ _ _ ((x0 + x1) / 2) (by linarith) (by linarith) (by linarith [hmid.1])
  have hpl1 : ∀ r ∈ lv ++ tl, Plain false r ∧ ∀ m ∈ r.leaves, FullDim 6 m := by
    intro R hR
    obtain ⟨p, _, hm⟩ := hB1.1 R hR
    exact madeBy_plain hm
  obtain ⟨ms1, p1, _, p3⟩ := energySup_spec heng hh hhz C.edge C.solves C.zero lv tl (K.map LargeValues.raiseToPowerEnergy) t1 false zl
    (by simpa using hpl1) _ hfd1 (by
      intro s t hc
      obtain ⟨s', t', e, k, k3, _⟩ := (strip_contains _ _ _ _ _ _ _).mp hc
      simp only [List.cons.injEq, and_true] at e
      rw [e.2]
      linarith [(hbetween s' k.1 k.2).1]) ⟨x0, x1, true, false⟩ hD
  have hne1 := not_single heng lv tl _ t1 false zl hk (by simpa using hB1) hx0 hx1 ht1 hfd1 hn1 ms1 p1
  obtain ⟨o1, q1, r1, r2, r3, r4⟩ := p3 hne1
  simp only [Bool.false_eq_true, if_false, List.append_nil] at r3 r4
  have second : ∃ o2 q2, energySup eng hrep edges solve isZero lv (K.map LargeValues.raiseToPowerEnergy) true zl
        (ZeroDensity.strip x0 x1 0 2 m c) ⟨x0, x1, true, false⟩ = .ok o2 ∧ SupOut edges ⟨x0, x1, true, false⟩ q2 o2 ∧
      (∀ s t a b, x0 ≤ s → s < x1 → Inside ks LB ZB 0 2 m c s t a b → ((b / t : ℚ) : ℝ) ∈ Ratios q2 s) ∧
      ∀ s, ∀ v ∈ Ratios q2 s, ∃ t a b c', Tuples (ZeroDensity.strip x0 x1 0 2 m c) (lv ++ tl ++ zl) [s, t, a, b, c'] ∧
          v = ((b / t : ℚ) : ℝ) := by
    rcases hn2 with ⟨rfl, rfl⟩ | ⟨h01, hn2⟩
    · have hne : lv ≠ [] := by
        intro h
        have := (C.permR (H :: as)).length_eq
        rw [← hlv, h] at this
        simp at this
      obtain ⟨R1, rest, hl⟩ := List.exists_cons_of_ne_nil hne
      obtain ⟨p, hp, hm⟩ := hcl.1 R1 (by rw [hl]; simp)
      obtain ⟨o, ho, rfl⟩ := List.mem_map.mp hp
      refine ⟨[], [], energySup_thin heng hrep edges solve isZero lv tl _ t1 zl o R1 rest hl hm ?_ x0 x1 x0 ⟨le_refl _, hx.le⟩ ?_
        (by linarith) _, supOut_nil _ _, ?_, ?_⟩
      · intro R hR
        obtain ⟨p, _, hm⟩ := hB2.1 R hR
        exact ⟨_, _, hm⟩
      · rintro bs rfl
        simp only [List.mem_cons, reduceCtorEq, false_or, List.mem_map, Option.some.injEq, exists_eq_right] at ho
        exact hcap bs ho
      · rintro s t a b _ _ ⟨k1, k2, _⟩
        linarith
      · rintro s v ⟨q, hq, _⟩
        simp at hq
    · have hmid2 : 2 < m * ((x0 + x1) / 2) + c := by
        rcases h01 with h | h <;> linarith
      have hfd2 : FullDim 3 (ZeroDensity.strip x0 x1 0 2 m c) :=
        strip_fullDim _ _ _ _ _ _ ((x0 + x1) / 2) (by linarith) (by linarith) (by linarith)
      obtain ⟨ms2, p1', _, p3'⟩ := energySup_spec heng hh hhz C.edge C.solves C.zero lv tl (K.map LargeValues.raiseToPowerEnergy) t1 true zl
        (by
          intro R hR
          obtain ⟨p, _, hm⟩ := hB2.1 R (by simpa using hR)
          exact madeBy_plain hm) _ hfd2 (by
          intro s t hc
          obtain ⟨s', t', e, k, k3, _⟩ := (strip_contains _ _ _ _ _ _ _).mp hc
          simp only [List.cons.injEq, and_true] at e
          rw [e.2]
          linarith) ⟨x0, x1, true, false⟩ hD
      have hne2 := not_single heng lv tl _ t1 true zl hk (by simpa using hB2) hx0 hx1 ht2 hfd2 hn2 ms2 p1'
      obtain ⟨o2, q2, s1, s2, s3, s4⟩ := p3' hne2
      simp only [if_true] at s3 s4
      refine ⟨o2, q2, s1, s2, ?_, s4⟩
      rintro s t a b i1 i2 ⟨k1, k2, k3, k4, k5, k6, k7⟩
      exact s3 s t a b 1 (rightLimit_strip hk hB2 hx0 hx1 ht2 i1 i2 k1 k2 k3 k4 k5 k6 k7)
  obtain ⟨o2, q2, s1, s2, s3, s4⟩ := second
  refine ⟨rfMax solve isZero (funcDomains o1 ++ funcDomains o2) ⟨x0, x1, true, false⟩ true, ?_,
    pieces_maxE C.solves C.zero hx r2 s2, ?_⟩
  · unfold proveEnergy toBounds
    rw [l1]
    simp only [bind, Except.bind]
    rw [z1]
    simp only
    rw [e1]
    simp only
    rw [a1]
    simp only
    rw [b1]
    simp only
    unfold lverToEnergyBound
    rw [energyDomain_eq, energyZetaDomain_eq]
    simp only [bind, Except.bind, pure, Except.pure]
    rw [r1]
    simp only
    rw [s1]
  · intro s i1 i2
    obtain ⟨q, u1, u2, u3, _, u5⟩ := max2_core C.solves C.zero hD r2 s2 true (by simp) s (by simpa using i1) (by simpa using i2)
    refine ⟨q, u1, u2, u3, ?_, ?_⟩
    · rintro t a b (⟨k1, k2, k3, k4, k5, k6, k7⟩ | h)
      · obtain ⟨p, hp, k⟩ := r3 s t a b 1 (rightLimit_strip hk hB1 hx0 hx1 ht1 i1 i2 k1 k2 k3 k4 k5 k6 k7)
        exact u5.2 (.inr ⟨p, by simp [hp], k⟩)
      · obtain ⟨p, hp, k⟩ := s3 s t a b i1 i2 h
        exact u5.2 (.inr ⟨p, by simp [hp], k⟩)
    · rcases u5.1 with h | ⟨p, hp, k⟩
      · exact .inl h
      · right
        rcases List.mem_append.mp hp with hp | hp
        · obtain ⟨t, a, b, c', j1, j2⟩ := r4 s _ ⟨p, hp, k⟩
          rw [tuples_strip hk hB1 hx0 hx1 ht1] at j1
          exact ⟨t, a, b, .inl ⟨⟨j1.2.1.1, by linarith [j1.2.1.2]⟩, j1.2.2.1⟩, j2⟩
        · obtain ⟨t, a, b, c', j1, j2⟩ := s4 s _ ⟨p, hp, k⟩
          rw [tuples_strip hk hB2 hx0 hx1 ht2] at j1
          exact ⟨t, a, b, .inr ⟨⟨by linarith [j1.2.1.1], j1.2.1.2⟩, j1.2.2.1⟩, j2⟩

/-- At each real number of the interval exactly one of the returned pairs of a function and an interval gives a value, and it is `w`. -/
def IsBoundE (x0 x1 : ℚ) (out : List (RF ℝ × Ival ℝ)) (w : ℝ → ℝ) : Prop :=
  ∀ x : ℝ, x0 ≤ x → x < x1 → ∃ q ∈ out, q.2.x0 ≤ x ∧ x < q.2.x1 ∧ (∀ q' ∈ out, q'.2.x0 ≤ x → x < q'.2.x1 → q' = q) ∧
    q.1.at x = w x

/-- From the greatest ratio at each rational `sigma` to the values of the returned functions. -/
theorem deriveE (C : Contracts eng edges solve isZero orderR orderK) (hh : HRepSpec hrep) (hhz : HRepNoZero hrep) (ks : List ℚ)
    (hk : ∀ k ∈ ks, 1 ≤ k) (LB ZB : List (List (ℚ × ℚ × ℚ))) (hLB : ∀ bs ∈ LB, bs ≠ [] ∧ Staggered [] bs)
    (hZB : ∀ bs ∈ ZB, bs ≠ [] ∧ Staggered [] bs) (m c x0 x1 : ℚ) (hx : x0 < x1) (hx0 : 1 / 2 ≤ x0) (hx1 : x1 ≤ 1)
    (hcap : ∀ bs ∈ LB, ∀ q ∈ bs, bval q x0 2 < 1000000) (h0 : 2 ≤ m * x0 + c) (h1 : 2 ≤ m * x1 + c)
    (h0' : m * x0 + c ≤ 1000) (h1' : m * x1 + c ≤ 1000) (hn1 : NotConvex ks LB [] x0 x1 m c (2 * m) (2 * c))
    (hn2 : (m = 0 ∧ c = 2) ∨ ((2 < m * x0 + c ∨ 2 < m * x1 + c) ∧ NotConvex ks LB ZB x0 x1 0 2 m c)) (w : ℚ → ℚ) (W : ℝ → ℝ)
    (hW : ∀ s, x0 ≤ s → s < x1 → W s = ((w s : ℚ) : ℝ)) (hWc : ∀ x : ℝ, x0 ≤ x → x < x1 → ContinuousAt W x)
    (hatt : ∀ s, x0 ≤ s → s < x1 → ∃ t a b, (Inside ks LB [] m c (2 * m) (2 * c) s t a b ∨ Inside ks LB ZB 0 2 m c s t a b) ∧
      b = w s * t)
    (hub : ∀ s t a b, x0 ≤ s → s < x1 → FeasibleE ks LB ZB m c s t a b → b ≤ w s * t) :
    ∃ out, proveEnergy eng hrep edges solve isZero orderR orderK ks (toBounds LB) (toBounds ZB) m c x0 x1 = .ok out ∧
      IsBoundE x0 x1 out (fun x => W x / (1 - x)) := by
  obtain ⟨ps, g1, g2, g3⟩ := C85_value C hh hhz ks hk LB ZB hLB hZB m c x0 x1 hx hx0 hx1 hcap h0 h1 h0' h1' hn1 hn2
  have hb2 : ∀ s, x0 ≤ s → s < x1 → 2 ≤ m * s + c := by
    intro s k1 k2
    rcases le_total 0 m with hm | hm
    · have i1 := mul_le_mul_of_nonneg_left k1 hm
      linarith
    · have i1 := mul_le_mul_of_nonpos_left k2.le hm
      linarith
  have hB : IsBound x0 x1 ps W := by
    refine isBound_of_rat g2 hWc fun s l1 l2 => ?_
    obtain ⟨q, q1, q2, q3, q4, q5⟩ := g3 s l1 l2
    refine ⟨q, q1, q2, q3, ?_⟩
    obtain ⟨t, a, b, hin, he⟩ := hatt s l1 l2
    have ht : 0 < t := by
      have := hb2 s l1 l2
      rcases hin with ⟨k, _⟩ | ⟨k, _⟩ <;> linarith
    have hbp : 0 < b := by
      rcases hin with ⟨_, _, _, _, k, _⟩ | ⟨_, _, _, _, k, _⟩ <;> exact k
    have hv := q4 t a b hin
    have hwb : b / t = w s := by
      rw [he]
      field_simp
    rw [hW s l1 l2]
    rw [hwb] at hv
    have hpos : 0 ≤ w s := by
      rw [← hwb]
      positivity
    rcases q5 with h | ⟨t', a', b', hf, h⟩
    · rw [h] at hv
      have : (0 : ℝ) ≤ ((w s : ℚ) : ℝ) := by exact_mod_cast hpos
      linarith
    · have ht' : 0 < t' := by
        have := hb2 s l1 l2
        rcases hf with ⟨⟨k, _⟩, _⟩ | ⟨⟨k, _⟩, _⟩ <;> linarith
      have hle : b' / t' ≤ w s := by
        rw [div_le_iff₀ ht']
        exact hub s t' a' b' l1 l2 hf
      rw [h] at hv ⊢
      exact le_antisymm (by exact_mod_cast hle) hv
  refine ⟨_, g1, fun x l1 l2 => ?_⟩
  obtain ⟨q, q1, q2, q3, q4, q5⟩ := hB x l1 l2
  refine ⟨_, List.mem_map.mpr ⟨q, q1, rfl⟩, q2, q3, ?_, ?_⟩
  · intro q' hq' i1 i2
    obtain ⟨p, hp, rfl⟩ := List.mem_map.mp hq'
    rw [q4 p hp i1 i2]
  · have hx1' : x < 1 := l2.trans_le (by exact_mod_cast hx1)
    have := quotient_one_sub q.fn x hx1'.ne
    simp only
    rw [eq_div_iff (by linarith), this, q5]

end DerivedEnergy
end Expdb
