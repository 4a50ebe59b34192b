import Verif.Props.EnergySolid
import Verif.Props.DerivedEnergyForms
import Verif.Props.DerivedBourgain

/-!
# Energy estimates that use the optimised large value estimate of Bourgain
-/

namespace Expdb
namespace EnergyUnb

open Rational SupRatio Mat Region ZeroDensity DerivedZD DerivedEnergy RegionUnb Literature

/-- Bourgain's estimate, as a condition on `sigma, tau, rho, rho*`. -/
def BEst : Est6 := fun s t a _ => BSet s t a

/-- The powers used. -/
abbrev ks7 : List ℚ := [2, 3, 4, 5]

/-- The estimates and powers: Heath-Brown's relation, Jutila's estimate with `k = 5`, zeta large value estimates, and Bourgain's estimate. -/
def B7 (ZB : List (List (ℚ × ℚ × ℚ))) : List (Est6 × ℚ) :=
  (conds ks7 [jutK 5] ZB).map (fun p => (Obeys p.1, p.2)) ++ (1 :: ks7).map (fun k => (BEst, k))

theorem ks7_one : ∀ k ∈ ks7, 1 ≤ k := by decide +kernel

theorem B7_one (ZB : List (List (ℚ × ℚ × ℚ))) : ∀ p ∈ B7 ZB, 1 ≤ p.2 := by
  intro p hp
  rcases List.mem_append.mp hp with hp | hp
  · obtain ⟨q, hq, rfl⟩ := List.mem_map.mp hp
    exact conds_one_le ks7_one _ _ q hq
  · obtain ⟨k, hk, rfl⟩ := List.mem_map.mp hp
    rcases List.mem_cons.mp hk with rfl | hk
    · exact le_refl _
    · exact ks7_one k hk

/-- The tuples obey Heath-Brown's relation, the other estimates, and the powers of Bourgain's estimate. -/
theorem tuple7_iff (ZB : List (List (ℚ × ℚ × ℚ))) (s t a b : ℚ) :
    Tuple6 (B7 ZB) s t a b ↔ TupleOK ks7 [jutK 5] ZB s t a b ∧ ∀ k ∈ 1 :: ks7, BSet s (t / k) (a / k) := by
  rw [tupleOK_iff ks7_one]
  unfold Tuple6 B7
  constructor
  · rintro ⟨h1, h2, h3⟩
    exact ⟨⟨h1, h2, fun p hp => h3 (Obeys p.1, p.2) (List.mem_append_left _ (List.mem_map.mpr ⟨p, hp, rfl⟩))⟩,
      fun k hk => h3 (BEst, k) (List.mem_append_right _ (List.mem_map.mpr ⟨k, hk, rfl⟩))⟩
  · rintro ⟨⟨h1, h2, h3⟩, h4⟩
    refine ⟨h1, h2, fun p hp => ?_⟩
    rcases List.mem_append.mp hp with hp | hp
    · obtain ⟨q, hq, rfl⟩ := List.mem_map.mp hp
      exact h3 q hq
    · obtain ⟨k, hk, rfl⟩ := List.mem_map.mp hp
      exact h4 k hk

/-! ### Linear conditions for Bourgain's estimate -/

/-- The conditions of the rows of the table as linear forms in `1, sigma, tau`. -/
def rowForms : ℕ → List (ℚ × ℚ × ℚ)
  | 1 => [(10, -14, 1), (-1, 0, 1), (4, 4, -5), (-11, 16, -1)]
  | 2 => [(8, -8, -1), (-16, 20, 1 / 3), (-6, 10, -(7 / 6)), (-4, -4, 5)]
  | 3 => [(-8, 8, 1), (2, -6, 2), (-10, 14, -(2 / 3)), (6, -2, -2)]
  | 4 => [(-6, 2, 2), (-12, 12, 1), (1000000, 0, -1), (1, -1, 0), (-(1 / 2), 1, 0)]
  | 5 => [(-(1 / 2), 1, 0), (15, -21, 1), (12, -12, -1), (-(3 / 2), 0, 1), (6, -10, 7 / 6)]
  | 6 => [(1, -1, 0), (-(1 / 2), 1, 0), (-10, 14, -1), (-1, 0, 1), (1000000, 0, -1), (-2, 6, -2)]
  | 7 => [(3 / 2, 0, -1), (-(1 / 2), 1, 0), (-1, 0, 1), (11, -16, 1), (16, -20, -(1 / 3))]
  | _ => []

/-- The bounds of the rows. -/
def rowForm : ℕ → ℚ × ℚ × ℚ
  | 1 => (16 / 3, -(20 / 3), 1 / 3)
  | 2 => (5, -7, 3 / 4)
  | 3 => (3, -5, 1)
  | 4 => (0, -4, 2)
  | 6 => (2, -2, 0)
  | 7 => (9, -12, 2 / 3)
  | _ => (8, -12, 4 / 3)

/-- The value of a form in `1, sigma, tau`, scaled to the power `k`. -/
def lin3 (c : ℚ × ℚ × ℚ) (k s t : ℚ) : ℚ := k * c.1 + k * c.2.1 * s + c.2.2 * t

theorem lin3_eq (c : ℚ × ℚ × ℚ) {k : ℚ} (hk : 0 < k) (s t : ℚ) : lin3 c k s t = k * lin3 c 1 s (t / k) := by
  unfold lin3
  field_simp

theorem inRow_of {i : ℕ} (hi : i ∈ [1, 2, 3, 4, 5, 6, 7]) {s u : ℚ} (h : ∀ c ∈ rowForms i, 0 ≤ lin3 c 1 s u) : InRow i s u := by
  simp only [List.mem_cons, List.not_mem_nil, or_false] at hi
  rcases hi with rfl | rfl | rfl | rfl | rfl | rfl | rfl <;>
    (simp only [rowForms, List.forall_mem_cons, lin3] at h
     unfold InRow
     refine ⟨?_, ?_⟩ <;> (try refine ⟨?_, ?_⟩) <;> (try refine ⟨?_, ?_⟩) <;> (try refine ⟨?_, ?_⟩) <;> (try refine ⟨?_, ?_⟩) <;>
       linarith [h.1, h.2.1, h.2.2.1, h.2.2.2.1, h.2.2.2.2])

theorem rowBound_eq {i : ℕ} (hi : i ∈ [1, 2, 3, 4, 5, 6, 7]) (s u : ℚ) : rowBound i s u = lin3 (rowForm i) 1 s u := by
  simp only [List.mem_cons, List.not_mem_nil, or_false] at hi
  rcases hi with rfl | rfl | rfl | rfl | rfl | rfl | rfl <;> simp only [rowBound, rowForm, lin3] <;> ring

/-- A reason why the `k`-th power of Bourgain's estimate allows `sigma, tau, rho`, and nearby points on the right. -/
def BWit (k s t a : ℚ) : Prop :=
  t < k ∨ ∃ i ∈ [1, 2, 3, 4, 5, 6, 7], (∀ c ∈ rowForms i, 0 < lin3 c k s t ∨ (0 ≤ lin3 c k s t ∧ 0 < c.2.1)) ∧
    (i = 5 ∨ a ≤ lin3 (rowForm i) k s t)

instance (k s t a : ℚ) : Decidable (BWit k s t a) := inferInstanceAs (Decidable (_ ∨ _))

theorem local_b1 {k s t a b : ℚ} (hk : 1 ≤ k) (h : BWit k s t a) : ∃ cs1 cs2, Local6 [(BEst, k)] s t a b cs1 cs2 := by
  have hk0 : 0 < k := by linarith
  have hdiv : ∀ v : ℚ, 0 ≤ v → 0 ≤ v / k := fun v hv => div_nonneg hv hk0.le
  rcases h with h | ⟨i, hi, h1, h2⟩
  · refine ⟨[(k, 0, -1, 0, 0)], [], ⟨?_, by simp, ?_⟩⟩
    · intro c hc
      rw [List.mem_singleton.mp hc]
      left
      unfold lin
      simp
      linarith
    · intro s' t' a' b' i1 i2 i3 i4 i5 i6 hcs p hp
      rw [List.mem_singleton.mp hp]
      have := hcs (k, 0, -1, 0, 0) (by simp)
      unfold lin at this
      simp at this
      refine .inl ⟨⟨i1, i2⟩, ⟨hdiv _ i3, ?_⟩, hdiv _ i5, ?_⟩
      · simp only
        rw [div_le_one hk0]
        linarith
      · simp only
        rw [div_le_iff₀ hk0]
        nlinarith
  · have hrow : ∀ s' t' a' b' : ℚ, ∀ c : ℚ × ℚ × ℚ, lin (k * c.1, k * c.2.1, c.2.2, 0, 0) s' t' a' b' = lin3 c k s' t' := by
      intro s' t' a' b' c
      unfold lin lin3
      simp
    have hin : ∀ s' t' a' b' : ℚ, (∀ c ∈ (rowForms i).map (fun c => ((k * c.1, k * c.2.1, c.2.2, 0, 0) : Form)), 0 ≤ lin c s' t' a' b') →
        InRow i s' (t' / k) := by
      intro s' t' a' b' hcs
      refine inRow_of hi fun c hc => ?_
      have := hcs _ (List.mem_map.mpr ⟨c, hc, rfl⟩)
      rw [hrow, lin3_eq _ hk0] at this
      exact (mul_nonneg_iff_of_pos_left hk0).mp this
    have hstrict : ∀ c ∈ (rowForms i).map (fun c => ((k * c.1, k * c.2.1, c.2.2, 0, 0) : Form)),
        0 < lin c s t a b ∨ (0 ≤ lin c s t a b ∧ 0 < c.2.1 ∧ c.2.2.2 = (0, 0)) := by
      intro c hc
      obtain ⟨d, hd, rfl⟩ := List.mem_map.mp hc
      rw [hrow]
      exact (h1 d hd).imp_right fun h => ⟨h.1, mul_pos hk0 h.2, rfl⟩
    rcases h2 with rfl | h2
    · refine ⟨_, [], ⟨hstrict, by simp, ?_⟩⟩
      intro s' t' a' b' i1 i2 i3 i4 i5 i6 hcs p hp
      rw [List.mem_singleton.mp hp]
      rw [List.append_nil] at hcs
      exact .inr ⟨hdiv _ i5, 5, hin s' t' a' b' hcs, .inl rfl⟩
    · set bf : Form := (k * (rowForm i).1, k * (rowForm i).2.1, (rowForm i).2.2, -1, 0) with hbf
      have hb : ∀ s' t' a' b' : ℚ, lin bf s' t' a' b' = lin3 (rowForm i) k s' t' - a' := by
        intro s' t' a' b'
        rw [hbf]
        unfold lin lin3
        simp
        ring
      refine ⟨_, [bf], ⟨hstrict, ?_, ?_⟩⟩
      · intro c hc
        rw [List.mem_singleton.mp hc]
        exact ⟨by rw [hb]; linarith, .inr ⟨rfl, by rw [hbf]; norm_num⟩⟩
      · intro s' t' a' b' i1 i2 i3 i4 i5 i6 hcs p hp
        rw [List.mem_singleton.mp hp]
        refine .inr ⟨hdiv _ i5, i, hin s' t' a' b' (fun c hc => hcs c (List.mem_append_left _ hc)), .inr ?_⟩
        have := hcs bf (by simp)
        rw [hb, lin3_eq _ hk0] at this
        simp only
        rw [rowBound_eq hi, div_le_iff₀ hk0]
        linarith

theorem local_b {ks : List ℚ} {s t a b : ℚ} (hk : ∀ k ∈ ks, 1 ≤ k) (h : ∀ k ∈ ks, BWit k s t a) :
    ∃ cs1 cs2, Local6 (ks.map (fun k => (BEst, k))) s t a b cs1 cs2 := by
  induction ks with
  | nil => exact ⟨[], [], ⟨by simp, by simp, by simp⟩⟩
  | cons k ks ih =>
    obtain ⟨c1, c2, h1⟩ := ih (fun q hq => hk q (by simp [hq])) (fun q hq => h q (by simp [hq]))
    obtain ⟨d1, d2, h2⟩ := local_b1 (b := b) (hk k (by simp)) (h k (by simp))
    exact ⟨_, _, h2.append h1⟩

theorem local_obeys {ks : List ℚ} (hk : ∀ k ∈ ks, 1 ≤ k) {LB ZB : List (List (ℚ × ℚ × ℚ))} {s t a b : ℚ} (h : TupleOK ks LB ZB s t a b) :
    ∃ cs2, Local6 ((conds ks LB ZB).map (fun p => (Obeys p.1, p.2))) s t a b [] cs2 := by
  obtain ⟨cs, h1, h2⟩ := choose_forms (conds ks LB ZB) (conds_one_le hk LB ZB) s t a b ((tupleOK_iff hk LB ZB s t a b).mp h).2.2
  refine ⟨cs, ⟨by simp, h1, ?_⟩⟩
  intro s' t' a' b' i1 i2 i3 i4 i5 i6 hcs p hp
  obtain ⟨q, hq, rfl⟩ := List.mem_map.mp hp
  exact h2 s' t' a' b' (by simpa using hcs) q hq

/-- Tuples strictly within a range of `tau` which obey the estimates, with reasons for the powers of Bourgain's estimate. -/
def Inside7 (ZB : List (List (ℚ × ℚ × ℚ))) (m1 c1 m2 c2 s t a b : ℚ) : Prop :=
  Inside ks7 [jutK 5] ZB m1 c1 m2 c2 s t a b ∧ ∀ k ∈ 1 :: ks7, BWit k s t a

instance (ZB : List (List (ℚ × ℚ × ℚ))) (m1 c1 m2 c2 s t a b : ℚ) : Decidable (Inside7 ZB m1 c1 m2 c2 s t a b) :=
  inferInstanceAs (Decidable (_ ∧ _))

theorem right7 {rs : List (Region ℕ)} {ZB : List (List (ℚ × ℚ × ℚ))} (h : Cov (fun p R => Made6 p.1 p.2 R) rs (B7 ZB))
    {x0 x1 m1 c1 m2 c2 : ℚ} (hx0 : 1 / 2 ≤ x0) (hx1 : x1 ≤ 1)
    (ht0 : ∀ s, x0 ≤ s → s ≤ x1 → 0 ≤ m1 * s + c1 ∧ m2 * s + c2 ≤ 1000000) {s t a b : ℚ} (hs : x0 ≤ s) (hs' : s < x1)
    (hi : Inside7 ZB m1 c1 m2 c2 s t a b) : RightLimit5 (Tuples (ZeroDensity.strip x0 x1 m1 c1 m2 c2) rs) s t a b 1 := by
  obtain ⟨⟨k1, k2, k3, k4, k5, k6, k7⟩, hw⟩ := hi
  refine rightLimit6 (B7_one ZB) h hx0 hx1 ht0 hs hs' k1 k2 k3 k4 k5 k6 ?_
  obtain ⟨cs, h1⟩ := local_obeys ks7_one k7
  obtain ⟨d1, d2, h2⟩ := local_b (b := b) (ks := 1 :: ks7) (by decide +kernel) hw
  exact ⟨_, _, h1.append h2⟩

theorem inner_of_right {S : Pt → Prop} {s t a b c : ℚ} (h : RightLimit5 S s t a b c) : InnerLimit S [s, t, a, b, c] := by
  intro ε hε
  obtain ⟨s', t', a', b', c', h1, _, h2⟩ := h ε hε
  exact ⟨_, h1, h2⟩

/-- Two such tuples whose midpoint does not obey the estimates. -/
def NotConvex7 (ZB : List (List (ℚ × ℚ × ℚ))) (x0 x1 m1 c1 m2 c2 : ℚ) : Prop :=
  ∃ s t a b s' t' a' b', (x0 ≤ s ∧ s < x1) ∧ (x0 ≤ s' ∧ s' < x1) ∧ Inside7 ZB m1 c1 m2 c2 s t a b ∧ Inside7 ZB m1 c1 m2 c2 s' t' a' b' ∧
    ¬ TupleOK ks7 [jutK 5] ZB ((s + s') / 2) ((t + t') / 2) ((a + a') / 2) ((b + b') / 2)

theorem notConvex5_of {rs : List (Region ℕ)} {ZB : List (List (ℚ × ℚ × ℚ))} (h : Cov (fun p R => Made6 p.1 p.2 R) rs (B7 ZB))
    {x0 x1 m1 c1 m2 c2 : ℚ} (hx0 : 1 / 2 ≤ x0) (hx1 : x1 ≤ 1)
    (ht0 : ∀ s, x0 ≤ s → s ≤ x1 → 0 ≤ m1 * s + c1 ∧ m2 * s + c2 ≤ 1000000) (hn : NotConvex7 ZB x0 x1 m1 c1 m2 c2) :
    NotConvex5 (Tuples (ZeroDensity.strip x0 x1 m1 c1 m2 c2) rs) := by
  obtain ⟨s, t, a, b, s', t', a', b', h1, h2, h3, h4, h5⟩ := hn
  refine ⟨s, t, a, b, 1, s', t', a', b', 1, inner_of_right (right7 h hx0 hx1 ht0 h1.1 h1.2 h3),
    inner_of_right (right7 h hx0 hx1 ht0 h2.1 h2.2 h4), fun hc => h5 ?_⟩
  exact ((tuple7_iff _ _ _ _ _).mp ((tuples6_strip (B7_one ZB) h hx0 hx1 ht0 _ _ _ _ _).mp hc).2.2.1).1

/-! ### The regions -/

/-- `lv_to_lver` turns the region into one for the estimate. -/
def Lifts (E : Est6) (R : Region ℕ) : Prop := ∃ R', LargeValues.lvToLver R = .ok R' ∧ Made6 E 1 R'

theorem lifts_bourgain : ∃ R, bourgainRegion (L := ℕ) = .ok R ∧ Lifts BEst R := by
  refine ⟨_, bourgain_unionOf, ?_⟩
  obtain ⟨R', h1, h2, h3⟩ := made6_lift bMats_solid
  refine ⟨R', h1, h2, fun s t a b c hb => ?_⟩
  rw [h3 s t a b c hb]
  exact bMats_mem _ _ _ hb.1.1

theorem lifts_convert {canon : Mat → Mat} (hc : CanonSpec canon) (hz : CanonNoZero canon) (bs : List (ℚ × ℚ × ℚ))
    (h : bs ≠ [] ∧ Staggered [] bs) :
    ∃ R, LargeValues.convertBounds canon (bs.map (fun b => [b.1, b.2.1, b.2.2])) = .ok R ∧ Lifts (Obeys (some bs)) R := by
  obtain ⟨ms, e1, _, _⟩ := DerivedZD.convert_full hc hz bs h.1 h.2
  refine ⟨_, e1, ?_⟩
  obtain ⟨R', h1, h2⟩ := made_lift (realises_convert hc hz bs h.1 h.2 e1)
  exact ⟨R', h1, made6_of_madeBy h2⟩

theorem cov_singleton {β : Type} {rel : β → Region ℕ → Prop} {p : β} {R : Region ℕ} (h : rel p R) : Cov rel [R] [p] :=
  ⟨by simpa using h, by simpa using h⟩

theorem cov_one {rs : List (Region ℕ)} {EB : List Est6} (h : Cov (fun E R => Made6 E 1 R) rs EB) :
    Cov (fun p R => Made6 p.1 p.2 R) rs (EB.map (fun E => (E, (1 : ℚ)))) := by
  refine ⟨fun R hR => ?_, fun p hp => ?_⟩
  · obtain ⟨E, e1, e2⟩ := h.1 R hR
    exact ⟨(E, 1), List.mem_map.mpr ⟨E, e1, rfl⟩, e2⟩
  · obtain ⟨E, e1, rfl⟩ := List.mem_map.mp hp
    exact h.2 E e1

/-- The three estimates at the power 1. -/
def E7 : List Est6 := [Obeys none, BEst, Obeys (some (jutK 5))]

theorem B7_mem (K : List ℚ) (hK : ∀ k, k ∈ K ↔ k ∈ ks7) (p : Est6 × ℚ) :
    p ∈ E7.map (fun E => (E, (1 : ℚ))) ++ K.flatMap (fun k => E7.map (fun E => (E, k))) ↔ p ∈ B7 [] := by
  have h1 : p ∈ E7.map (fun E => (E, (1 : ℚ))) ++ K.flatMap (fun k => E7.map (fun E => (E, k))) ↔ p.1 ∈ E7 ∧ p.2 ∈ 1 :: ks7 := by
    rw [List.mem_append, List.mem_flatMap, List.mem_cons, ← hK]
    obtain ⟨E, k⟩ := p
    simp only [List.mem_map, Prod.mk.injEq]
    constructor
    · rintro (⟨_, h, rfl, rfl⟩ | ⟨_, h1, _, h2, rfl, rfl⟩)
      · exact ⟨h, .inl rfl⟩
      · exact ⟨h2, .inr h1⟩
    · rintro ⟨h, rfl | h2⟩
      · exact .inl ⟨E, h, rfl, rfl⟩
      · exact .inr ⟨k, h2, E, h, rfl, rfl⟩
  rw [h1]
  obtain ⟨E, k⟩ := p
  unfold B7 E7
  simp only [List.mem_append, List.mem_map, Prod.mk.injEq, conds_mem, List.not_mem_nil, false_and, exists_false, and_false, or_false]
  constructor
  · rintro ⟨h, hk⟩
    rcases List.mem_cons.mp h with rfl | h
    · exact .inl ⟨(none, k), ⟨hk, .inl rfl⟩, rfl, rfl⟩
    rcases List.mem_cons.mp h with rfl | h
    · exact .inr ⟨k, hk, rfl, rfl⟩
    rcases List.mem_cons.mp h with rfl | h
    · exact .inl ⟨(some (jutK 5), k), ⟨hk, .inr ⟨_, by simp, rfl⟩⟩, rfl, rfl⟩
    · simp at h
  · rintro (⟨⟨o, k'⟩, ⟨e1, e2⟩, rfl, rfl⟩ | ⟨k', e1, rfl, rfl⟩)
    · refine ⟨?_, e1⟩
      rcases e2 with rfl | ⟨bs, hbs, rfl⟩
      · exact List.mem_cons_self
      · rw [List.mem_singleton.mp hbs]
        simp
    · exact ⟨by simp, e1⟩

/-- The regions of the two calls of `approximate_large_value_energy_region`. -/
theorem regions7 {eng : Engine} {edges : Mat → List (Pt × Pt)} {solve : RF ℝ → RF ℝ → List ℝ} {isZero : Expr ℝ → Bool}
    {orderR : List (Region ℕ) → List (Region ℕ)} {orderK : List ℚ → List ℚ} (C : Contracts eng edges solve isZero orderR orderK) :
    ∃ b j z hb a zs tl, bourgainRegion (L := ℕ) = .ok b ∧ LargeValues.convertBounds eng.canon (Literature.jutila 5) = .ok j ∧
      LargeValues.convertBounds eng.canon Literature.heathBrownTwelfth = .ok z ∧ Literature.lverHB2a eng.canon = .ok hb ∧
      lverAll (orderR [b, j]) = .ok a ∧ lverAll (orderR [z]) = .ok zs ∧
      LargeValues.applyTransforms (orderR (hb :: a)) ((orderK ks7).map LargeValues.raiseToPowerEnergy) = .ok tl ∧
      Cov (fun p R => Made6 p.1 p.2 R) (orderR (hb :: a) ++ tl) (B7 []) ∧
      Cov (fun p R => Made6 p.1 p.2 R) (orderR (hb :: a) ++ tl ++ orderR zs) (B7 [tw]) := by
  have heng := C.engine
  obtain ⟨b, b1, b2⟩ := lifts_bourgain
  obtain ⟨j, j1, j2⟩ := lifts_convert heng.canon heng.canonNoZero (jutK 5) (good_jutK (by norm_num))
  obtain ⟨z, z1, z2⟩ := lifts_convert heng.canon heng.canonNoZero tw good_tw
  obtain ⟨hb, h1, h2⟩ := made_hb heng.canon heng.canonNoZero
  rw [toBounds_jutK] at j1
  rw [toBounds_tw] at z1
  have c1 : Cov Lifts (orderR [b, j]) [BEst, Obeys (some (jutK 5))] :=
    Cov.perm ((cov_singleton b2).append (cov_singleton j2)) (C.permR _)
  obtain ⟨a, a1, a2⟩ := lverAll_cov (rel' := fun E R => Made6 E 1 R) c1 (fun p R h => h)
  have c2 : Cov Lifts (orderR [z]) [Obeys (some tw)] := Cov.perm (cov_singleton z2) (C.permR _)
  obtain ⟨zs, zs1, zs2⟩ := lverAll_cov (rel' := fun E R => Made6 E 1 R) c2 (fun p R h => h)
  have c3 : Cov (fun E R => Made6 E 1 R) (orderR (hb :: a)) E7 :=
    Cov.perm ((cov_singleton (rel := fun E R => Made6 E 1 R) (made6_of_madeBy h2)).append a2) (C.permR _)
  have c4 : Cov (fun E R => Made6 E 1 R) (orderR zs) [Obeys (some tw)] := Cov.perm zs2 (C.permR _)
  have hK : ∀ k, k ∈ orderK ks7 ↔ k ∈ ks7 := fun k => (C.permK _).mem_iff
  obtain ⟨tl, t1, t2⟩ := transforms_cov c3 (orderK ks7) (fun k hk => by linarith [ks7_one k ((hK k).mp hk)])
  have hB1 := ((cov_one c3).append t2).congr (B7_mem _ hK)
  refine ⟨b, j, z, hb, a, zs, tl, b1, j1, z1, h1, a1, zs1, t1, hB1, ?_⟩
  refine (hB1.append (cov_one c4)).congr fun p => ?_
  unfold B7 conds
  simp only [List.map_nil, List.append_nil, List.map_append, List.map_cons, List.mem_append, List.mem_cons, List.not_mem_nil, or_false]
  tauto

/-- The tuples of the two ranges of `tau`, with `tau0 = 8 sigma - 4`. -/
def Feasible7 (s t a b : ℚ) : Prop :=
  FeasibleE ks7 [jutK 5] [tw] 8 (-4) s t a b ∧ ∀ k ∈ 1 :: ks7, BSet s (t / k) (a / k)

/-- From the greatest ratio at each rational `sigma` to the values of the functions that `prove_zero_density_energy_7` returns. -/
theorem derive7 {eng : Engine} {hrep : List Pt → Mat} {edges : Mat → List (Pt × Pt)} {solve : RF ℝ → RF ℝ → List ℝ} {isZero : Expr ℝ → Bool}
    {orderR : List (Region ℕ) → List (Region ℕ)} {orderK : List ℚ → List ℚ} (C : Contracts eng edges solve isZero orderR orderK)
    (hh : HRepSpec hrep) (hhz : HRepNoZero hrep)
    (hn1 : NotConvex7 [] (84 / 109) (5 / 6) 8 (-4) (2 * 8) (2 * -4)) (hn2 : NotConvex7 [tw] (84 / 109) (5 / 6) 0 2 8 (-4))
    (w : ℚ → ℚ) (W : ℝ → ℝ) (hW : ∀ s : ℚ, 84 / 109 ≤ s → s < 5 / 6 → W s = ((w s : ℚ) : ℝ))
    (hWc : ∀ x : ℝ, ((84 / 109 : ℚ) : ℝ) ≤ x → x < ((5 / 6 : ℚ) : ℝ) → ContinuousAt W x)
    (hatt : ∀ s : ℚ, 84 / 109 ≤ s → s < 5 / 6 → ∃ t a b, (Inside7 [] 8 (-4) (2 * 8) (2 * -4) s t a b ∨ Inside7 [tw] 0 2 8 (-4) s t a b) ∧
      b = w s * t)
    (hub : ∀ s t a b : ℚ, 84 / 109 ≤ s → s < 5 / 6 → Feasible7 s t a b → b ≤ w s * t) :
    ∃ out, proveEnergy7 eng hrep edges solve isZero orderR orderK = .ok out ∧
      IsBoundE (84 / 109) (5 / 6) out (fun x => W x / (1 - x)) := by
  obtain ⟨b, j, z, hb, a, zs, tl, b1, j1, z1, h1, a1, zs1, t1, c1, c2⟩ := regions7 C
  have ht1 : ∀ s : ℚ, 84 / 109 ≤ s → s ≤ 5 / 6 → 0 ≤ 8 * s + -4 ∧ 2 * 8 * s + 2 * -4 ≤ 1000000 :=
    fun s k1 k2 => ⟨by linarith, by linarith⟩
  have ht2 : ∀ s : ℚ, 84 / 109 ≤ s → s ≤ 5 / 6 → 0 ≤ 0 * s + 2 ∧ 8 * s + -4 ≤ 1000000 := fun s k1 k2 => ⟨by linarith, by linarith⟩
  have hx0 : (1 : ℚ) / 2 ≤ 84 / 109 := by norm_num
  have hx1 : (5 : ℚ) / 6 ≤ 1 := by norm_num
  obtain ⟨ps, g1, g2, g3⟩ := energy_value C hh hhz (orderR (hb :: a)) tl (orderR zs) _ t1 (by
      intro R hR
      obtain ⟨p, _, hp⟩ := c2.1 R hR
      exact hp.solid) 8 (-4) (84 / 109) (5 / 6) (by norm_num) (by norm_num) (by norm_num)
    (notConvex5_of c1 hx0 hx1 ht1 hn1) (notConvex5_of c2 hx0 hx1 ht2 hn2)
  have hB : IsBound (84 / 109) (5 / 6) ps W := by
    refine isBound_of_rat g2 hWc fun s l1 l2 => ?_
    obtain ⟨q, q1, q2, q3, q4, q5⟩ := g3 s l1 l2
    refine ⟨q, q1, q2, q3, ?_⟩
    obtain ⟨t, a', b', hin, he⟩ := hatt s l1 l2
    have ht : 0 < t := by
      rcases hin with ⟨⟨k, _⟩, _⟩ | ⟨⟨k, _⟩, _⟩ <;> linarith
    have hbp : 0 < b' := by
      rcases hin with ⟨⟨_, _, _, _, k, _⟩, _⟩ | ⟨⟨_, _, _, _, k, _⟩, _⟩ <;> exact k
    have hv := q4 t a' b' 1 (hin.imp (right7 c1 hx0 hx1 ht1 l1 l2) (right7 c2 hx0 hx1 ht2 l1 l2))
    have hwb : b' / t = w s := by
      rw [he]
      field_simp
    rw [hW s l1 l2]
    rw [hwb] at hv
    have hpos : 0 ≤ w s := by
      rw [← hwb]
      positivity
    rcases q5 with h | ⟨t', a'', b'', e, hf, h⟩
    · rw [h] at hv
      have : (0 : ℝ) ≤ ((w s : ℚ) : ℝ) := by exact_mod_cast hpos
      linarith
    · have hf7 : Feasible7 s t' a'' b'' := by
        rcases hf with hf | hf
        · have h5 := (tuples6_strip (B7_one []) c1 hx0 hx1 ht1 _ _ _ _ _).mp hf
          have h6 := (tuple7_iff _ _ _ _ _).mp h5.2.2.1
          exact ⟨.inl ⟨⟨h5.2.1.1, by linarith [h5.2.1.2]⟩, h6.1⟩, h6.2⟩
        · have h5 := (tuples6_strip (B7_one [tw]) c2 hx0 hx1 ht2 _ _ _ _ _).mp hf
          have h6 := (tuple7_iff _ _ _ _ _).mp h5.2.2.1
          exact ⟨.inr ⟨⟨by linarith [h5.2.1.1], h5.2.1.2⟩, h6.1⟩, h6.2⟩
      have ht' : 0 < t' := by
        rcases hf7.1 with ⟨⟨k, _⟩, _⟩ | ⟨⟨k, _⟩, _⟩ <;> linarith
      have hle : b'' / t' ≤ w s := by
        rw [div_le_iff₀ ht']
        exact hub s t' a'' b'' l1 l2 hf7
      rw [h] at hv ⊢
      exact le_antisymm (by exact_mod_cast hle) hv
  refine ⟨ps.map (fun p => (quotient p.fn (RF.make [-1, 1] none), p.dom)), ?_, fun x l1 l2 => ?_⟩
  · unfold proveEnergy7
    rw [b1]
    simp only [bind, Except.bind]
    rw [j1]
    simp only
    rw [z1]
    simp only
    rw [h1]
    simp only
    rw [a1]
    simp only
    rw [zs1]
    exact g1
  · obtain ⟨q, q1, q2, q3, q4, q5⟩ := hB x l1 l2
    refine ⟨_, List.mem_map.mpr ⟨q, q1, rfl⟩, q2, q3, ?_, ?_⟩
    · intro q' hq' i1 i2
      obtain ⟨p, hp, rfl⟩ := List.mem_map.mp hq'
      rw [q4 p hp i1 i2]
    · have hx1' : x < 1 := l2.trans_le (by norm_num)
      have := quotient_one_sub q.fn x hx1'.ne
      simp only
      rw [eq_div_iff (by linarith), this, q5]

end EnergyUnb
end Expdb
