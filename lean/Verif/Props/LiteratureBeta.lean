import Verif.Model.LiteratureBeta
import Verif.Props.Beta
import Verif.Props.BetaOrder

/-!
# Properties C74 and C75: the bounds on beta of the literature
-/

namespace Expdb
namespace LitBeta

open Affine Expdb.Interval

/-! ### The maxima -/

/-- The expression succeeds; its pieces are non-empty, ordered and disjoint, and together they are the function `f` on `[a, b]`. -/
def Graph (E : Py (List Bd)) (a b : ℚ) (f : ℚ → ℚ) : Prop :=
  ∃ ps, E = .ok ps ∧ Ordered ps ∧ (∀ p ∈ ps, p.dom.Constructible) ∧ ∀ x v, HasValue ps x v ↔ a ≤ x ∧ x ≤ b ∧ v = f x

theorem mem_cc (a b x : ℚ) : Mem (cc a b).x0 (cc a b).x1 (cc a b).incL (cc a b).incU x ↔ a ≤ x ∧ x ≤ b := by
  simp only [cc, Mem, true_and]
  rw [le_iff_lt_or_eq, le_iff_lt_or_eq, eq_comm (a := a)]

theorem mem_co (a b x : ℚ) : Mem (co a b).x0 (co a b).x1 (co a b).incL (co a b).incU x ↔ a ≤ x ∧ x < b := by
  simp only [co, Mem, true_and]
  rw [le_iff_lt_or_eq, eq_comm (a := a)]
  simp

theorem fam_spec (a b m c : ℚ) (rest : List (ℚ × ℚ)) (hab : a ≤ b) (hr : rest ≠ []) :
    ∃ ps, fam (cc a b) m c rest = .ok ps ∧ Ordered ps ∧ (∀ p ∈ ps, p.dom.Constructible) ∧
      ∀ x v, HasValue ps x v ↔ (a ≤ x ∧ x ≤ b) ∧ (∃ g ∈ (m, c) :: rest, v = g.1 * x + g.2) ∧
        ∀ g ∈ (m, c) :: rest, g.1 * x + g.2 ≤ v := by
  have hle : ∀ f ∈ af m c (cc a b) :: rest.map (fun g => af g.1 g.2 (cc a b)), f.dom.x0 ≤ f.dom.x1 := by
    intro f hf
    rcases List.mem_cons.mp hf with rfl | hf
    · exact hab
    · obtain ⟨g, _, rfl⟩ := List.mem_map.mp hf
      exact hab
  obtain ⟨g0, hg0⟩ := List.exists_mem_of_ne_nil rest hr
  have hcov : ∀ x, InDomain none x → (∃ v, HasValue [af m c (cc a b)] x v) →
      ∃ v, HasValue (rest.map (fun g => af g.1 g.2 (cc a b))) x v := by
    rintro x _ ⟨v, f, hf, hx, _⟩
    rw [List.mem_singleton] at hf
    subst hf
    exact ⟨_, _, List.mem_map.mpr ⟨g0, hg0, rfl⟩, hx, rfl⟩
  obtain ⟨out, h1, h2, h3⟩ := C05_max_with_partial (L := Option ℕ) (af m c (cc a b)) (rest.map (fun g => af g.1 g.2 (cc a b))) none
    ⟨fun f hf => (constructible_iff _).mpr (hle f hf), fun D hD => by cases hD⟩ hcov
  obtain ⟨out', k1, k2, _⟩ := compareWith_spec (L := Option ℕ) (-1) (fun x y => decide (x > y)) (by intro u v; simp) (af m c (cc a b))
    (rest.map (fun g => af g.1 g.2 (cc a b))) none hle (fun D hD => by cases hD) (Or.inl (by
      intro x _ hx
      exact ⟨_, List.mem_map.mpr ⟨g0, hg0, rfl⟩, hx⟩))
  have e : out' = out := by
    unfold maxWith at h1
    rw [k1] at h1
    exact (Prod.mk.inj (Except.ok.inj h1)).2
  subst e
  refine ⟨out', ?_, h2, fun p hp => (constructible_iff _).mpr (k2 p hp).1.1, fun x v => ?_⟩
  · unfold fam
    rw [h1]
    rfl
  rw [h3]
  have hv : ∀ w, HasValue (af m c (cc a b) :: rest.map (fun g => af g.1 g.2 (cc a b))) x w ↔
      (a ≤ x ∧ x ≤ b) ∧ ∃ g ∈ (m, c) :: rest, w = g.1 * x + g.2 := by
    intro w
    unfold HasValue
    constructor
    · rintro ⟨f, hf, hx, hw⟩
      rcases List.mem_cons.mp hf with rfl | hf
      · exact ⟨(mem_cc a b x).mp hx, _, List.mem_cons_self, hw.symm⟩
      · obtain ⟨g, hg, rfl⟩ := List.mem_map.mp hf
        exact ⟨(mem_cc a b x).mp hx, g, List.mem_cons_of_mem _ hg, hw.symm⟩
    · rintro ⟨hx, g, hg, hw⟩
      rcases List.mem_cons.mp hg with rfl | hg
      · exact ⟨_, List.mem_cons_self, (mem_cc a b x).mpr hx, hw.symm⟩
      · exact ⟨_, List.mem_cons_of_mem _ (List.mem_map.mpr ⟨g, hg, rfl⟩), (mem_cc a b x).mpr hx, hw.symm⟩
  simp only [hv]
  constructor
  · rintro ⟨_, ⟨hx, hw⟩, hmax⟩
    exact ⟨hx, hw, fun g hg => hmax _ ⟨hx, g, hg, rfl⟩⟩
  · rintro ⟨hx, hw, hmax⟩
    refine ⟨fun D hD => (by cases hD), ⟨hx, hw⟩, ?_⟩
    rintro w ⟨_, g, hg, rfl⟩
    exact hmax g hg

theorem graph2 {a b m c m1 c1 : ℚ} (f0 f1 : ℚ → ℚ) (hab : a ≤ b) (h0 : ∀ x, m * x + c = f0 x) (h1 : ∀ x, m1 * x + c1 = f1 x) :
    Graph (fam (cc a b) m c [(m1, c1)]) a b (fun x => max (f0 x) (f1 x)) := by
  obtain ⟨ps, e1, e2, e3, e4⟩ := fam_spec a b m c [(m1, c1)] hab (by simp)
  refine ⟨ps, e1, e2, e3, fun x v => ?_⟩
  rw [e4]
  simp only [List.mem_cons, List.not_mem_nil, or_false, exists_eq_or_imp, exists_eq_left, forall_eq_or_imp, forall_eq, h0, h1]
  constructor
  · rintro ⟨⟨k1, k2⟩, h, k3, k4⟩
    refine ⟨k1, k2, le_antisymm ?_ (max_le k3 k4)⟩
    rcases h with h | h <;> rw [h] <;> simp
  · rintro ⟨k1, k2, rfl⟩
    exact ⟨⟨k1, k2⟩, (max_choice _ _).imp id id, le_max_left _ _, le_max_right _ _⟩

theorem graph3 {a b m c m1 c1 m2 c2 : ℚ} (f0 f1 f2 : ℚ → ℚ) (hab : a ≤ b) (h0 : ∀ x, m * x + c = f0 x) (h1 : ∀ x, m1 * x + c1 = f1 x)
    (h2 : ∀ x, m2 * x + c2 = f2 x) :
    Graph (fam (cc a b) m c [(m1, c1), (m2, c2)]) a b (fun x => max (f0 x) (max (f1 x) (f2 x))) := by
  obtain ⟨ps, e1, e2, e3, e4⟩ := fam_spec a b m c [(m1, c1), (m2, c2)] hab (by simp)
  refine ⟨ps, e1, e2, e3, fun x v => ?_⟩
  rw [e4]
  simp only [List.mem_cons, List.not_mem_nil, or_false, exists_eq_or_imp, exists_eq_left, forall_eq_or_imp, forall_eq, h0, h1, h2]
  constructor
  · rintro ⟨⟨k1, k2⟩, h, k3, k4, k5⟩
    refine ⟨k1, k2, le_antisymm ?_ (max_le k3 (max_le k4 k5))⟩
    rcases h with h | h | h <;> rw [h] <;> simp
  · rintro ⟨k1, k2, rfl⟩
    refine ⟨⟨k1, k2⟩, ?_, le_max_left _ _, (le_max_left _ _).trans (le_max_right _ _), (le_max_right _ _).trans (le_max_right _ _)⟩
    rcases max_choice (f0 x) (max (f1 x) (f2 x)) with h | h
    · exact Or.inl h
    · rw [h]
      exact Or.inr (max_choice _ _)

theorem graph4 {a b m c m1 c1 m2 c2 m3 c3 : ℚ} (f0 f1 f2 f3 : ℚ → ℚ) (hab : a ≤ b) (h0 : ∀ x, m * x + c = f0 x)
    (h1 : ∀ x, m1 * x + c1 = f1 x) (h2 : ∀ x, m2 * x + c2 = f2 x) (h3 : ∀ x, m3 * x + c3 = f3 x) :
    Graph (fam (cc a b) m c [(m1, c1), (m2, c2), (m3, c3)]) a b (fun x => max (f0 x) (max (f1 x) (max (f2 x) (f3 x)))) := by
  obtain ⟨ps, e1, e2, e3, e4⟩ := fam_spec a b m c [(m1, c1), (m2, c2), (m3, c3)] hab (by simp)
  refine ⟨ps, e1, e2, e3, fun x v => ?_⟩
  rw [e4]
  simp only [List.mem_cons, List.not_mem_nil, or_false, exists_eq_or_imp, exists_eq_left, forall_eq_or_imp, forall_eq, h0, h1, h2, h3]
  constructor
  · rintro ⟨⟨k1, k2⟩, h, k3, k4, k5, k6⟩
    refine ⟨k1, k2, le_antisymm ?_ (max_le k3 (max_le k4 (max_le k5 k6)))⟩
    rcases h with h | h | h | h <;> rw [h] <;> simp
  · rintro ⟨k1, k2, rfl⟩
    refine ⟨⟨k1, k2⟩, ?_, le_max_left _ _, (le_max_left _ _).trans (le_max_right _ _),
      ((le_max_left _ _).trans (le_max_right _ _)).trans (le_max_right _ _),
      ((le_max_right _ _).trans (le_max_right _ _)).trans (le_max_right _ _)⟩
    rcases max_choice (f0 x) (max (f1 x) (max (f2 x) (f3 x))) with h | h
    · exact Or.inl h
    · rw [h]
      rcases max_choice (f1 x) (max (f2 x) (f3 x)) with h' | h'
      · exact Or.inr (Or.inl h')
      · rw [h']
        exact Or.inr (Or.inr (max_choice _ _))

theorem graph1 {a b m c : ℚ} (f : ℚ → ℚ) (hab : a ≤ b) (h : ∀ x, m * x + c = f x) : Graph (.ok [af m c (cc a b)]) a b f := by
  refine ⟨_, rfl, List.pairwise_singleton _ _, ?_, fun x v => ?_⟩
  · intro p hp
    rw [List.mem_singleton] at hp
    subst hp
    exact (constructible_iff _).mpr hab
  · unfold HasValue
    simp only [List.mem_singleton, exists_eq_left]
    constructor
    · rintro ⟨hx, hw⟩
      obtain ⟨h1, h2⟩ := (mem_cc a b x).mp hx
      exact ⟨h1, h2, by rw [← h]; exact hw.symm⟩
    · rintro ⟨h1, h2, rfl⟩
      exact ⟨(mem_cc a b x).mpr ⟨h1, h2⟩, h x⟩

/-- **C74** (Watt 1989) -/
theorem C74_watt : Graph (.ok watt) (3 / 7) (1 / 2) (fun α => 89 / 560 + 1 / 2 * α) := graph1 _ (by norm_num) (fun x => by ring)

/-- **C74** (trivial bound) -/
theorem C74_trivial : Graph (.ok [trivial1]) 0 1 (fun α => α) := graph1 _ (by norm_num) (fun x => by ring)

/-- **C74** (Huxley–Kolesnik 1991) -/
theorem C74_hk1991 : Graph hk1991 (2 / 5) (1 / 2) (fun α => max ((1 + 8 * α) / 22) (max ((11 + 112 * α) / 158) ((1 + 17 * α) / 22))) :=
  graph3 _ _ _ (by norm_num) (fun x => by ring) (fun x => by ring) (fun x => by ring)

/-- **C74** (Sargos 1995, first bound) -/
theorem C74_sargos1995a : Graph sargos1995a 0 1
    (fun α => max (α + 3 * (1 - 4 * α) / 40) (max (7 / 8 * α) (max (α / 3 - (1 - 4 * α) / 6) 0))) :=
  graph4 (f3 := fun _ => 0) _ _ _ (by norm_num) (fun x => by ring) (fun x => by ring) (fun x => by ring) (fun x => by ring)

/-- **C74** (Sargos 1995, second bound) -/
theorem C74_sargos1995b : Graph sargos1995b 0 1
    (fun α => max (α + (1 - 4 * α) / 14) (max (5 / 6 * α) (max (α / 3 - (1 - 4 * α) / 6) 0))) :=
  graph4 (f3 := fun _ => 0) _ _ _ (by norm_num) (fun x => by ring) (fun x => by ring) (fun x => by ring) (fun x => by ring)

/-- **C74** (Huxley–Kolesnik 2001) -/
theorem C74_hk2001 : Graph hk2001 (2 / 5) (1 / 2)
    (fun α => max (7 / 80 + 79 / 120 * α) (max (3 / 32 + 103 / 160 * α) (9 / 40 + 13 / 40 * α))) :=
  graph3 _ _ _ (by norm_num) (fun x => by ring) (fun x => by ring) (fun x => by ring)

/-- **C74** (Robert–Sargos 2002) -/
theorem C74_rs2002 : Graph rs2002 0 1 (fun α => max (α + (1 - 4 * α) / 13) (-(7 * (1 - 4 * α) / 13))) :=
  graph2 _ _ (by norm_num) (fun x => by ring) (fun x => by ring)

/-- **C74** (Sargos 2003, first bound) -/
theorem C74_sargos2003a : Graph sargos2003a 0 1 (fun α => max (α + (1 - 8 * α) / 204) (-(95 * (1 - 8 * α) / 204))) :=
  graph2 _ _ (by norm_num) (fun x => by ring) (fun x => by ring)

/-- **C74** (Sargos 2003, second bound) -/
theorem C74_sargos2003b : Graph sargos2003b 0 1 (fun α => max (α + 7 * (1 - 9 * α) / 2640) (-(1001 * (1 - 9 * α) / 2640))) :=
  graph2 _ _ (by norm_num) (fun x => by ring) (fun x => by ring)

/-- **C74** (Huxley 2005) -/
theorem C74_huxley2005 : Graph huxley2005 (1 / 3) (1 / 2) (fun α => max ((37 + 59 * α) / 170) ((63 + 449 * α) / 690)) :=
  graph2 _ _ (by norm_num) (fun x => by ring) (fun x => by ring)

/-- **C74** (Robert 2016) -/
theorem C74_robert2016 : Graph robert2016 0 (3 / 7) (fun α => max (α + (1 - 4 * α) / 12) (11 / 12 * α)) :=
  graph2 _ _ (by norm_num) (fun x => by ring) (fun x => by ring)

theorem robert_range (k : ℚ) (hk : 4 ≤ k) : 0 ≤ (k - 1) / (k * (k - 1) - (2 * k - 3)) ∧ 0 < k * (k - 1) - (2 * k - 3) := by
  have h : 0 < k * (k - 1) - (2 * k - 3) := by nlinarith
  exact ⟨div_nonneg (by linarith) h.le, h⟩

/-- **C74** (Robert 2016, the bounds for `k ≥ 4`) The set of `α` is the one described by the condition
`α ≥ -(1 - kα)(k-1)/(2k-3)`. -/
theorem C74_robert2 (k : ℚ) (hk : 4 ≤ k) : ∃ b, Graph (robert2 k) 0 b
    (fun α => α + max ((1 - k * α) / (2 * (k - 1) * (k - 2))) (-α / (2 * (k - 1) * (k - 2)))) ∧
    ∀ α, α ≤ b ↔ -(1 - k * α) * ((k - 1) / (2 * k - 3)) ≤ α := by
  obtain ⟨h1, h2⟩ := robert_range k hk
  refine ⟨(k - 1) / (k * (k - 1) - (2 * k - 3)), ?_, fun α => ?_⟩
  · have := graph2 (a := 0) (b := (k - 1) / (k * (k - 1) - (2 * k - 3))) (m := 1 - k / (2 * (k - 1) * (k - 2)))
      (c := 1 / (2 * (k - 1) * (k - 2))) (m1 := 1 - 1 / (2 * (k - 1) * (k - 2))) (c1 := 0)
      (fun α => α + (1 - k * α) / (2 * (k - 1) * (k - 2))) (fun α => α + -α / (2 * (k - 1) * (k - 2))) h1 (fun x => by ring)
      (fun x => by ring)
    simp only [max_add_add_left] at this
    exact this
  · have h3 : 0 < 2 * k - 3 := by linarith
    rw [le_div_iff₀ h2, mul_div_assoc', div_le_iff₀ h3]
    constructor <;> intro h <;> linarith

/-- **C74** (Heath-Brown 2017, for every `k ≥ 3`) -/
theorem C74_hb2017 (k : ℚ) (hk : 3 ≤ k) : Graph (hb2017 k) 0 1
    (fun α => α + max ((1 - k * α) / (k * (k - 1))) (max (-α / (k * (k - 1)))
      (-(2 * α) / (k * (k - 1)) - 2 * (1 - k * α) / (k ^ 2 * (k - 1))))) := by
  have k0 : k ≠ 0 := by intro h; linarith
  have k1 : k - 1 ≠ 0 := by intro h; linarith
  have := graph3 (a := 0) (b := 1) (m := (k - 2) / (k - 1)) (c := 1 / (k * (k - 1))) (m1 := 1 - 1 / (k * (k - 1))) (c1 := 0) (m2 := 1)
    (c2 := -2 / (k * k * (k - 1))) (fun α => α + (1 - k * α) / (k * (k - 1))) (fun α => α + -α / (k * (k - 1)))
    (fun α => α + (-(2 * α) / (k * (k - 1)) - 2 * (1 - k * α) / (k ^ 2 * (k - 1)))) (by norm_num)
    (fun x => by field_simp; ring) (fun x => by ring) (fun x => by field_simp; ring)
  simp only [max_add_add_left] at this
  exact this

/-- What the theorem of Huxley 1993 states (beta.tex, 1993 Huxley bound). -/
def huxley1993 (α : ℚ) : ℚ := if α ≤ 49 / 114 then max (13 / 60 + 7 / 20 * α) (11 / 120 + 13 / 20 * α) else 89 / 570 + 1 / 2 * α

/-- **C74** (Huxley 1993, partial: on the two intervals where the break point does not matter) Full statement: the pieces give
`huxley1993` on `[0, 1/2]`; false by `C74_huxley1993_counterexample`. -/
theorem C74_huxley1993_partial : ∃ ps, huxley1993a = .ok ps ∧
    ∀ x v, (x < 49 / 144 ∨ 49 / 114 ≤ x) → (HasValue (ps ++ huxley1993b) x v ↔ 0 ≤ x ∧ x ≤ 1 / 2 ∧ v = huxley1993 x) := by
  obtain ⟨ps, e1, _, _, e4⟩ := graph2 (a := 0) (b := 49 / 144) (m := 7 / 20) (c := 13 / 60) (m1 := 13 / 20) (c1 := 11 / 120)
    (fun α => 13 / 60 + 7 / 20 * α) (fun α => 11 / 120 + 13 / 20 * α) (by norm_num) (fun x => by ring) (fun x => by ring)
  refine ⟨ps, e1, fun x v hx => ?_⟩
  have hv : HasValue (ps ++ huxley1993b) x v ↔ HasValue ps x v ∨ HasValue huxley1993b x v := by
    simp only [HasValue, List.mem_append, or_and_right, exists_or]
  have hb : HasValue huxley1993b x v ↔ (49 / 144 ≤ x ∧ x ≤ 1 / 2) ∧ v = 89 / 570 + 1 / 2 * x := by
    simp only [HasValue, huxley1993b, List.mem_singleton, exists_eq_left, af, mem_cc]
    refine and_congr_right fun _ => ?_
    constructor <;> intro h <;> linarith
  rw [hv, hb, e4]
  unfold huxley1993
  rcases hx with hx | hx
  · rw [if_pos (by linarith)]
    constructor
    · rintro (⟨a, b, c⟩ | ⟨⟨a, _⟩, _⟩)
      · exact ⟨a, by linarith, c⟩
      · linarith
    · rintro ⟨a, b, c⟩
      exact Or.inl ⟨a, hx.le, c⟩
  · constructor
    · rintro (⟨_, b, _⟩ | ⟨⟨a, b⟩, c⟩)
      · linarith
      · refine ⟨by linarith, b, ?_⟩
        rw [c]
        split
        · have : x = 49 / 114 := by linarith
          rw [this]; norm_num
        · rfl
    · rintro ⟨a, b, c⟩
      refine Or.inr ⟨⟨by linarith, b⟩, ?_⟩
      rw [c]
      split
      · have : x = 49 / 114 := by linarith
        rw [this]; norm_num
      · rfl

/-- Finding: literature.py:65, 67 and 72 have `49/144` where the cited theorem has `49/114` (beta.tex, 1993 Huxley bound, and the row
`49/114` of Table 17.1). Between `49/144` and `307/761` the coded bound is smaller than what the theorem gives, for example at `3/8`. -/
theorem C74_huxley1993_counterexample :
    HasValue huxley1993b (3 / 8) (89 / 570 + 3 / 16) ∧ (89 / 570 + 3 / 16 : ℚ) < huxley1993 (3 / 8) := by
  constructor
  · refine ⟨_, List.mem_singleton.mpr rfl, (mem_cc _ _ _).mpr (by norm_num), ?_⟩
    simp only [af]
    norm_num
  · unfold huxley1993
    rw [if_pos (by norm_num)]
    norm_num

/-! ### The tables -/

/-- The pieces run from `a` to `b` without gaps, each closed on the left and the last one closed on the right, and consecutive pieces
agree at the break point. -/
def Linked : ℚ → List Bd → ℚ → Prop
  | _, [], _ => False
  | a, [f], b => f.dom.x0 = a ∧ f.dom.incL = true ∧ a < f.dom.x1 ∧ f.dom.x1 = b ∧ f.dom.incU = true
  | a, f :: g :: rest, b => f.dom.x0 = a ∧ f.dom.incL = true ∧ a < f.dom.x1 ∧
      f.m * f.dom.x1 + f.c = g.m * f.dom.x1 + g.c ∧ Linked f.dom.x1 (g :: rest) b

theorem linked_head {a b : ℚ} {f : Bd} {rest : List Bd} (h : Linked a (f :: rest) b) :
    f.dom.x0 = a ∧ f.dom.incL = true ∧ a < f.dom.x1 ∧ f.dom.x1 ≤ b := by
  induction rest generalizing a f with
  | nil => exact ⟨h.1, h.2.1, h.2.2.1, h.2.2.2.1.le⟩
  | cons g rest ih =>
    obtain ⟨h1, h2, h3, _, h5⟩ := h
    obtain ⟨_, _, k1, k2⟩ := ih h5
    exact ⟨h1, h2, h3, by linarith⟩

theorem linked_ge {a b : ℚ} {ps : List Bd} (h : Linked a ps b) : ∀ p ∈ ps, a ≤ p.dom.x0 := by
  induction ps generalizing a with
  | nil => intro p hp; cases hp
  | cons f rest ih =>
    intro p hp
    rcases List.mem_cons.mp hp with rfl | hp
    · exact (linked_head h).1.ge
    · cases rest with
      | nil => cases hp
      | cons g rest =>
        obtain ⟨_, _, h3, _, h5⟩ := h
        exact h3.le.trans (ih h5 p hp)

theorem mem_left {f : Bd} (hL : f.dom.incL = true) {x : ℚ} (h1 : f.dom.x0 ≤ x) (h2 : x < f.dom.x1) :
    Mem f.dom.x0 f.dom.x1 f.dom.incL f.dom.incU x := by
  unfold Mem
  refine ⟨?_, Or.inl h2⟩
  rcases lt_or_eq_of_le h1 with h | h
  · exact Or.inl h
  · exact Or.inr ⟨hL, h.symm⟩

/-- **C74** (what a linked table means) Linked pieces give exactly one value at every point of `[a, b]`. -/
theorem linked_unique {a b : ℚ} {ps : List Bd} (h : Linked a ps b) : ∀ x, a ≤ x → x ≤ b → ∃! v, HasValue ps x v := by
  induction ps generalizing a with
  | nil => exact h.elim
  | cons f rest ih =>
    intro x hx hx'
    cases rest with
    | nil =>
      obtain ⟨h1, h2, h3, h4, h5⟩ := h
      refine ⟨f.m * x + f.c, ⟨f, List.mem_singleton.mpr rfl, ?_, rfl⟩, ?_⟩
      · rcases lt_or_eq_of_le hx' with e | e
        · exact mem_left h2 (h1.le.trans hx) (by rw [h4]; exact e)
        · unfold Mem
          exact ⟨Or.inl (by rw [h1, e, ← h4]; exact h3), Or.inr ⟨h5, by rw [h4]; exact e⟩⟩
      · rintro v ⟨p, hp', _, rfl⟩
        rw [List.mem_singleton.mp hp']
    | cons g rest =>
      obtain ⟨h1, h2, h3, h4, h5⟩ := h
      obtain ⟨k1, k2, k3, k4⟩ := linked_head h5
      rcases lt_or_ge x f.dom.x1 with e | e
      · refine ⟨f.m * x + f.c, ⟨f, List.mem_cons_self, mem_left h2 (h1.le.trans hx) e, rfl⟩, ?_⟩
        rintro v ⟨p, hp, hm, rfl⟩
        rcases List.mem_cons.mp hp with rfl | hp
        · rfl
        · have := linked_ge h5 p hp
          unfold Mem at hm
          rcases hm.1 with h | ⟨_, h⟩ <;> linarith
      · obtain ⟨v, hv, hu⟩ := ih h5 x e hx'
        refine ⟨v, ?_, ?_⟩
        · obtain ⟨p, hp, hm⟩ := hv
          exact ⟨p, List.mem_cons_of_mem _ hp, hm⟩
        · rintro w ⟨p, hp, hm, rfl⟩
          rcases List.mem_cons.mp hp with rfl | hp
          · have hxe : x = p.dom.x1 := by
              unfold Mem at hm
              rcases hm.2 with h | ⟨_, h⟩ <;> linarith
            apply hu
            refine ⟨g, List.mem_cons_self, mem_left k2 (by rw [k1, hxe]) (by rw [hxe]; exact k3), ?_⟩
            rw [hxe]
            exact h4.symm
          · exact hu _ ⟨p, hp, hm, rfl⟩

theorem linked_le {a b : ℚ} {ps : List Bd} (h : Linked a ps b) : ∀ p ∈ ps, p.dom.x1 ≤ b := by
  induction ps generalizing a with
  | nil => intro p hp; cases hp
  | cons f rest ih =>
    intro p hp
    rcases List.mem_cons.mp hp with rfl | hp
    · exact (linked_head h).2.2.2
    · cases rest with
      | nil => cases hp
      | cons g rest => exact ih h.2.2.2.2 p hp

theorem hasValue_append (ps qs : List Bd) (x v : ℚ) : HasValue (ps ++ qs) x v ↔ HasValue ps x v ∨ HasValue qs x v := by
  simp only [HasValue, List.mem_append, or_and_right, exists_or]

/-- Two linked tables after each other. -/
theorem linked_append {a b c : ℚ} {ps qs : List Bd} (h : Linked a ps b) (h' : Linked b qs c) (x : ℚ) (h1 : a ≤ x) (h2 : x ≤ c)
    (hx : x ≠ b) : ∃! v, HasValue (ps ++ qs) x v := by
  simp only [hasValue_append]
  rcases lt_or_gt_of_ne hx with e | e
  · obtain ⟨v, hv, hu⟩ := linked_unique h x h1 e.le
    refine ⟨v, Or.inl hv, ?_⟩
    rintro w (hw | ⟨p, hp, hm, _⟩)
    · exact hu w hw
    · have := linked_ge h' p hp
      unfold Mem at hm
      rcases hm.1 with h | ⟨_, h⟩ <;> linarith
  · obtain ⟨v, hv, hu⟩ := linked_unique h' x e.le h2
    refine ⟨v, Or.inr hv, ?_⟩
    rintro w (⟨p, hp, hm, _⟩ | hw)
    · have := linked_le h p hp
      unfold Mem at hm
      rcases hm.2 with h | ⟨_, h⟩ <;> linarith
    · exact hu w hw

/-- The pieces with both end points included. -/
def closed (ps : List Bd) : List Bd := ps.map (fun f => { f with dom := cc f.dom.x0 f.dom.x1 })

/-- **C74** (the tables are continuous) The tables of Huxley 1993 and 1996 (Table 17.1) and of Bourgain 2017 cover their intervals without
gaps, and their pieces give exactly one value at each point, at the break points too when both pieces are evaluated there. -/
theorem C74_tables : (∀ x, 0 ≤ x → x ≤ 1 → ∃! v, HasValue (closed huxley1993c) x v) ∧
    (∀ x, 2848 / 12173 ≤ x → x ≤ 517 / 873 → ∃! v, HasValue (closed table17) x v) ∧
    ∀ x, 1 / 3 ≤ x → x ≤ 1 / 2 → ∃! v, HasValue (closed bourgain2017) x v := by
  refine ⟨linked_unique ?_, linked_unique ?_, linked_unique ?_⟩ <;>
    simp only [closed, huxley1993c, table17, bourgain2017, List.map_cons, List.map_nil, Linked, af, cc, co] <;> norm_num

/-- **C74** (Table 19.2, partial: except at two break points) Full statement: as for the other tables, at all points of the interval;
false by `C74_table19_counterexample`. -/
theorem C74_table19_partial : ∀ x, 12 / 31 ≤ x → x ≤ 139817 / 246639 → x ≠ 68682 / 171139 → x ≠ 156527 / 370694 →
    ∃! v, HasValue (closed table19) x v := by
  have l1 : Linked (12 / 31) (closed (table19.take 1)) (68682 / 171139) := by
    simp only [closed, table19, List.take, List.map_cons, List.map_nil, Linked, af, cc, co]; norm_num
  have l2 : Linked (68682 / 171139) (closed ((table19.drop 1).take 4)) (156527 / 370694) := by
    simp only [closed, table19, List.take, List.drop, List.map_cons, List.map_nil, Linked, af, cc, co]; norm_num
  have l3 : Linked (156527 / 370694) (closed (table19.drop 5)) (139817 / 246639) := by
    simp only [closed, table19, List.drop, List.map_cons, List.map_nil, Linked, af, cc, co]; norm_num
  have e : closed table19 = closed (table19.take 1) ++ (closed ((table19.drop 1).take 4) ++ closed (table19.drop 5)) := rfl
  intro x h1 h2 n1 n2
  rw [e]
  rcases lt_or_gt_of_ne n2 with c | c
  · obtain ⟨v, hv, hu⟩ := linked_append l1 l2 x h1 c.le n1
    refine ⟨v, ?_, ?_⟩
    · rw [hasValue_append] at hv ⊢
      exact hv.imp_right fun h => (hasValue_append _ _ _ _).mpr (Or.inl h)
    · intro w hw
      rw [← List.append_assoc, hasValue_append] at hw
      rcases hw with hw | ⟨p, hp, hm, _⟩
      · exact hu w hw
      · have := linked_ge l3 p hp
        unfold Mem at hm
        rcases hm.1 with h | ⟨_, h⟩ <;> linarith
  · obtain ⟨v, hv, hu⟩ := linked_append l2 l3 x (by linarith) h2 n2
    refine ⟨v, (hasValue_append _ _ _ _).mpr (Or.inr hv), ?_⟩
    intro w hw
    rw [hasValue_append] at hw
    rcases hw with ⟨p, hp, hm, _⟩ | hw
    · have := linked_le l1 p hp
      unfold Mem at hm
      rcases hm.2 with h | ⟨_, h⟩ <;> linarith
    · exact hu w hw

/-- Finding: in Table 19.2 (literature.py:158, 160 and 164, 168; the blueprint has the same numbers) the pieces do not agree at the break
points `68682/171139` and `156527/370694`; the lines cross at `68652/171139` and `156525/370694`, so that digits have been mistyped. At
both points the coded value is the larger one. -/
theorem C74_table19_counterexample :
    (∃ v w, HasValue (closed table19) (68682 / 171139) v ∧ HasValue table19 (68682 / 171139) w ∧ w ≠ v) ∧
    (∃ v w, HasValue (closed table19) (156527 / 370694) v ∧ HasValue table19 (156527 / 370694) w ∧ w ≠ v) ∧
    (103 / 128 * (68652 / 171139) + 4 / 128 = (2484 / 6410 * (68652 / 171139) + 1273 / 6410 : ℚ)) ∧
    (897 / 1345 * (156525 / 370694) + 113 / 1345 = (88442 / 134680 * (156525 / 370694) + 11897 / 134680 : ℚ)) := by
  refine ⟨⟨_, _, ⟨af (103 / 128) (4 / 128) (cc (12 / 31) (68682 / 171139)), by simp [closed, table19, af, cc, co],
      (mem_cc _ _ _).mpr (by norm_num), rfl⟩, ⟨af (2484 / 6410) (1273 / 6410) (co (68682 / 171139) (307 / 761)), by simp [table19],
      (mem_co _ _ _).mpr (by norm_num), rfl⟩, ?_⟩,
    ⟨_, _, ⟨af (897 / 1345) (113 / 1345) (cc (263 / 638) (156527 / 370694)), by simp [closed, table19, af, cc, co],
      (mem_cc _ _ _).mpr (by norm_num), rfl⟩, ⟨af (88442 / 134680) (11897 / 134680) (co (156527 / 370694) (699371 / 1647930)),
      by simp [table19], (mem_co _ _ _).mpr (by norm_num), rfl⟩, ?_⟩, by norm_num, by norm_num⟩ <;> simp only [af] <;> norm_num

/-- **C74** (reflection) Table 17.1 satisfies the reflection formula `β(1 - α) = β(α) + 1/2 - α` on the part of its interval that is
symmetric about `1/2`; the last piece of Table 19.2 does so too. -/
theorem C74_reflection (x v : ℚ) (h1 : 356 / 873 ≤ x) (h2 : x ≤ 517 / 873) :
    HasValue (closed table17) x v ↔ HasValue (closed table17) (1 - x) (v + 1 / 2 - x) := by
  have key : ∀ x v : ℚ, 356 / 873 ≤ x → x ≤ 517 / 873 → HasValue (closed table17) x v →
      HasValue (closed table17) (1 - x) (v + 1 / 2 - x) := by
    intro x v h1 h2 h
    have hv : ∀ y w, HasValue (closed table17) y w ↔ ∃ f ∈ table17, (f.dom.x0 ≤ y ∧ y ≤ f.dom.x1) ∧ f.m * y + f.c = w := by
      intro y w
      simp only [HasValue, closed, List.mem_map, exists_exists_and_eq_and, mem_cc]
    rw [hv] at h ⊢
    have h' : (x ≤ 356 / 873 ∧ v = 103 / 128 * x + 4 / 128) ∨ (x ≤ 5 / 12 ∧ v = 21 / 60 * x + 13 / 60) ∨
        ((5 / 12 ≤ x ∧ x ≤ 49 / 114) ∧ v = 78 / 120 * x + 11 / 120) ∨ ((49 / 114 ≤ x ∧ x ≤ 65 / 114) ∧ v = 285 / 570 * x + 89 / 570) ∨
        ((65 / 114 ≤ x ∧ x ≤ 7 / 12) ∧ v = 42 / 120 * x + 29 / 120) ∨ (7 / 12 ≤ x ∧ v = 39 / 60 * x + 4 / 60) := by
      simp only [table17, List.mem_cons, List.not_mem_nil, or_false, exists_eq_or_imp, exists_eq_left, af, cc, co] at h
      rcases h with h | h | h | h | h | h | h | h | h | h | h | h | h | h | h | h
      · exfalso; linarith [h.1.2]
      · exfalso; linarith [h.1.2]
      · exfalso; linarith [h.1.2]
      · exfalso; linarith [h.1.2]
      · exfalso; linarith [h.1.2]
      · exfalso; linarith [h.1.2]
      · exfalso; linarith [h.1.2]
      · exfalso; linarith [h.1.2]
      · exfalso; linarith [h.1.2]
      · exfalso; linarith [h.1.2]
      · exact Or.inl ⟨h.1.2, h.2.symm⟩
      · exact Or.inr (Or.inl ⟨h.1.2, h.2.symm⟩)
      · exact Or.inr (Or.inr (Or.inl ⟨h.1, h.2.symm⟩))
      · exact Or.inr (Or.inr (Or.inr (Or.inl ⟨h.1, h.2.symm⟩)))
      · exact Or.inr (Or.inr (Or.inr (Or.inr (Or.inl ⟨h.1, h.2.symm⟩))))
      · exact Or.inr (Or.inr (Or.inr (Or.inr (Or.inr ⟨h.1.1, h.2.symm⟩))))
    rcases h' with ⟨a, b⟩ | ⟨a, b⟩ | ⟨a, b⟩ | ⟨a, b⟩ | ⟨a, b⟩ | ⟨a, b⟩
    · have hx : x = 356 / 873 := le_antisymm a h1
      refine ⟨af (39 / 60) (4 / 60) (cc (7 / 12) (517 / 873)), by simp [table17], ?_, ?_⟩ <;> simp only [af, cc] <;> rw [hx] <;>
        norm_num
      rw [b, hx]; norm_num
    · refine ⟨af (39 / 60) (4 / 60) (cc (7 / 12) (517 / 873)), by simp [table17], ⟨?_, ?_⟩, ?_⟩ <;> simp only [af, cc] <;> linarith
    · refine ⟨af (42 / 120) (29 / 120) (co (65 / 114) (7 / 12)), by simp [table17], ⟨?_, ?_⟩, ?_⟩ <;> simp only [af, co] <;> linarith
    · refine ⟨af (285 / 570) (89 / 570) (co (49 / 114) (65 / 114)), by simp [table17], ⟨?_, ?_⟩, ?_⟩ <;> simp only [af, co] <;> linarith
    · refine ⟨af (78 / 120) (11 / 120) (co (5 / 12) (49 / 114)), by simp [table17], ⟨?_, ?_⟩, ?_⟩ <;> simp only [af, co] <;> linarith
    · refine ⟨af (21 / 60) (13 / 60) (co (356 / 873) (5 / 12)), by simp [table17], ⟨?_, ?_⟩, ?_⟩ <;> simp only [af, co] <;> linarith
  refine ⟨key x v h1 h2, fun h => ?_⟩
  have := key (1 - x) (v + 1 / 2 - x) (by linarith) (by linarith) h
  have e1 : 1 - (1 - x) = x := by ring
  have e2 : v + 1 / 2 - x + 1 / 2 - (1 - x) = v := by ring
  rwa [e1, e2] at this

/-! ### C75: the whole set -/

theorem collect_ok (es : List (Py (List Bd))) (h : ∀ e ∈ es, ∃ ps, e = .ok ps) : ∃ bs, collect es = .ok bs ∧
    ∀ b, b ∈ bs ↔ ∃ ps, Except.ok ps ∈ es ∧ b ∈ ps := by
  induction es with
  | nil => exact ⟨[], rfl, fun b => by simp⟩
  | cons e es ih =>
    obtain ⟨ps, rfl⟩ := h e List.mem_cons_self
    obtain ⟨bs, h1, h2⟩ := ih (fun e he => h e (List.mem_cons_of_mem _ he))
    refine ⟨ps ++ bs, by unfold collect; rw [h1]; rfl, fun b => ?_⟩
    rw [List.mem_append, h2]
    constructor
    · rintro (hb | ⟨qs, hq, hb⟩)
      · exact ⟨ps, List.mem_cons_self, hb⟩
      · exact ⟨qs, List.mem_cons_of_mem _ hq, hb⟩
    · rintro ⟨qs, hq, hb⟩
      rcases List.mem_cons.mp hq with e | hq
      · cases e; exact Or.inl hb
      · exact Or.inr ⟨qs, hq, hb⟩

/-- A list of pieces with usable domains inside `[0, 1]` that does not contradict `β(α) ≥ α/2`. -/
def Sane (E : Py (List Bd)) : Prop :=
  ∃ ps, E = .ok ps ∧ ∀ p ∈ ps, p.dom.Constructible ∧
    ∀ x v, HasValue [p] x v → (0 ≤ x ∧ x ≤ 1) ∧ x / 2 ≤ v

theorem sane_of_graph {E : Py (List Bd)} {a b : ℚ} {f : ℚ → ℚ} (h : Graph E a b f) (ha : 0 ≤ a) (hb : b ≤ 1)
    (hf : ∀ x, a ≤ x → x ≤ b → x / 2 ≤ f x) : Sane E := by
  obtain ⟨ps, h1, _, h3, h4⟩ := h
  refine ⟨ps, h1, fun p hp => ⟨h3 p hp, ?_⟩⟩
  rintro x v ⟨q, hq, hm, hv⟩
  rw [List.mem_singleton.mp hq] at hm hv
  obtain ⟨k1, k2, rfl⟩ := (h4 x v).mp ⟨p, hp, hm, hv⟩
  exact ⟨⟨by linarith, by linarith⟩, hf x k1 k2⟩

/-- For tables it is enough to look at the end points of the pieces. -/
theorem sane_of_ends {ps : List Bd} (h : ∀ p ∈ ps, 0 ≤ p.dom.x0 ∧ p.dom.x0 ≤ p.dom.x1 ∧ p.dom.x1 ≤ 1 ∧
    p.dom.x0 / 2 ≤ p.m * p.dom.x0 + p.c ∧ p.dom.x1 / 2 ≤ p.m * p.dom.x1 + p.c) : Sane (.ok ps) := by
  refine ⟨ps, rfl, fun p hp => ?_⟩
  obtain ⟨h1, h2, h3, h4, h5⟩ := h p hp
  refine ⟨(constructible_iff _).mpr h2, ?_⟩
  rintro x v ⟨q, hq, hm, hv⟩
  rw [List.mem_singleton.mp hq] at hm hv
  have hx : p.dom.x0 ≤ x ∧ x ≤ p.dom.x1 := by
    unfold Mem at hm
    constructor
    · rcases hm.1 with h | ⟨_, h⟩ <;> linarith
    · rcases hm.2 with h | ⟨_, h⟩ <;> linarith
  refine ⟨⟨by linarith, by linarith⟩, ?_⟩
  rw [← hv]
  rcases le_total (1 / 2) p.m with hm' | hm'
  · nlinarith [mul_nonneg (sub_nonneg.mpr hm') (sub_nonneg.mpr hx.1)]
  · nlinarith [mul_nonneg (sub_nonneg.mpr hm') (sub_nonneg.mpr hx.2)]

theorem sane_robert2 (k : ℚ) (hk : 4 ≤ k) : Sane (robert2 k) := by
  have h2 := (robert_range k hk).2
  obtain ⟨b, hg, hb⟩ := C74_robert2 k hk
  have hd : 0 < 2 * (k - 1) * (k - 2) := by nlinarith
  refine sane_of_graph hg le_rfl ?_ ?_
  · by_contra hcon
    have h3 : 0 < 2 * k - 3 := by linarith
    have := (hb b).mp le_rfl
    rw [mul_div_assoc', div_le_iff₀ h3] at this
    nlinarith
  · intro x hx _
    have : -x / (2 * (k - 1) * (k - 2)) ≥ -x / 2 := by
      rw [ge_iff_le, neg_div, neg_div, neg_le_neg_iff]
      exact div_le_div_of_nonneg_left hx (by norm_num) (by nlinarith)
    have := le_max_right ((1 - k * x) / (2 * (k - 1) * (k - 2))) (-x / (2 * (k - 1) * (k - 2)))
    linarith

theorem sane_hb2017 (k : ℚ) (hk : 3 ≤ k) : Sane (hb2017 k) := by
  refine sane_of_graph (C74_hb2017 k hk) le_rfl le_rfl ?_
  intro x hx _
  have h1 : -x / (k * (k - 1)) ≥ -x / 2 := by
    rw [ge_iff_le, neg_div, neg_div, neg_le_neg_iff]
    exact div_le_div_of_nonneg_left hx (by norm_num) (by nlinarith)
  have h2 := (le_max_left (-x / (k * (k - 1))) (-(2 * x) / (k * (k - 1)) - 2 * (1 - k * x) / (k ^ 2 * (k - 1)))).trans
    (le_max_right ((1 - k * x) / (k * (k - 1))) _)
  linarith

/-- Every part of the file is sane. -/
theorem sane_all (K : ℕ) : ∀ e ∈ [.ok watt, hk1991, huxley1993a, .ok huxley1993b, .ok huxley1993c, .ok table17, sargos1995a, sargos1995b,
      .ok table19, hk2001, rs2002, sargos2003a, sargos2003b, huxley2005, robert2016] ++
    (List.range' 4 (K - 4)).map (fun k : ℕ => robert2 k) ++ (List.range' 3 (K - 3)).map (fun k : ℕ => hb2017 k) ++
    [.ok bourgain2017, .ok ty2024], Sane e := by
  have hl : ∀ {a b x : ℚ}, x / 2 ≤ a → x / 2 ≤ max a b := fun h => h.trans (le_max_left _ _)
  intro e he
  simp only [List.mem_append, List.mem_map, List.mem_range', List.mem_cons, List.not_mem_nil, or_false] at he
  rcases he with (((rfl | rfl | rfl | rfl | rfl | rfl | rfl | rfl | rfl | rfl | rfl | rfl | rfl | rfl | rfl) | ⟨k, ⟨i, _, rfl⟩, rfl⟩) |
    ⟨k, ⟨i, _, rfl⟩, rfl⟩) | rfl | rfl
  · exact sane_of_ends (by simp only [watt, List.mem_cons, List.not_mem_nil, or_false, forall_eq, af, cc]; norm_num)
  · refine sane_of_graph C74_hk1991 (by norm_num) (by norm_num) fun x _ _ => ?_
    refine ((?_ : x / 2 ≤ (1 + 17 * x) / 22).trans (le_max_right _ _)).trans (le_max_right _ _)
    linarith
  · exact sane_of_graph (graph2 (fun α => 13 / 60 + 7 / 20 * α) (fun α => 11 / 120 + 13 / 20 * α) (by norm_num) (fun x => by ring)
      (fun x => by ring)) le_rfl (by norm_num) fun x _ _ => hl (by linarith)
  · exact sane_of_ends (by simp only [huxley1993b, List.mem_cons, List.not_mem_nil, or_false, forall_eq, af, cc]; norm_num)
  · exact sane_of_ends (by
      simp only [huxley1993c, List.mem_cons, List.not_mem_nil, or_false, forall_eq_or_imp, forall_eq, af, cc]; norm_num)
  · exact sane_of_ends (by
      simp only [table17, List.mem_cons, List.not_mem_nil, or_false, forall_eq_or_imp, forall_eq, af, cc, co]; norm_num)
  · exact sane_of_graph C74_sargos1995a le_rfl le_rfl fun x _ _ => hl (by linarith)
  · exact sane_of_graph C74_sargos1995b le_rfl le_rfl fun x _ _ => hl (by linarith)
  · exact sane_of_ends (by
      simp only [table19, List.mem_cons, List.not_mem_nil, or_false, forall_eq_or_imp, forall_eq, af, cc, co]; norm_num)
  · exact sane_of_graph C74_hk2001 (by norm_num) (by norm_num) fun x _ _ => hl (by linarith)
  · exact sane_of_graph C74_rs2002 le_rfl le_rfl fun x _ _ => hl (by linarith)
  · exact sane_of_graph C74_sargos2003a le_rfl le_rfl fun x _ _ => hl (by linarith)
  · exact sane_of_graph C74_sargos2003b le_rfl le_rfl fun x _ _ => hl (by linarith)
  · exact sane_of_graph C74_huxley2005 (by norm_num) (by norm_num) fun x _ _ => hl (by linarith)
  · exact sane_of_graph C74_robert2016 le_rfl (by norm_num) fun x _ _ => hl (by linarith)
  · exact sane_robert2 _ (by push_cast; nlinarith [Nat.cast_nonneg (α := ℚ) i])
  · exact sane_hb2017 _ (by push_cast; nlinarith [Nat.cast_nonneg (α := ℚ) i])
  · exact sane_of_ends (by
      simp only [bourgain2017, List.mem_cons, List.not_mem_nil, or_false, forall_eq_or_imp, forall_eq, af, cc, co]; norm_num)
  · exact sane_of_ends (by
      simp only [ty2024, List.mem_cons, List.not_mem_nil, or_false, forall_eq_or_imp, forall_eq, af, cc, co]; norm_num)

/-- The combined bound: lines `c + m α` with the intervals `[X, Y]` (beta.tex, Combined bound, after Table 3 of Trudgian and Yang). -/
def combined : List (ℚ × ℚ × ℚ × ℚ) :=
  [(13 / 414, 359 / 414, 0, 2848 / 12173), (13 / 318, 253 / 318, 2848 / 12173, 161 / 646), (11 / 492, 107 / 123, 161 / 646, 19 / 74),
    (89 / 2706, 2243 / 2706, 19 / 74, 199 / 716), (29 / 600, 58 / 75, 199 / 716, 967 / 3428),
    (49 / 1614, 1351 / 1614, 967 / 3428, 120 / 419), (1 / 66, 235 / 264, 120 / 419, 1328 / 4447),
    (13 / 194, 139 / 194, 1328 / 4447, 104 / 343), (13 / 146, 47 / 73, 104 / 343, 87 / 275), (11 / 244, 191 / 244, 87 / 275, 423 / 1295),
    (89 / 1282, 454 / 641, 423 / 1295, 227 / 601), (29 / 280, 173 / 280, 227 / 601, 12 / 31), (1 / 32, 103 / 128, 12 / 31, 1508 / 3825),
    (18 / 199, 521 / 796, 1508 / 3825, 62831 / 155153), (569 / 2800, 1053 / 2800, 62831 / 155153, 143 / 349),
    (491 / 5530, 1812 / 2765, 143 / 349, 263 / 638), (113 / 1345, 897 / 1345, 263 / 638, 1673 / 4038),
    (2 / 9, 1 / 3, 1673 / 4038, 5 / 12), (1 / 12, 2 / 3, 5 / 12, 3 / 7), (13 / 84, 1 / 2, 3 / 7, 1 / 2)]

/-- **C75** (sanity of the whole set) For every truncation constant the bounds on beta of the literature can be built; all have usable
domains in `[0, 1]`, and none contradicts the lower bound `β(α) ≥ α/2`. -/
theorem C75_sane (K : ℕ) : ∃ bs, all K = .ok bs ∧ ∀ p ∈ bs, p.dom.Constructible ∧
    ∀ x v, HasValue [p] x v → (0 ≤ x ∧ x ≤ 1) ∧ x / 2 ≤ v := by
  have hs := sane_all K
  obtain ⟨bs, h1, h2⟩ := collect_ok _ (fun e he => (hs e he).imp fun ps h => h.1)
  refine ⟨bs, h1, fun p hp => ?_⟩
  obtain ⟨ps, hps, hpp⟩ := (h2 p).mp hp
  obtain ⟨qs, e, hq⟩ := hs _ hps
  cases e
  exact hq p hpp


/-- The table covers `[0, 1/2]`. -/
theorem combined_cover (α : ℚ) (h1 : 0 ≤ α) (h2 : α ≤ 1 / 2) : ∃ r ∈ combined, r.2.2.1 ≤ α ∧ α ≤ r.2.2.2 := by
  simp only [combined, List.mem_cons, List.not_mem_nil, or_false, exists_eq_or_imp, exists_eq_left]
  by_contra hcon
  push Not at hcon
  obtain ⟨c1, c2, c3, c4, c5, c6, c7, c8, c9, c10, c11, c12, c13, c14, c15, c16, c17, c18, c19, c20⟩ := hcon
  linarith [c20 (c19 (c18 (c17 (c16 (c15 (c14 (c13 (c12 (c11 (c10 (c9 (c8 (c7 (c6 (c5 (c4 (c3 (c2 (c1 h1).le).le).le).le).le).le).le).le).le).le).le).le).le).le).le).le).le).le).le]

/-- The tables of Huxley, of Bourgain and of Trudgian and Yang together are at most the combined bound of the blueprint. -/
theorem combined_parts : ∀ r ∈ combined, ∀ α, r.2.2.1 ≤ α → α ≤ r.2.2.2 →
    ∃ v, HasValue (table17 ++ table19 ++ bourgain2017 ++ ty2024) α v ∧ v ≤ r.1 + r.2.1 * α := by
  have pick : ∀ (b : Bd) (x t : ℚ), (b ∈ table17 ∨ b ∈ table19 ∨ b ∈ bourgain2017 ∨ b ∈ ty2024) →
      Mem b.dom.x0 b.dom.x1 b.dom.incL b.dom.incU x → b.m * x + b.c ≤ t →
      ∃ v, HasValue (table17 ++ table19 ++ bourgain2017 ++ ty2024) x v ∧ v ≤ t :=
    fun b x t hb hm hv => ⟨_, ⟨b, by simp only [List.mem_append, or_assoc]; exact hb, hm, rfl⟩, hv⟩
  simp only [combined, List.mem_cons, List.not_mem_nil, or_false, forall_eq_or_imp, forall_eq]
  refine ⟨?_, ?_, ?_, ?_, ?_, ?_, ?_, ?_, ?_, ?_, ?_, ?_, ?_, ?_, ?_, ?_, ?_, ?_, ?_, ?_⟩ <;> intro α hX hY
  · rcases lt_or_eq_of_le hY with h | h
    · exact pick (af (359 / 414) (13 / 414) (co (0) (2848 / 12173))) α _ (by simp [table17, table19, bourgain2017, ty2024]) ((mem_co _ _ _).mpr ⟨by linarith, by linarith⟩) (by simp only [af]; linarith)
    · exact pick (af (253 / 318) (13 / 318) (co (2848 / 12173) (161 / 646))) α _ (by simp [table17, table19, bourgain2017, ty2024]) ((mem_co _ _ _).mpr ⟨by linarith, by linarith⟩) (by simp only [af]; linarith)
  · rcases lt_or_eq_of_le hY with h | h
    · exact pick (af (253 / 318) (13 / 318) (co (2848 / 12173) (161 / 646))) α _ (by simp [table17, table19, bourgain2017, ty2024]) ((mem_co _ _ _).mpr ⟨by linarith, by linarith⟩) (by simp only [af]; linarith)
    · exact pick (af (428 / 492) (11 / 492) (co (161 / 646) (19 / 74))) α _ (by simp [table17, table19, bourgain2017, ty2024]) ((mem_co _ _ _).mpr ⟨by linarith, by linarith⟩) (by simp only [af]; linarith)
  · rcases lt_or_eq_of_le hY with h | h
    · exact pick (af (428 / 492) (11 / 492) (co (161 / 646) (19 / 74))) α _ (by simp [table17, table19, bourgain2017, ty2024]) ((mem_co _ _ _).mpr ⟨by linarith, by linarith⟩) (by simp only [af]; linarith)
    · exact pick (af (2243 / 2706) (89 / 2706) (co (19 / 74) (199 / 716))) α _ (by simp [table17, table19, bourgain2017, ty2024]) ((mem_co _ _ _).mpr ⟨by linarith, by linarith⟩) (by simp only [af]; linarith)
  · rcases lt_or_eq_of_le hY with h | h
    · exact pick (af (2243 / 2706) (89 / 2706) (co (19 / 74) (199 / 716))) α _ (by simp [table17, table19, bourgain2017, ty2024]) ((mem_co _ _ _).mpr ⟨by linarith, by linarith⟩) (by simp only [af]; linarith)
    · exact pick (af (464 / 600) (29 / 600) (co (199 / 716) (967 / 3428))) α _ (by simp [table17, table19, bourgain2017, ty2024]) ((mem_co _ _ _).mpr ⟨by linarith, by linarith⟩) (by simp only [af]; linarith)
  · rcases lt_or_eq_of_le hY with h | h
    · exact pick (af (464 / 600) (29 / 600) (co (199 / 716) (967 / 3428))) α _ (by simp [table17, table19, bourgain2017, ty2024]) ((mem_co _ _ _).mpr ⟨by linarith, by linarith⟩) (by simp only [af]; linarith)
    · exact pick (af (1351 / 1614) (49 / 1614) (co (967 / 3428) (120 / 419))) α _ (by simp [table17, table19, bourgain2017, ty2024]) ((mem_co _ _ _).mpr ⟨by linarith, by linarith⟩) (by simp only [af]; linarith)
  · rcases lt_or_eq_of_le hY with h | h
    · exact pick (af (1351 / 1614) (49 / 1614) (co (967 / 3428) (120 / 419))) α _ (by simp [table17, table19, bourgain2017, ty2024]) ((mem_co _ _ _).mpr ⟨by linarith, by linarith⟩) (by simp only [af]; linarith)
    · exact pick (af (235 / 264) (4 / 264) (co (120 / 419) (1424 / 4747))) α _ (by simp [table17, table19, bourgain2017, ty2024]) ((mem_co _ _ _).mpr ⟨by linarith, by linarith⟩) (by simp only [af]; linarith)
  · exact pick (af (235 / 264) (4 / 264) (co (120 / 419) (1424 / 4747))) α _ (by simp [table17, table19, bourgain2017, ty2024]) ((mem_co _ _ _).mpr ⟨by linarith, by linarith⟩) (by simp only [af]; linarith)
  · rcases lt_or_eq_of_le hY with h | h
    · exact pick (af (139 / 194) (13 / 194) (co (1328 / 4447) (104 / 343))) α _ (by simp [table17, table19, bourgain2017, ty2024]) ((mem_co _ _ _).mpr ⟨by linarith, by linarith⟩) (by simp only [af]; linarith)
    · exact pick (af (94 / 146) (13 / 146) (co (1424 / 4747) (87 / 275))) α _ (by simp [table17, table19, bourgain2017, ty2024]) ((mem_co _ _ _).mpr ⟨by linarith, by linarith⟩) (by simp only [af]; linarith)
  · rcases lt_or_eq_of_le hY with h | h
    · exact pick (af (94 / 146) (13 / 146) (co (1424 / 4747) (87 / 275))) α _ (by simp [table17, table19, bourgain2017, ty2024]) ((mem_co _ _ _).mpr ⟨by linarith, by linarith⟩) (by simp only [af]; linarith)
    · exact pick (af (191 / 244) (11 / 244) (co (87 / 275) (423 / 1295))) α _ (by simp [table17, table19, bourgain2017, ty2024]) ((mem_co _ _ _).mpr ⟨by linarith, by linarith⟩) (by simp only [af]; linarith)
  · rcases lt_or_eq_of_le hY with h | h
    · exact pick (af (191 / 244) (11 / 244) (co (87 / 275) (423 / 1295))) α _ (by simp [table17, table19, bourgain2017, ty2024]) ((mem_co _ _ _).mpr ⟨by linarith, by linarith⟩) (by simp only [af]; linarith)
    · exact pick (af (908 / 1282) (89 / 1282) (co (423 / 1295) (227 / 601))) α _ (by simp [table17, table19, bourgain2017, ty2024]) ((mem_co _ _ _).mpr ⟨by linarith, by linarith⟩) (by simp only [af]; linarith)
  · rcases lt_or_eq_of_le hY with h | h
    · exact pick (af (908 / 1282) (89 / 1282) (co (423 / 1295) (227 / 601))) α _ (by simp [table17, table19, bourgain2017, ty2024]) ((mem_co _ _ _).mpr ⟨by linarith, by linarith⟩) (by simp only [af]; linarith)
    · exact pick (af (173 / 280) (29 / 280) (co (227 / 601) (12 / 31))) α _ (by simp [table17, table19, bourgain2017, ty2024]) ((mem_co _ _ _).mpr ⟨by linarith, by linarith⟩) (by simp only [af]; linarith)
  · rcases lt_or_eq_of_le hY with h | h
    · exact pick (af (173 / 280) (29 / 280) (co (227 / 601) (12 / 31))) α _ (by simp [table17, table19, bourgain2017, ty2024]) ((mem_co _ _ _).mpr ⟨by linarith, by linarith⟩) (by simp only [af]; linarith)
    · exact pick (af (103 / 128) (4 / 128) (co (12 / 31) (356 / 873))) α _ (by simp [table17, table19, bourgain2017, ty2024]) ((mem_co _ _ _).mpr ⟨by linarith, by linarith⟩) (by simp only [af]; linarith)
  · exact pick (af (103 / 128) (4 / 128) (co (12 / 31) (356 / 873))) α _ (by simp [table17, table19, bourgain2017, ty2024]) ((mem_co _ _ _).mpr ⟨by linarith, by linarith⟩) (by simp only [af]; linarith)
  · exact pick (af (521 / 796) (18 / 199) (cc (1508 / 3825) (62831 / 155153))) α _ (by simp [table17, table19, bourgain2017, ty2024]) ((mem_cc _ _ _).mpr ⟨by linarith, by linarith⟩) (by simp only [af]; linarith)
  · rcases lt_or_eq_of_le hY with h | h
    · exact pick (af (1053 / 2800) (569 / 2800) (co (307 / 761) (143 / 349))) α _ (by simp [table17, table19, bourgain2017, ty2024]) ((mem_co _ _ _).mpr ⟨by linarith, by linarith⟩) (by simp only [af]; linarith)
    · exact pick (af (3624 / 5530) (491 / 5530) (co (143 / 349) (263 / 638))) α _ (by simp [table17, table19, bourgain2017, ty2024]) ((mem_co _ _ _).mpr ⟨by linarith, by linarith⟩) (by simp only [af]; linarith)
  · rcases lt_or_eq_of_le hY with h | h
    · exact pick (af (3624 / 5530) (491 / 5530) (co (143 / 349) (263 / 638))) α _ (by simp [table17, table19, bourgain2017, ty2024]) ((mem_co _ _ _).mpr ⟨by linarith, by linarith⟩) (by simp only [af]; linarith)
    · exact pick (af (897 / 1345) (113 / 1345) (co (263 / 638) (156527 / 370694))) α _ (by simp [table17, table19, bourgain2017, ty2024]) ((mem_co _ _ _).mpr ⟨by linarith, by linarith⟩) (by simp only [af]; linarith)
  · exact pick (af (897 / 1345) (113 / 1345) (co (263 / 638) (156527 / 370694))) α _ (by simp [table17, table19, bourgain2017, ty2024]) ((mem_co _ _ _).mpr ⟨by linarith, by linarith⟩) (by simp only [af]; linarith)
  · rcases lt_or_eq_of_le hY with h | h
    · exact pick (af (1 / 3) (2 / 9) (co (1 / 3) (5 / 12))) α _ (by simp [table17, table19, bourgain2017, ty2024]) ((mem_co _ _ _).mpr ⟨by linarith, by linarith⟩) (by simp only [af]; linarith)
    · exact pick (af (2 / 3) (1 / 12) (co (5 / 12) (3 / 7))) α _ (by simp [table17, table19, bourgain2017, ty2024]) ((mem_co _ _ _).mpr ⟨by linarith, by linarith⟩) (by simp only [af]; linarith)
  · rcases lt_or_eq_of_le hY with h | h
    · exact pick (af (2 / 3) (1 / 12) (co (5 / 12) (3 / 7))) α _ (by simp [table17, table19, bourgain2017, ty2024]) ((mem_co _ _ _).mpr ⟨by linarith, by linarith⟩) (by simp only [af]; linarith)
    · exact pick (af (1 / 2) (13 / 84) (cc (3 / 7) (1 / 2))) α _ (by simp [table17, table19, bourgain2017, ty2024]) ((mem_cc _ _ _).mpr ⟨by linarith, by linarith⟩) (by simp only [af]; linarith)
  · exact pick (af (1 / 2) (13 / 84) (cc (3 / 7) (1 / 2))) α _ (by simp [table17, table19, bourgain2017, ty2024]) ((mem_cc _ _ _).mpr ⟨by linarith, by linarith⟩) (by simp only [af]; linarith)

/-- **C75** (the combined bound) For every truncation constant and every `α` in `[0, 1/2]`, some bound of the literature is at most the
combined bound of the blueprint. -/
theorem C75_combined (K : ℕ) : ∃ bs, all K = .ok bs ∧
    ∀ r ∈ combined, ∀ α, r.2.2.1 ≤ α → α ≤ r.2.2.2 → ∃ v, HasValue bs α v ∧ v ≤ r.1 + r.2.1 * α := by
  obtain ⟨bs, h1, h2⟩ := collect_ok _ (fun e he => ((sane_all K) e he).imp fun ps h => h.1)
  refine ⟨bs, h1, fun r hr α hX hY => ?_⟩
  obtain ⟨v, ⟨f, hf, hm, hv⟩, hle⟩ := combined_parts r hr α hX hY
  refine ⟨v, ⟨f, (h2 f).mpr ?_, hm, hv⟩, hle⟩
  simp only [List.mem_append, or_assoc] at hf
  rcases hf with hb | hb | hb | hb <;> exact ⟨_, by simp, hb⟩

/-- The bounds of the literature cover `[0, 1/2]` even when any one of them is left out. -/
theorem cover_twice (K : ℕ) (bs : List Bd) (h : all K = .ok bs) (b : Bd) (x : ℚ) (hx : 0 ≤ x) (hx' : x ≤ 1 / 2) :
    ∃ f ∈ bs, f ≠ b ∧ ∃ v, HasValue [f] x v := by
  obtain ⟨bs', h1, h2⟩ := collect_ok _ (fun e he => ((sane_all K) e he).imp fun ps h => h.1)
  have e : bs' = bs := by
    have h3 := h
    unfold all at h3
    rw [h1] at h3
    cases h3
    rfl
  subst e
  obtain ⟨r, hr, hr1, hr2⟩ := combined_cover x hx hx'
  obtain ⟨v, ⟨f, hf, hm, hv⟩, _⟩ := combined_parts r hr x hr1 hr2
  have hf' : f ∈ bs' := by
    refine (h2 f).mpr ?_
    simp only [List.mem_append, or_assoc] at hf
    rcases hf with hb | hb | hb | hb <;> exact ⟨_, by simp, hb⟩
  by_cases hfb : f = b
  · have hdis : ∀ g ∈ huxley1993c, ∀ f ∈ table17 ++ table19 ++ bourgain2017 ++ ty2024, g ≠ f := by decide +kernel
    have hin : ∀ g ∈ huxley1993c, g ∈ bs' := fun g hg => (h2 g).mpr ⟨huxley1993c, by simp, hg⟩
    have fin : ∀ g ∈ huxley1993c, Mem g.dom.x0 g.dom.x1 g.dom.incL g.dom.incU x → ∃ f ∈ bs', f ≠ b ∧ ∃ v, HasValue [f] x v :=
      fun g hg hm => ⟨g, hin g hg, fun h => hdis g hg f hf (h.trans hfb.symm), _, g, List.mem_singleton.mpr rfl, hm, rfl⟩
    rcases le_total x (87 / 275) with c1 | c1
    · exact fin (af (94 / 146) (13 / 146) (cc 0 (87 / 275))) (by simp [huxley1993c]) ((mem_cc _ _ _).mpr ⟨hx, c1⟩)
    rcases le_total x (423 / 1295) with c2 | c2
    · exact fin (af (191 / 244) (11 / 244) (cc (87 / 275) (423 / 1295))) (by simp [huxley1993c]) ((mem_cc _ _ _).mpr ⟨c1, c2⟩)
    rcases le_total x (227 / 601) with c3 | c3
    · exact fin (af (908 / 1282) (89 / 1282) (cc (423 / 1295) (227 / 601))) (by simp [huxley1993c]) ((mem_cc _ _ _).mpr ⟨c2, c3⟩)
    rcases le_total x (12 / 31) with c4 | c4
    · exact fin (af (173 / 280) (29 / 280) (cc (227 / 601) (12 / 31))) (by simp [huxley1993c]) ((mem_cc _ _ _).mpr ⟨c3, c4⟩)
    · exact fin (af (103 / 128) (4 / 128) (cc (12 / 31) 1)) (by simp [huxley1993c]) ((mem_cc _ _ _).mpr ⟨c4, by linarith⟩)
  · exact ⟨f, hf', hfb, v, f, List.mem_singleton.mpr rfl, hm, hv⟩

theorem exists_least (l : List ℚ) : ∀ v ∈ l, ∃ w ∈ l, ∀ u ∈ l, w ≤ u := by
  induction l with
  | nil => intro v hv; cases hv
  | cons a l ih =>
    intro v _
    cases l with
    | nil => exact ⟨a, by simp, by simp⟩
    | cons b l =>
      obtain ⟨w, hw, hmin⟩ := ih b List.mem_cons_self
      rcases le_total a w with h | h
      · exact ⟨a, List.mem_cons_self, fun u hu => by
          rcases List.mem_cons.mp hu with rfl | hu
          · exact le_rfl
          · exact h.trans (hmin u hu)⟩
      · exact ⟨w, List.mem_cons_of_mem _ hw, fun u hu => by
          rcases List.mem_cons.mp hu with rfl | hu
          · exact h
          · exact hmin u hu⟩

/-- **C75** (the best bounds) If a set of bounds contains those of the literature, `compute_best_beta_bounds` succeeds in whatever order
the set is listed. The result has exactly one value everywhere on `[0, 1/2]`; it is the least value of the bounds of the set, so it is at most
the combined bound. If all bounds of the set are from the literature or trivial, the value is also at least `α/2`. -/
theorem C75_best (K : ℕ) (hyps : List Beta.Hyp) (hb : ∀ h ∈ hyps, h.bound.dom.Constructible)
    (hlit : ∀ bs, all K = .ok bs → ∀ b ∈ bs, b ∈ hyps.map Beta.Hyp.bound) :
    ∃ out, Beta.computeBest hyps (cc 0 (1 / 2)) = .ok out ∧
      (∀ x, 0 ≤ x → x ≤ 1 / 2 → ∃! v, HasValue (out.map Beta.Best.bound) x v) ∧
      (∀ x v, HasValue (out.map Beta.Best.bound) x v → 0 ≤ x ∧ x ≤ 1 / 2 ∧
        HasValue (hyps.map Beta.Hyp.bound) x v ∧ (∀ w, HasValue (hyps.map Beta.Hyp.bound) x w → v ≤ w) ∧
        ∀ r ∈ combined, r.2.2.1 ≤ x → x ≤ r.2.2.2 → v ≤ r.1 + r.2.1 * x) ∧
      ((∀ h ∈ hyps, h.bound = trivial1 ∨ ∃ bs, all K = .ok bs ∧ h.bound ∈ bs) →
        ∀ x v, HasValue (out.map Beta.Best.bound) x v → x / 2 ≤ v) := by
  have hD : ∀ x, InDomain (some (cc 0 (1 / 2))) x ↔ 0 ≤ x ∧ x ≤ 1 / 2 := by
    intro x
    unfold InDomain
    simp only [Option.some.injEq, forall_eq', mem_cc]
  obtain ⟨bs, a1, a2⟩ := C75_combined K
  obtain ⟨bs', b1, b2⟩ := C75_sane K
  rw [a1] at b1
  cases b1
  have hcov : ∀ x, 0 ≤ x → x ≤ 1 / 2 → ∃ v, HasValue (hyps.map Beta.Hyp.bound) x v := by
    intro x hx hx'
    obtain ⟨f, hf, _, v, g, hg, hm, hv⟩ := cover_twice K bs a1 trivial1 x hx hx'
    rw [List.mem_singleton.mp hg] at hm hv
    exact ⟨v, f, hlit bs a1 f hf, hm, hv⟩
  obtain ⟨init, last, rfl⟩ : ∃ init last, hyps = init ++ [last] := by
    rcases List.eq_nil_or_concat' hyps with rfl | h
    · obtain ⟨v, f, hf, _⟩ := hcov 0 le_rfl (by norm_num)
      cases hf
    · exact h
  obtain ⟨out, e1, e2, e3, _⟩ := Beta.C51_any_order_partial init last (cc 0 (1 / 2)) ⟨0, (hD 0).mpr ⟨le_rfl, by norm_num⟩⟩
    ((constructible_iff _).mpr (by simp only [cc]; norm_num)) hb (fun x hx => by
      obtain ⟨f, hf, hne, v, g, hg, hm, hv⟩ := cover_twice K bs a1 last.bound x ((hD x).mp hx).1 ((hD x).mp hx).2
      rw [List.mem_singleton.mp hg] at hm hv
      have := hlit bs a1 f hf
      rw [List.map_append, List.mem_append] at this
      rcases this with h | h
      · exact ⟨v, f, h, hm, hv⟩
      · exact absurd (List.mem_singleton.mp h) hne)
  set hyps := init ++ [last]
  refine ⟨out, e1, fun x hx hx' => ?_, fun x v hv => ?_, fun hall x v hv => ?_⟩
  · -- the least of finitely many values
    set vals := (hyps.map Beta.Hyp.bound).filter (fun f => f.dom.contains x) with hvals
    have hval : ∀ v, HasValue (hyps.map Beta.Hyp.bound) x v ↔ v ∈ vals.map (fun f => f.ev x) := by
      intro v
      rw [hasValue_iff]
      simp only [hvals, List.mem_map, List.mem_filter]
      constructor
      · rintro ⟨f, hf, hc, hv⟩; exact ⟨f, ⟨hf, hc⟩, hv⟩
      · rintro ⟨f, ⟨hf, hc⟩, hv⟩; exact ⟨f, hf, hc, hv⟩
    obtain ⟨v0, hne⟩ := hcov x hx hx'
    obtain ⟨w, hw, hmin⟩ : ∃ w ∈ vals.map (fun f => f.ev x), ∀ u ∈ vals.map (fun f => f.ev x), w ≤ u :=
      exists_least _ v0 ((hval v0).mp hne)
    refine ⟨w, (e3 x w).mpr ⟨(hD x).mpr ⟨hx, hx'⟩, (hval w).mpr hw, fun u hu => hmin u ((hval u).mp hu)⟩, fun u hu => ?_⟩
    obtain ⟨_, k1, k2⟩ := (e3 x u).mp hu
    exact le_antisymm (k2 w ((hval w).mpr hw)) (hmin u ((hval u).mp k1))
  · obtain ⟨k1, k2, k3⟩ := (e3 x v).mp hv
    obtain ⟨k4, k5⟩ := (hD x).mp k1
    refine ⟨k4, k5, k2, k3, fun r hr hX hY => ?_⟩
    obtain ⟨w, ⟨f, hf, hm, hw⟩, hle⟩ := a2 r hr x hX hY
    exact (k3 w ⟨f, hlit bs a1 f hf, hm, hw⟩).trans hle
  · obtain ⟨_, ⟨f, hf, hm, hw⟩, _⟩ := (e3 x v).mp hv
    obtain ⟨h, hh, rfl⟩ := List.mem_map.mp hf
    rcases hall h hh with e | ⟨bs', e, hb'⟩
    · rw [e] at hm hw
      have := (mem_cc 0 1 x).mp hm
      simp only [trivial1, af] at hw
      linarith
    · rw [a1] at e
      cases e
      exact ((b2 _ hb').2 x v ⟨_, List.mem_singleton.mpr rfl, hm, hw⟩).2

/-- Non-vacuity: the literature in the opposite order, for the constant of the code. -/
example : ∃ bs out, all 20 = .ok bs ∧ Beta.computeBest (bs.reverse.map (fun b => ⟨1, b⟩)) (cc 0 (1 / 2)) = .ok out ∧
    ∃ v, HasValue (out.map Beta.Best.bound) (3 / 7) v ∧ 3 / 14 ≤ v ∧ v ≤ 13 / 84 + 3 / 14 := by
  obtain ⟨bs, a1, a2⟩ := C75_sane 20
  obtain ⟨out, e1, e2, e3, e4⟩ := C75_best 20 (bs.reverse.map (fun b => ⟨1, b⟩)) (by
      intro h hh
      obtain ⟨q, hq, rfl⟩ := List.mem_map.mp hh
      exact (a2 q (List.mem_reverse.mp hq)).1) (by
      intro bs' e q hq
      rw [a1] at e
      cases e
      simpa [List.mem_map] using hq)
  obtain ⟨v, hv, _⟩ := e2 (3 / 7) (by norm_num) (by norm_num)
  have hlow := e4 (by
    intro h hh
    obtain ⟨q, hq, rfl⟩ := List.mem_map.mp hh
    exact Or.inr ⟨_, a1, List.mem_reverse.mp hq⟩) _ v hv
  have hup := (e3 _ v hv).2.2.2.2 (13 / 84, 1 / 2, 3 / 7, 1 / 2) (by simp [combined]) le_rfl (by norm_num)
  refine ⟨_, out, a1, e1, v, hv, by linarith, ?_⟩
  have e : (13 / 84 : ℚ) + 1 / 2 * (3 / 7) = 13 / 84 + 3 / 14 := by norm_num
  linarith

/-! Non-vacuity of the theorems on single entries. -/

example : ∃ ps, hk1991 = .ok ps ∧ HasValue ps (9 / 20) (173 / 440) ∧ ¬ HasValue ps (9 / 20) (2 / 5) := by
  obtain ⟨ps, h1, _, _, h2⟩ := C74_hk1991
  refine ⟨ps, h1, ?_, ?_⟩ <;> rw [h2] <;> norm_num

example : ∃ ps, hb2017 3 = .ok ps ∧ HasValue ps (1 / 3) (1 / 3) := by
  obtain ⟨ps, h1, _, _, h2⟩ := C74_hb2017 3 le_rfl
  refine ⟨ps, h1, ?_⟩
  rw [h2]
  norm_num

example : ∃ ps b, robert2 4 = .ok ps ∧ HasValue ps (1 / 4) (1 / 4) ∧ (1 / 4 : ℚ) ≤ b ∧ ¬ (1 / 2 ≤ b) := by
  obtain ⟨b, ⟨ps, h1, _, _, h2⟩, h3⟩ := C74_robert2 4 le_rfl
  have hb : (1 / 4 : ℚ) ≤ b := (h3 _).mpr (by norm_num)
  refine ⟨ps, b, h1, ?_, hb, fun h => absurd ((h3 _).mp h) (by norm_num)⟩
  rw [h2]
  refine ⟨by norm_num, hb, by norm_num⟩

example : HasValue (closed table17) (3 / 7) (89 / 570 + 3 / 14) ∨ HasValue (closed table17) (3 / 7) (11 / 120 + 39 / 140) := by
  right
  exact ⟨af (78 / 120) (11 / 120) (cc (5 / 12) (49 / 114)), by simp [closed, table17, af, cc, co], (mem_cc _ _ _).mpr (by norm_num), by
    simp only [af]; norm_num⟩

example : HasValue (closed table17) (4 / 7) (11 / 120 + 39 / 140 + 1 / 2 - 3 / 7) := by
  have := (C74_reflection (3 / 7) (11 / 120 + 39 / 140) (by norm_num) (by norm_num)).mp
    ⟨af (78 / 120) (11 / 120) (cc (5 / 12) (49 / 114)), by simp [closed, table17, af, cc, co], (mem_cc _ _ _).mpr (by norm_num), by
      simp only [af]; norm_num⟩
  have e : (1 : ℚ) - 3 / 7 = 4 / 7 := by norm_num
  rwa [e] at this

end LitBeta
end Expdb
