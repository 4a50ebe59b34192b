import Verif.Model.BetaPairs
import Verif.Props.Beta
import Verif.Props.MuPiecewise

/-!
# Conversions between exponent pairs and bounds on beta (C37, C55, C56)
-/

namespace Expdb
namespace BetaPairs

open EP Hull Affine Expdb.Interval

/-! ### From pairs to bounds -/

/-- **C37** Without transforms the conversion succeeds and every exponent pair yields one bound, which depends on
the pair. -/
theorem C37_pairs (es : List Ep) :
    ∃ out, toBeta [] es = .ok out ∧ out.map Prod.snd = es ∧
      ∀ b ∈ out, ∀ x v, HasValue [b.1] x v ↔ 0 ≤ x ∧ x ≤ 1 / 2 ∧ v = b.2.k + (b.2.l - b.2.k) * x := by
  induction es with
  | nil => exact ⟨[], rfl, rfl, fun b hb => by simp at hb⟩
  | cons e es ih =>
    obtain ⟨out, h1, h2, h3⟩ := ih
    refine ⟨(pairBound e.k e.l, e) :: out, ?_, by rw [List.map_cons, h2], ?_⟩
    · unfold toBeta
      rw [h1]
      rfl
    · intro b hb
      rcases List.mem_cons.mp hb with rfl | hb
      · intro x v
        simp only [HasValue, List.mem_singleton, exists_eq_left, pairBound, half, Mem]
        constructor
        · rintro ⟨⟨h1 | ⟨_, h1⟩, h2 | ⟨_, h2⟩⟩, rfl⟩ <;> refine ⟨by linarith, by linarith, by ring⟩
        · rintro ⟨h1, h2, rfl⟩
          refine ⟨⟨?_, ?_⟩, by ring⟩
          · rcases eq_or_lt_of_le h1 with h | h
            · exact Or.inr ⟨trivial, h.symm⟩
            · exact Or.inl h
          · rcases eq_or_lt_of_le h2 with h | h
            · exact Or.inr ⟨trivial, h⟩
            · exact Or.inl h
      · exact h3 b hb

/-- **C37** (with transforms) The bound of every exponent pair is there whatever transforms are applied as well. -/
theorem C37_pair_line (ts : List (ℚ → ℚ → Py (List (Affine (Option ℕ))))) (es : List Ep)
    (out : List (Affine (Option ℕ) × Ep)) (h : toBeta ts es = .ok out) (e : Ep) (he : e ∈ es) :
    ∃ b, (b, e) ∈ out ∧ ∀ x v, HasValue [b] x v ↔ 0 ≤ x ∧ x ≤ 1 / 2 ∧ v = e.k + (e.l - e.k) * x := by
  have hb : ∀ x v, HasValue [pairBound e.k e.l] x v ↔ 0 ≤ x ∧ x ≤ 1 / 2 ∧ v = e.k + (e.l - e.k) * x := by
    obtain ⟨out', h1, h2, h3⟩ := C37_pairs [e]
    have : out' = [(pairBound e.k e.l, e)] := by
      have h4 : toBeta [] [e] = .ok [(pairBound e.k e.l, e)] := rfl
      rw [h4] at h1
      cases h1; rfl
    exact h3 (pairBound e.k e.l, e) (by rw [this]; simp)
  refine ⟨pairBound e.k e.l, ?_, hb⟩
  clear hb
  induction es generalizing out with
  | nil => simp at he
  | cons e' es ih =>
    unfold toBeta at h
    cases hx : applyAllTr ts e'.k e'.l with
    | error x => rw [hx] at h; cases h
    | ok extra =>
      rw [hx] at h
      simp only [bind, Except.bind] at h
      cases hr : toBeta ts es with
      | error x => rw [hr] at h; cases h
      | ok rest =>
        rw [hr] at h
        have h' := Except.ok.inj (show (Except.ok _ : Py (List (Affine (Option ℕ) × Ep))) = .ok out from h)
        rw [← h']
        rcases List.mem_cons.mp he with rfl | he
        · exact List.mem_cons_self
        · exact List.mem_cons_of_mem _ (List.mem_append_right _ (ih rest hr he))

theorem applyAllTr_mem (ts : List (ℚ → ℚ → Py (List (Affine (Option ℕ))))) (k l : ℚ) (out : List (Affine (Option ℕ)))
    (h : applyAllTr ts k l = .ok out) :
    (∀ t ∈ ts, ∃ bs, t k l = .ok bs) ∧ ∀ b, b ∈ out ↔ ∃ t ∈ ts, ∃ bs, t k l = .ok bs ∧ b ∈ bs := by
  induction ts generalizing out with
  | nil =>
    simp only [applyAllTr] at h
    cases h
    simp
  | cons t ts ih =>
    simp only [applyAllTr] at h
    cases ha : t k l with
    | error x => rw [ha] at h; cases h
    | ok a =>
      rw [ha] at h
      simp only [bind, Except.bind] at h
      cases hb : applyAllTr ts k l with
      | error x => rw [hb] at h; cases h
      | ok b =>
        rw [hb] at h
        cases h
        obtain ⟨h1, h2⟩ := ih b hb
        refine ⟨fun t' ht' => ?_, fun x => ?_⟩
        · rcases List.mem_cons.mp ht' with rfl | ht'
          · exact ⟨a, ha⟩
          · exact h1 t' ht'
        · rw [List.mem_append, h2]
          constructor
          · rintro (hx | ⟨t', ht', bs, hbs, hx⟩)
            · exact ⟨t, by simp, a, ha, hx⟩
            · exact ⟨t', by simp [ht'], bs, hbs, hx⟩
          · rintro ⟨t', ht', bs, hbs, hx⟩
            rcases List.mem_cons.mp ht' with rfl | ht'
            · rw [ha] at hbs
              cases hbs
              exact Or.inl hx
            · exact Or.inr ⟨t', ht', bs, hbs, hx⟩

/-- **C37** (all bounds of the conversion) The bounds produced are, for each exponent pair of the set, the bound of the pair and all
bounds that the transforms give for it, and nothing else. -/
theorem C37_all_bounds (ts : List (ℚ → ℚ → Py (List (Affine (Option ℕ))))) (es : List Ep)
    (out : List (Affine (Option ℕ) × Ep)) (h : toBeta ts es = .ok out) (b : Affine (Option ℕ)) (e : Ep) :
    (b, e) ∈ out ↔ e ∈ es ∧ (b = ⟨e.l - e.k, e.k, ⟨0, 1 / 2, true, true⟩, none⟩ ∨ ∃ t ∈ ts, ∃ bs, t e.k e.l = .ok bs ∧ b ∈ bs) := by
  induction es generalizing out with
  | nil =>
    simp only [toBeta] at h
    cases h
    simp
  | cons e' es ih =>
    unfold toBeta at h
    cases hx : applyAllTr ts e'.k e'.l with
    | error x => rw [hx] at h; cases h
    | ok extra =>
      rw [hx] at h
      simp only [bind, Except.bind] at h
      cases hr : toBeta ts es with
      | error x => rw [hr] at h; cases h
      | ok rest =>
        rw [hr] at h
        have h' := Except.ok.inj (show (Except.ok _ : Py (List (Affine (Option ℕ) × Ep))) = .ok out from h)
        rw [← h']
        obtain ⟨_, hm⟩ := applyAllTr_mem ts _ _ _ hx
        rw [List.mem_cons, List.mem_append, ih rest hr, List.mem_map, List.mem_cons]
        constructor
        · rintro (h1 | ⟨b', hb', h1⟩ | h1)
          · cases h1
            exact ⟨Or.inl rfl, Or.inl rfl⟩
          · cases h1
            exact ⟨Or.inl rfl, Or.inr ((hm b).mp hb')⟩
          · exact ⟨Or.inr h1.1, h1.2⟩
        · rintro ⟨rfl | he, h1⟩
          · rcases h1 with rfl | h1
            · exact Or.inl rfl
            · exact Or.inr (Or.inl ⟨b, (hm b).mpr h1, rfl⟩)
          · exact Or.inr (Or.inr ⟨he, h1⟩)

/-- Non-vacuity: two transforms, both contribute. -/
example : ∃ out, toBeta [fun k _ => .ok [⟨0, k, half, none⟩], fun _ l => .ok [⟨0, l, half, none⟩]] [Ep.known 0 (1 / 6) (2 / 3)] = .ok out ∧
    ((⟨0, 2 / 3, half, none⟩ : Affine (Option ℕ)), Ep.known 0 (1 / 6) (2 / 3)) ∈ out := ⟨_, rfl, by decide +kernel⟩

/-- **C56** The pieces of the D transform are together the larger of the two lines on [0, 1/2]. -/
theorem C56_transD (k l : ℚ) (h : 5 * k + 3 * l + 2 ≠ 0) :
    ∃ ps, transD k l = .ok ps ∧ Ordered ps ∧ ∀ x v, HasValue ps x v ↔ 0 ≤ x ∧ x ≤ 1 / 2 ∧
      v = max ((6 * k + 5 * l + 2) / (2 * (5 * k + 3 * l + 2)) * x + (5 * k + l + 2) / (8 * (5 * k + 3 * l + 2)))
        (2 / 3 * x + 1 / 12) := by
  set m := (6 * k + 5 * l + 2) / (2 * (5 * k + 3 * l + 2)) with hm
  set c := (5 * k + l + 2) / (8 * (5 * k + 3 * l + 2)) with hc
  have hmem : ∀ x, Mem half.x0 half.x1 half.incL half.incU x ↔ 0 ≤ x ∧ x ≤ 1 / 2 := by
    intro x
    simp only [half, Mem, true_and]
    rw [le_iff_lt_or_eq, le_iff_lt_or_eq, eq_comm (a := (0 : ℚ))]
  obtain ⟨out, h1, h2, h3⟩ := C05_max_with_partial (L := Option ℕ) ⟨m, c, half, none⟩ [⟨2 / 3, 1 / 12, half, none⟩] none
    ⟨by
      intro f hf
      rw [constructible_iff]
      simp only [List.mem_cons, List.not_mem_nil, or_false] at hf
      rcases hf with rfl | rfl <;> simp only [half] <;> norm_num, fun D hD => by cases hD⟩
    (by
      rintro x _ ⟨v, f, hf, hx, _⟩
      rw [List.mem_singleton] at hf
      subst hf
      exact ⟨_, _, List.mem_singleton.mpr rfl, hx, rfl⟩)
  refine ⟨out, ?_, h2, ?_⟩
  · unfold transD pyDiv
    rw [if_neg (mul_ne_zero (by norm_num) h), if_neg (mul_ne_zero (by norm_num) h)]
    simp only [bind, Except.bind]
    rw [← hm, ← hc, h1]
    rfl
  · intro x v
    rw [h3]
    have hv : ∀ w, HasValue [(⟨m, c, half, none⟩ : Affine (Option ℕ)), ⟨2 / 3, 1 / 12, half, none⟩] x w ↔
        (0 ≤ x ∧ x ≤ 1 / 2) ∧ (w = m * x + c ∨ w = 2 / 3 * x + 1 / 12) := by
      intro w
      simp only [HasValue, List.mem_cons, List.not_mem_nil, or_false, exists_eq_or_imp, exists_eq_left, hmem]
      constructor
      · rintro (⟨a, b⟩ | ⟨a, b⟩)
        · exact ⟨a, Or.inl b.symm⟩
        · exact ⟨a, Or.inr b.symm⟩
      · rintro ⟨a, b | b⟩
        · exact Or.inl ⟨a, b.symm⟩
        · exact Or.inr ⟨a, b.symm⟩
    simp only [hv]
    constructor
    · rintro ⟨_, ⟨hx, hw⟩, hmax⟩
      refine ⟨hx.1, hx.2, ?_⟩
      have a := hmax _ ⟨hx, Or.inl rfl⟩
      have b := hmax _ ⟨hx, Or.inr rfl⟩
      refine le_antisymm ?_ (max_le a b)
      rcases hw with hw | hw
      · rw [hw]; exact le_max_left _ _
      · rw [hw]; exact le_max_right _ _
    · rintro ⟨hx1, hx2, hw⟩
      refine ⟨fun D hD => (by cases hD), ⟨⟨hx1, hx2⟩, ?_⟩, ?_⟩
      · rcases max_choice (m * x + c) (2 / 3 * x + 1 / 12) with h | h
        · left; rw [hw, h]
        · right; rw [hw, h]
      · rintro w ⟨_, rfl | rfl⟩ <;> rw [hw]
        · exact le_max_left _ _
        · exact le_max_right _ _

/-! ### From bounds to pairs -/

/-- A bound on beta made of pieces inside [0, 1/2] that are not negative at their ends. -/
def Good (best : List (Affine (Option ℕ))) : Prop :=
  ∀ f ∈ best, 0 ≤ f.dom.x0 ∧ f.dom.x0 ≤ f.dom.x1 ∧ f.dom.x1 ≤ 1 / 2 ∧ 0 ≤ f.m * f.dom.x0 + f.c ∧ 0 ≤ f.m * f.dom.x1 + f.c

/-- The line of the pair (k, l) lies above all pieces, up to and including their ends. -/
def Above (best : List (Affine (Option ℕ))) (k l : ℚ) : Prop :=
  ∀ f ∈ best, ∀ x, f.dom.x0 ≤ x → x ≤ f.dom.x1 → f.m * x + f.c ≤ k + (l - k) * x

theorem points_good {best : List (Affine (Option ℕ))} (h : Good best) : ∀ p ∈ points best, 0 ≤ p.1 ∧ p.1 ≤ 1 / 2 ∧ 0 ≤ p.2 := by
  intro p hp
  simp only [points, List.mem_append, List.mem_cons, List.not_mem_nil, or_false, List.mem_flatMap, ends] at hp
  rcases hp with (rfl | rfl) | ⟨f, hf, rfl | rfl⟩
  · norm_num
  · norm_num
  · obtain ⟨a, b, c, d, e⟩ := h f hf
    exact ⟨a, by simp only; linarith, d⟩
  · obtain ⟨a, b, c, d, e⟩ := h f hf
    exact ⟨by simp only; linarith, c, e⟩

/-- A line above the end points of a piece is above the piece. -/
theorem above_of_points {best : List (Affine (Option ℕ))} (k l : ℚ)
    (h : ∀ p ∈ points best, p.2 ≤ k + (l - k) * p.1) : Above best k l := by
  intro f hf x h0 h1
  have e0 := h (f.dom.x0, f.ev f.dom.x0) (List.mem_append_right _ (List.mem_flatMap.mpr ⟨f, hf, by simp [ends]⟩))
  have e1 := h (f.dom.x1, f.ev f.dom.x1) (List.mem_append_right _ (List.mem_flatMap.mpr ⟨f, hf, by simp [ends]⟩))
  simp only [Affine.ev] at e0 e1
  rcases eq_or_lt_of_le (le_trans h0 h1) with h | h
  · have : x = f.dom.x0 := by linarith
    rw [this]; exact e0
  · -- the difference is affine and nonnegative at both ends
    have key : (f.dom.x1 - f.dom.x0) * (k + (l - k) * x - (f.m * x + f.c))
        = (f.dom.x1 - x) * (k + (l - k) * f.dom.x0 - (f.m * f.dom.x0 + f.c))
          + (x - f.dom.x0) * (k + (l - k) * f.dom.x1 - (f.m * f.dom.x1 + f.c)) := by ring
    have h2 : 0 ≤ (f.dom.x1 - f.dom.x0) * (k + (l - k) * x - (f.m * x + f.c)) := by
      rw [key]
      exact add_nonneg (mul_nonneg (by linarith) (by linarith)) (mul_nonneg (by linarith) (by linarith))
    have := nonneg_of_mul_nonneg_right h2 (by linarith)
    linarith

/-- An edge that is not degenerate goes to the left. -/
theorem edge_left {vs : List (ℚ × ℚ)} (hccw : Ccw vs) (e : (ℚ × ℚ) × (ℚ × ℚ)) (he : e ∈ cyclic vs)
    (hgood : ∀ p ∈ vs, 0 ≤ p.1 ∧ p.1 ≤ 1 / 2 ∧ 0 ≤ p.2) (h00 : InConv vs (0, 0)) (h10 : InConv vs (1 / 2, 0))
    (hd : degenerate e = false) : e.2.1 < e.1.1 := by
  obtain ⟨m1, m2⟩ := cyclic_mem vs e he
  obtain ⟨a1, a2, a3⟩ := hgood _ m1
  obtain ⟨b1, b2, b3⟩ := hgood _ m2
  have s0 := h00.area_nonneg e.1 e.2 (hccw.cyclic_edge e he)
  have s1 := h10.area_nonneg e.1 e.2 (hccw.cyclic_edge e he)
  unfold area at s0 s1
  simp only [degenerate, Bool.or_eq_false_iff, Bool.and_eq_false_iff, decide_eq_false_iff_not] at hd
  obtain ⟨⟨d1, d2⟩, d3⟩ := hd
  simp only at s0 s1
  by_contra hc
  push Not at hc
  -- e.1.1 ≤ e.2.1
  rcases eq_or_lt_of_le hc with h | h
  · -- vertical
    rw [← h] at s0 s1 d2 d3
    have n0 : e.1.1 ≠ 0 := by tauto
    have n1 : e.1.1 ≠ 1 / 2 := by tauto
    have p0 : 0 < e.1.1 := lt_of_le_of_ne a1 (Ne.symm n0)
    have p1 : 0 < 1 / 2 - e.1.1 := by
      rcases lt_or_eq_of_le a2 with h | h
      · linarith
      · exact absurd h n1
    have t0 : 0 ≤ (e.2.2 - e.1.2) * e.1.1 := by linarith
    have t1 : 0 ≤ (e.1.2 - e.2.2) * (1 / 2 - e.1.1) := by linarith
    have u0 := nonneg_of_mul_nonneg_left t0 p0
    have u1 := nonneg_of_mul_nonneg_left t1 p1
    -- the two end points coincide: all vertices are one point
    have heq : e.1 = e.2 := Prod.ext h (by linarith)
    have hone : ∀ c ∈ vs, c = e.1 := by
      intro c hc
      rcases cyclic_split vs e he with ⟨p, q, hv⟩ | ⟨m, hv⟩ | ⟨hv, _⟩
      · by_contra hne
        have := hccw.cyclic_edge_pos e he c hc hne (by rw [← heq]; exact hne)
        rw [heq, (area_self e.2 c).2.2] at this
        exact lt_irrefl _ this
      · by_contra hne
        have := hccw.cyclic_edge_pos e he c hc hne (by rw [← heq]; exact hne)
        rw [heq, (area_self e.2 c).2.2] at this
        exact lt_irrefl _ this
      · rw [hv, List.mem_singleton] at hc; exact hc
    have := h00.linear 1 0 (-e.1.1) (fun q hq => by rw [hone q hq]; linarith)
    simp only at this
    linarith
  · -- to the right: both end points would be on the axis
    have key0 : e.2.1 * e.1.2 - e.1.1 * e.2.2 ≤ 0 := by linarith
    have key1 : (1 / 2 - e.1.1) * e.2.2 - (1 / 2 - e.2.1) * e.1.2 ≤ 0 := by linarith
    -- multiply the first by (1/2 - e.2.1), the second by e.2.1
    have z : (1 / 2) * (e.2.1 - e.1.1) * e.2.2 ≤ 0 := by
      have q1 := mul_nonneg (by linarith : 0 ≤ 1 / 2 - e.2.1) (by linarith : 0 ≤ e.1.1 * e.2.2 - e.2.1 * e.1.2)
      have q2 := mul_nonneg b1 (by linarith : 0 ≤ (1 / 2 - e.2.1) * e.1.2 - (1 / 2 - e.1.1) * e.2.2)
      linarith
    have z2 : e.2.2 = 0 := by
      by_contra hne
      have : 0 < e.2.2 := lt_of_le_of_ne b3 (Ne.symm hne)
      have := mul_pos (by linarith : 0 < 1 / 2 * (e.2.1 - e.1.1)) this
      linarith
    rw [z2] at key0
    have z1 : e.1.2 = 0 := by
      by_contra hne
      have : 0 < e.1.2 := lt_of_le_of_ne a3 (Ne.symm hne)
      have := mul_pos (by linarith : 0 < e.2.1) this
      linarith
    tauto

theorem edgeKey_ok (e : (ℚ × ℚ) × (ℚ × ℚ)) (h : e.2.1 ≠ e.1.1) :
    edgeKey e = .ok ((e.1.2 * e.2.1 - e.1.1 * e.2.2) / (e.2.1 - e.1.1),
      (e.2.2 - e.1.2) / (e.2.1 - e.1.1) + (e.1.2 * e.2.1 - e.1.1 * e.2.2) / (e.2.1 - e.1.1)) := by
  unfold edgeKey pyDiv
  rw [if_neg (sub_ne_zero.mpr h), if_neg (sub_ne_zero.mpr h)]
  rfl

/-- The line of the key of an edge to the left passes through its end points and above everything on the left of
the edge. -/
theorem edgeKey_line (e : (ℚ × ℚ) × (ℚ × ℚ)) (h : e.2.1 < e.1.1) (key : ℚ × ℚ) (hk : edgeKey e = .ok key) (p : ℚ × ℚ) :
    area e.1 e.2 p = (e.1.1 - e.2.1) * (key.1 + (key.2 - key.1) * p.1 - p.2) := by
  rw [edgeKey_ok e h.ne] at hk
  cases hk
  have : e.2.1 - e.1.1 ≠ 0 := by linarith
  unfold area
  field_simp
  ring

theorem edgeLoop_mem (known : List Ep) (hasB : Bool) (deps : List ℕ) : ∀ (es : List ((ℚ × ℚ) × (ℚ × ℚ))) (out : List Out),
    edgeLoop known hasB deps es = .ok out → ∀ o, o ∈ out ↔ ∃ e ∈ es, degenerate e = false ∧ ∃ key, edgeKey e = .ok key ∧
      o ∈ forKey known hasB deps key := by
  intro es
  induction es with
  | nil => intro out h o; cases h; simp
  | cons e es ih =>
    intro out h o
    unfold edgeLoop at h
    split at h
    · rename_i hd
      rw [ih out h o]
      constructor
      · rintro ⟨e', he', r⟩; exact ⟨e', List.mem_cons_of_mem _ he', r⟩
      · rintro ⟨e', he', h1, r⟩
        rcases List.mem_cons.mp he' with rfl | he'
        · rw [hd] at h1; cases h1
        · exact ⟨e', he', h1, r⟩
    · rename_i hd
      cases hk : edgeKey e with
      | error x => rw [hk] at h; cases h
      | ok key =>
        rw [hk] at h
        simp only [bind, Except.bind] at h
        cases hr : edgeLoop known hasB deps es with
        | error x => rw [hr] at h; cases h
        | ok rest =>
          rw [hr] at h
          have h' := Except.ok.inj (show (Except.ok _ : Py (List Out)) = .ok out from h)
          rw [← h', List.mem_append, ih rest hr o]
          constructor
          · rintro (ho | ⟨e', he', r⟩)
            · exact ⟨e, List.mem_cons_self, by simpa using hd, key, hk, ho⟩
            · exact ⟨e', List.mem_cons_of_mem _ he', r⟩
          · rintro ⟨e', he', h1, key', hk', ho⟩
            rcases List.mem_cons.mp he' with rfl | he'
            · rw [hk] at hk'; cases hk'; exact Or.inl ho
            · exact Or.inr ⟨e', he', h1, key', hk', ho⟩

theorem edgeLoop_total (known : List Ep) (hasB : Bool) (deps : List ℕ) : ∀ (es : List ((ℚ × ℚ) × (ℚ × ℚ))),
    (∀ e ∈ es, degenerate e = false → e.2.1 ≠ e.1.1) → ∃ out, edgeLoop known hasB deps es = .ok out := by
  intro es
  induction es with
  | nil => intro _; exact ⟨[], rfl⟩
  | cons e es ih =>
    intro h
    obtain ⟨out, ho⟩ := ih (fun e' he' => h e' (List.mem_cons_of_mem _ he'))
    unfold edgeLoop
    split
    · exact ⟨out, ho⟩
    · rename_i hd
      rw [edgeKey_ok e (h e List.mem_cons_self (by simpa using hd)), ho]
      exact ⟨_, rfl⟩

theorem lookup_some {known : List Ep} {key : ℚ × ℚ} {e : Ep} (h : lookup known key = some e) : e ∈ known ∧ e.key = key := by
  unfold lookup at h
  have h1 := List.mem_of_find?_eq_some h
  have h2 := List.find?_some h
  exact ⟨List.mem_reverse.mp h1, by simpa using h2⟩

/-- What may be appended for an edge. -/
theorem forKey_mem (known : List Ep) (hasB : Bool) (deps : List ℕ) (key : ℚ × ℚ) (o : Out) (h : o ∈ forKey known hasB deps key) :
    o = .tangent key.1 key.2 deps ∨ (hasB = true ∧ ∃ h, o = .viaB h ∧ h.key = key ∧
      (h = .tangent key.1 key.2 deps ∨ ∃ e ∈ known, h = .known e)) := by
  unfold forKey at h
  cases hl : lookup known key with
  | none =>
    rw [hl] at h
    simp only [Option.isNone_none, if_true, List.mem_append, List.mem_singleton] at h
    rcases h with h | h
    · exact Or.inl h
    · split at h
      · rename_i hc
        simp only [Bool.and_eq_true] at hc
        rw [List.mem_singleton] at h
        exact Or.inr ⟨hc.1, _, h, rfl, Or.inl rfl⟩
      · simp at h
  | some e =>
    rw [hl] at h
    obtain ⟨m1, m2⟩ := lookup_some hl
    simp only [Option.isNone_some, Bool.false_eq_true, if_false, List.nil_append] at h
    split at h
    · rename_i hc
      simp only [Bool.and_eq_true] at hc
      rw [List.mem_singleton] at h
      exact Or.inr ⟨hc.1, _, h, m2, Or.inr ⟨e, m1, rfl⟩⟩
    · simp at h

/-- The run of `fromBest` when the pieces reach both ends. -/
theorem fromBest_unfold (hull : List (ℚ × ℚ) → Py (List ℕ)) (best : List (Affine (Option ℕ))) (known : List Ep) (hasB : Bool)
    (out : List Out) (h : fromBest hull best known hasB = .ok out) :
    out = [] ∨ ∃ vertices verts new, hull (points best) = .ok vertices ∧ pick (points best) vertices = .ok verts ∧
      edgeLoop known hasB (depIndices best vertices) (cyclic verts) = .ok new ∧ out = known.map .known ++ new := by
  unfold fromBest at h
  split at h
  · split at h
    · cases h; exact Or.inl rfl
    · right
      cases hv : hull (points best) with
      | error x => rw [hv] at h; cases h
      | ok vertices =>
        rw [hv] at h
        simp only [bind, Except.bind] at h
        cases hp : pick (points best) vertices with
        | error x => rw [hp] at h; cases h
        | ok verts =>
          rw [hp] at h
          simp only at h
          cases hn : edgeLoop known hasB (depIndices best vertices) (cyclic verts) with
          | error x => rw [hn] at h; cases h
          | ok new =>
            rw [hn] at h
            exact ⟨vertices, verts, new, rfl, hp, hn, (Except.ok.inj h).symm⟩
  · cases h; exact Or.inl rfl

theorem hull_ok (hull : List (ℚ × ℚ) → Py (List ℕ)) (hs : HullSpec hull) (ps : List (ℚ × ℚ)) (vertices : List ℕ)
    (verts : List (ℚ × ℚ)) (hv : hull ps = .ok vertices) (hp : pick ps vertices = .ok verts) :
    Ccw verts ∧ (∀ p ∈ ps, InConv verts p) ∧ ∀ v ∈ verts, v ∈ ps := by
  have hf : ¬ Flat ps := by
    intro hf
    obtain ⟨e, he⟩ := hs.flat ps hf
    rw [he] at hv; cases hv
  obtain ⟨idx, vs, h1, h2, h3, h4⟩ := hs.ok ps hf
  rw [h1] at hv
  cases hv
  rw [h2] at hp
  cases hp
  exact ⟨h3, h4, pick_mem _ _ _ h2⟩

theorem mem_points_00 (best : List (Affine (Option ℕ))) : (0, 0) ∈ points best ∧ ((1 / 2 : ℚ), (0 : ℚ)) ∈ points best := by
  simp [points]

/-- **C37** (partial: the pieces must lie in [0, 1/2] and be nonnegative at their ends, see
`C37_uncropped_counterexample`) Every pair returned is one of the set, or the line of the pair lies above the
piecewise bound, or is the B transform of one of these. -/
theorem C37_tangent_partial (hull : List (ℚ × ℚ) → Py (List ℕ)) (hs : HullSpec hull) (best : List (Affine (Option ℕ)))
    (hg : Good best) (known : List Ep) (hasB : Bool) (out : List Out) (h : fromBest hull best known hasB = .ok out)
    (o : Out) (ho : o ∈ out) :
    (∃ e ∈ known, o = .known e) ∨ (∃ k l deps, o = .tangent k l deps ∧ Above best k l) ∨
      (hasB = true ∧ ∃ o' k l, o = .viaB o' ∧ Above best k l ∧ o.key = (l - 1 / 2, k + 1 / 2) ∧
        ((∃ e ∈ known, o' = .known e ∧ (e.k, e.l) = (k, l)) ∨ ∃ deps, o' = .tangent k l deps)) := by
  rcases fromBest_unfold hull best known hasB out h with rfl | ⟨vertices, verts, new, hv, hp, hn, rfl⟩
  · simp at ho
  · obtain ⟨hccw, hall, hsub⟩ := hull_ok hull hs _ _ _ hv hp
    rcases List.mem_append.mp ho with ho | ho
    · obtain ⟨e, he, rfl⟩ := List.mem_map.mp ho
      exact Or.inl ⟨e, he, rfl⟩
    · right
      obtain ⟨e, he, hd, key, hk, hf⟩ := (edgeLoop_mem _ _ _ _ _ hn o).mp ho
      have hlt := edge_left hccw e he (fun p hp => points_good hg p (hsub p hp)) (hall _ (mem_points_00 best).1)
        (hall _ (mem_points_00 best).2) hd
      have hab : Above best key.1 key.2 := by
        apply above_of_points
        intro p hp'
        have := (hall p hp').area_nonneg e.1 e.2 (hccw.cyclic_edge e he)
        rw [edgeKey_line e hlt key hk] at this
        have := nonneg_of_mul_nonneg_right this (by linarith)
        linarith
      rcases forKey_mem _ _ _ _ _ hf with h1 | ⟨hB, o', h1, h2, h3⟩
      · exact Or.inl ⟨_, _, _, h1, hab⟩
      · refine Or.inr ⟨hB, o', key.1, key.2, h1, hab, by rw [h1]; simp only [Out.key, h2], ?_⟩
        rcases h3 with h3 | ⟨e', he', h3⟩
        · exact Or.inr ⟨_, h3⟩
        · refine Or.inl ⟨e', he', h3, ?_⟩
          rw [h3] at h2
          exact h2

/-- **C37** (success and optimality) If moreover the pieces reach from 0 to 1/2 and do not all vanish, pairs are returned;
and at every point of [0, 1/2) one of them has the smallest value of all lines above the piecewise bound. -/
theorem C37_optimal_partial (hull : List (ℚ × ℚ) → Py (List ℕ)) (hs : HullSpec hull) (best : List (Affine (Option ℕ)))
    (hg : Good best) (f g : Affine (Option ℕ)) (hf : best.head? = some f) (hl : best.getLast? = some g) (hf0 : f.dom.x0 = 0)
    (hg1 : g.dom.x1 = 1 / 2) (hpos : ∃ f ∈ best, 0 < f.m * f.dom.x0 + f.c ∨ 0 < f.m * f.dom.x1 + f.c)
    (known : List Ep) (hasB : Bool) :
    ∃ out, fromBest hull best known hasB = .ok out ∧ ∀ x, 0 ≤ x → x < 1 / 2 → ∃ o ∈ out, Above best o.key.1 o.key.2 ∧
      ∀ k l, Above best k l → o.key.1 + (o.key.2 - o.key.1) * x ≤ k + (l - k) * x := by
  have hflat : ¬ Flat (points best) := by
    intro hfl
    obtain ⟨f', hf', h⟩ := hpos
    have hz : ∀ p ∈ points best, p.2 = 0 := by
      intro p hp
      have := hfl _ (mem_points_00 best).1 _ (mem_points_00 best).2 p hp
      unfold area at this
      simp only at this
      linarith
    have a := hz (f'.dom.x0, f'.ev f'.dom.x0) (List.mem_append_right _ (List.mem_flatMap.mpr ⟨f', hf', by simp [ends]⟩))
    have b := hz (f'.dom.x1, f'.ev f'.dom.x1) (List.mem_append_right _ (List.mem_flatMap.mpr ⟨f', hf', by simp [ends]⟩))
    simp only [Affine.ev] at a b
    rcases h with h | h <;> linarith
  obtain ⟨vertices, verts, hv, hp, hccw, hall⟩ := hs.ok _ hflat
  have hsub := pick_mem _ _ _ hp
  have hleft : ∀ e ∈ cyclic verts, degenerate e = false → e.2.1 < e.1.1 := fun e he hd =>
    edge_left hccw e he (fun p hp => points_good hg p (hsub p hp)) (hall _ (mem_points_00 best).1)
        (hall _ (mem_points_00 best).2) hd
  obtain ⟨new, hn⟩ := edgeLoop_total known hasB (depIndices best vertices) (cyclic verts) (fun e he hd => (hleft e he hd).ne)
  refine ⟨known.map .known ++ new, ?_, ?_⟩
  · unfold fromBest
    rw [hf, hl]
    simp only
    rw [if_neg (by rw [hf0, hg1]; push Not; exact ⟨le_refl _, le_refl _⟩), hv]
    simp only [bind, Except.bind, hp, hn]
    rfl
  · intro x hx0 hx1
    -- the upper edge above x
    obtain ⟨b, hb, hb'⟩ := exists_right (hall _ (mem_points_00 best).2) x hx1
    have hleftv : ∃ a ∈ verts, a.1 ≤ x := by
      by_contra hc
      push Not at hc
      have := (hall _ (mem_points_00 best).1).linear_pos 1 0 (-x) (fun q hq => by have := hc q hq; linarith)
      simp only at this
      linarith
    obtain ⟨a, ha, ha'⟩ := hleftv
    obtain ⟨e, he, p1, p2⟩ := cyclic_cross (fun v : ℚ × ℚ => x < v.1) verts b a hb ha hb' (not_lt.mpr ha')
    rw [not_lt] at p2
    have hlt : e.2.1 < e.1.1 := lt_of_le_of_lt p2 p1
    obtain ⟨m1, m2⟩ := cyclic_mem verts e he
    obtain ⟨a1, a2, a3⟩ := points_good hg _ (hsub _ m1)
    obtain ⟨b1, b2, b3⟩ := points_good hg _ (hsub _ m2)
    have hd : degenerate e = false := by
      simp only [degenerate, Bool.or_eq_false_iff, Bool.and_eq_false_iff, decide_eq_false_iff_not]
      refine ⟨⟨?_, ?_⟩, ?_⟩
      · by_contra hc
        push Not at hc
        -- then all points are on the axis
        obtain ⟨f', hf', h⟩ := hpos
        have hz : ∀ p ∈ points best, p.2 ≤ 0 := by
          intro p hp'
          have := (hall p hp').area_nonneg e.1 e.2 (hccw.cyclic_edge e he)
          unfold area at this
          rw [hc.1, hc.2] at this
          have h2 : 0 ≤ (e.1.1 - e.2.1) * (-p.2) := by linarith
          have := nonneg_of_mul_nonneg_right h2 (by linarith)
          linarith
        have a := hz (f'.dom.x0, f'.ev f'.dom.x0) (List.mem_append_right _ (List.mem_flatMap.mpr ⟨f', hf', by simp [ends]⟩))
        have b := hz (f'.dom.x1, f'.ev f'.dom.x1) (List.mem_append_right _ (List.mem_flatMap.mpr ⟨f', hf', by simp [ends]⟩))
        simp only [Affine.ev] at a b
        rcases h with h | h <;> linarith
      · left; linarith
      · right; intro hc; linarith
    obtain ⟨key, hk⟩ : ∃ key, edgeKey e = .ok key := ⟨_, edgeKey_ok e hlt.ne⟩
    have hab : Above best key.1 key.2 := by
      apply above_of_points
      intro p hp'
      have := (hall p hp').area_nonneg e.1 e.2 (hccw.cyclic_edge e he)
      rw [edgeKey_line e hlt key hk] at this
      have := nonneg_of_mul_nonneg_right this (by linarith)
      linarith
    have hopt : ∀ k l, Above best k l → key.1 + (key.2 - key.1) * x ≤ k + (l - k) * x := by
      intro k l hkl
      -- the other line is above the two end points
      have hfm : f ∈ best := List.mem_of_mem_head? hf
      have hgm : g ∈ best := List.mem_of_mem_getLast? hl
      have hpt : ∀ p ∈ points best, p.2 ≤ k + (l - k) * p.1 := by
        intro p hp'
        simp only [points, List.mem_append, List.mem_cons, List.not_mem_nil, or_false, List.mem_flatMap, ends] at hp'
        rcases hp' with (rfl | rfl) | ⟨f', hf', rfl | rfl⟩
        · have := hkl f hfm f.dom.x0 (le_refl _) (hg f hfm).2.1
          have h2 := (hg f hfm).2.2.2.1
          rw [hf0] at this h2
          simp only
          linarith
        · have := hkl g hgm g.dom.x1 (hg g hgm).2.1 (le_refl _)
          have h2 := (hg g hgm).2.2.2.2
          rw [hg1] at this h2
          simp only
          linarith
        · exact hkl f' hf' f'.dom.x0 (le_refl _) (hg f' hf').2.1
        · exact hkl f' hf' f'.dom.x1 (hg f' hf').2.1 (le_refl _)
      have q1 := hpt _ (hsub _ m1)
      have q2 := hpt _ (hsub _ m2)
      have r1 := edgeKey_line e hlt key hk e.1
      have r2 := edgeKey_line e hlt key hk e.2
      rw [(area_self e.1 e.2).2.1] at r1
      rw [(area_self e.1 e.2).1] at r2
      have hpos' : 0 < e.1.1 - e.2.1 := by linarith
      have r1' : key.1 + (key.2 - key.1) * e.1.1 = e.1.2 := by
        rcases mul_eq_zero.mp r1.symm with h | h <;> linarith
      have r2' : key.1 + (key.2 - key.1) * e.2.1 = e.2.2 := by
        rcases mul_eq_zero.mp r2.symm with h | h <;> linarith
      have key' : (e.1.1 - e.2.1) * ((k + (l - k) * x) - (key.1 + (key.2 - key.1) * x))
          = (e.1.1 - x) * ((k + (l - k) * e.2.1) - (key.1 + (key.2 - key.1) * e.2.1))
            + (x - e.2.1) * ((k + (l - k) * e.1.1) - (key.1 + (key.2 - key.1) * e.1.1)) := by ring
      have h2 : 0 ≤ (e.1.1 - e.2.1) * ((k + (l - k) * x) - (key.1 + (key.2 - key.1) * x)) := by
        rw [key', r1', r2']
        exact add_nonneg (mul_nonneg (by linarith) (by linarith)) (mul_nonneg (by linarith) (by linarith))
      have := nonneg_of_mul_nonneg_right h2 hpos'
      linarith
    cases hlk : lookup known key with
    | none =>
      refine ⟨.tangent key.1 key.2 (depIndices best vertices), List.mem_append_right _ ?_, hab, hopt⟩
      rw [edgeLoop_mem _ _ _ _ _ hn]
      refine ⟨e, he, hd, key, hk, ?_⟩
      unfold forKey
      rw [hlk]
      simp
    | some ep =>
      obtain ⟨n1, n2⟩ := lookup_some hlk
      refine ⟨.known ep, List.mem_append_left _ (List.mem_map.mpr ⟨ep, n1, rfl⟩), ?_, ?_⟩
      · simp only [Out.key, n2]; exact hab
      · simp only [Out.key, n2]; exact hopt

/-! ### The whole computation -/

/-- An affine function that is nonnegative on a nonempty interval is nonnegative at its end points. -/
theorem nonneg_ends (I : Interval) (hle : I.x0 ≤ I.x1) (hne : ∃ x, Mem I.x0 I.x1 I.incL I.incU x) (a b : ℚ)
    (h : ∀ x, Mem I.x0 I.x1 I.incL I.incU x → 0 ≤ a * x + b) : 0 ≤ a * I.x0 + b ∧ 0 ≤ a * I.x1 + b := by
  rcases eq_or_lt_of_le hle with heq | hlt
  · obtain ⟨x, hx⟩ := hne
    have hx' := h x hx
    have : x = I.x0 := by
      rcases hx with ⟨h1 | ⟨_, h1⟩, h2 | ⟨_, h2⟩⟩ <;> linarith
    rw [← heq, ← this]
    exact ⟨hx', hx'⟩
  · have hin : ∀ t, 0 < t → t < 1 → 0 ≤ (1 - t) * (a * I.x0 + b) + t * (a * I.x1 + b) := by
      intro t h0 h1
      have hp := mul_pos h0 (by linarith : 0 < I.x1 - I.x0)
      have hq := mul_pos (by linarith : 0 < 1 - t) (by linarith : 0 < I.x1 - I.x0)
      have := h (I.x0 + t * (I.x1 - I.x0)) ⟨Or.inl (by linarith), Or.inl (by linarith)⟩
      linarith
    have key : ∀ u v : ℚ, (∀ t, 0 < t → t < 1 → 0 ≤ (1 - t) * u + t * v) → 0 ≤ u := by
      intro u v huv
      by_contra hu
      push Not at hu
      have h2 := huv (1 / 2) (by norm_num) (by norm_num)
      have hv : 0 < v := by linarith
      have hd : 0 < v - u := by linarith
      have h3 := huv (-u / (2 * (v - u))) (div_pos (by linarith) (by linarith)) (by rw [div_lt_one (by linarith)]; linarith)
      have h4 : (1 - -u / (2 * (v - u))) * u + -u / (2 * (v - u)) * v = u / 2 := by
        field_simp
        ring
      linarith
    refine ⟨key _ _ hin, key (a * I.x1 + b) (a * I.x0 + b) (fun t h0 h1 => ?_)⟩
    have := hin (1 - t) (by linarith) (by linarith)
    linarith

/-- **C37** (the whole computation; partial: at least two bounds of which the first covers [0, 1/2], and no bound
negative there) Whatever function satisfies all bounds of the set also satisfies the bound of every new exponent
pair on [0, 1/2]. -/
theorem C37_sound_partial (hull : List (ℚ × ℚ) → Py (List ℕ)) (hs : HullSpec hull) (h0 h1 : Beta.Hyp) (hyps : List Beta.Hyp)
    (hb : ∀ h ∈ h0 :: h1 :: hyps, h.bound.dom.Constructible)
    (hc : ∀ x, 0 ≤ x → x ≤ 1 / 2 → ∃ v, HasValue [h0.bound] x v)
    (hnn : ∀ x v, 0 ≤ x → x ≤ 1 / 2 → HasValue ((h0 :: h1 :: hyps).map Beta.Hyp.bound) x v → 0 ≤ v)
    (known : List Ep) (hasB : Bool) (out : List Out) (h : fromBeta hull (h0 :: h1 :: hyps) known hasB = .ok out)
    (k l : ℚ) (deps : List ℕ) (ho : .tangent k l deps ∈ out) (beta : ℚ → ℚ)
    (hbeta : ∀ x v, 0 ≤ x → x ≤ 1 / 2 → HasValue ((h0 :: h1 :: hyps).map Beta.Hyp.bound) x v → beta x ≤ v) (x : ℚ)
    (hx0 : 0 ≤ x) (hx1 : x ≤ 1 / 2) : beta x ≤ k + (l - k) * x := by
  have hD : ∀ x, InDomain (some half) x ↔ 0 ≤ x ∧ x ≤ 1 / 2 := by
    intro x
    unfold InDomain
    constructor
    · intro h
      rcases h half rfl with ⟨h1 | ⟨_, h1⟩, h2 | ⟨_, h2⟩⟩ <;> simp only [half] at h1 h2 <;> constructor <;> linarith
    · rintro ⟨a, b⟩ D hD
      cases hD
      constructor
      · rcases eq_or_lt_of_le a with h | h
        · exact Or.inr ⟨rfl, h.symm⟩
        · exact Or.inl h
      · rcases eq_or_lt_of_le b with h | h
        · exact Or.inr ⟨rfl, h⟩
        · exact Or.inl h
  obtain ⟨best, e1, _, e3, e4⟩ := Beta.C51_best_beta_bounds_partial h0 h1 hyps half
    ((constructible_iff _).mpr (by simp only [half]; norm_num)) hb
    (fun x hx => hc x ((hD x).mp hx).1 ((hD x).mp hx).2)
  unfold fromBeta at h
  rw [e1] at h
  simp only [bind, Except.bind] at h
  have hval : ∀ f ∈ best.map Beta.Best.bound, ∀ y, Mem f.dom.x0 f.dom.x1 f.dom.incL f.dom.incU y →
      0 ≤ y ∧ y ≤ 1 / 2 ∧ 0 ≤ f.m * y + f.c := by
    intro f hf y hy
    obtain ⟨a, b, _⟩ := (e3 y (f.m * y + f.c)).mp ⟨f, hf, hy, rfl⟩
    obtain ⟨a1, a2⟩ := (hD y).mp a
    exact ⟨a1, a2, hnn y _ a1 a2 b⟩
  have hg : Good (best.map Beta.Best.bound) := by
    intro f hf
    obtain ⟨o, ho', rfl⟩ := List.mem_map.mp hf
    obtain ⟨c1, ⟨y, w, f', hf', hy, _⟩, _⟩ := e4 o ho'
    rw [List.mem_singleton] at hf'
    subst hf'
    rw [constructible_iff] at c1
    have n1 := nonneg_ends _ c1 ⟨y, hy⟩ 1 0 (fun z hz => by have := (hval _ hf z hz).1; linarith)
    have n2 := nonneg_ends _ c1 ⟨y, hy⟩ (-1) (1 / 2) (fun z hz => by have := (hval _ hf z hz).2.1; linarith)
    have n3 := nonneg_ends _ c1 ⟨y, hy⟩ o.bound.m o.bound.c (fun z hz => (hval _ hf z hz).2.2)
    exact ⟨by linarith [n1.1], c1, by linarith [n2.2], n3.1, n3.2⟩
  have hab : Above (best.map Beta.Best.bound) k l := by
    rcases C37_tangent_partial hull hs _ hg known hasB out h _ ho with ⟨e, _, hc⟩ | ⟨k', l', d', hc, ha⟩ | ⟨_, o', _, _, hc, _⟩
    · cases hc
    · cases hc; exact ha
    · cases hc
  -- the best bound at x
  obtain ⟨v, hv⟩ := hc x hx0 hx1
  have hv' : HasValue ((h0 :: h1 :: hyps).map Beta.Hyp.bound) x v := by
    obtain ⟨f, hf, r⟩ := hv
    rw [List.mem_singleton] at hf
    exact ⟨f, by rw [hf]; simp, r⟩
  -- the smallest value at x exists
  have hmin : ∃ w, HasValue ((h0 :: h1 :: hyps).map Beta.Hyp.bound) x w ∧
      ∀ u, HasValue ((h0 :: h1 :: hyps).map Beta.Hyp.bound) x u → w ≤ u := by
    generalize (h0 :: h1 :: hyps).map Beta.Hyp.bound = fs at hv'
    clear * - hv'
    induction fs generalizing v with
    | nil => obtain ⟨f, hf, _⟩ := hv'; simp at hf
    | cons f fs ih =>
      have hsplit : ∀ u, HasValue (f :: fs) x u ↔ HasValue [f] x u ∨ HasValue fs x u := by
        intro u
        unfold HasValue
        simp only [List.mem_cons, List.not_mem_nil, or_false, exists_eq_or_imp, exists_eq_left]
      have hone : ∀ u, HasValue [f] x u → u = f.m * x + f.c := by
        rintro u ⟨g, hg, _, hu⟩
        rw [List.mem_singleton] at hg
        subst hg
        exact hu.symm
      by_cases hr : ∃ u, HasValue fs x u
      · obtain ⟨u, hu⟩ := hr
        obtain ⟨w, w1, w2⟩ := ih u hu
        by_cases hf : HasValue [f] x (f.m * x + f.c) ∧ f.m * x + f.c ≤ w
        · refine ⟨f.m * x + f.c, (hsplit _).mpr (Or.inl hf.1), ?_⟩
          intro u hu
          rcases (hsplit u).mp hu with h | h
          · exact (hone u h).ge
          · exact le_trans hf.2 (w2 u h)
        · refine ⟨w, (hsplit _).mpr (Or.inr w1), ?_⟩
          intro u hu
          rcases (hsplit u).mp hu with h | h
          · have e := hone u h
            rw [e] at h ⊢
            by_contra hlt
            exact hf ⟨h, le_of_not_ge hlt⟩
          · exact w2 u h
      · rcases (hsplit v).mp hv' with h | h
        · refine ⟨v, hv', ?_⟩
          intro u hu
          rcases (hsplit u).mp hu with h' | h'
          · rw [hone u h', hone v h]
          · exact absurd ⟨u, h'⟩ hr
        · exact absurd ⟨v, h⟩ hr
  obtain ⟨w, w1, w2⟩ := hmin
  obtain ⟨f, hf, hfm, hfv⟩ := (e3 x w).mpr ⟨(hD x).mpr ⟨hx0, hx1⟩, w1, w2⟩
  have hcl : f.dom.x0 ≤ x ∧ x ≤ f.dom.x1 := by
    rcases hfm with ⟨h1 | ⟨_, h1⟩, h2 | ⟨_, h2⟩⟩ <;> constructor <;> linarith
  have := hab f hf x hcl.1 hcl.2
  rw [hfv] at this
  exact le_trans (hbeta x w hx0 hx1 w1) this

/-! ### Counterexamples -/

/-- **C37** is false for a single bound, which is used without being restricted to [0, 1/2]: from the trivial bound
beta(alpha) ≤ alpha on [0, 1] the "exponent pair" (-1, 1) is derived, whose line is below the bound at 1/4. -/
theorem C37_uncropped_counterexample (hull : List (ℚ × ℚ) → Py (List ℕ)) (hs : HullSpec hull) :
    ∃ out deps, fromBeta hull [⟨0, ⟨1, 0, ⟨0, 1, true, true⟩, none⟩⟩] [] false = .ok out ∧ .tangent (-1) 1 deps ∈ out ∧
      ¬ Above [⟨1, 0, ⟨0, 1, true, true⟩, none⟩] (-1) 1 := by
  have hpts : points [⟨1, 0, ⟨0, 1, true, true⟩, none⟩] = [(0, 0), (1 / 2, 0), (0, 0), (1, 1)] := by decide +kernel
  have hflat : ¬ Flat [((0 : ℚ), (0 : ℚ)), (1 / 2, 0), (0, 0), (1, 1)] := by
    intro hf
    have := hf (0, 0) (by simp) (1 / 2, 0) (by simp) (1, 1) (by simp)
    unfold area at this
    norm_num at this
  obtain ⟨idx, verts, h1, h2, h3, h4⟩ := hs.ok _ hflat
  have hsub := pick_mem _ _ _ h2
  have hv : ∀ v ∈ verts, v = (0, 0) ∨ v = (1 / 2, 0) ∨ v = (1, 1) := by
    intro v hv
    have := hsub v hv
    simp only [List.mem_cons, List.not_mem_nil, or_false] at this
    tauto
  have v0 : ((0 : ℚ), (0 : ℚ)) ∈ verts := by
    refine mem_of_extreme (h4 _ (by simp)) 1 0 0 ?_ ?_ (by norm_num)
    · intro v hv'; rcases hv v hv' with rfl | rfl | rfl <;> norm_num
    · intro v hv' h0; rcases hv v hv' with rfl | rfl | rfl <;> first | rfl | (exfalso; norm_num at h0)
  have vh : ((1 / 2 : ℚ), (0 : ℚ)) ∈ verts := by
    refine mem_of_extreme (h4 _ (by simp)) (-1) 2 (1 / 2) ?_ ?_ (by norm_num)
    · intro v hv'; rcases hv v hv' with rfl | rfl | rfl <;> norm_num
    · intro v hv' h0; rcases hv v hv' with rfl | rfl | rfl <;> first | rfl | (exfalso; norm_num at h0)
  have v1 : ((1 : ℚ), (1 : ℚ)) ∈ verts := by
    refine mem_of_extreme (h4 _ (by simp)) (-1) 0 1 ?_ ?_ (by norm_num)
    · intro v hv'; rcases hv v hv' with rfl | rfl | rfl <;> norm_num
    · intro v hv' h0; rcases hv v hv' with rfl | rfl | rfl <;> first | rfl | (exfalso; norm_num at h0)
  obtain ⟨e, he, p1, p2⟩ := cyclic_cross (fun v : ℚ × ℚ => v.1 ≤ 1 / 2) verts _ _ v0 v1 (by norm_num) (by norm_num)
  obtain ⟨m1, m2⟩ := cyclic_mem verts e he
  have e2 : e.2 = (1, 1) := by
    rcases hv _ m2 with h | h | h
    · rw [h] at p2; norm_num at p2
    · rw [h] at p2; norm_num at p2
    · exact h
  have e1 : e.1 = (1 / 2, 0) := by
    rcases hv _ m1 with h | h | h
    · have := h3.cyclic_edge e he _ vh
      rw [h, e2] at this
      unfold area at this
      norm_num at this
    · exact h
    · rw [h] at p1; norm_num at p1
  -- the loop succeeds
  have hok : ∀ e ∈ cyclic verts, degenerate e = false → e.2.1 ≠ e.1.1 := by
    intro e' he' hd hc
    obtain ⟨n1, n2⟩ := cyclic_mem verts e' he'
    have hne : e'.1 = e'.2 := by
      rcases hv _ n1 with h | h | h <;> rcases hv _ n2 with h' | h' | h' <;> rw [h, h'] at hc ⊢ <;> norm_num at hc
    rcases hv _ n1 with h | h | h
    · rw [degenerate, ← hne, h] at hd; simp at hd
    · rw [degenerate, ← hne, h] at hd; simp at hd
    · have := h3.cyclic_edge_pos e' he' (0, 0) v0 (by rw [h]; norm_num) (by rw [← hne, h]; norm_num)
      rw [hne, (area_self e'.2 _).2.2] at this
      exact lt_irrefl _ this
  obtain ⟨new, hn⟩ := edgeLoop_total [] false (depIndices [⟨1, 0, ⟨0, 1, true, true⟩, none⟩] idx) (cyclic verts) hok
  refine ⟨new, depIndices [⟨1, 0, ⟨0, 1, true, true⟩, none⟩] idx, ?_, ?_, ?_⟩
  · have hc : Beta.computeBest [⟨0, ⟨1, 0, ⟨0, 1, true, true⟩, none⟩⟩] half
        = .ok [.existing ⟨0, ⟨1, 0, ⟨0, 1, true, true⟩, none⟩⟩] := rfl
    unfold fromBeta
    rw [hc]
    simp only [bind, Except.bind, List.map_cons, List.map_nil, Beta.Best.bound]
    unfold fromBest
    simp only [List.head?_cons, List.getLast?_singleton]
    rw [if_neg (by norm_num), hpts, h1]
    simp only [bind, Except.bind, h2, hn]
    rfl
  · rw [edgeLoop_mem _ _ _ _ _ hn]
    refine ⟨e, he, ?_, (-1, 1), ?_, ?_⟩
    · have : e = ((1 / 2, 0), (1, 1)) := Prod.ext e1 e2
      rw [this]; decide +kernel
    · have : e = ((1 / 2, 0), (1, 1)) := Prod.ext e1 e2
      rw [this]; decide +kernel
    · unfold forKey lookup
      simp
  · intro h
    have := h _ (List.mem_singleton.mpr rfl) (1 / 4) (by norm_num) (by norm_num)
    norm_num at this

/-! ### C55: the dependencies of a derived pair -/

theorem pick_index {α : Type} : ∀ (ps : List α) (idx : List ℕ) (vs : List α), pick ps idx = .ok vs →
    ∀ v ∈ vs, ∃ i ∈ idx, ps[i]? = some v := by
  intro ps idx
  induction idx with
  | nil => intro vs h v hv; cases h; simp at hv
  | cons i idx ih =>
    intro vs h v hv
    unfold pick at h
    cases hp : ps[i]? with
    | none => rw [hp] at h; cases h
    | some p =>
      rw [hp] at h
      simp only [bind, Except.bind] at h
      cases hr : pick ps idx with
      | error x => rw [hr] at h; cases h
      | ok rest =>
        rw [hr] at h
        have h' := Except.ok.inj (show (Except.ok _ : Py (List α)) = .ok vs from h)
        rw [← h'] at hv
        rcases List.mem_cons.mp hv with rfl | hv
        · exact ⟨i, List.mem_cons_self, hp⟩
        · obtain ⟨j, hj, e⟩ := ih rest hr v hv
          exact ⟨j, List.mem_cons_of_mem _ hj, e⟩

theorem pick_index' {α : Type} : ∀ (ps : List α) (idx : List ℕ) (vs : List α), pick ps idx = .ok vs →
    ∀ i ∈ idx, ∃ v ∈ vs, ps[i]? = some v := by
  intro ps idx
  induction idx with
  | nil => intro vs h i hi; simp at hi
  | cons j idx ih =>
    intro vs h i hi
    unfold pick at h
    cases hp : ps[j]? with
    | none => rw [hp] at h; cases h
    | some p =>
      rw [hp] at h
      simp only [bind, Except.bind] at h
      cases hr : pick ps idx with
      | error x => rw [hr] at h; cases h
      | ok rest =>
        rw [hr] at h
        have h' := Except.ok.inj (show (Except.ok _ : Py (List α)) = .ok vs from h)
        rw [← h']
        rcases List.mem_cons.mp hi with rfl | hi
        · exact ⟨p, List.mem_cons_self, hp⟩
        · obtain ⟨v, hv, e⟩ := ih rest hr i hi
          exact ⟨v, List.mem_cons_of_mem _ hv, e⟩

/-- **C55** (partial: only this; see `C55_counterexample`) The line of a derived pair passes through two different
points each of which is one of the two auxiliary points or an end point of a dependency with its value there. -/
theorem C55_dependencies_partial (hull : List (ℚ × ℚ) → Py (List ℕ)) (hs : HullSpec hull) (best : List (Affine (Option ℕ)))
    (hg : Good best) (known : List Ep) (hasB : Bool) (out : List Out) (h : fromBest hull best known hasB = .ok out)
    (k l : ℚ) (deps : List ℕ) (ho : .tangent k l deps ∈ out) :
    ∃ p q : ℚ × ℚ, p.1 ≠ q.1 ∧ ∀ r, r = p ∨ r = q → r.2 = k + (l - k) * r.1 ∧ (r = (0, 0) ∨ r = (1 / 2, 0) ∨
      ∃ i ∈ deps, ∃ f, best[i]? = some f ∧ (r.1 = f.dom.x0 ∨ r.1 = f.dom.x1) ∧ r.2 = f.m * r.1 + f.c) := by
  rcases fromBest_unfold hull best known hasB out h with rfl | ⟨vertices, verts, new, hv, hp, hn, rfl⟩
  · simp at ho
  · obtain ⟨hccw, hall, hsub⟩ := hull_ok hull hs _ _ _ hv hp
    rcases List.mem_append.mp ho with ho | ho
    · obtain ⟨e, _, he⟩ := List.mem_map.mp ho
      cases he
    · obtain ⟨e, he, hd, key, hk, hf⟩ := (edgeLoop_mem _ _ _ _ _ hn _).mp ho
      have hlt := edge_left hccw e he (fun p hp => points_good hg p (hsub p hp)) (hall _ (mem_points_00 best).1)
        (hall _ (mem_points_00 best).2) hd
      obtain ⟨m1, m2⟩ := cyclic_mem verts e he
      have hkd : k = key.1 ∧ l = key.2 ∧ deps = depIndices best vertices := by
        rcases forKey_mem _ _ _ _ _ hf with h1 | ⟨_, o', h1, _⟩
        · cases h1; exact ⟨rfl, rfl, rfl⟩
        · cases h1
      obtain ⟨rfl, rfl, rfl⟩ := hkd
      refine ⟨e.1, e.2, hlt.ne', ?_⟩
      intro r hr
      have hpos' : 0 < e.1.1 - e.2.1 := by linarith
      constructor
      · have hz : area e.1 e.2 r = 0 := by
          rcases hr with rfl | rfl
          · exact (area_self e.1 e.2).2.1
          · exact (area_self e.1 e.2).1
        rw [edgeKey_line e hlt key hk] at hz
        rcases mul_eq_zero.mp hz with h | h <;> linarith
      · have hrv : r ∈ verts := by rcases hr with rfl | rfl <;> assumption
        obtain ⟨v, hvm, hvr⟩ := pick_index _ _ _ hp r hrv
        rcases lt_or_ge v 2 with hv2 | hv2
        · have : v = 0 ∨ v = 1 := by omega
          rcases this with rfl | rfl
          · left
            simp only [points, List.cons_append, List.getElem?_cons_zero, Option.some.injEq] at hvr
            exact hvr.symm
          · right; left
            simp only [points, List.cons_append, List.getElem?_cons_succ, List.getElem?_cons_zero, Option.some.injEq] at hvr
            exact hvr.symm
        · right; right
          have hmem : r ∈ best.flatMap ends := by
            unfold points at hvr
            rw [List.getElem?_append_right (by simpa using hv2)] at hvr
            exact List.mem_of_getElem? hvr
          obtain ⟨f, hfm, hfr⟩ := List.mem_flatMap.mp hmem
          obtain ⟨i, hi, hif⟩ := List.getElem_of_mem hfm
          have hget : best[i]? = some f := by rw [List.getElem?_eq_getElem hi, hif]
          have hends : (r.1 = f.dom.x0 ∨ r.1 = f.dom.x1) ∧ r.2 = f.m * r.1 + f.c := by
            simp only [ends, List.mem_cons, List.not_mem_nil, or_false] at hfr
            rcases hfr with rfl | rfl
            · exact ⟨Or.inl rfl, rfl⟩
            · exact ⟨Or.inr rfl, rfl⟩
          refine ⟨i, ?_, f, hget, hends⟩
          unfold depIndices
          rw [List.mem_filter]
          refine ⟨List.mem_range.mpr hi, ?_⟩
          rw [List.any_eq_true]
          refine ⟨v, hvm, ?_⟩
          rw [hvr, hget]
          simp only [touches, Affine.ev, Bool.and_eq_true, Bool.or_eq_true, decide_eq_true_eq]
          refine ⟨hv2, ?_⟩
          rcases hends with ⟨h1 | h1, h2⟩
          · exact Or.inl ⟨h1.symm, decide_eq_true h2.symm⟩
          · exact Or.inr ⟨h1.symm, decide_eq_true h2.symm⟩

/-- A point strictly inside the hull of a list is not a vertex. -/
theorem not_vertex {vs : List (ℚ × ℚ)} (hccw : Ccw vs) (hlen : 2 ≤ vs.length) (p : ℚ × ℚ)
    (hin : ∀ q ∈ vs, q ≠ p → ∃ c ∈ vs, area p q c < 0) (hnd : vs.Nodup) : p ∉ vs := by
  intro hp
  -- the edge that starts in p
  have : ∃ q, (p, q) ∈ cyclic vs ∧ q ≠ p := by
    obtain ⟨a, b, rfl⟩ := List.append_of_mem hp
    cases a with
    | nil =>
      cases b with
      | nil => simp at hlen
      | cons b0 b =>
        refine ⟨b0, by simp [cyclic], ?_⟩
        rintro rfl
        simp at hnd
    | cons a0 a =>
      cases b with
      | nil =>
        refine ⟨a0, ?_, ?_⟩
        · simp only [cyclic, List.cons_append]
          have : a0 :: (a ++ [p]) = (a0 :: a) ++ [p] := rfl
          rw [this, List.append_assoc]
          have h2 : (a ++ ([p] ++ [a0])) = (a ++ [p]) ++ [a0] := by simp
          rw [h2, List.zip_append (by simp)]
          simp
        · rintro rfl
          simp at hnd
      | cons b0 b =>
        refine ⟨b0, ?_, ?_⟩
        · simp only [cyclic, List.cons_append]
          have e1 : a0 :: (a ++ p :: b0 :: b) = (a0 :: a) ++ (p :: b0 :: b) := rfl
          have e2 : (a ++ p :: b0 :: b) ++ [a0] = (a ++ [p]) ++ (b0 :: (b ++ [a0])) := by simp
          rw [e1, e2, List.zip_append (by simp)]
          simp
        · rintro rfl
          have := (List.nodup_append.mp hnd).2.1
          simp at this
  obtain ⟨q, he, hq⟩ := this
  obtain ⟨c, hc, hlt⟩ := hin q (cyclic_mem _ _ he).2 hq
  have := hccw.cyclic_edge _ he c hc
  simp only at this
  linarith

theorem Ccw.nodup {vs : List (ℚ × ℚ)} (h : Ccw vs) (hlen : 3 ≤ vs.length) : vs.Nodup := by
  rw [List.nodup_iff_sublist]
  intro a ha
  -- a third element beside the repeated one
  have : ∃ c, [a, a, c].Sublist vs ∨ [a, c, a].Sublist vs ∨ [c, a, a].Sublist vs := by
    obtain ⟨l1, l2, rfl, h1, h2⟩ := List.cons_sublist_iff.mp ha
    rw [List.singleton_sublist] at h2
    obtain ⟨p, q, rfl⟩ := List.append_of_mem h1
    obtain ⟨r, s, rfl⟩ := List.append_of_mem h2
    rcases p with _ | ⟨c, p⟩
    · rcases q with _ | ⟨c, q⟩
      · rcases r with _ | ⟨c, r⟩
        · rcases s with _ | ⟨c, s⟩
          · simp at hlen
          · exact ⟨c, Or.inl (by simp)⟩
        · exact ⟨c, Or.inr (Or.inl (by simp))⟩
      · exact ⟨c, Or.inr (Or.inl (by simp))⟩
    · exact ⟨c, Or.inr (Or.inr (by simp))⟩
  obtain ⟨c, hc | hc | hc⟩ := this
  · have := h _ _ _ hc; rw [(area_self a c).2.2] at this; exact lt_irrefl _ this
  · have := h _ _ _ hc; rw [(area_self a c).2.1] at this; exact lt_irrefl _ this
  · have := h _ _ _ hc; rw [(area_self c a).1] at this; exact lt_irrefl _ this

/-- Four bounds on beta: 1/2 everywhere, and 3/10, 1/5, 3/10 on three intervals. -/
def fourBounds : List Beta.Hyp :=
  [⟨0, ⟨0, 1 / 2, ⟨0, 1 / 2, true, true⟩, none⟩⟩, ⟨1, ⟨0, 3 / 10, ⟨0, 1 / 8, true, true⟩, none⟩⟩,
   ⟨2, ⟨0, 1 / 5, ⟨1 / 8, 3 / 8, true, true⟩, none⟩⟩, ⟨3, ⟨0, 3 / 10, ⟨3 / 8, 1 / 2, true, true⟩, none⟩⟩]

/-- The best bounds computed from them. -/
def fourBest : List (Affine (Option ℕ)) :=
  [⟨0, 3 / 10, ⟨0, 1 / 8, true, false⟩, none⟩, ⟨0, 1 / 5, ⟨1 / 8, 3 / 8, true, true⟩, none⟩,
   ⟨0, 3 / 10, ⟨3 / 8, 1 / 2, false, true⟩, none⟩]

theorem fourBest_run : ∃ best, Beta.computeBest fourBounds half = .ok best ∧ best.map Beta.Best.bound = fourBest := by
  refine ⟨[.derived ⟨0, 3 / 10, ⟨0, 1 / 8, true, false⟩, none⟩ ⟨1, ⟨0, 3 / 10, ⟨0, 1 / 8, true, true⟩, none⟩⟩,
    .existing ⟨2, ⟨0, 1 / 5, ⟨1 / 8, 3 / 8, true, true⟩, none⟩⟩,
    .derived ⟨0, 3 / 10, ⟨3 / 8, 1 / 2, false, true⟩, none⟩ ⟨3, ⟨0, 3 / 10, ⟨3 / 8, 1 / 2, true, true⟩, none⟩⟩], ?_, ?_⟩
  · decide +kernel
  · decide +kernel

theorem fourBest_good : Good fourBest := by
  intro f hf
  simp only [fourBest, List.mem_cons, List.not_mem_nil, or_false] at hf
  rcases hf with rfl | rfl | rfl <;> norm_num

theorem fourPoints : points fourBest = [(0, 0), (1 / 2, 0), (0, 3 / 10), (1 / 8, 3 / 10), (1 / 8, 1 / 5), (3 / 8, 1 / 5),
    (3 / 8, 3 / 10), (1 / 2, 3 / 10)] := by decide +kernel

/-- **C55** is false: the pair (3/10, 3/10) is derived from the four bounds with the first and the last piece as its only
dependencies, but these say nothing about beta(1/4). -/
theorem C55_counterexample (hull : List (ℚ × ℚ) → Py (List ℕ)) (hs : HullSpec hull) :
    ∃ out deps, fromBeta hull fourBounds [] false = .ok out ∧ .tangent (3 / 10) (3 / 10) deps ∈ out ∧
      ∀ i ∈ deps, ∀ f, fourBest[i]? = some f → ¬ ∃ v, HasValue [f] (1 / 4) v := by
  have hflat : ¬ Flat (points fourBest) := by
    intro hf
    rw [fourPoints] at hf
    have := hf (0, 0) (by simp) (1 / 2, 0) (by simp) (0, 3 / 10) (by simp)
    unfold area at this
    norm_num at this
  obtain ⟨idx, verts, h1, h2, h3, h4⟩ := hs.ok _ hflat
  have hsub := pick_mem _ _ _ h2
  have hlen : 3 ≤ verts.length := three_vertices verts _ h4 hflat
  have hv : ∀ v ∈ verts, v = (0, 0) ∨ v = (1 / 2, 0) ∨ v = (0, 3 / 10) ∨ v = (1 / 8, 3 / 10) ∨ v = (1 / 8, 1 / 5) ∨
      v = (3 / 8, 1 / 5) ∨ v = (3 / 8, 3 / 10) ∨ v = (1 / 2, 3 / 10) := by
    intro v hv
    have := hsub v hv
    rw [fourPoints] at this
    simpa only [List.mem_cons, List.not_mem_nil, or_false] using this
  have c1 : ((0 : ℚ), (0 : ℚ)) ∈ verts := by
    refine mem_of_extreme (h4 _ (by rw [fourPoints]; simp)) 1 1 0 ?_ ?_ (by norm_num)
    · intro v hv'; rcases hv v hv' with rfl | rfl | rfl | rfl | rfl | rfl | rfl | rfl <;> norm_num
    · intro v hv' h0
      rcases hv v hv' with rfl | rfl | rfl | rfl | rfl | rfl | rfl | rfl <;> first | rfl | (exfalso; norm_num at h0)
  have c2 : ((1 / 2 : ℚ), (0 : ℚ)) ∈ verts := by
    refine mem_of_extreme (h4 _ (by rw [fourPoints]; simp)) (-1) 1 (1 / 2) ?_ ?_ (by norm_num)
    · intro v hv'; rcases hv v hv' with rfl | rfl | rfl | rfl | rfl | rfl | rfl | rfl <;> norm_num
    · intro v hv' h0
      rcases hv v hv' with rfl | rfl | rfl | rfl | rfl | rfl | rfl | rfl <;> first | rfl | (exfalso; norm_num at h0)
  have c3 : ((0 : ℚ), (3 / 10 : ℚ)) ∈ verts := by
    refine mem_of_extreme (h4 _ (by rw [fourPoints]; simp)) 1 (-1) (3 / 10) ?_ ?_ (by norm_num)
    · intro v hv'; rcases hv v hv' with rfl | rfl | rfl | rfl | rfl | rfl | rfl | rfl <;> norm_num
    · intro v hv' h0
      rcases hv v hv' with rfl | rfl | rfl | rfl | rfl | rfl | rfl | rfl <;> first | rfl | (exfalso; norm_num at h0)
  have c4 : ((1 / 2 : ℚ), (3 / 10 : ℚ)) ∈ verts := by
    refine mem_of_extreme (h4 _ (by rw [fourPoints]; simp)) (-1) (-1) (4 / 5) ?_ ?_ (by norm_num)
    · intro v hv'; rcases hv v hv' with rfl | rfl | rfl | rfl | rfl | rfl | rfl | rfl <;> norm_num
    · intro v hv' h0
      rcases hv v hv' with rfl | rfl | rfl | rfl | rfl | rfl | rfl | rfl <;> first | rfl | (exfalso; norm_num at h0)
  have n1 : ((1 / 8 : ℚ), (1 / 5 : ℚ)) ∉ verts := by
    refine not_vertex h3 (by omega) _ ?_ (Ccw.nodup h3 hlen)
    intro q hq hne
    rcases hv q hq with rfl | rfl | rfl | rfl | rfl | rfl | rfl | rfl
    · exact ⟨_, c3, by unfold area; norm_num⟩
    · exact ⟨_, c1, by unfold area; norm_num⟩
    · exact ⟨_, c4, by unfold area; norm_num⟩
    · exact ⟨_, c2, by unfold area; norm_num⟩
    · exact absurd rfl hne
    · exact ⟨_, c1, by unfold area; norm_num⟩
    · exact ⟨_, c2, by unfold area; norm_num⟩
    · exact ⟨_, c2, by unfold area; norm_num⟩
  have n2 : ((3 / 8 : ℚ), (1 / 5 : ℚ)) ∉ verts := by
    refine not_vertex h3 (by omega) _ ?_ (Ccw.nodup h3 hlen)
    intro q hq hne
    rcases hv q hq with rfl | rfl | rfl | rfl | rfl | rfl | rfl | rfl
    · exact ⟨_, c3, by unfold area; norm_num⟩
    · exact ⟨_, c1, by unfold area; norm_num⟩
    · exact ⟨_, c4, by unfold area; norm_num⟩
    · exact ⟨_, c4, by unfold area; norm_num⟩
    · exact ⟨_, c4, by unfold area; norm_num⟩
    · exact absurd rfl hne
    · exact ⟨_, c2, by unfold area; norm_num⟩
    · exact ⟨_, c2, by unfold area; norm_num⟩
  -- an upper edge above 1/4
  obtain ⟨e, he, p1, p2⟩ := cyclic_cross (fun v : ℚ × ℚ => 1 / 4 < v.1) verts _ _ c2 c1 (by norm_num) (by norm_num)
  obtain ⟨m1, m2⟩ := cyclic_mem verts e he
  have hgood := fun p hp => points_good fourBest_good p (hsub p hp)
  have hleft : ∀ e ∈ cyclic verts, degenerate e = false → e.2.1 < e.1.1 := fun e he hd =>
    edge_left h3 e he hgood (h4 _ (mem_points_00 _).1) (h4 _ (mem_points_00 _).2) hd
  have e1 : e.1 = (3 / 8, 3 / 10) ∨ e.1 = (1 / 2, 3 / 10) := by
    have hc := h3.cyclic_edge e he _ c4
    rcases hv _ m1 with h | h | h | h | h | h | h | h
    · rw [h] at p1; norm_num at p1
    · exfalso
      rcases hv _ m2 with h' | h' | h' | h' | h' | h' | h' | h' <;> rw [h'] at p2 hc <;> rw [h] at hc <;>
        unfold area at hc <;> first | (norm_num at hc; done) | norm_num at p2
    · rw [h] at p1; norm_num at p1
    · rw [h] at p1; norm_num at p1
    · rw [h] at p1; norm_num at p1
    · rw [h] at m1; exact absurd m1 n2
    · exact Or.inl h
    · exact Or.inr h
  have e2 : e.2 = (0, 3 / 10) ∨ e.2 = (1 / 8, 3 / 10) := by
    have hc := h3.cyclic_edge e he _ c3
    rcases hv _ m2 with h | h | h | h | h | h | h | h
    · exfalso
      rcases e1 with h' | h' <;> rw [h, h'] at hc <;> unfold area at hc <;> norm_num at hc
    · rw [h] at p2; norm_num at p2
    · exact Or.inl h
    · exact Or.inr h
    · rw [h] at m2; exact absurd m2 n1
    · rw [h] at m2; exact absurd m2 n2
    · rw [h] at p2; norm_num at p2
    · rw [h] at p2; norm_num at p2
  obtain ⟨new, hn⟩ := edgeLoop_total [] false (depIndices fourBest idx) (cyclic verts) (fun e he hd => (hleft e he hd).ne)
  refine ⟨new, depIndices fourBest idx, ?_, ?_, ?_⟩
  · obtain ⟨best, b1, b2⟩ := fourBest_run
    unfold fromBeta
    rw [b1]
    simp only [bind, Except.bind, b2]
    unfold fromBest
    have q1 : fourBest.head? = some ⟨0, 3 / 10, ⟨0, 1 / 8, true, false⟩, none⟩ := rfl
    have q2 : fourBest.getLast? = some ⟨0, 3 / 10, ⟨3 / 8, 1 / 2, false, true⟩, none⟩ := rfl
    rw [q1, q2]
    simp only
    rw [if_neg (by norm_num), h1]
    simp only [bind, Except.bind, h2, hn]
    rfl
  · rw [edgeLoop_mem _ _ _ _ _ hn]
    have hd : degenerate e = false ∧ edgeKey e = .ok (3 / 10, 3 / 10) := by
      have : e = (e.1, e.2) := rfl
      rcases e1 with h | h <;> rcases e2 with h' | h' <;> rw [this, h, h'] <;> constructor <;> decide +kernel
    refine ⟨e, he, hd.1, (3 / 10, 3 / 10), hd.2, ?_⟩
    unfold forKey lookup
    simp
  · intro i hi f hf
    rintro ⟨v, g, hg, hm, _⟩
    rw [List.mem_singleton] at hg
    subst hg
    unfold depIndices at hi
    rw [List.mem_filter] at hi
    obtain ⟨hi1, hi2⟩ := hi
    have hi3 : i < 3 := List.mem_range.mp hi1
    have : i = 0 ∨ i = 1 ∨ i = 2 := by omega
    rcases this with rfl | rfl | rfl
    · simp only [fourBest, List.getElem?_cons_zero, Option.some.injEq] at hf
      subst hf
      simp only [Mem] at hm
      norm_num at hm
    · rw [List.any_eq_true] at hi2
      obtain ⟨w, hw, hw2⟩ := hi2
      obtain ⟨p, hp1, hp2⟩ := pick_index' _ _ _ h2 w hw
      rw [hp2, hf] at hw2
      simp only [fourBest, List.getElem?_cons_succ, List.getElem?_cons_zero, Option.some.injEq] at hf
      subst hf
      simp only [touches, Affine.ev, Bool.and_eq_true, Bool.or_eq_true, decide_eq_true_eq] at hw2
      obtain ⟨_, hw3⟩ := hw2
      rcases hw3 with ⟨a, b⟩ | ⟨a, b⟩
      · apply n1
        have : p = (1 / 8, 1 / 5) := Prod.ext a.symm (by have := of_decide_eq_true b; simp only; linarith)
        rwa [← this]
      · apply n2
        have : p = (3 / 8, 1 / 5) := Prod.ext a.symm (by have := of_decide_eq_true b; simp only; linarith)
        rwa [← this]
    · simp only [fourBest, List.getElem?_cons_succ, List.getElem?_cons_zero, Option.some.injEq] at hf
      subst hf
      simp only [Mem] at hm
      norm_num at hm

/-! ### Examples -/

/-- The hypotheses of `C37_tangent_partial`, `C37_optimal_partial`, `C37_sound_partial` and `C55_dependencies_partial`. -/
example : ∃ hull, HullSpec hull ∧ Good fourBest ∧ (∃ out, fromBest hull fourBest [] true = .ok out ∧ out ≠ []) ∧
    (∀ h ∈ fourBounds, h.bound.dom.Constructible) ∧
    (∀ x, 0 ≤ x → x ≤ 1 / 2 → ∃ v, HasValue [(⟨0, 1 / 2, ⟨0, 1 / 2, true, true⟩, none⟩ : Affine (Option ℕ))] x v) ∧
    (∀ x v, 0 ≤ x → x ≤ 1 / 2 → HasValue (fourBounds.map Beta.Hyp.bound) x v → 0 ≤ v) := by
  obtain ⟨hull, hs⟩ := hullSpec_satisfiable
  refine ⟨hull, hs, fourBest_good, ?_, ?_, ?_, ?_⟩
  · obtain ⟨out, h1, h2⟩ := C37_optimal_partial hull hs fourBest fourBest_good _ _ rfl rfl rfl rfl
      ⟨_, List.mem_cons_self, Or.inl (by norm_num)⟩ [] true
    refine ⟨out, h1, ?_⟩
    obtain ⟨o, ho, _⟩ := h2 0 (le_refl _) (by norm_num)
    exact List.ne_nil_of_mem ho
  · intro h hh
    rw [constructible_iff]
    simp only [fourBounds, List.mem_cons, List.not_mem_nil, or_false] at hh
    rcases hh with rfl | rfl | rfl | rfl <;> norm_num
  · intro x h0 h1
    refine ⟨_, _, List.mem_singleton.mpr rfl, ⟨?_, ?_⟩, rfl⟩
    · rcases eq_or_lt_of_le h0 with h | h
      · exact Or.inr ⟨rfl, h.symm⟩
      · exact Or.inl h
    · rcases eq_or_lt_of_le h1 with h | h
      · exact Or.inr ⟨rfl, h⟩
      · exact Or.inl h
  · rintro x v _ _ ⟨f, hf, _, rfl⟩
    obtain ⟨h, hh, rfl⟩ := List.mem_map.mp hf
    simp only [fourBounds, List.mem_cons, List.not_mem_nil, or_false] at hh
    rcases hh with rfl | rfl | rfl | rfl <;> norm_num

/-- The D transform of the pair (1/6, 2/3). -/
example : (5 : ℚ) * (1 / 6) + 3 * (2 / 3) + 2 ≠ 0 := by norm_num

end BetaPairs
end Expdb
