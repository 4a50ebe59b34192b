import Verif.Props.RegionUnb
import Verif.Props.DerivedZD

/-!
# The value computed by `lv_zlv_to_zd` for regions that can be clipped

If the set of allowed triples moves upwards to the left, the value which is returned at `sigma` is exactly the maximum of
`rho / tau` over the triples that can be approached from the right by interior points of the set of allowed triples.
-/

namespace Expdb
namespace RegionUnb

open Rational SupRatio Mat Region ZeroDensity DerivedZD

variable {eng : Engine}

/-- Points between a point and an interior point are interior points. -/
theorem interior_seg {m : Mat} (h : FullDim 4 m) {x w : ℚ × ℚ × ℚ} (hx : m.Contains (pt x)) (hw : m.Interior (pt w)) {c : ℚ} (hc : 0 < c)
    (hc1 : c ≤ 1) : m.Interior (pt (x.1 + c * (w.1 - x.1), x.2.1 + c * (w.2.1 - x.2.1), x.2.2 + c * (w.2.2 - x.2.2))) := by
  apply Strict.interior
  intro r hr
  have h1 := (contains_iff_holds m _ (by rw [h.cols]; rfl)).mp hx r hr
  have h2 := hw.strict h.wf h.noZero (by rw [h.cols]; rfl) r hr
  have hl := h.wf r hr
  rw [h.cols] at hl
  obtain ⟨b, c0, cs⟩ := r
  refine ⟨h2.1, ?_⟩
  have h3 := h1.2 h2.1
  have h4 := h2.2
  match cs, hl with
  | [u, v, w], _ =>
    simp only [pt, dot] at h3 h4 ⊢
    nlinarith

theorem rightLimit_of_poly {m : Mat} (h : FullDim 4 m) {A : Pt → Prop} (hA : ∀ x, m.Contains x → A x) {s t r s' t' r' : ℚ}
    (h1 : m.Contains [s, t, r]) (h2 : m.Contains [s', t', r']) (hs : s < s') : RightLimit A s t r := by
  obtain ⟨c, hc1, hc2⟩ := h.inner
  match c, hc1 with
  | [c1, c2, c3], _ =>
    -- an interior point to the right
    obtain ⟨u, u1, u2, u3⟩ : ∃ u : ℚ, 0 < u ∧ u ≤ 1 ∧ s < s' + u * (c1 - s') := by
      refine ⟨min 1 ((s' - s) / (2 * (|c1 - s'| + 1))), lt_min one_pos (by have := abs_nonneg (c1 - s'); exact div_pos (by linarith) (by linarith)),
        min_le_left _ _, ?_⟩
      set u := min 1 ((s' - s) / (2 * (|c1 - s'| + 1))) with hu
      have h0 : 0 < 2 * (|c1 - s'| + 1) := by have := abs_nonneg (c1 - s'); linarith
      have h3 : u * (2 * (|c1 - s'| + 1)) ≤ s' - s := by rw [← le_div_iff₀ h0]; exact min_le_right _ _
      have h4 : 0 < u := lt_min one_pos (div_pos (by linarith) h0)
      have h5 := neg_abs_le (c1 - s')
      nlinarith
    have hw := interior_seg h (x := (s', t', r')) (w := (c1, c2, c3)) h2 hc2 u1 u2
    set w : ℚ × ℚ × ℚ := (s' + u * (c1 - s'), t' + u * (c2 - t'), r' + u * (c3 - r')) with hwd
    intro ε hε
    set K := |w.1 - s| + |w.2.1 - t| + |w.2.2 - r| + 1 with hK
    have hK0 : 0 < K := by positivity
    set v := min 1 (ε / (2 * K)) with hv
    have v0 : 0 < v := lt_min one_pos (by positivity)
    have v1 : v * (2 * K) ≤ ε := by rw [← le_div_iff₀ (by positivity)]; exact min_le_right _ _
    have hx := interior_seg h (x := (s, t, r)) (w := w) h1 hw v0 (min_le_left _ _)
    have hnear : ∀ a b : ℚ, |b| + 1 ≤ K → |a + v * b - a| < ε := by
      intro a b hb
      rw [add_sub_cancel_left, abs_mul, abs_of_pos v0]
      have := abs_nonneg b
      nlinarith
    refine ⟨s + v * (w.1 - s), t + v * (w.2.1 - t), r + v * (w.2.2 - r), .cons (hnear _ _ ?_) (.cons (hnear _ _ ?_) (.cons (hnear _ _ ?_) .nil)), ?_, ?_⟩
    · rw [hK]; linarith [abs_nonneg (w.2.1 - t), abs_nonneg (w.2.2 - r)]
    · rw [hK]; linarith [abs_nonneg (w.1 - s), abs_nonneg (w.2.2 - r)]
    · rw [hK]; linarith [abs_nonneg (w.1 - s), abs_nonneg (w.2.1 - t)]
    · have : 0 < w.1 - s := by rw [hwd]; linarith
      have := mul_pos v0 this
      linarith
    · obtain ⟨δ, d1, d2⟩ := hx
      refine ⟨δ, d1, fun z hz => hA z ?_⟩
      rw [contains_iff_holds _ _ (by rw [hz.length, h.cols]; rfl)]
      exact d2 z hz

/-- Limits of limits. -/
theorem rightLimit_trans {A : Pt → Prop} {s t r : ℚ}
    (h : RightLimit (fun x => ∃ s t r, x = [s, t, r] ∧ RightLimit A s t r) s t r) : RightLimit A s t r := by
  intro ε hε
  obtain ⟨s', t', r', h1, h2, δ, h3, h4⟩ := h (ε / 2) (by linarith)
  obtain ⟨a, b, c, e, h5⟩ := h4 _ (Near.refl h3 _)
  simp only [List.cons.injEq, and_true] at e
  obtain ⟨rfl, rfl, rfl⟩ := e
  obtain ⟨s'', t'', r'', k1, k2, k3⟩ := h5 (ε / 2) (by linarith)
  exact ⟨s'', t'', r'', (h1.trans k1).mono (by linarith), h2.trans k2, k3⟩

theorem rightLimit_self {A : Pt → Prop} {s t r : ℚ} (h : RightLimit A s t r) :
    RightLimit (fun x => ∃ s t r, x = [s, t, r] ∧ RightLimit A s t r) s t r := by
  intro ε hε
  obtain ⟨s', t', r', h1, h2, δ, h3, h4⟩ := h ε hε
  refine ⟨s', t', r', h1, h2, δ / 2, by linarith, fun z hz => ?_⟩
  obtain ⟨b, rfl, n1, n2, n3⟩ := (near3 _ (s', t', r') _).mp hz
  refine ⟨b.1, b.2.1, b.2.2, rfl, fun ε' hε' => ?_⟩
  have hη : 0 < min (ε' / 2) (δ / 4) := lt_min (by linarith) (by linarith)
  set η := min (ε' / 2) (δ / 4) with hηd
  have hη1 : η ≤ ε' / 2 := min_le_left _ _
  have hη2 : η ≤ δ / 4 := min_le_right _ _
  refine ⟨b.1 + η, b.2.1, b.2.2, .cons ?_ (.cons (by rw [sub_self, abs_zero]; exact hε') (.cons (by rw [sub_self, abs_zero]; exact hε') .nil)),
    by linarith, δ / 4, by linarith, fun y hy => h4 y ?_⟩
  · rw [add_sub_cancel_left, abs_of_pos hη]; linarith
  · obtain ⟨c, rfl, m1, m2, m3⟩ := (near3 _ (b.1 + η, b.2.1, b.2.2) _).mp hy
    simp only at n1 n2 n3 m1 m2 m3
    rw [abs_lt] at n1 n2 n3 m1 m2 m3
    refine (near3 _ (s', t', r') _).mpr ⟨c, rfl, ?_, ?_, ?_⟩ <;> simp only <;> rw [abs_lt] <;> constructor <;> linarith

/-- The set moves upwards to the left. -/
def Rising (A : Pt → Prop) (x0 : ℚ) : Prop :=
  ∀ s s' t r, x0 ≤ s → s < s' → A [s', t, r] → A [s, t, r + (s' - s)]

theorem higher_of_rising {A : Pt → Prop} {x0 : ℚ} (hA : Rising A x0) (hpos : ∀ s t r, A [s, t, r] → 1 ≤ t) {s s' t r : ℚ} (h0 : x0 ≤ s)
    (h1 : s < s') (h : RightLimit A s' t r) : ∃ t' r', RightLimit A s t' r' ∧ r / t < r' / t' := by
  have ht : 1 ≤ t := by
    by_contra hlt
    push Not at hlt
    obtain ⟨s'', t'', r'', k1, _, δ, k2, k3⟩ := h (1 - t) (by linarith)
    have := hpos _ _ _ (k3 _ (Near.refl k2 _))
    obtain ⟨b, e, _, n2, _⟩ := (near3 _ (s', t, r) _).mp k1
    simp only [pt, List.cons.injEq, and_true] at e
    rw [← e.2.1, abs_lt] at n2
    simp only at n2
    linarith
  have hden : 0 < 2 * (t + |r| + 1) := by positivity
  obtain ⟨e, e0, e1⟩ : ∃ e : ℚ, 0 < e ∧ e * (2 * (t + |r| + 1)) ≤ (s' - s) * t :=
    ⟨(s' - s) * t / (2 * (t + |r| + 1)), div_pos (mul_pos (by linarith) (by linarith)) hden, by rw [div_mul_cancel₀ _ hden.ne']⟩
  obtain ⟨s'', t'', r'', k1, k2, δ, k3, k4⟩ := h e e0
  have ht'' := hpos _ _ _ (k4 _ (Near.refl k3 _))
  obtain ⟨b, eb, _, n2, n3⟩ := (near3 _ (s', t, r) _).mp k1
  simp only [pt, List.cons.injEq, and_true] at eb
  rw [← eb.2.1] at n2
  rw [← eb.2.2] at n3
  simp only at n2 n3
  rw [abs_lt] at n2 n3
  refine ⟨t'', r'' + (s'' - s), ?_, ?_⟩
  · intro ε hε
    have hη : 0 < min (ε / 2) ((s'' - s) / 2) := lt_min (by linarith) (by linarith)
    set η := min (ε / 2) ((s'' - s) / 2) with hηd
    have hη1 : η ≤ ε / 2 := min_le_left _ _
    have hη2 : η ≤ (s'' - s) / 2 := min_le_right _ _
    refine ⟨s + η, t'', r'' + (s'' - s - η), ?_, by linarith, min δ η, lt_min k3 hη, fun z hz => ?_⟩
    · refine .cons ?_ (.cons ?_ (.cons ?_ .nil)) <;> rw [abs_lt] <;> constructor <;> linarith
    · obtain ⟨c, rfl, m1, m2, m3⟩ := (near3 _ (s + η, t'', r'' + (s'' - s - η)) _).mp hz
      simp only at m1 m2 m3
      have m4 := m1.trans_le (min_le_right _ _)
      rw [abs_lt] at m4
      have := hA c.1 (c.1 + (s'' - s - η)) c.2.1 (c.2.2 - (s'' - s - η)) (by linarith) (by linarith) (k4 _ ?_)
      · have e : c.2.2 - (s'' - s - η) + (c.1 + (s'' - s - η) - c.1) = c.2.2 := by ring
        rw [e] at this
        exact this
      · have m1 := m1.trans_le (min_le_left _ _)
        have m2 := m2.trans_le (min_le_left _ _)
        have m3 := m3.trans_le (min_le_left _ _)
        rw [abs_lt] at m1 m2 m3
        refine .cons ?_ (.cons ?_ (.cons ?_ .nil)) <;> rw [abs_lt] <;> constructor <;> linarith
  · rw [div_lt_div_iff₀ (by linarith) (by linarith)]
    have hr1 := le_abs_self r
    have hr2 := neg_abs_le r
    have h3 : r * (t'' - t) ≤ |r| * e := by
      have : |r * (t'' - t)| ≤ |r| * e := by
        rw [abs_mul]
        exact mul_le_mul_of_nonneg_left (abs_le.mpr ⟨by linarith, by linarith⟩) (abs_nonneg _)
      exact (le_abs_self _).trans this
    have h4 : (r - e) * t < r'' * t := mul_lt_mul_of_pos_right (by linarith) (by linarith)
    have h5 : (s' - s) * t ≤ (s'' - s) * t := mul_le_mul_of_nonneg_right (by linarith) (by linarith)
    nlinarith [mul_pos e0 (show 0 < t by linarith), mul_nonneg e0.le (abs_nonneg r)]

/-- What the computation of `compute_large_value_region` gives, in terms of limits. -/
theorem region_ratios (heng : EngineSpec eng) {x0 x1 a b : ℚ} (hx : x0 < x1) (hab : a < b) (ha : 0 < a) (rs : List (Region ℕ)) (hne : rs ≠ [])
    (hrs : ∀ r ∈ rs, Clips eng r) :
    ∃ ms deps, largeValueRegion eng (.polytope (ZeroDensity.box3 x0 x1 a b 0 1000000) none) rs = .ok (ms, deps) ∧
      (∀ p ∈ ms, FullDim 4 p ∧ ∀ s t r, p.Contains [s, t, r] → 0 < t) ∧
      (∀ s t r, RightLimit (Allowed x0 x1 a b rs) s t r → ((r / t : ℚ) : ℝ) ∈ Ratios ms s) ∧
      (∀ s, ∀ v ∈ Ratios ms s, ∃ t r, RightLimit (Allowed x0 x1 a b rs) s t r ∧ v = ((r / t : ℚ) : ℝ)) := by
  have hD := box3_fullDim x0 x1 a b 0 1000000 hx hab (by norm_num)
  obtain ⟨ms, deps, h1, h2, _⟩ := region_clips heng _ hD rs hne hrs
  have hbase : ∀ m ∈ ZeroDensity.box3 x0 x1 a b 0 1000000 :: leavesList rs, Base 4 m := by
    intro m hm
    rcases List.mem_cons.mp hm with rfl | hm
    · exact base_of_fullDim hD
    · obtain ⟨r, hr, hm⟩ := (mem_leavesList _ _).mp hm
      exact (hrs r hr).1 m hm
  have hS : ∀ x, (ZeroDensity.box3 x0 x1 a b 0 1000000).Contains x ∧ (∀ r ∈ rs, r.Mem x) ↔ Allowed x0 x1 a b rs x := by
    intro x
    rw [allowed_iff]
    simp only [List.mem_cons, forall_eq_or_imp, Mem]
  refine ⟨ms, deps, h1, ?_, ?_, ?_⟩
  · intro p hp
    refine ⟨(h2.good p hp).toFullDim, fun s t r hc => ?_⟩
    obtain ⟨s', t', r', e, _, h, _⟩ := (hS _).mp (h2.sound p hp _ hc)
    simp only [List.cons.injEq, and_true] at e
    rw [e.2.1]
    linarith [h.1]
  · intro s t r hl
    obtain ⟨m, hm, hQ, hc⟩ := cover_near (n := 4) ms (fun m => ∃ s' t' r', m.Contains [s', t', r'] ∧ s < s') [s, t, r] rfl
      (fun m hm => (h2.good m hm).cols) (by
        intro ε hε
        obtain ⟨s', t', r', h3, h4, δ, h5, h6⟩ := hl (ε / 2) (by linarith)
        have hε' : 0 < min (min (ε / 2) (s' - s)) δ := lt_min (lt_min (by linarith) (by linarith)) h5
        obtain ⟨z, z1, z2⟩ := Region.Thin.generic_near _ hbase [s', t', r'] rfl hε'
        have z3 := h6 z (z1.mono (min_le_right _ _))
        obtain ⟨m, hm, hmz⟩ := h2.cover z z2 ((hS _).mpr z3)
        refine ⟨z, (h3.trans (z1.mono ((min_le_left _ _).trans (min_le_left _ _)))).mono (by linarith), m, hm, ?_, hmz⟩
        obtain ⟨c, rfl, n1, _⟩ := (near3 _ (s', t', r') _).mp z1
        refine ⟨c.1, c.2.1, c.2.2, hmz, ?_⟩
        have := n1.trans_le ((min_le_left _ _).trans (min_le_right _ _))
        simp only at this
        linarith [(abs_lt.mp this).1])
    exact ⟨m, hm, t, r, hc, hQ, rfl⟩
  · rintro s v ⟨p, hp, t, r, hc, ⟨s', t', r', hc', hs⟩, rfl⟩
    exact ⟨t, r, rightLimit_of_poly (h2.good p hp).toFullDim (fun x hx => (hS x).mp (h2.sound p hp x hx)) hc hc' hs, rfl⟩

/-- The ratios of the triples above `s` that can be approached from the right by interior points of one of the sets. -/
def LimitRatios (A1 A2 : Pt → Prop) (s : ℚ) : Set ℝ :=
  {v | ∃ t r, (RightLimit A1 s t r ∨ RightLimit A2 s t r) ∧ v = ((r / t : ℚ) : ℝ)}

/-- The value of `lv_zlv_to_zd`. -/
theorem zd_clips (heng : EngineSpec eng) {edges : Mat → List (Pt × Pt)}
    (hed : ∀ p : Mat, p.cols = 4 → p.Bounded → EdgesSpec edges p) {solve : RF ℝ → RF ℝ → List ℝ} (hs : SolveSpec solve)
    {isZero : Expr ℝ → Bool} (hz : ZeroSpec isZero) (lvs : List (Region ℕ)) (transforms : List (Region ℕ → Py (Region ℕ)))
    (tl : List (Region ℕ)) (ht : LargeValues.applyTransforms lvs transforms = .ok tl) (zlvs : List (Region ℕ))
    (hne : lvs ≠ []) (hrs : ∀ r ∈ lvs ++ tl ++ zlvs, Clips eng r)
    (x0 x1 tau0 : ℚ) (hx : x0 < x1) (htau : 2 < tau0) (incL incU : Bool)
    (hr1 : Rising (Allowed x0 x1 tau0 (2 * tau0) (lvs ++ tl)) x0) (hr2 : Rising (Allowed x0 x1 2 tau0 (lvs ++ tl ++ zlvs)) x0)
    (hp1 : ∀ s, x0 ≤ s → s < x1 → ∃ t r, RightLimit (Allowed x0 x1 tau0 (2 * tau0) (lvs ++ tl)) s t r ∧ 0 ≤ r / t)
    (hp2 : ∀ s, x0 ≤ s → s < x1 → ∃ t r, RightLimit (Allowed x0 x1 2 tau0 (lvs ++ tl ++ zlvs)) s t r ∧ 0 ≤ r / t) :
    ∃ out, lvZlvToZd eng edges solve isZero lvs transforms zlvs x0 x1 incL incU tau0 = .ok out ∧ Pieces x0 x1 out ∧
      ∀ s : ℚ, x0 ≤ s → s < x1 → ∃ q ∈ out, q.dom.x0 ≤ s ∧ s < q.dom.x1 ∧ (∀ q' ∈ out, q'.dom.x0 ≤ s → s < q'.dom.x1 → q' = q) ∧
        IsGreatest (LimitRatios (Allowed x0 x1 tau0 (2 * tau0) (lvs ++ tl)) (Allowed x0 x1 2 tau0 (lvs ++ tl ++ zlvs)) s) (q.fn.at s) := by
  have hD : ((⟨x0, x1, incL, incU⟩ : Ival ℝ)).x0 < (⟨x0, x1, incL, incU⟩ : Ival ℝ).x1 := by simpa using hx
  have go : ∀ (a b : ℚ) (rs : List (Region ℕ)), a < b → 2 ≤ a → rs ≠ [] → (∀ r ∈ rs, Clips eng r) → Rising (Allowed x0 x1 a b rs) x0 →
      (∀ s, x0 ≤ s → s < x1 → ∃ t r, RightLimit (Allowed x0 x1 a b rs) s t r ∧ 0 ≤ r / t) →
      ∃ ms deps o, largeValueRegion eng (.polytope (ZeroDensity.box3 x0 x1 a b 0 1000000) none) rs = .ok (ms, deps) ∧
        supRhoOnTau edges solve isZero ms ⟨x0, x1, incL, incU⟩ = .ok o ∧ SupOut edges ⟨x0, x1, incL, incU⟩ ms o ∧
        (∀ p ∈ o, ∀ x, (x0 : ℝ) ≤ x → x < x1 → p.fn.NoCommonZero x) ∧
        (∀ s t r, RightLimit (Allowed x0 x1 a b rs) s t r → ((r / t : ℚ) : ℝ) ∈ Ratios ms s) ∧
        (∀ s, ∀ v ∈ Ratios ms s, ∃ t r, RightLimit (Allowed x0 x1 a b rs) s t r ∧ v = ((r / t : ℚ) : ℝ)) := by
    intro a b rs hab ha hne hcl hri hpo
    obtain ⟨ms, deps, h1, h2, h3, h4⟩ := region_ratios heng hx hab (by linarith) rs hne hcl
    obtain ⟨o, g1, g2, g3⟩ := supOut_chain edges solve hs isZero hz ms ⟨x0, x1, incL, incU⟩ hD (fun p hp =>
      ⟨hed p (h2 p hp).1.cols (h2 p hp).1.bounded, (h2 p hp).1.cols, (h2 p hp).2⟩)
    refine ⟨ms, deps, o, h1, g1, g2, ?_, h3, h4⟩
    refine noCommonZero_of_decreasing (A := fun x => ∃ s t r, x = [s, t, r] ∧ RightLimit (Allowed x0 x1 a b rs) s t r) g2 g3
      (fun s t r h => h3 s t r (rightLimit_trans h)) ?_ ?_ ?_
    · intro s v hv
      obtain ⟨t, r, k1, k2⟩ := h4 s v hv
      exact ⟨t, r, ⟨s, t, r, rfl, k1⟩, k2⟩
    · rintro s s' t r l1 l2 l3 ⟨s'', t'', r'', e, h⟩
      simp only [List.cons.injEq, and_true] at e
      obtain ⟨rfl, rfl, rfl⟩ := e
      obtain ⟨t', r', k1, k2⟩ := higher_of_rising hri (by
        rintro s t r ⟨s', t', r', e, _, k, _⟩
        simp only [List.cons.injEq, and_true] at e
        rw [e.2.1]
        linarith [k.1]) l1 l2 h
      exact ⟨t', r', rightLimit_self k1, k2⟩
    · intro s l1 l2
      obtain ⟨t, r, k1, k2⟩ := hpo s l1 l2
      exact ⟨t, r, rightLimit_self k1, k2⟩
  obtain ⟨ms1, d1, o1, a1, a2, a3, a4, a5, a6⟩ := go tau0 (2 * tau0) (lvs ++ tl) (by linarith) (by linarith) (by simp [hne])
    (fun r hr => hrs r (List.mem_append_left _ hr)) hr1 hp1
  obtain ⟨ms2, d2, o2, b1, b2, b3, b4, b5, b6⟩ := go 2 tau0 (lvs ++ tl ++ zlvs) htau (by norm_num) (by simp [hne]) hrs hr2 hp2
  have hpole : ∀ p ∈ o1 ++ o2, ∀ x, (x0 : ℝ) ≤ x → x < x1 → p.fn.NoCommonZero x := by
    intro p hp
    rcases List.mem_append.mp hp with hp | hp
    · exact a4 p hp
    · exact b4 p hp
  refine ⟨_, lvZlv_eq eng edges solve isZero lvs transforms tl ht zlvs x0 x1 incL incU tau0 ms1 ms2 d1 d2 a1 b1 o1 o2 a2 b2,
    pieces_max hs hz hx a3 b3 hpole, fun s l1 l2 => ?_⟩
  obtain ⟨q, q1, q2, q3, q4, q5⟩ := max2_core hs hz hD a3 b3 false (fun _ => hpole) s (by simpa using l1) (by simpa using l2)
  have hub : ∀ v ∈ LimitRatios (Allowed x0 x1 tau0 (2 * tau0) (lvs ++ tl)) (Allowed x0 x1 2 tau0 (lvs ++ tl ++ zlvs)) s,
      v ≤ q.fn.at s := by
    rintro v ⟨t, r, h | h, rfl⟩
    · obtain ⟨p, hp, k⟩ := a5 s t r h
      exact q5.2 (.inr ⟨p, by simp [hp], k⟩)
    · obtain ⟨p, hp, k⟩ := b5 s t r h
      exact q5.2 (.inr ⟨p, by simp [hp], k⟩)
  refine ⟨q, q1, q2, q3, q4, ?_, hub⟩
  rcases q5.1 with h | ⟨p, hp, k⟩
  · exfalso
    obtain ⟨t, r, k1, k2⟩ := hp1 s l1 l2
    have h3 : (0 : ℝ) ≤ ((r / t : ℚ) : ℝ) := by exact_mod_cast k2
    have h4 := hub _ ⟨t, r, .inl k1, rfl⟩
    rw [Set.mem_singleton_iff] at h
    linarith
  · rcases List.mem_append.mp hp with hp | hp
    · obtain ⟨t, r, k1, k2⟩ := a6 s _ ⟨p, hp, k⟩
      exact ⟨t, r, .inl k1, k2⟩
    · obtain ⟨t, r, k1, k2⟩ := b6 s _ ⟨p, hp, k⟩
      exact ⟨t, r, .inr k1, k2⟩

end RegionUnb
end Expdb
