import Verif.Props.RegionOneThin
import Verif.Props.DerivedZDCases
import Verif.Props.LargeValues
import Verif.Model.DerivedMu

/-!
# C90: Huxley's zero density estimate

A bound `mu(sigma0) <= mu0` gives a zeta large value estimate whose region has a polytope with `rho = 0` beside a full-dimensional one.
-/

namespace Expdb
namespace DerivedZD

open Rational SupRatio Mat Region ZeroDensity

/-! ### Sets given by lists of bounds and a bound on mu -/

/-- Of the pairs `(tau, rho)` above `s` a bound `mu(p.1) <= p.2` allows those with `tau` at least `(s - p.1) / p.2` or with `rho = 0`. -/
def MuOk (p : ℚ × ℚ) (s t r : ℚ) : Prop := p.1 + p.2 * t < s → r = 0

/-- A condition which for `rho > 0` says that `tau` is at least `(s - p.1) / p.2`. -/
structure MuLike (p : ℚ × ℚ) (K : ℚ → ℚ → ℚ → Prop) : Prop where
  le : ∀ s t r, K s t r → 0 < r → s ≤ p.1 + p.2 * t
  of_le : ∀ s t r, s ≤ p.1 + p.2 * t → K s t r

theorem muLike_ok (p : ℚ × ℚ) : MuLike p (MuOk p) :=
  ⟨fun s t r h hr => by by_contra hc; exact hr.ne' (h (lt_of_not_ge hc)), fun s t r h hc => by linarith⟩

theorem muLike_le (p : ℚ × ℚ) : MuLike p (fun s t _ => s ≤ p.1 + p.2 * t) := ⟨fun _ _ _ h _ => h, fun _ _ _ h => h⟩

/-- The triples of the set `A` are those in the box with `rho` under the bounds `B` and with the condition `K`. -/
def GivenMu (A : Pt → Prop) (x0 x1 a b : ℚ) (B : List (List (ℚ × ℚ × ℚ))) (K : ℚ → ℚ → ℚ → Prop) : Prop :=
  ∀ s t r, A [s, t, r] ↔ (x0 ≤ s ∧ s ≤ x1) ∧ (a ≤ t ∧ t ≤ b) ∧ (0 ≤ r ∧ r ≤ 1000000) ∧ Under B s t r ∧ K s t r

/-- The set without the bound on mu. -/
def Wide (x0 x1 a b : ℚ) (B : List (List (ℚ × ℚ × ℚ))) (x : Pt) : Prop :=
  ∃ s t r, x = [s, t, r] ∧ (x0 ≤ s ∧ s ≤ x1) ∧ (a ≤ t ∧ t ≤ b) ∧ (0 ≤ r ∧ r ≤ 1000000) ∧ Under B s t r

theorem wide_given (x0 x1 a b : ℚ) (B : List (List (ℚ × ℚ × ℚ))) : Given (Wide x0 x1 a b B) x0 x1 a b B := by
  intro s t r
  unfold Wide
  constructor
  · rintro ⟨s', t', r', e, k⟩
    simp only [List.cons.injEq, and_true] at e
    obtain ⟨rfl, rfl, rfl⟩ := e
    exact k
  · intro k
    exact ⟨s, t, r, rfl, k⟩

section

variable {A : Pt → Prop} {x0 x1 a b : ℚ} {B : List (List (ℚ × ℚ × ℚ))} {p : ℚ × ℚ} {K : ℚ → ℚ → ℚ → Prop}

/-- Where the bound on mu says nothing, limits without it are limits with it. -/
theorem rightLimit_strict {W : Pt → Prop} (hA : ∀ u v w, W [u, v, w] → u < p.1 + p.2 * v → A [u, v, w]) (hp : 0 < p.2) {s t r : ℚ}
    (h : RightLimit W s t r) (hlt : s < p.1 + p.2 * t) : RightLimit A s t r := by
  intro ε hε
  have hg : 0 < p.1 + p.2 * t - s := by linarith
  have hd : 0 < 4 * (1 + p.2) := by linarith
  set e := min ε ((p.1 + p.2 * t - s) / (4 * (1 + p.2))) with he
  have e0 : 0 < e := lt_min hε (by positivity)
  have e1 : e * (4 * (1 + p.2)) ≤ p.1 + p.2 * t - s := by
    rw [← le_div_iff₀ hd]; exact min_le_right _ _
  obtain ⟨s', t', r', k1, k2, δ, k3, k4⟩ := h e e0
  have k1' := k1
  obtain _ | ⟨m1, k1'⟩ := k1'
  obtain _ | ⟨m2, k1'⟩ := k1'
  obtain _ | ⟨m3, k1'⟩ := k1'
  have le := min_le_left ε ((p.1 + p.2 * t - s) / (4 * (1 + p.2)))
  rw [← he] at le
  refine ⟨s', t', r', .cons (by linarith) (.cons (by linarith) (.cons (by linarith) .nil)), k2, min δ e, lt_min k3 e0, fun z hz => ?_⟩
  have hz' := hz
  obtain _ | ⟨n1, hz⟩ := hz
  obtain _ | ⟨n2, hz⟩ := hz
  obtain _ | ⟨n3, hz⟩ := hz
  cases hz
  rename_i u v w
  refine hA u v w (k4 _ (.cons (n1.trans_le (min_le_left _ _)) (.cons (n2.trans_le (min_le_left _ _))
    (.cons (n3.trans_le (min_le_left _ _)) .nil)))) ?_
  have n1' := n1.trans_le (min_le_right _ _)
  have n2' := n2.trans_le (min_le_right _ _)
  rw [abs_lt] at m1 m2 n1' n2'
  nlinarith

/-- Points with `rho > 0` that are not at the right end are limits from the right of interior points. -/
theorem rightLimit_of_mu (hA : GivenMu A x0 x1 a b B K) (hK : MuLike p K) (hab : a < b) (hp : 0 < p.2) (hb : x1 ≤ p.1 + p.2 * b)
    {s t r : ℚ} (h : A [s, t, r]) (hr : 0 < r) (hs : s < x1) : RightLimit A s t r := by
  obtain ⟨h1, h2, h3, h4, h5⟩ := (hA s t r).mp h
  have hle : s ≤ p.1 + p.2 * t := hK.le _ _ _ h5 hr
  have hW := wide_given x0 x1 a b B
  have hWA : ∀ u v w, Wide x0 x1 a b B [u, v, w] → u < p.1 + p.2 * v → A [u, v, w] := by
    intro u v w hw hlt
    obtain ⟨k1, k2, k3, k4⟩ := (hW u v w).mp hw
    exact (hA u v w).mpr ⟨k1, k2, k3, k4, hK.of_le _ _ _ hlt.le⟩
  have tb : t < b ∨ s < p.1 + p.2 * t := by
    rcases lt_or_eq_of_le h2.2 with k | k
    · exact .inl k
    · right; rw [k]; linarith
  rcases lt_or_eq_of_le hle with hlt | heq
  · exact rightLimit_strict hWA hp (rightLimit_of_mem hW hab ((hW _ _ _).mpr ⟨h1, h2, h3, h4⟩) hr hs) hlt
  have tb : t < b := tb.resolve_right (by linarith)
  obtain ⟨M, m1, m2⟩ := slopes B
  intro ε hε
  have hM : 0 < 4 * M := by linarith
  obtain ⟨d, d0, d1, d2, d3⟩ : ∃ d : ℚ, 0 < d ∧ d * (4 * M) ≤ ε ∧ d * (4 * M) ≤ r ∧ d ≤ b - t := by
    refine ⟨min (min (ε / (4 * M)) (r / (4 * M))) (b - t), lt_min (lt_min (by positivity) (by positivity)) (by linarith), ?_, ?_, min_le_right _ _⟩
    · rw [← le_div_iff₀ hM]; exact (min_le_left _ _).trans (min_le_left _ _)
    · rw [← le_div_iff₀ hM]; exact (min_le_left _ _).trans (min_le_right _ _)
  have dM : d ≤ d * M := by nlinarith
  have hmem : Wide x0 x1 a b B [s, t + d, r - d * M] := by
    refine (hW _ _ _).mpr ⟨h1, ⟨by linarith, by linarith⟩, ⟨by linarith, by linarith⟩, ?_⟩
    intro bs hbs
    obtain ⟨c, hc, hle⟩ := h4 bs hbs
    refine ⟨c, hc, ?_⟩
    obtain ⟨_, g2⟩ := m2 bs hbs c hc
    unfold bval at hle ⊢
    rw [abs_le] at g2
    nlinarith
  obtain ⟨s', t', r', k1, k2, δ, k3, k4⟩ := rightLimit_strict hWA hp (rightLimit_of_mem hW hab hmem (by linarith) hs)
    (by nlinarith) (ε / 2) (by linarith)
  refine ⟨s', t', r', ?_, k2, δ, k3, k4⟩
  obtain _ | ⟨n1, k1⟩ := k1
  obtain _ | ⟨n2, k1⟩ := k1
  obtain _ | ⟨n3, k1⟩ := k1
  rw [abs_lt] at n1 n2 n3
  refine .cons ?_ (.cons ?_ (.cons ?_ .nil)) <;> rw [abs_lt] <;> constructor <;> linarith

/-- Above each `s` there is a point with `rho > 0` if all maxima are positive. -/
theorem pos_of_mu (hA : GivenMu A x0 x1 a b B K) (hK : MuLike p K) (hab : a < b) (ha : 0 < a) (hp : 0 < p.2) (hb : x1 ≤ p.1 + p.2 * b)
    {s : ℚ} (h0 : x0 ≤ s) (h1 : s < x1) (hq : ∀ bs ∈ B, ∃ c ∈ bs, 0 < bval c s b) :
    ∃ t r, RightLimit A s t r ∧ 0 < r / t := by
  obtain ⟨e, e1, e2⟩ : ∃ e : ℚ, 0 < e ∧ ∀ bs ∈ B, ∃ c ∈ bs, e ≤ bval c s b := by
    clear hA
    induction B with
    | nil => exact ⟨1, by norm_num, by simp⟩
    | cons bs B ih =>
      obtain ⟨e, e1, e2⟩ := ih (fun bs hbs => hq bs (by simp [hbs]))
      obtain ⟨c, c1, c2⟩ := hq bs (by simp)
      refine ⟨min e (bval c s b), lt_min e1 c2, fun bs' hbs => ?_⟩
      rcases List.mem_cons.mp hbs with rfl | hbs
      · exact ⟨c, c1, min_le_right _ _⟩
      · obtain ⟨d, d1, d2⟩ := e2 bs' hbs
        exact ⟨d, d1, (min_le_left _ _).trans d2⟩
  have hr : 0 < min e 1 := lt_min e1 (by norm_num)
  refine ⟨b, min e 1, rightLimit_of_mu hA hK hab hp hb ?_ hr h1, div_pos hr (by linarith)⟩
  refine (hA _ _ _).mpr ⟨⟨h0, by linarith⟩, ⟨hab.le, le_rfl⟩, ⟨hr.le, by linarith [min_le_right e 1]⟩, fun bs hbs => ?_, hK.of_le _ _ _ (by linarith)⟩
  · obtain ⟨c, c1, c2⟩ := e2 bs hbs
    exact ⟨c, c1, (min_le_left _ _).trans c2⟩

/-- If all bounds decrease in `sigma`, a point to the right leaves room above. -/
theorem higher_of_mu (hA : GivenMu A x0 x1 a b B K) (hK : MuLike p K) (hab : a < b) (ha : 0 < a) (hp : 0 < p.2) (hb : x1 ≤ p.1 + p.2 * b)
    (hneg : ∀ bs ∈ B, ∀ c ∈ bs, c.2.1 < 0) (hcap : ∀ s t r, A [s, t, r] → r ≤ 999999)
    (hq : ∀ s, x0 ≤ s → s < x1 → ∀ bs ∈ B, ∃ c ∈ bs, 0 < bval c s b) (s s' t r : ℚ) (h0 : x0 ≤ s) (h1 : s < s')
    (h2 : s' < x1) (h : A [s', t, r]) : ∃ t' r', RightLimit A s t' r' ∧ r / t < r' / t' := by
  obtain ⟨c, c1, c2⟩ := least_slope B hneg
  have hr := hcap _ _ _ h
  obtain ⟨_, ⟨h3, h4⟩, ⟨h5, _⟩, h7, h8⟩ := (hA s' t r).mp h
  rcases h5.eq_or_lt with rfl | h5
  · obtain ⟨t', r', k1, k2⟩ := pos_of_mu hA hK hab ha hp hb h0 (h1.trans h2) (hq s h0 (h1.trans h2))
    exact ⟨t', r', k1, by simpa using k2⟩
  have hle : s' ≤ p.1 + p.2 * t := hK.le _ _ _ h8 h5
  have hd : 0 < min (c * (s' - s)) 1 := lt_min (mul_pos c1 (by linarith)) (by norm_num)
  have hmem : A [s, t, r + min (c * (s' - s)) 1] := by
    refine (hA _ _ _).mpr ⟨⟨h0, by linarith⟩, ⟨h3, h4⟩, ⟨by linarith, by linarith [min_le_right (c * (s' - s)) 1]⟩, ?_, hK.of_le _ _ _ (by linarith)⟩
    · intro bs hbs
      obtain ⟨d, hd, hle⟩ := h7 bs hbs
      refine ⟨d, hd, ?_⟩
      unfold bval at hle ⊢
      have := c2 bs hbs d hd
      nlinarith [min_le_left (c * (s' - s)) 1]
  refine ⟨t, _, rightLimit_of_mu hA hK hab hp hb hmem (by linarith) (by linarith), ?_⟩
  rw [div_lt_div_iff_of_pos_right (by linarith)]
  linarith

theorem greatest_of_mu {A1 A2 : Pt → Prop} {x0 x1 a1 b1 a2 b2 : ℚ} {B1 B2 : List (List (ℚ × ℚ × ℚ))}
    (hA1 : Given A1 x0 x1 a1 b1 B1) (hA2 : GivenMu A2 x0 x1 a2 b2 B2 K) (hK : MuLike p K) (h1 : a1 < b1) (h2 : a2 < b2) (hp : 0 < p.2)
    (hb : x1 ≤ p.1 + p.2 * b2) {s : ℚ} (l2 : s < x1)
    (hpos : ∃ t r, (RightLimit A1 s t r ∨ RightLimit A2 s t r) ∧ 0 ≤ r / t) {v : ℝ} (h : ValueAt A1 A2 s v) :
    IsGreatest (RatioSet A1 A2 s) v := by
  obtain ⟨t0, r0, k1, k2⟩ := hpos
  have hv : 0 ≤ v := le_trans (by exact_mod_cast k2) (h.1 t0 r0 k1)
  refine ⟨?_, ?_⟩
  · rcases h.2 with h | h
    · linarith
    · exact h
  · rintro u ⟨t, r, hA, rfl⟩
    have hr : 0 ≤ r := by
      rcases hA with hA | hA
      · exact ((hA1 _ _ _).mp hA).2.2.1.1
      · exact ((hA2 _ _ _).mp hA).2.2.1.1
    rcases hr.eq_or_lt with rfl | hr
    · simpa using hv
    · refine h.1 t r ?_
      rcases hA with hA | hA
      · exact .inl (rightLimit_of_mem hA1 h1 hA hr l2)
      · exact .inr (rightLimit_of_mu hA2 hK h2 hp hb hA hr l2)

end

/-! ### The region of a bound on mu -/

/-- The polytope with `rho = 0`. -/
def muThin (c m : ℚ) : Mat :=
  ⟨4, [⟨false, 0, [0, 0, 1]⟩, ⟨false, 0, [0, 0, -1]⟩, ⟨false, 1, [-1, 0, 0]⟩, ⟨false, -(1 / 2), [1, 0, 0]⟩, ⟨false, -2, [0, 1, 0]⟩,
    ⟨false, 1000000, [0, -1, 0]⟩, ⟨false, -c, [1, -m, 0]⟩]⟩

/-- The polytope with the trivial bound. -/
def muWide (c m : ℚ) : Mat :=
  ⟨4, [⟨false, 0, [0, 1, -1]⟩, ⟨false, 0, [0, 0, 1]⟩, ⟨false, 1, [-1, 0, 0]⟩, ⟨false, -(1 / 2), [1, 0, 0]⟩, ⟨false, -2, [0, 1, 0]⟩,
    ⟨false, 1000000, [0, -1, 0]⟩, ⟨false, c, [-1, m, 0]⟩]⟩

theorem muRegion_eq (c m : ℚ) : LargeValues.muRegion c m = .ok (unionOf [muThin c m, muWide c m]) := by
  simp [LargeValues.muRegion, LargeValues.polyRegions, Mat.ofConstraints, Mat.ofRows, LargeValues.rowOf, Row.isZero, LargeValues.tauLimit,
    muThin, muWide, unionOf, bind, Except.bind, pure, Except.pure]

theorem row3_holds (a x y z s t r : ℚ) : (⟨false, a, [x, y, z]⟩ : Row).Holds [s, t, r] ↔ 0 ≤ a + x * s + y * t + z * r := by
  simp only [Row.Holds, dot, Bool.false_eq_true, false_implies, true_and, forall_const]
  rw [show a + (x * s + (y * t + (z * r + 0))) = a + x * s + y * t + z * r by ring]

theorem muThin_contains (c m : ℚ) (x : Pt) : (muThin c m).Contains x ↔
    ∃ s t, x = [s, t, 0] ∧ (1 / 2 ≤ s ∧ s ≤ 1) ∧ (2 ≤ t ∧ t ≤ 1000000) ∧ c + m * t ≤ s := by
  constructor
  · intro h
    have hl := contains_length h
    rw [contains_iff_holds _ _ hl] at h
    match x, hl with
    | [s, t, r], _ =>
      change ∀ q ∈ [⟨false, 0, [0, 0, 1]⟩, ⟨false, 0, [0, 0, -1]⟩, ⟨false, 1, [-1, 0, 0]⟩, ⟨false, -(1 / 2), [1, 0, 0]⟩, ⟨false, -2, [0, 1, 0]⟩,
    ⟨false, 1000000, [0, -1, 0]⟩, ⟨false, -c, [1, -m, 0]⟩], Row.Holds q [s, t, r] at h
      simp only [List.mem_cons, List.not_mem_nil, or_false, forall_eq_or_imp, forall_eq, row3_holds] at h
      obtain ⟨k1, k2, k3, k4, k5, k6, k7⟩ := h
      obtain rfl : r = 0 := by linarith
      exact ⟨s, t, rfl, ⟨by linarith, by linarith⟩, ⟨by linarith, by linarith⟩, by linarith⟩
  · rintro ⟨s, t, rfl, k1, k2, k3⟩
    rw [contains_iff_holds _ _ rfl]
    change ∀ q ∈ [⟨false, 0, [0, 0, 1]⟩, ⟨false, 0, [0, 0, -1]⟩, ⟨false, 1, [-1, 0, 0]⟩, ⟨false, -(1 / 2), [1, 0, 0]⟩, ⟨false, -2, [0, 1, 0]⟩,
    ⟨false, 1000000, [0, -1, 0]⟩, ⟨false, -c, [1, -m, 0]⟩], Row.Holds q [s, t, 0]
    simp only [List.mem_cons, List.not_mem_nil, or_false, forall_eq_or_imp, forall_eq, row3_holds]
    refine ⟨?_, ?_, ?_, ?_, ?_, ?_, ?_⟩ <;> linarith

theorem muWide_contains (c m : ℚ) (x : Pt) : (muWide c m).Contains x ↔
    ∃ s t r, x = [s, t, r] ∧ (1 / 2 ≤ s ∧ s ≤ 1) ∧ (2 ≤ t ∧ t ≤ 1000000) ∧ (0 ≤ r ∧ r ≤ t) ∧ s ≤ c + m * t := by
  constructor
  · intro h
    have hl := contains_length h
    rw [contains_iff_holds _ _ hl] at h
    match x, hl with
    | [s, t, r], _ =>
      change ∀ q ∈ [⟨false, 0, [0, 1, -1]⟩, ⟨false, 0, [0, 0, 1]⟩, ⟨false, 1, [-1, 0, 0]⟩, ⟨false, -(1 / 2), [1, 0, 0]⟩, ⟨false, -2, [0, 1, 0]⟩,
    ⟨false, 1000000, [0, -1, 0]⟩, ⟨false, c, [-1, m, 0]⟩], Row.Holds q [s, t, r] at h
      simp only [List.mem_cons, List.not_mem_nil, or_false, forall_eq_or_imp, forall_eq, row3_holds] at h
      obtain ⟨k1, k2, k3, k4, k5, k6, k7⟩ := h
      exact ⟨s, t, r, rfl, ⟨by linarith, by linarith⟩, ⟨by linarith, by linarith⟩, ⟨by linarith, by linarith⟩, by linarith⟩
  · rintro ⟨s, t, r, rfl, k1, k2, k3, k4⟩
    rw [contains_iff_holds _ _ rfl]
    change ∀ q ∈ [⟨false, 0, [0, 1, -1]⟩, ⟨false, 0, [0, 0, 1]⟩, ⟨false, 1, [-1, 0, 0]⟩, ⟨false, -(1 / 2), [1, 0, 0]⟩, ⟨false, -2, [0, 1, 0]⟩,
    ⟨false, 1000000, [0, -1, 0]⟩, ⟨false, c, [-1, m, 0]⟩], Row.Holds q [s, t, r]
    simp only [List.mem_cons, List.not_mem_nil, or_false, forall_eq_or_imp, forall_eq, row3_holds]
    refine ⟨?_, ?_, ?_, ?_, ?_, ?_, ?_⟩ <;> linarith

theorem muThin_base (c m : ℚ) : Base 4 (muThin c m) := by
  refine ⟨?_, rfl, ?_⟩ <;> intro r hr <;> simp only [muThin, List.mem_cons, List.not_mem_nil, or_false] at hr <;>
    rcases hr with rfl | rfl | rfl | rfl | rfl | rfl | rfl <;> simp [Row.isZero, muThin]

theorem muThin_oneThin (c m : ℚ) : OneThin 4 (muThin c m).Contains (muThin c m) := by
  refine ⟨muThin_base c m, ⟨1000000, fun x hx => ?_⟩, .inr (fun x => Iff.rfl)⟩
  obtain ⟨s, t, rfl, k1, k2, _⟩ := (muThin_contains c m x).mp hx
  intro y hy
  simp only [List.mem_cons, List.not_mem_nil, or_false] at hy
  rcases hy with rfl | rfl | rfl <;> rw [abs_le] <;> constructor <;> linarith

theorem muWide_fullDim (c m t0 : ℚ) (h1 : 2 < t0) (h2 : t0 < 1000000) (h3 : 1 ≤ c + m * t0) : FullDim 4 (muWide c m) := by
  refine ⟨?_, rfl, ?_, ⟨1000000, fun x hx => ?_⟩, [3 / 4, t0, 1], rfl, Strict.interior ?_⟩
  · intro r hr
    simp only [muWide, List.mem_cons, List.not_mem_nil, or_false] at hr
    rcases hr with rfl | rfl | rfl | rfl | rfl | rfl | rfl <;> rfl
  · intro r hr
    simp only [muWide, List.mem_cons, List.not_mem_nil, or_false] at hr
    rcases hr with rfl | rfl | rfl | rfl | rfl | rfl | rfl <;> simp [Row.isZero]
  · obtain ⟨s, t, r, rfl, k1, k2, k3, _⟩ := (muWide_contains c m x).mp hx
    intro y hy
    simp only [List.mem_cons, List.not_mem_nil, or_false] at hy
    rcases hy with rfl | rfl | rfl <;> rw [abs_le] <;> constructor <;> linarith
  · intro r hr
    simp only [muWide, List.mem_cons, List.not_mem_nil, or_false] at hr
    rcases hr with rfl | rfl | rfl | rfl | rfl | rfl | rfl <;> simp only [Row.Strict, dot, true_and] <;> linarith

theorem muUnion_mem (p : ℚ × ℚ) (s t r : ℚ) : (unionOf [muThin p.1 p.2, muWide p.1 p.2]).Mem [s, t, r] ↔
    (1 / 2 ≤ s ∧ s ≤ 1) ∧ (2 ≤ t ∧ t ≤ 1000000) ∧ (0 ≤ r ∧ r ≤ t) ∧ MuOk p s t r := by
  rw [unionOf_mem]
  simp only [List.mem_cons, List.not_mem_nil, or_false, exists_eq_or_imp, exists_eq_left, muThin_contains, muWide_contains,
    List.cons.injEq, and_true]
  constructor
  · rintro (⟨s', t', ⟨rfl, rfl, rfl⟩, k1, k2, k3⟩ | ⟨s', t', r', ⟨rfl, rfl, rfl⟩, k1, k2, k3, k4⟩)
    · exact ⟨k1, k2, ⟨le_rfl, by linarith⟩, fun _ => rfl⟩
    · exact ⟨k1, k2, k3, fun h => by linarith⟩
  · rintro ⟨k1, k2, k3, k4⟩
    rcases lt_or_ge (p.1 + p.2 * t) s with h | h
    · exact .inl ⟨s, t, ⟨rfl, rfl, k4 h⟩, k1, k2, h.le⟩
    · exact .inr ⟨s, t, r, ⟨rfl, rfl, rfl⟩, k1, k2, k3, h⟩

/-- The pairs `(tau, rho)` over which the supremum is taken at `sigma = s`, with a zeta large value estimate from a bound on mu. -/
def FeasibleMu (LB : List (List (ℚ × ℚ × ℚ))) (p : ℚ × ℚ) (tau0 s t r : ℚ) : Prop :=
  0 ≤ r ∧ LVOk (l2 :: LB) s t r ∧ (tau0 ≤ t ∧ t ≤ 2 * tau0 ∨ 2 ≤ t ∧ t ≤ tau0 ∧ MuOk p s t r)

variable {eng : Engine} {edges : Mat → List (Pt × Pt)} {solve : RF ℝ → RF ℝ → List ℝ} {isZero : Expr ℝ → Bool}
  {orderR : List (Region ℕ) → List (Region ℕ)} {orderK : List ℚ → List ℚ}

/-- **C90** (general part) With large value estimates that are maxima of bounds decreasing in `sigma` and the zeta large value estimate of
a bound `mu(c) <= m`, `prove_zero_density` on `[x0, 1)` does not raise if the bound says nothing for `tau = tau0` and `sigma < 1` and nothing
for `tau = 2` and `sigma < x0`; at each `s` exactly one of the returned pieces gives a value, and it is the maximum of `rho / tau` over all
`(tau, rho)` that obey the large value estimates and their powers up to 5, with `tau` in `[tau0, 2 tau0]`, or with `tau` in `[2, tau0]` and
`rho = 0` where `sigma > c + m tau`. -/
theorem C90_value (C : Contracts eng edges solve isZero orderR orderK) (LB : List (List (ℚ × ℚ × ℚ))) (lvs : List (Region ℕ))
    (p : ℚ × ℚ) (hL : Covers lvs (LB.map (fun bs => (bs, 1)))) (hdec : ∀ bs ∈ LB, ∀ b ∈ bs, b.2.1 < 0) (hmv : ∀ bs ∈ LB, (2, -2, 0) ∈ bs)
    (x0 tau0 : ℚ) (hx : x0 < 1) (hx0 : 1 / 2 ≤ x0) (htau : 2 < tau0) (htau' : tau0 ≤ 1000) (hp : 0 < p.2) (hp0 : x0 ≤ p.1 + p.2 * 2)
    (hp1 : 1 ≤ p.1 + p.2 * tau0) :
    ∃ zlvs out, LargeValues.muToZlv [p] = .ok zlvs ∧
      proveZeroDensity eng edges solve isZero orderR orderK lvs zlvs x0 1 tau0 = .ok out ∧ Pieces x0 1 out ∧
      ∀ s, x0 ≤ s → s < 1 → ∃ q ∈ out, q.dom.x0 ≤ s ∧ s < q.dom.x1 ∧ (∀ q' ∈ out, q'.dom.x0 ≤ s → s < q'.dom.x1 → q' = q) ∧
        IsGreatest {v : ℝ | ∃ t r, FeasibleMu LB p tau0 s t r ∧ v = ((r / t : ℚ) : ℝ)} (q.fn.at s) := by
  obtain ⟨heng, hneg, hed, hs, hz, hR, hK⟩ := C
  obtain ⟨ml, e1, _, _⟩ := convert_full heng.canon heng.canonNoZero l2 (by simp [l2]) l2_staggered
  have hl2 := realises_convert heng.canon heng.canonNoZero l2 (by simp [l2]) l2_staggered e1
  replace e1 : LargeValues.convertBounds eng.canon l2Bounds = .ok (unionOf ml) := e1
  set lv := orderR (unionOf ml :: lvs) with hlv
  set ks := orderK [2, 3, 4, 5] with hks
  have hkp : ks.Perm [2, 3, 4, 5] := hK _
  have hcl : Covers lv ((l2 :: LB).map (fun bs => (bs, 1))) := by
    refine Covers.perm ?_ (hR _)
    have : Covers [unionOf ml] [(l2, 1)] := ⟨by simpa using hl2, by simpa using hl2⟩
    exact this.append hL
  obtain ⟨tl, t1, t2⟩ := covers_transforms hcl ks (by
    intro k hk
    have := hkp.mem_iff.mp hk
    simp only [List.mem_cons, List.not_mem_nil, or_false] at this
    rcases this with rfl | rfl | rfl | rfl <;> norm_num)
  have hB1 : Covers (lv ++ tl) (withPowers ks (l2 :: LB)) := hcl.append t2
  set derived : List (Region ℕ) := (lv ++ tl).map (fun r => .intersect [.polytope tauTwo none, r]) with hder
  set Z : Region ℕ := unionOf [muThin p.1 p.2, muWide p.1 p.2] with hZ
  set zl := orderR ([Z] ++ derived) with hzl
  have hzm : ∀ R, R ∈ zl ↔ R = Z ∨ R ∈ derived := fun R => by
    rw [hzl, (hR _).mem_iff, List.mem_append, List.mem_singleton]
  have hle1 : ∀ p ∈ withPowers ks (l2 :: LB), 1 ≤ p.2 := fun p hp => (five ((mem_withPowers hkp _ p).mp hp).2).1
  have hZm : ∀ s t r, Z.Mem [s, t, r] ↔ (1 / 2 ≤ s ∧ s ≤ 1) ∧ (2 ≤ t ∧ t ≤ 1000000) ∧ (0 ≤ r ∧ r ≤ t) ∧ MuOk p s t r :=
    muUnion_mem p
  have hcapL : ∀ s t r, 1 / 2 ≤ s → t ≤ 2000 → LVOk (l2 :: LB) s t r → r ≤ 999999 := by
    intro s t r h1 h2 h
    obtain ⟨b, hb, hle⟩ := h l2 (by simp) 1 (by simp)
    unfold l2 at hb
    simp only [List.mem_cons, List.not_mem_nil, or_false] at hb
    unfold bval at hle
    rcases hb with rfl | rfl <;> norm_num at hle <;> linarith
  have htriv : ∀ s t r, 1 / 2 ≤ s → 2 ≤ t → LVOk (l2 :: LB) s t r → r ≤ t := by
    intro s t r h1 h2 h
    obtain ⟨b, hb, hle⟩ := h l2 (by simp) 1 (by simp)
    unfold l2 at hb
    simp only [List.mem_cons, List.not_mem_nil, or_false] at hb
    unfold bval at hle
    rcases hb with rfl | rfl <;> norm_num at hle <;> linarith
  have hG1 : Given (Allowed x0 1 tau0 (2 * tau0) (lv ++ tl)) x0 1 tau0 (2 * tau0) (powered (withPowers ks (l2 :: LB))) := by
    intro s t r
    unfold Allowed
    constructor
    · rintro ⟨s', t', r', e, k1, k2, k3, k4⟩
      simp only [List.cons.injEq, and_true] at e
      obtain ⟨rfl, rfl, rfl⟩ := e
      exact ⟨k1, k2, k3, (hB1.mem hle1 (by linarith [k1.1]) (by linarith [k1.2]) (by linarith [k2.1]) (by linarith [k2.2])
        k3.1 k3.2).mp k4⟩
    · rintro ⟨k1, k2, k3, k4⟩
      exact ⟨s, t, r, rfl, k1, k2, k3, (hB1.mem hle1 (by linarith [k1.1]) (by linarith [k1.2]) (by linarith [k2.1])
        (by linarith [k2.2]) k3.1 k3.2).mpr k4⟩
  have hG2 : GivenMu (Allowed x0 1 2 tau0 (lv ++ tl ++ zl)) x0 1 2 tau0 (powered (withPowers ks (l2 :: LB))) (MuOk p) := by
    have hmem : ∀ s t r, 2 ≤ t → ((∀ R ∈ lv ++ tl ++ zl, R.Mem [s, t, r]) ↔ (∀ R ∈ lv ++ tl, R.Mem [s, t, r]) ∧ Z.Mem [s, t, r]) := by
      intro s t r ht
      constructor
      · intro h
        exact ⟨fun R hR' => h R (List.mem_append_left _ hR'), h Z (List.mem_append_right _ ((hzm Z).mpr (.inl rfl)))⟩
      · rintro ⟨h, hz'⟩ R hR'
        rcases List.mem_append.mp hR' with hR' | hR'
        · exact h R hR'
        · rcases (hzm R).mp hR' with rfl | hR'
          · exact hz'
          · obtain ⟨R', hR'', rfl⟩ := List.mem_map.mp hR'
            rw [mem_pair]
            exact ⟨(tauTwo_contains _).mpr ⟨s, t, r, rfl, ht⟩, h R' hR''⟩
    intro s t r
    unfold Allowed
    constructor
    · rintro ⟨s', t', r', e, k1, k2, k3, k4⟩
      simp only [List.cons.injEq, and_true] at e
      obtain ⟨rfl, rfl, rfl⟩ := e
      obtain ⟨k5, k6⟩ := (hmem s t r k2.1).mp k4
      exact ⟨k1, k2, k3, (hB1.mem hle1 (by linarith [k1.1]) (by linarith [k1.2]) (by linarith [k2.1]) (by linarith [k2.2])
        k3.1 k3.2).mp k5, ((hZm s t r).mp k6).2.2.2⟩
    · rintro ⟨k1, k2, k3, k4, k5⟩
      exact ⟨s, t, r, rfl, k1, k2, k3, (hmem s t r k2.1).mpr ⟨(hB1.mem hle1 (by linarith [k1.1]) (by linarith [k1.2])
        (by linarith [k2.1]) (by linarith [k2.2]) k3.1 k3.2).mpr k4, (hZm s t r).mpr ⟨⟨by linarith [k1.1], k1.2⟩, ⟨k2.1, by linarith [k2.2]⟩,
          ⟨k3.1, htriv s t r (by linarith [k1.1]) k2.1 ((under_withPowers hkp _ _ _ _).mp k4)⟩, k5⟩⟩⟩
  have hposL : ∀ s t : ℚ, s < 1 → ∀ cs ∈ powered (withPowers ks (l2 :: LB)), ∃ c ∈ cs, 0 < bval c s t := by
    intro s t h1 cs hcs
    obtain ⟨p, hp, rfl⟩ := List.mem_map.mp hcs
    obtain ⟨k1, k2⟩ := (mem_withPowers hkp _ p).mp hp
    have h5 := five k2
    refine ⟨pw p.2 (2, -2, 0), List.mem_map.mpr ⟨_, ?_, rfl⟩, ?_⟩
    · rcases List.mem_cons.mp k1 with h | h
      · rw [h]; simp [l2]
      · exact hmv _ h
    · rw [bval_pw (by linarith)]
      unfold bval
      simp only
      nlinarith
  have hnegL : ∀ cs ∈ powered (withPowers ks (l2 :: LB)), ∀ c ∈ cs, c.2.1 < 0 := by
    intro cs hcs c hc
    obtain ⟨p, hp, rfl⟩ := List.mem_map.mp hcs
    obtain ⟨b, hb, rfl⟩ := List.mem_map.mp hc
    obtain ⟨k1, k2⟩ := (mem_withPowers hkp _ p).mp hp
    have h5 := five k2
    have : b.2.1 < 0 := by
      rcases List.mem_cons.mp k1 with h | h
      · rw [h] at hb
        unfold l2 at hb
        simp only [List.mem_cons, List.not_mem_nil, or_false] at hb
        rcases hb with rfl | rfl <;> norm_num
      · exact hdec _ h b hb
    unfold pw
    simp only
    nlinarith
  have hrs1 : ∀ r ∈ lv ++ tl, Hyp 4 (FullDim 4) r := by
    intro R hR'
    obtain ⟨p, _, hr⟩ := hB1.1 R hR'
    exact .inl (realises_plain hr)
  have hrs : ∀ r ∈ lv ++ tl ++ zl, Hyp 4 (OneThin 4 (muThin p.1 p.2).Contains) r := by
    intro R hR'
    rcases List.mem_append.mp hR' with hR' | hR'
    · obtain ⟨p, _, hr⟩ := hB1.1 R hR'
      obtain ⟨k1, k2⟩ := realises_plain hr
      exact .inl ⟨k1, fun m hm => oneThin_of_fullDim (k2 m hm)⟩
    · rcases (hzm R).mp hR' with rfl | hR'
      · refine .inl ⟨unionOf_plain _, fun m hm => ?_⟩
        rw [unionOf_leaves] at hm
        simp only [List.mem_cons, List.not_mem_nil, or_false] at hm
        rcases hm with rfl | rfl
        · exact muThin_oneThin _ _
        · exact oneThin_of_fullDim (muWide_fullDim _ _ tau0 htau (by linarith) hp1)
      · obtain ⟨R', hR'', rfl⟩ := List.mem_map.mp hR'
        obtain ⟨p, _, hr⟩ := hB1.1 R' hR''
        obtain ⟨k1, k2⟩ := realises_plain hr
        exact .inr ⟨tauTwo, none, R', rfl, tauTwo_unb, k1, fun m hm => oneThin_of_fullDim (k2 m hm)⟩
  have hQ : ∀ x, (muThin p.1 p.2).Contains x → Allowed x0 1 2 tau0 (lv ++ tl ++ zl) x := by
    intro x hxx
    obtain ⟨s, t, rfl, k1, k2, k3⟩ := (muThin_contains _ _ _).mp hxx
    have h1 : x0 ≤ s := by nlinarith
    have h2 : t ≤ tau0 := by
      by_contra hc
      nlinarith
    refine (hG2 s t 0).mpr ⟨⟨h1, k1.2⟩, ⟨k2.1, h2⟩, by norm_num, ?_, fun _ => rfl⟩
    rw [under_withPowers hkp]
    intro bs hbs k hk
    have h5 := five hk
    refine ⟨(2, -2, 0), ?_, ?_⟩
    · rcases List.mem_cons.mp hbs with h | h
      · rw [h]; simp [l2]
      · exact hmv _ h
    · unfold bval
      simp only
      nlinarith [k1.2]
  obtain ⟨ms1, d1, ms2, d2, o1, o2, _, _, h3, ⟨a1, a2, a3, a4⟩, b1, b2, b3, b4⟩ :=
    zd_core_one heng hneg hed hs hz lv (ks.map LargeValues.raiseToPower) tl t1 zl (by
      rw [hlv]; intro h; simpa [h] using (hR (unionOf ml :: lvs)).length_eq) hrs1 hrs x0 1 tau0 hx htau hQ true false
  have hq1 : ∀ s, x0 ≤ s → s < 1 → ∃ t r, RightLimit (Allowed x0 1 tau0 (2 * tau0) (lv ++ tl)) s t r ∧ 0 ≤ r / t :=
    fun s l1 l2 => some_of_pos hG1 (by linarith) (by linarith) l1 l2 (le_refl tau0) (by linarith) (hposL s tau0 l2)
  have hq2 : ∀ s, x0 ≤ s → s < 1 → ∃ t r, RightLimit (Allowed x0 1 2 tau0 (lv ++ tl ++ zl)) s t r ∧ 0 ≤ r / t := by
    intro s l1 l2
    obtain ⟨t, r, k1, k2⟩ := pos_of_mu hG2 (muLike_ok p) htau (by norm_num) hp hp1 l1 l2 (hposL s tau0 l2)
    exact ⟨t, r, k1, k2.le⟩
  have hmu : LargeValues.muToZlv [p] = .ok [Z] := by
    simp only [LargeValues.muToZlv, muRegion_eq, bind, Except.bind, pure, Except.pure, hZ]
  have hout : proveZeroDensity eng edges solve isZero orderR orderK lvs [Z] x0 1 tau0 =
      .ok (rfMax solve isZero (funcDomains o1 ++ funcDomains o2) ⟨x0, (1 : ℚ), true, false⟩ false) := by
    unfold proveZeroDensity
    rw [e1]
    simp only [bind, Except.bind]
    rw [← hlv, ← hks, lvToZlv_eq lv _ tl t1]
    exact h3
  have hpole : ∀ p ∈ o1 ++ o2, ∀ x, (x0 : ℝ) ≤ x → x < (1 : ℚ) → p.fn.NoCommonZero x := by
    intro f hf
    rcases List.mem_append.mp hf with hf | hf
    · exact noCommonZero_of_decreasing a1 a2 a3 a4 (higher_of_mem hG1 (by linarith) (by linarith) hnegL
        (fun s t r h => by
          obtain ⟨k1, k2, k3, k4⟩ := (hG1 s t r).mp h
          exact hcapL s t r (by linarith [k1.1]) (by linarith [k2.2]) ((under_withPowers hkp _ _ _ _).mp k4))) hq1 f hf
    · exact noCommonZero_of_decreasing b1 b2 b3 b4 (higher_of_mu hG2 (muLike_ok p) htau (by norm_num) hp hp1 hnegL
        (fun s t r h => by
          obtain ⟨k1, k2, k3, k4, _⟩ := (hG2 s t r).mp h
          exact hcapL s t r (by linarith [k1.1]) (by linarith [k2.2]) ((under_withPowers hkp _ _ _ _).mp k4))
        (fun s _ l2 => hposL s tau0 l2)) hq2 f hf
  refine ⟨[Z], _, hmu, hout, pieces_max hs hz hx a1 b1 hpole, fun s l1 l2 => ?_⟩
  obtain ⟨q, q1, q2, q3, q4, q5⟩ := zd_finish hs hz hx a1 a3 a4 b1 b3 b4 hpole s l1 l2
  refine ⟨q, q1, q2, q3, q4, ?_⟩
  have hg := greatest_of_mu hG1 hG2 (muLike_ok p) (by linarith) htau hp hp1 l2 (by
    obtain ⟨t, r, k1, k2⟩ := hq1 s l1 l2
    exact ⟨t, r, .inl k1, k2⟩) q5
  have e : RatioSet (Allowed x0 1 tau0 (2 * tau0) (lv ++ tl)) (Allowed x0 1 2 tau0 (lv ++ tl ++ zl)) s =
      {v : ℝ | ∃ t r, FeasibleMu LB p tau0 s t r ∧ v = ((r / t : ℚ) : ℝ)} := by
    ext v
    unfold RatioSet FeasibleMu
    simp only [Set.mem_ofPred_eq]
    constructor
    · rintro ⟨t, r, h | h, rfl⟩
      · obtain ⟨k1, k2, k3, k4⟩ := (hG1 s t r).mp h
        exact ⟨t, r, ⟨k3.1, (under_withPowers hkp _ _ _ _).mp k4, .inl k2⟩, rfl⟩
      · obtain ⟨k1, k2, k3, k4, k5⟩ := (hG2 s t r).mp h
        exact ⟨t, r, ⟨k3.1, (under_withPowers hkp _ _ _ _).mp k4, .inr ⟨k2.1, k2.2, k5⟩⟩, rfl⟩
    · rintro ⟨t, r, ⟨k1, k2, k3 | ⟨k3, k4, k5⟩⟩, rfl⟩
      · refine ⟨t, r, .inl ((hG1 s t r).mpr ⟨⟨l1, l2.le⟩, k3, ⟨k1, ?_⟩, (under_withPowers hkp _ _ _ _).mpr k2⟩), rfl⟩
        linarith [hcapL s t r (by linarith) (by linarith [k3.2]) k2]
      · refine ⟨t, r, .inr ((hG2 s t r).mpr ⟨⟨l1, l2.le⟩, ⟨k3, k4⟩, ⟨k1, ?_⟩, (under_withPowers hkp _ _ _ _).mpr k2, k5⟩), rfl⟩
        linarith [hcapL s t r (by linarith) (by linarith) k2]
  rw [← e]
  exact hg

/-- The bounds of Huxley's estimate. -/
def hux : List (ℚ × ℚ × ℚ) := [(2, -2, 0), (4, -6, 1)]

theorem hux_staggered : Staggered [] hux := by
  unfold hux Staggered Staggered Staggered bval
  refine ⟨⟨3 / 4, 1, 1 / 4, by norm_num⟩, ⟨3 / 4, 2, 1, by norm_num⟩, trivial⟩

theorem hux_cases {LB : List (List (ℚ × ℚ × ℚ))} {s t r : ℚ} (h : LVOk LB s t r) (hm : hux ∈ LB) (k : ℚ) (hk : k ∈ [(1 : ℚ), 2, 3, 4, 5]) :
    r ≤ k * (2 - 2 * s) ∨ r ≤ k * (4 - 6 * s) + t := by
  obtain ⟨b, hb, hle⟩ := h _ hm k hk
  have hk0 : k ≠ 0 := by have := five hk; intro h; linarith
  simp only [hux, List.mem_cons, List.not_mem_nil, or_false] at hb
  rcases hb with rfl | rfl
  · left; unfold bval at hle; linarith
  · right
    have e : k * bval (4, -6, 1) s (t / k) = k * (4 - 6 * s) + t := by unfold bval; field_simp; ring
    linarith

/-- **C90** (Huxley) `prove_zero_density_huxley_1972` returns `3 (1 - sigma) / (3 sigma - 1)` on `[3/4, 1)`. -/
theorem C90_huxley (C : Contracts eng edges solve isZero orderR orderK) :
    ∃ out, proveHuxley eng edges solve isZero orderR orderK = .ok out ∧
      IsBound (3 / 4) 1 out (fun x => 3 * (1 - x) / (3 * x - 1)) := by
  obtain ⟨R, e1, e2⟩ := covers_of C hux (by simp [hux]) hux_staggered
  replace e1 : LargeValues.convertBounds eng.canon Literature.huxley = .ok R := e1
  obtain ⟨zlvs, out, h0, h1, h2, h3⟩ := C90_value C [hux] [R] (1 / 2, 1 / 6) e2 (by decide +kernel) (by decide +kernel) (3 / 4) 3 (by norm_num)
    (by norm_num) (by norm_num) (by norm_num) (by norm_num) (by norm_num) (by norm_num)
  refine ⟨out, ?_, isBound_of_rat h2 ?_ fun s l1 l2 => ?_⟩
  · unfold proveHuxley
    rw [e1, h0]
    exact h1
  · intro x l1 l2
    push_cast at l1
    exact ContinuousAt.div (by fun_prop) (by fun_prop) (by intro h; linarith)
  obtain ⟨q, q1, q2, q3, _, q5⟩ := h3 s l1 l2
  refine ⟨q, q1, q2, q3, q5.unique ?_⟩
  have hu : 0 < 3 * s - 1 := by linarith
  have hW : 3 * (1 - (s : ℝ)) / (3 * s - 1) = ((3 * (1 - s) / (3 * s - 1) : ℚ) : ℝ) := by push_cast; rfl
  rw [hW]
  constructor
  · refine ⟨6 * s - 2, 6 * (1 - s), ⟨by linarith, ?_, ?_⟩, ?_⟩
    · refine lvOk_cons ?_ ?_ ?_ ?_ ?_ (lvOk_cons ?_ ?_ ?_ ?_ ?_ (lvOk_nil _ _ _))
      · exact ⟨(1, -2, 1), by simp [DerivedZD.l2], by unfold bval; linarith⟩
      · exact ⟨(1, -2, 1), by simp [DerivedZD.l2], by unfold bval; linarith⟩
      · exact ⟨(2, -2, 0), by simp [DerivedZD.l2], by unfold bval; linarith⟩
      · exact ⟨(2, -2, 0), by simp [DerivedZD.l2], by unfold bval; linarith⟩
      · exact ⟨(2, -2, 0), by simp [DerivedZD.l2], by unfold bval; linarith⟩
      · exact ⟨(4, -6, 1), by simp [hux], by unfold bval; linarith⟩
      · exact ⟨(4, -6, 1), by simp [hux], by unfold bval; linarith⟩
      · exact ⟨(2, -2, 0), by simp [hux], by unfold bval; linarith⟩
      · exact ⟨(2, -2, 0), by simp [hux], by unfold bval; linarith⟩
      · exact ⟨(2, -2, 0), by simp [hux], by unfold bval; linarith⟩
    · rcases le_total s (5 / 6) with h | h
      · exact .inr ⟨by linarith, by linarith, fun hc => by norm_num at hc; linarith⟩
      · exact .inl ⟨by linarith, by linarith⟩
    · have e : 3 * (1 - s) / (3 * s - 1) = 6 * (1 - s) / (6 * s - 2) := by
        rw [div_eq_div_iff hu.ne' (by linarith)]; ring
      rw [e]
  · rintro v ⟨t, r, ⟨r0, hok, hr⟩, rfl⟩
    have ht : 2 ≤ t ∧ t ≤ 6 := by rcases hr with hr | hr <;> constructor <;> linarith [hr.1, hr.2]
    have key : ∀ k ∈ [(1 : ℚ), 2, 3, 4, 5], t ≤ k * (3 * s - 1) → 2 * k * (3 * s - 1) ≤ 3 * t → r * (3 * s - 1) ≤ 3 * (1 - s) * t := by
      intro k hk k1 k2
      rcases hux_cases hok (by simp) k hk with h | h
      · calc r * (3 * s - 1) ≤ k * (2 - 2 * s) * (3 * s - 1) := mul_le_mul_of_nonneg_right h hu.le
          _ = (1 - s) * (2 * k * (3 * s - 1)) := by ring
          _ ≤ (1 - s) * (3 * t) := mul_le_mul_of_nonneg_left k2 (by linarith)
          _ = 3 * (1 - s) * t := by ring
      · have h4 : (6 * s - 4) * t ≤ (6 * s - 4) * (k * (3 * s - 1)) := mul_le_mul_of_nonneg_left k1 (by linarith)
        have h5 := mul_le_mul_of_nonneg_right h hu.le
        nlinarith
    have main : r * (3 * s - 1) ≤ 3 * (1 - s) * t := by
      rcases le_total t (3 * s - 1) with h1 | h1
      · exact key 1 (by simp) (by linarith) (by linarith)
      rcases lt_or_ge t (4 / 3 * (3 * s - 1)) with h2 | h2
      · have : r = 0 := by
          rcases hr with hr | ⟨hr1, hr2, hr3⟩
          · linarith [hr.1]
          · refine hr3 ?_
            norm_num
            linarith
        rw [this]
        nlinarith
      rcases le_total t (2 * (3 * s - 1)) with h3 | h3
      · exact key 2 (by simp) h3 (by linarith)
      rcases le_total t (3 * (3 * s - 1)) with h4 | h4
      · exact key 3 (by simp) h4 (by linarith)
      rcases le_total t (4 * (3 * s - 1)) with h5 | h5
      · exact key 4 (by simp) h5 (by linarith)
      · exact key 5 (by simp) (by linarith) (by linarith)
    have : r / t ≤ 3 * (1 - s) / (3 * s - 1) := by
      rw [div_le_div_iff₀ (by linarith) hu]
      exact main
    exact_mod_cast this

/-- The contracts can be met; at `4/5` the returned bound is `3/7`. -/
example : ∃ (eng : Engine) (edges : Mat → List (Pt × Pt)) (solve : RF ℝ → RF ℝ → List ℝ) (isZero : Expr ℝ → Bool)
    (orderR : List (Region ℕ) → List (Region ℕ)) (orderK : List ℚ → List ℚ) (out : List (Rational.Piece ℝ)),
    proveHuxley eng edges solve isZero orderR orderK = .ok out ∧ ∃ q ∈ out, q.dom.x0 ≤ 4 / 5 ∧ 4 / 5 < q.dom.x1 ∧ q.fn.at (4 / 5) = 3 / 7 := by
  obtain ⟨eng, edges, solve, isZero, orderR, orderK, C⟩ := contracts_satisfiable
  obtain ⟨out, h1, h2⟩ := C90_huxley C
  obtain ⟨q, q1, q2, q3, _, q5⟩ := h2 (4 / 5) (by norm_num) (by norm_num)
  exact ⟨eng, edges, solve, isZero, orderR, orderK, out, h1, q, q1, q2, q3, by rw [q5]; norm_num⟩

end DerivedZD
end Expdb
