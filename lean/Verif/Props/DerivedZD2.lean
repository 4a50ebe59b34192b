import Verif.Props.DerivedZDCases
import Verif.Model.DerivedZD2

/-!
# C87: zero density estimates by the second method

`prove_zero_density` with `method=2` (derived.py:277-363) calls `lv_zlv_to_zd2` (zero_density_estimate.py:389-465). Here the returned
pieces are determined from the greatest ratio `rho / tau` over the two regions.
-/

namespace Expdb
namespace DerivedZD

open Rational SupRatio Mat Region ZeroDensity

/-- For `s` in `[x0, x1]`, the triples of the set `A` above `s` are those with `tau` between two affine functions of `sigma` and `rho` under
the bounds `B`. -/
def Given2 (A : Pt → Prop) (x0 x1 : ℚ) (lo hi : ℚ × ℚ) (B : List (List (ℚ × ℚ × ℚ))) : Prop :=
  ∀ s t r, x0 ≤ s → s ≤ x1 → (A [s, t, r] ↔ (lo.1 + lo.2 * s ≤ t ∧ t ≤ hi.1 + hi.2 * s) ∧ (0 ≤ r ∧ r ≤ 1000000) ∧ Under B s t r)

/-- Points with `rho > 0` that are not at the right end are limits from the right of interior points. -/
theorem rightLimit_of_given2 {A : Pt → Prop} {x0 x1 : ℚ} {lo hi : ℚ × ℚ} {B : List (List (ℚ × ℚ × ℚ))} (hA : Given2 A x0 x1 lo hi B)
    {s t r : ℚ} (hw : lo.1 + lo.2 * s < hi.1 + hi.2 * s) (h : A [s, t, r]) (h1 : x0 ≤ s) (hs : s < x1) (hr : 0 < r) :
    RightLimit A s t r := by
  obtain ⟨⟨h3, h4⟩, ⟨_, h6⟩, h7⟩ := (hA s t r h1 hs.le).mp h
  obtain ⟨M0, m0, m2⟩ := slopes B
  set M := M0 + |lo.2| + |hi.2| with hMdef
  have a1 := abs_nonneg lo.2
  have a2 := abs_nonneg hi.2
  have m1 : 1 ≤ M := by linarith
  intro ε hε
  have hM : 0 < 10 * (M * M) := by nlinarith
  have hM6 : 0 < 12 * M := by linarith
  obtain ⟨η, e0, e1, e2, e3, e4⟩ : ∃ η : ℚ, 0 < η ∧ η * (10 * (M * M)) ≤ ε ∧ η * (10 * (M * M)) ≤ r ∧ η ≤ (x1 - s) / 2 ∧
      η * (12 * M) ≤ hi.1 + hi.2 * s - (lo.1 + lo.2 * s) := by
    refine ⟨min (min (ε / (10 * (M * M))) (r / (10 * (M * M)))) (min ((x1 - s) / 2) ((hi.1 + hi.2 * s - (lo.1 + lo.2 * s)) / (12 * M))),
      ?_, ?_, ?_, ?_, ?_⟩
    · exact lt_min (lt_min (by positivity) (by positivity)) (lt_min (by linarith) (div_pos (by linarith) hM6))
    · rw [← le_div_iff₀ hM]; exact (min_le_left _ _).trans (min_le_left _ _)
    · rw [← le_div_iff₀ hM]; exact (min_le_left _ _).trans (min_le_right _ _)
    · exact (min_le_right _ _).trans (min_le_left _ _)
    · rw [← le_div_iff₀ hM6]; exact (min_le_right _ _).trans (min_le_right _ _)
  have eM : η ≤ η * M := by nlinarith
  have eMM : η * M ≤ η * (M * M) := by nlinarith
  obtain ⟨t', f1, f2, f3⟩ : ∃ t' : ℚ, |t' - t| ≤ 3 * (η * M) ∧ lo.1 + lo.2 * s + 3 * (η * M) ≤ t' ∧ t' + 3 * (η * M) ≤ hi.1 + hi.2 * s := by
    have p : 0 < 3 * (η * M) := by nlinarith
    rcases le_total t ((lo.1 + lo.2 * s + (hi.1 + hi.2 * s)) / 2) with hle | hle
    · exact ⟨t + 3 * (η * M), by rw [add_sub_cancel_left, abs_of_pos p], by linarith, by linarith⟩
    · exact ⟨t - 3 * (η * M), by rw [sub_sub_cancel_left, abs_neg, abs_of_pos p], by linarith, by linarith⟩
  refine ⟨s + η, t', r - 8 * (η * (M * M)), ?_, by linarith, η / 2, by linarith, ?_⟩
  · refine .cons ?_ (.cons ?_ (.cons ?_ .nil))
    · rw [add_sub_cancel_left, abs_of_pos e0]; linarith
    · linarith
    · rw [sub_sub_cancel_left, abs_neg, abs_of_pos (by linarith)]; linarith
  · intro z hz
    obtain _ | ⟨n1, hz⟩ := hz
    obtain _ | ⟨n2, hz⟩ := hz
    obtain _ | ⟨n3, hz⟩ := hz
    cases hz
    rename_i u v w
    rw [abs_lt] at n1 n2 n3
    rw [abs_le] at f1
    have hus : |u - s| ≤ 2 * η := abs_le.mpr ⟨by linarith, by linarith⟩
    have k3 : |lo.2 * (u - s)| ≤ M * (2 * η) := by
      rw [abs_mul]
      exact mul_le_mul (by linarith) hus (abs_nonneg _) (by linarith)
    have k4 : |hi.2 * (u - s)| ≤ M * (2 * η) := by
      rw [abs_mul]
      exact mul_le_mul (by linarith) hus (abs_nonneg _) (by linarith)
    rw [abs_le] at k3 k4
    refine (hA _ _ _ (by linarith) (by linarith)).mpr ⟨⟨by nlinarith, by nlinarith⟩, ⟨by linarith, by linarith⟩, ?_⟩
    intro bs hbs
    obtain ⟨c, hc, hle⟩ := h7 bs hbs
    refine ⟨c, hc, ?_⟩
    obtain ⟨g1, g2⟩ := m2 bs hbs c hc
    unfold bval at hle ⊢
    have k1 : |c.2.1 * (u - s)| ≤ M * (2 * η) := by
      rw [abs_mul]
      exact mul_le_mul (by linarith) hus (abs_nonneg _) (by linarith)
    have k2 : |c.2.2 * (v - t)| ≤ M * (4 * (η * M)) := by
      rw [abs_mul]
      exact mul_le_mul (by linarith) (abs_le.mpr ⟨by linarith, by linarith⟩) (abs_nonneg _) (by linarith)
    rw [abs_le] at k1 k2
    have e5 : M * (4 * (η * M)) = 4 * (η * (M * M)) := by ring
    have e6 : M * (2 * η) = 2 * (η * M) := by ring
    linarith

theorem powered_one (LB : List (List (ℚ × ℚ × ℚ))) : powered (LB.map (fun bs => (bs, 1))) = LB := by
  unfold powered
  have h1 : pw 1 = id := by funext b; simp [pw]
  rw [List.map_map]
  simp [Function.comp_def, h1]

/-- Points reached from the right lie in a polytope that reaches further right. -/
theorem rightLimit_ratio2 {G : Mat → Prop} (hG : ∀ m, G m → m.cols = 4) (ls : List Mat) (hls : ∀ m ∈ ls, Base 4 m) {S : Pt → Prop}
    {ms : List Mat} (h : AppM Mat.Contains G (Generic 4 ls) S ms) {s t r : ℚ} (hlim : RightLimit S s t r) :
    ((r / t : ℚ) : ℝ) ∈ Ratios ms s := by
  obtain ⟨m, hm, hQ, hc⟩ := cover_near (n := 4) ms (fun m => ∃ s' t' r', m.Contains [s', t', r'] ∧ s < s') [s, t, r] rfl
    (fun m hm => hG m (h.good m hm)) (by
      intro ε hε
      obtain ⟨s', t', r', h1, h2, δ, h3, h4⟩ := hlim (ε / 2) (by linarith)
      have hε' : 0 < min (ε / 2) (s' - s) := lt_min (by linarith) (by linarith)
      obtain ⟨z, z1, z2⟩ := Region.Thin.generic_near ls hls [s', t', r'] rfl (lt_min hε' h3)
      obtain ⟨m, hm, hmz⟩ := h.cover z z2 (h4 z (z1.mono (min_le_right _ _)))
      have z1 := z1.mono (min_le_left _ _)
      refine ⟨z, (h1.trans (z1.mono (min_le_left _ _))).mono (by linarith), m, hm, ?_, hmz⟩
      have hl := z1.length
      match z, hl with
      | [a, b, c], _ =>
        refine ⟨a, b, c, hmz, ?_⟩
        have := (List.forall₂_cons.mp (z1.mono (min_le_right _ _))).1
        linarith [(abs_lt.mp this).1])
  exact ⟨m, hm, t, r, hc, hQ, rfl⟩

/-- The first domain of `lv_zlv_to_zd2`. -/
def domOne (m c x0 x1 : ℚ) : Mat :=
  ⟨4, [⟨false, -(2 / 3) * c, [-(2 / 3) * m, 1, 0]⟩, ⟨false, c, [m, -1, 0]⟩, ⟨false, -x0, [1, 0, 0]⟩, ⟨false, x1, [-1, 0, 0]⟩,
    ⟨false, 0, [0, 0, 1]⟩, ⟨false, 1000000, [0, 0, -1]⟩]⟩

/-- The second domain of `lv_zlv_to_zd2`. -/
def domTwo (m c : ℚ) : Mat := ⟨4, [⟨false, -2, [0, 1, 0]⟩, ⟨false, 4 / 3 * c, [4 / 3 * m, 1, 0]⟩]⟩

theorem domOne_eq (m c x0 x1 : ℚ) : zd2Domain m c x0 x1 = .ok (domOne m c x0 x1) := by
  simp [zd2Domain, sigmaRho, Mat.ofConstraints, Mat.ofRows, LargeValues.rowOf, Row.isZero, LargeValues.lvLimit, domOne]

theorem domTwo_eq (m c : ℚ) : zd2ZetaDomain m c = .ok (domTwo m c) := by
  simp [zd2ZetaDomain, Mat.ofConstraints, Mat.ofRows, LargeValues.rowOf, Row.isZero, domTwo]

theorem domOne_contains (m c x0 x1 : ℚ) (x : Pt) : (domOne m c x0 x1).Contains x ↔
    ∃ s t r, x = [s, t, r] ∧ (x0 ≤ s ∧ s ≤ x1) ∧ (2 / 3 * (m * s + c) ≤ t ∧ t ≤ m * s + c) ∧ (0 ≤ r ∧ r ≤ 1000000) := by
  obtain ⟨D, h1, h2⟩ := C70_domain m c x0 x1
  rw [domOne_eq] at h1
  obtain rfl := Except.ok.inj h1
  exact h2 x

theorem domTwo_contains (m c : ℚ) (x : Pt) : (domTwo m c).Contains x ↔
    ∃ s t r, x = [s, t, r] ∧ 2 ≤ t ∧ 0 ≤ 4 / 3 * (m * s + c) + t := by
  constructor
  · intro h
    have hl := contains_length h
    rw [contains_iff_holds _ _ hl] at h
    match x, hl with
    | [s, t, r], _ =>
      have h1 := (h ⟨false, -2, [0, 1, 0]⟩ (by simp [domTwo])).2 rfl
      have h2 := (h ⟨false, 4 / 3 * c, [4 / 3 * m, 1, 0]⟩ (by simp [domTwo])).2 rfl
      simp at h1 h2
      exact ⟨s, t, r, rfl, by linarith, by linarith⟩
  · rintro ⟨s, t, r, rfl, h1, h2⟩
    rw [contains_iff_holds _ _ rfl]
    intro q hq
    simp only [domTwo, List.mem_cons, List.not_mem_nil, or_false] at hq
    rcases hq with rfl | rfl <;> refine ⟨fun h => (by cases h), fun _ => ?_⟩ <;> simp <;> linarith

theorem domOne_fullDim (m c x0 x1 : ℚ) (hx : x0 < x1) (h0 : 0 < m * x0 + c) (h1 : 0 < m * x1 + c) : FullDim 4 (domOne m c x0 x1) := by
  have hmid : 0 < m * ((x0 + x1) / 2) + c := by linarith
  refine ⟨?_, rfl, ?_, ⟨|x0| + |x1| + (m * x0 + c) + (m * x1 + c) + 1000000, ?_⟩,
    [(x0 + x1) / 2, 5 / 6 * (m * ((x0 + x1) / 2) + c), 1], rfl, Strict.interior ?_⟩
  · intro r hr
    simp only [domOne, List.mem_cons, List.not_mem_nil, or_false] at hr
    rcases hr with rfl | rfl | rfl | rfl | rfl | rfl <;> rfl
  · intro r hr
    simp only [domOne, List.mem_cons, List.not_mem_nil, or_false] at hr
    rcases hr with rfl | rfl | rfl | rfl | rfl | rfl <;> simp [Row.isZero]
  · intro x hx' v hv
    obtain ⟨s, t, r, rfl, ⟨k1, k2⟩, ⟨k3, k4⟩, k5, k6⟩ := (domOne_contains m c x0 x1 x).mp hx'
    have hs : 0 < m * s + c := by
      rcases le_total 0 m with hm | hm <;> nlinarith
    have hs' : m * s + c ≤ (m * x0 + c) + (m * x1 + c) := by
      rcases le_total 0 m with hm | hm <;> nlinarith
    have b0 := abs_nonneg x0
    have b1 := abs_nonneg x1
    simp only [List.mem_cons, List.not_mem_nil, or_false] at hv
    rcases hv with rfl | rfl | rfl
    · rw [abs_le]; constructor <;> linarith [neg_abs_le x0, le_abs_self x1]
    · rw [abs_le]; constructor <;> linarith
    · rw [abs_le]; constructor <;> linarith
  · intro r hr
    simp only [domOne, List.mem_cons, List.not_mem_nil, or_false] at hr
    rcases hr with rfl | rfl | rfl | rfl | rfl | rfl <;> refine ⟨rfl, ?_⟩ <;> simp <;> linarith

theorem domTwo_unb (m c : ℚ) : Unb 4 (domTwo m c) := by
  have q : 0 ≤ |4 / 3 * c| := abs_nonneg _
  have q' : 0 ≤ 4 / 3 * c + |4 / 3 * c| := by linarith [neg_abs_le (4 / 3 * c)]
  refine ⟨⟨?_, rfl, ?_⟩, ⟨[0, 3 + |4 / 3 * c|, 0], rfl, Strict.interior ?_⟩, ?_⟩
  · intro r hr
    simp only [domTwo, List.mem_cons, List.not_mem_nil, or_false] at hr
    rcases hr with rfl | rfl <;> rfl
  · intro r hr
    simp only [domTwo, List.mem_cons, List.not_mem_nil, or_false] at hr
    rcases hr with rfl | rfl <;> simp [Row.isZero]
  · intro r hr
    simp only [domTwo, List.mem_cons, List.not_mem_nil, or_false] at hr
    rcases hr with rfl | rfl <;> refine ⟨rfl, ?_⟩
    · show 0 < -2 + dot [0, 1, 0] [0, 3 + |4 / 3 * c|, 0]
      simp only [dot]; linarith
    · show 0 < 4 / 3 * c + dot [4 / 3 * m, 1, 0] [0, 3 + |4 / 3 * c|, 0]
      simp only [dot]; linarith
  · rintro ⟨B, hB⟩
    have := hB [0, |B| + 3 + |4 / 3 * c|, 0] ((domTwo_contains _ _ _).mpr ⟨_, _, _, rfl, by linarith [abs_nonneg B], by
      have := abs_nonneg B
      linarith⟩) (|B| + 3 + |4 / 3 * c|) (by simp)
    rw [abs_of_nonneg (by linarith [abs_nonneg B])] at this
    linarith [le_abs_self B]

variable {eng : Engine} {edges : Mat → List (Pt × Pt)} {solve : RF ℝ → RF ℝ → List ℝ} {isZero : Expr ℝ → Bool}
  {orderR : List (Region ℕ) → List (Region ℕ)} {orderK : List ℚ → List ℚ}

/-- What `compute_large_value_region` and `compute_sup_rho_on_tau` give for the two domains. -/
theorem zd2_core (C : Contracts eng edges solve isZero orderR orderK) (lv zl : List (Region ℕ)) (hne : lv ≠ [])
    (hrs : ∀ r ∈ lv ++ zl, Hyp 4 (FullDim 4) r) (x0 x1 m c : ℚ) (hx : x0 < x1) (h0 : 0 < m * x0 + c) (h1 : 0 < m * x1 + c) :
    ∃ ms1 ms2 o1 o2, lvZlvToZd2 eng edges solve isZero lv [] zl x0 x1 true false m c =
        .ok (rfMax solve isZero (funcDomains o1 ++ funcDomains o2) ⟨x0, x1, true, false⟩ false) ∧
      (SupOut edges ⟨x0, x1, true, false⟩ ms1 o1 ∧ Chain x0 x1 o1 ∧
        (∀ s t r, RightLimit (fun x => (domOne m c x0 x1).Contains x ∧ ∀ R ∈ lv, R.Mem x) s t r → ((r / t : ℚ) : ℝ) ∈ Ratios ms1 s) ∧
        (∀ s, ∀ v ∈ Ratios ms1 s, ∃ t r, ((domOne m c x0 x1).Contains [s, t, r] ∧ ∀ R ∈ lv, R.Mem [s, t, r]) ∧ v = ((r / t : ℚ) : ℝ))) ∧
      (SupOut edges ⟨x0, x1, true, false⟩ ms2 o2 ∧ Chain x0 x1 o2 ∧
        (∀ s t r, RightLimit (fun x => (domTwo m c).Contains x ∧ ∀ R ∈ lv ++ zl, R.Mem x) s t r → ((r / t : ℚ) : ℝ) ∈ Ratios ms2 s) ∧
        (∀ s, ∀ v ∈ Ratios ms2 s, ∃ t r, ((domTwo m c).Contains [s, t, r] ∧ ∀ R ∈ lv ++ zl, R.Mem [s, t, r]) ∧ v = ((r / t : ℚ) : ℝ))) := by
  have hD : ((⟨x0, x1, true, false⟩ : Ival ℝ)).x0 < (⟨x0, x1, true, false⟩ : Ival ℝ).x1 := by simpa using hx
  have hall : ∀ r ∈ Region.polytope (domOne m c x0 x1) none :: lv, Hyp 4 (FullDim 4) r := by
    intro r hr
    rcases List.mem_cons.mp hr with rfl | hr
    · exact .inl ⟨by simp [Plain], by simpa [leaves] using domOne_fullDim m c x0 x1 hx h0 h1⟩
    · exact hrs r (List.mem_append_left _ hr)
  obtain ⟨ms1, d1, a1, a2, _⟩ := region_full C.engine (n := 4) (by norm_num) (.polytope (domOne m c x0 x1) none) lv hne hall (.inl C.neg)
  obtain ⟨ms2, d2, b1, b2, _⟩ := region_unb C.engine C.neg (n := 4) (by norm_num) (domTwo m c) (domTwo_unb m c) (lv ++ zl) (by simp [hne]) hrs
  have a3 : ∀ p ∈ ms1, EdgesSpec edges p ∧ p.cols = 4 ∧ ∀ s t r, p.Contains [s, t, r] → 0 < t := by
    intro p hp
    refine ⟨C.edge p (a2.good p hp).cols (a2.good p hp).bounded, (a2.good p hp).cols, ?_⟩
    intro s t r hc
    have := a2.sound p hp _ hc (.polytope (domOne m c x0 x1) none) (by simp)
    rw [Mem, domOne_contains] at this
    obtain ⟨s', t', r', e, k1, k2, _⟩ := this
    simp only [List.cons.injEq, and_true] at e
    obtain ⟨rfl, rfl, rfl⟩ := e
    have hs : 0 < m * s + c := by
      rcases le_total 0 m with hm | hm <;> nlinarith
    linarith
  have b3 : ∀ p ∈ ms2, EdgesSpec edges p ∧ p.cols = 4 ∧ ∀ s t r, p.Contains [s, t, r] → 0 < t := by
    intro p hp
    refine ⟨C.edge p (b2.good p hp).cols (b2.good p hp).bounded, (b2.good p hp).cols, ?_⟩
    intro s t r hc
    obtain ⟨s', t', r', e, k1, _⟩ := (domTwo_contains m c _).mp (b2.sound p hp _ hc).1
    simp only [List.cons.injEq, and_true] at e
    obtain ⟨rfl, rfl, rfl⟩ := e
    linarith
  obtain ⟨o1, g1, g2, g5⟩ := supOut_chain edges solve C.solves isZero C.zero ms1 ⟨x0, x1, true, false⟩ hD a3
  obtain ⟨o2, g3, g4, g6⟩ := supOut_chain edges solve C.solves isZero C.zero ms2 ⟨x0, x1, true, false⟩ hD b3
  refine ⟨ms1, ms2, o1, o2, ?_, ⟨g2, g5, ?_, ?_⟩, g4, g6, ?_, ?_⟩
  · unfold lvZlvToZd2 allHyps LargeValues.applyTransforms
    simp only [bind, Except.bind, pure, Except.pure, Bool.false_eq_true, if_false, List.append_nil, if_true, domOne_eq, domTwo_eq]
    rw [a1]
    simp only
    rw [g1]
    simp only
    rw [b1]
    simp only
    rw [g3]
  · intro s t r hl
    refine rightLimit_ratio (P := FullDim 4) (fun m hm => base_of_fullDim hm) (fun _ _ h => h) (fun m hm => hm.cols) _ hall a2 ?_
    intro ε hε
    obtain ⟨s', t', r', k1, k2, δ, k3, k4⟩ := hl ε hε
    refine ⟨s', t', r', k1, k2, δ, k3, fun z hz R hR => ?_⟩
    rcases List.mem_cons.mp hR with rfl | hR
    · rw [Mem]; exact (k4 z hz).1
    · exact (k4 z hz).2 R hR
  · rintro s v ⟨p, hp, t, r, hc, _, rfl⟩
    have := a2.sound p hp _ hc
    exact ⟨t, r, ⟨by simpa [Mem] using this _ (List.mem_cons_self ..), fun R hR => this R (List.mem_cons_of_mem _ hR)⟩, rfl⟩
  · intro s t r hl
    refine rightLimit_ratio2 (fun m hm => hm.cols) _ ?_ b2 hl
    intro q hq
    rcases List.mem_cons.mp hq with rfl | hq
    · exact (domTwo_unb m c).toBase
    · obtain ⟨R, hR, hq⟩ := (mem_leavesList _ _).mp hq
      exact hyp_base (fun m hm => base_of_fullDim hm) (hrs R hR) q hq
  · rintro s v ⟨p, hp, t, r, hc, _, rfl⟩
    exact ⟨t, r, b2.sound p hp _ hc, rfl⟩

/-- **C87** (general part) Let `n1 / u1` be the greatest ratio `rho / tau` over all `(tau, rho)` with `tau` between `2/3 tau0` and `tau0` that
obey the large value estimates, and `n2 / u2` the greatest ratio over all `(tau, rho)` with `tau` between `2` and `10 ^ 6` that obey the large
value estimates and the zeta large value estimates; suppose that both are strictly decreasing in `sigma`. Then `prove_zero_density`
with `method=2` does not raise and returns their maximum. The claim wants the second maximum over `2 ≤ tau ≤ 4/3 tau0` only; the code does not
limit `tau` from above (`C70_zeta_counterexample`), and the consequences are in `Props/DerivedZD2Cases`. -/
theorem C87_value_partial (C : Contracts eng edges solve isZero orderR orderK) (LB ZB : List (List (ℚ × ℚ × ℚ))) (lvs zlvs : List (Region ℕ))
    (hL : Covers lvs (LB.map (fun bs => (bs, 1)))) (hZ : Covers zlvs (ZB.map (fun bs => (bs, 1)))) (x0 x1 m c : ℚ) (hx : x0 < x1)
    (hx0 : 1 / 2 ≤ x0) (hx1 : x1 ≤ 1) (ht0 : 0 < m * x0 + c) (ht1 : 0 < m * x1 + c) (hm0 : m * x0 + c ≤ 1000000) (hm1 : m * x1 + c ≤ 1000000)
    (n1 u1 n2 u2 : ℚ → ℚ) (W : ℝ → ℝ)
    (hu1 : ∀ s, x0 ≤ s → s < x1 → 0 < u1 s) (hu2 : ∀ s, x0 ≤ s → s < x1 → 0 < u2 s)
    (hW : ∀ s, x0 ≤ s → s < x1 → W s = ((max (n1 s / u1 s) (n2 s / u2 s) : ℚ) : ℝ))
    (hWc : ∀ x : ℝ, x0 ≤ x → x < x1 → ContinuousAt W x)
    (hd1 : ∀ s s', x0 ≤ s → s < s' → s' < x1 → n1 s' * u1 s < n1 s * u1 s')
    (hd2 : ∀ s s', x0 ≤ s → s < s' → s' < x1 → n2 s' * u2 s < n2 s * u2 s')
    (hatt1 : ∀ s, x0 ≤ s → s < x1 → ∃ t r, (2 / 3 * (m * s + c) ≤ t ∧ t ≤ m * s + c) ∧ (0 < r ∧ r ≤ 1000000) ∧ Under (l2 :: LB) s t r ∧
      r * u1 s = n1 s * t)
    (hatt2 : ∀ s, x0 ≤ s → s < x1 → ∃ t r, (2 ≤ t ∧ t ≤ 1000000) ∧ (0 < r ∧ r ≤ 1000000) ∧ Under (l2 :: LB ++ ZB) s t r ∧
      r * u2 s = n2 s * t)
    (hub1 : ∀ s t r, x0 ≤ s → s < x1 → 2 / 3 * (m * s + c) ≤ t → t ≤ m * s + c → 0 ≤ r → Under (l2 :: LB) s t r → r * u1 s ≤ n1 s * t)
    (hub2 : ∀ s t r, x0 ≤ s → s < x1 → 2 ≤ t → t ≤ 1000000 → 0 ≤ r → Under (l2 :: LB ++ ZB) s t r → r * u2 s ≤ n2 s * t) :
    ∃ out, proveZeroDensity2 eng edges solve isZero orderR lvs zlvs x0 x1 m c = .ok out ∧ IsBound x0 x1 out W := by
  obtain ⟨ml, e1, _, _⟩ := convert_full C.engine.canon C.engine.canonNoZero l2 (by simp [l2]) l2_staggered
  have hl2 := realises_convert C.engine.canon C.engine.canonNoZero l2 (by simp [l2]) l2_staggered e1
  replace e1 : LargeValues.convertBounds eng.canon l2Bounds = .ok (unionOf ml) := e1
  set lv := orderR (unionOf ml :: lvs) with hlv
  have hcl : Covers lv ((l2 :: LB).map (fun bs => (bs, 1))) := by
    refine Covers.perm ?_ (C.permR _)
    have : Covers [unionOf ml] [(l2, 1)] := ⟨by simpa using hl2, by simpa using hl2⟩
    exact this.append hL
  set derived : List (Region ℕ) := lv.map (fun r => .intersect [.polytope tauTwo none, r]) with hder
  set zl := orderR (zlvs ++ derived) with hzl
  have hzm : ∀ R, R ∈ zl ↔ R ∈ zlvs ∨ R ∈ derived := fun R => by rw [hzl, (C.permR _).mem_iff, List.mem_append]
  have hcz : Covers (lv ++ zlvs) ((l2 :: LB ++ ZB).map (fun bs => (bs, 1))) := by
    rw [List.map_append]; exact hcl.append hZ
  have hne : lv ≠ [] := by
    rw [hlv]; intro h; simpa [h] using (C.permR (unionOf ml :: lvs)).length_eq
  have hone : ∀ B : List (List (ℚ × ℚ × ℚ)), ∀ p ∈ B.map (fun bs => (bs, (1 : ℚ))), 1 ≤ p.2 := by
    intro B p hp
    obtain ⟨bs, _, rfl⟩ := List.mem_map.mp hp
    exact le_refl _
  have htau : ∀ s, x0 ≤ s → s ≤ x1 → 0 < m * s + c ∧ m * s + c ≤ 1000000 := by
    intro s k1 k2
    rcases le_total 0 m with hm | hm <;> constructor <;> nlinarith
  have hrs : ∀ r ∈ lv ++ zl, Hyp 4 (FullDim 4) r := by
    intro R hR'
    rcases List.mem_append.mp hR' with hR' | hR'
    · obtain ⟨p, _, hr⟩ := hcl.1 R hR'
      exact .inl (realises_plain hr)
    · rcases (hzm R).mp hR' with hR' | hR'
      · obtain ⟨p, _, hr⟩ := hZ.1 R hR'
        exact .inl (realises_plain hr)
      · obtain ⟨R', hR'', rfl⟩ := List.mem_map.mp hR'
        obtain ⟨p, _, hr⟩ := hcl.1 R' hR''
        exact .inr ⟨tauTwo, none, R', rfl, tauTwo_unb, realises_plain hr⟩
  obtain ⟨ms1, ms2, o1, o2, h3, ⟨a1, a2, a3, a4⟩, b1, b2, b3, b4⟩ := zd2_core C lv zl hne hrs x0 x1 m c hx ht0 ht1
  set A1 : Pt → Prop := fun x => (domOne m c x0 x1).Contains x ∧ ∀ R ∈ lv, R.Mem x with hA1
  set A2 : Pt → Prop := fun x => (domTwo m c).Contains x ∧ ∀ R ∈ lv ++ zl, R.Mem x with hA2
  have hG1 : Given2 A1 x0 x1 (2 / 3 * c, 2 / 3 * m) (c, m) (l2 :: LB) := by
    intro s t r k1 k2
    obtain ⟨t1, t2⟩ := htau s k1 k2
    have hmem : ∀ (_ : 2 / 3 * (m * s + c) ≤ t) (_ : t ≤ m * s + c) (_ : 0 ≤ r) (_ : r ≤ 1000000),
        ((∀ R ∈ lv, R.Mem [s, t, r]) ↔ Under (l2 :: LB) s t r) := by
      intro q1 q2 q3 q4
      have := hcl.mem (hone _) (s := s) (t := t) (r := r) (by linarith) (by linarith) (by linarith) (by linarith) q3 q4
      rwa [powered_one] at this
    constructor
    · rintro ⟨h, hR⟩
      obtain ⟨s', t', r', e, _, k4, k5⟩ := (domOne_contains _ _ _ _ _).mp h
      simp only [List.cons.injEq, and_true] at e
      obtain ⟨rfl, rfl, rfl⟩ := e
      exact ⟨⟨by linarith [k4.1], by linarith [k4.2]⟩, k5, (hmem k4.1 k4.2 k5.1 k5.2).mp hR⟩
    · rintro ⟨⟨q1, q2⟩, ⟨q3, q4⟩, q5⟩
      have q1 : 2 / 3 * (m * s + c) ≤ t := by linarith
      have q2 : t ≤ m * s + c := by linarith
      exact ⟨(domOne_contains _ _ _ _ _).mpr ⟨s, t, r, rfl, ⟨k1, k2⟩, ⟨q1, q2⟩, q3, q4⟩, (hmem q1 q2 q3 q4).mpr q5⟩
  have hG2 : Given2 A2 x0 x1 (2, 0) (1000000, 0) (l2 :: LB ++ ZB) := by
    intro s t r k1 k2
    obtain ⟨t1, t2⟩ := htau s k1 k2
    have hmem : ∀ (_ : 2 ≤ t) (_ : t ≤ 1000000) (_ : 0 ≤ r) (_ : r ≤ 1000000),
        ((∀ R ∈ lv ++ zl, R.Mem [s, t, r]) ↔ Under (l2 :: LB ++ ZB) s t r) := by
      intro q1 q2 q3 q4
      have := hcz.mem (hone _) (s := s) (t := t) (r := r) (by linarith) (by linarith) (by linarith) (by linarith) q3 q4
      rw [powered_one] at this
      rw [← this]
      constructor
      · intro h R hR'
        rcases List.mem_append.mp hR' with hR' | hR'
        · exact h R (List.mem_append_left _ hR')
        · exact h R (List.mem_append_right _ ((hzm R).mpr (.inl hR')))
      · intro h R hR'
        rcases List.mem_append.mp hR' with hR' | hR'
        · exact h R (List.mem_append_left _ hR')
        · rcases (hzm R).mp hR' with hR' | hR'
          · exact h R (List.mem_append_right _ hR')
          · obtain ⟨R', hR'', rfl⟩ := List.mem_map.mp hR'
            rw [mem_pair]
            exact ⟨(tauTwo_contains _).mpr ⟨s, t, r, rfl, q1⟩, h R' (List.mem_append_left _ hR'')⟩
    constructor
    · rintro ⟨h, hR⟩
      obtain ⟨s', t', r', e, k3, _⟩ := (domTwo_contains _ _ _).mp h
      simp only [List.cons.injEq, and_true] at e
      obtain ⟨rfl, rfl, rfl⟩ := e
      obtain ⟨R, hRl⟩ := List.exists_mem_of_ne_nil lv hne
      obtain ⟨p, hp, hr⟩ := hcl.1 R hRl
      obtain ⟨bs, _, rfl⟩ := List.mem_map.mp hp
      obtain ⟨⟨_, _, i3⟩, _⟩ := (hr.2 s t r).mp (hR R (List.mem_append_left _ hRl))
      rw [div_one, div_one] at i3
      obtain ⟨_, q2, q3, q4⟩ := i3
      exact ⟨⟨by simpa using k3, by simpa using q2⟩, ⟨q3, q4⟩, (hmem k3 q2 q3 q4).mp hR⟩
    · rintro ⟨⟨q1, q2⟩, ⟨q3, q4⟩, q5⟩
      have q1 : 2 ≤ t := by simpa using q1
      have q2 : t ≤ 1000000 := by simpa using q2
      exact ⟨(domTwo_contains _ _ _).mpr ⟨s, t, r, rfl, q1, by linarith⟩, (hmem q1 q2 q3 q4).mpr q5⟩
  have hR1 : ∀ s, x0 ≤ s → s < x1 → ∃ t r, RightLimit A1 s t r ∧ 0 < r ∧ 0 < t ∧ r * u1 s = n1 s * t := by
    intro s k1 k2
    obtain ⟨t, r, ⟨q1, q2⟩, ⟨q3, q4⟩, q5, q6⟩ := hatt1 s k1 k2
    obtain ⟨t1, t2⟩ := htau s k1 k2.le
    refine ⟨t, r, rightLimit_of_given2 hG1 (by simp only; linarith) ((hG1 s t r k1 k2.le).mpr ⟨⟨by simp only; linarith, by simp only; linarith⟩, ⟨q3.le, q4⟩, q5⟩) k1 k2 q3, q3,
      by linarith, q6⟩
  have hR2 : ∀ s, x0 ≤ s → s < x1 → ∃ t r, RightLimit A2 s t r ∧ 0 < r ∧ 0 < t ∧ r * u2 s = n2 s * t := by
    intro s k1 k2
    obtain ⟨t, r, ⟨q1, q2⟩, ⟨q3, q4⟩, q5, q6⟩ := hatt2 s k1 k2
    refine ⟨t, r, rightLimit_of_given2 hG2 (by norm_num) ((hG2 s t r k1 k2.le).mpr ⟨⟨by simpa using q1, by simpa using q2⟩, ⟨q3.le, q4⟩, q5⟩)
      k1 k2 q3, q3, by linarith, q6⟩
  have hle1 : ∀ s t r, x0 ≤ s → s < x1 → A1 [s, t, r] → 0 < t ∧ r * u1 s ≤ n1 s * t := by
    intro s t r k1 k2 h
    obtain ⟨⟨q1, q2⟩, ⟨q3, q4⟩, q5⟩ := (hG1 s t r k1 k2.le).mp h
    obtain ⟨t1, t2⟩ := htau s k1 k2.le
    simp only at q1 q2
    exact ⟨by linarith, hub1 s t r k1 k2 (by linarith) (by linarith) q3 q5⟩
  have hle2 : ∀ s t r, x0 ≤ s → s < x1 → A2 [s, t, r] → 0 < t ∧ r * u2 s ≤ n2 s * t := by
    intro s t r k1 k2 h
    obtain ⟨⟨q1, q2⟩, ⟨q3, q4⟩, q5⟩ := (hG2 s t r k1 k2.le).mp h
    simp only at q1 q2
    exact ⟨by linarith, hub2 s t r k1 k2 (by linarith) (by linarith) q3 q5⟩
  have hpole : ∀ p ∈ o1 ++ o2, ∀ x, (x0 : ℝ) ≤ x → x < x1 → p.fn.NoCommonZero x := by
    have go : ∀ (A : Pt → Prop) (n u : ℚ → ℚ), (∀ s, x0 ≤ s → s < x1 → 0 < u s) →
        (∀ s s', x0 ≤ s → s < s' → s' < x1 → n s' * u s < n s * u s') →
        (∀ s, x0 ≤ s → s < x1 → ∃ t r, RightLimit A s t r ∧ 0 < r ∧ 0 < t ∧ r * u s = n s * t) →
        (∀ s t r, x0 ≤ s → s < x1 → A [s, t, r] → 0 < t ∧ r * u s ≤ n s * t) →
        (∀ s s' t r, x0 ≤ s → s < s' → s' < x1 → A [s', t, r] → ∃ t' r', RightLimit A s t' r' ∧ r / t < r' / t') ∧
        ∀ s, x0 ≤ s → s < x1 → ∃ t r, RightLimit A s t r ∧ 0 ≤ r / t := by
      intro A n u hu hd hR hle
      constructor
      · intro s s' t r k1 k2 k3 h
        obtain ⟨t', r', g1, g2, g3, g4⟩ := hR s k1 (k2.trans k3)
        obtain ⟨g5, g6⟩ := hle s' t r (k1.trans k2.le) k3 h
        refine ⟨t', r', g1, ?_⟩
        have e : r' / t' = n s / u s := by
          rw [div_eq_div_iff g3.ne' (hu s k1 (k2.trans k3)).ne', g4]
        have e' : r / t ≤ n s' / u s' := by
          rw [div_le_div_iff₀ g5 (hu s' (k1.trans k2.le) k3)]; exact g6
        rw [e]
        refine lt_of_le_of_lt e' ?_
        rw [div_lt_div_iff₀ (hu s' (k1.trans k2.le) k3) (hu s k1 (k2.trans k3))]
        exact hd s s' k1 k2 k3
      · intro s k1 k2
        obtain ⟨t', r', g1, g2, g3, g4⟩ := hR s k1 k2
        exact ⟨t', r', g1, (div_pos g2 g3).le⟩
    intro p hp
    rcases List.mem_append.mp hp with hp | hp
    · obtain ⟨k1, k2⟩ := go A1 n1 u1 hu1 hd1 hR1 hle1
      exact noCommonZero_of_decreasing a1 a2 a3 a4 k1 k2 p hp
    · obtain ⟨k1, k2⟩ := go A2 n2 u2 hu2 hd2 hR2 hle2
      exact noCommonZero_of_decreasing b1 b2 b3 b4 k1 k2 p hp
  refine ⟨_, ?_, isBound_of_rat (pieces_max C.solves C.zero hx a1 b1 hpole) hWc fun s l1 l2 => ?_⟩
  · unfold proveZeroDensity2
    rw [e1]
    simp only [bind, Except.bind]
    rw [← hlv, lvToZlv_tauTwo]
    exact h3
  · obtain ⟨q, q1, q2, q3, q4, q5⟩ := zd_finish C.solves C.zero hx a1 a3 a4 b1 b3 b4 hpole s l1 l2
    refine ⟨q, q1, q2, q3, ?_⟩
    obtain ⟨t1, r1, p1, p2, p3, p4⟩ := hR1 s l1 l2
    obtain ⟨t2, r2, p5, p6, p7, p8⟩ := hR2 s l1 l2
    have f1 : r1 / t1 = n1 s / u1 s := by rw [div_eq_div_iff p3.ne' (hu1 s l1 l2).ne', p4]
    have f2 : r2 / t2 = n2 s / u2 s := by rw [div_eq_div_iff p7.ne' (hu2 s l1 l2).ne', p8]
    have g1 := q5.1 t1 r1 (.inl p1)
    have g2 := q5.1 t2 r2 (.inr p5)
    rw [f1] at g1
    rw [f2] at g2
    rw [hW s l1 l2]
    refine le_antisymm ?_ (by push_cast; push_cast at g1 g2; exact max_le g1 g2)
    have g3 : (0 : ℝ) < q.fn.at s := by
      refine lt_of_lt_of_le ?_ g1
      rw [← f1]
      exact_mod_cast div_pos p2 p3
    rcases q5.2 with h | ⟨t, r, h | h, e⟩
    · rw [h] at g3; norm_num at g3
    · obtain ⟨k1, k2⟩ := hle1 s t r l1 l2 h
      rw [e]
      have : r / t ≤ n1 s / u1 s := by rw [div_le_div_iff₀ k1 (hu1 s l1 l2)]; exact k2
      exact_mod_cast this.trans (le_max_left _ _)
    · obtain ⟨k1, k2⟩ := hle2 s t r l1 l2 h
      rw [e]
      have : r / t ≤ n2 s / u2 s := by rw [div_le_div_iff₀ k1 (hu2 s l1 l2)]; exact k2
      exact_mod_cast this.trans (le_max_right _ _)

end DerivedZD
end Expdb
