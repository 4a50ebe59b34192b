import Verif.Props.DerivedMu
import Verif.Props.DerivedZD2Cases

/-!
# C90, second method: what `prove_zero_density_huxley_1972_v2` returns
-/

namespace Expdb
namespace DerivedZD

open Rational SupRatio Mat Region ZeroDensity

variable {eng : Engine} {edges : Mat → List (Pt × Pt)} {solve : RF ℝ → RF ℝ → List ℝ} {isZero : Expr ℝ → Bool}
  {orderR : List (Region ℕ) → List (Region ℕ)} {orderK : List ℚ → List ℚ}

/-- Points reached from the right lie in a polytope that reaches further right. -/
theorem rightLimit_ratio3 {M : Mat → Pt → Prop} (hM : ∀ m x, M m x → m.Contains x) {G : Mat → Prop} (hG : ∀ m, G m → m.cols = 4) (ls : List Mat)
    (hls : ∀ m ∈ ls, Base 4 m) {S : Pt → Prop} {ms : List Mat} (h : AppM M G (Generic 4 ls) S ms) {s t r : ℚ} (hlim : RightLimit S s t r) :
    ((r / t : ℚ) : ℝ) ∈ Ratios ms s := by
  obtain ⟨m, hm, hQ, hc⟩ := cover_near (n := 4) ms (fun m => ∃ s' t' r', m.Contains [s', t', r'] ∧ s < s') [s, t, r] rfl
    (fun m hm => hG m (h.good m hm)) (by
      intro ε hε
      obtain ⟨s', t', r', h1, h2, δ, h3, h4⟩ := hlim (ε / 2) (by linarith)
      have hε' : 0 < min (ε / 2) (s' - s) := lt_min (by linarith) (by linarith)
      obtain ⟨z, z1, z2⟩ := Region.Thin.generic_near ls hls [s', t', r'] rfl (lt_min hε' h3)
      obtain ⟨m, hm, hmz⟩ := h.cover z z2 (h4 z (z1.mono (min_le_right _ _)))
      have hmz := hM _ _ hmz
      have z1 := z1.mono (min_le_left _ _)
      refine ⟨z, (h1.trans (z1.mono (min_le_left _ _))).mono (by linarith), m, hm, ?_, hmz⟩
      have hl := z1.length
      match z, hl with
      | [a, b, c], _ =>
        refine ⟨a, b, c, hmz, ?_⟩
        have := (List.forall₂_cons.mp (z1.mono (min_le_right _ _))).1
        linarith [(abs_lt.mp this).1])
  exact ⟨m, hm, t, r, hc, hQ, rfl⟩

/-- `zd2_core` where the zeta large value estimates have polytopes with the points `Q`, which are allowed. -/
theorem zd2_core_one {Q : Pt → Prop} (C : Contracts eng edges solve isZero orderR orderK) (lv zl : List (Region ℕ)) (hne : lv ≠ [])
    (hrs1 : ∀ r ∈ lv, Hyp 4 (FullDim 4) r) (hrs : ∀ r ∈ lv ++ zl, Hyp 4 (OneThin 4 Q) r) (x0 x1 m c : ℚ)
    (hQ : ∀ x, Q x → (domTwo m c).Contains x ∧ ∀ R ∈ lv ++ zl, R.Mem x) (hx : x0 < x1) (h0 : 0 < m * x0 + c) (h1 : 0 < m * x1 + c) :
    ∃ ms1 ms2 o1 o2, lvZlvToZd2 eng edges solve isZero lv [] zl x0 x1 true false m c =
        .ok (rfMax solve isZero (funcDomains o1 ++ funcDomains o2) ⟨x0, x1, true, false⟩ false) ∧
      (SupOut edges ⟨x0, x1, true, false⟩ ms1 o1 ∧ Chain x0 x1 o1 ∧
        (∀ s t r, RightLimit (fun x => (domOne m c x0 x1).Contains x ∧ ∀ R ∈ lv, R.Mem x) s t r → ((r / t : ℚ) : ℝ) ∈ Ratios ms1 s) ∧
        (∀ s, ∀ v ∈ Ratios ms1 s, ∃ t r, ((domOne m c x0 x1).Contains [s, t, r] ∧ ∀ R ∈ lv, R.Mem [s, t, r]) ∧ v = ((r / t : ℚ) : ℝ))) ∧
      (SupOut edges ⟨x0, x1, true, false⟩ ms2 o2 ∧ Chain x0 x1 o2 ∧
        (∀ s t r, RightLimit (fun x => (domTwo m c).Contains x ∧ ∀ R ∈ lv ++ zl, R.Mem x) s t r → ((r / t : ℚ) : ℝ) ∈ Ratios ms2 s) ∧
        (∀ s, ∀ v ∈ Ratios ms2 s, ∃ t r, ((domTwo m c).Contains [s, t, r] ∧ ∀ R ∈ lv ++ zl, R.Mem [s, t, r]) ∧ v = ((r / t : ℚ) : ℝ))) := by
  have hD : ((⟨x0, x1, true, false⟩ : Ival ℝ)).x0 < (⟨x0, x1, true, false⟩ : Ival ℝ).x1 := by simpa using hx
  have hall : ∀ r ∈ Region.polytope (domOne m c x0 x1) none :: lv, Hyp 4 (FullDim 4) r := by
    intro r hr
    rcases List.mem_cons.mp hr with rfl | hr
    · exact .inl ⟨by simp [Plain], by simpa [leaves] using domOne_fullDim m c x0 x1 hx h0 h1⟩
    · exact hrs1 r hr
  obtain ⟨ms1, d1, a1, a2, _⟩ := region_full C.engine (n := 4) (by norm_num) (.polytope (domOne m c x0 x1) none) lv hne hall (.inl C.neg)
  obtain ⟨ms2, d2, b1, b2, _⟩ := region_unb_one C.engine C.neg (n := 4) (by norm_num) (domTwo m c) (domTwo_unb m c) (lv ++ zl) (by simp [hne]) hrs
  have sound : ∀ p ∈ ms2, ∀ x, p.Contains x → (domTwo m c).Contains x ∧ ∀ R ∈ lv ++ zl, R.Mem x := by
    intro p hp x hx
    rcases (b2.good p hp).2.whole with hi | he
    · exact b2.sound p hp _ ⟨hi, hx⟩
    · exact hQ x ((he x).mp hx)
  have a3 : ∀ p ∈ ms1, EdgesSpec edges p ∧ p.cols = 4 ∧ ∀ s t r, p.Contains [s, t, r] → 0 < t := by
    intro p hp
    refine ⟨C.edge p (a2.good p hp).cols (a2.good p hp).bounded, (a2.good p hp).cols, ?_⟩
    intro s t r hc
    have := a2.sound p hp _ hc (.polytope (domOne m c x0 x1) none) (by simp)
    rw [Mem, domOne_contains] at this
    obtain ⟨s', t', r', e, k1, k2, _⟩ := this
    simp only [List.cons.injEq, and_true] at e
    obtain ⟨rfl, rfl, rfl⟩ := e
    have hs : 0 < m * s + c := by
      rcases le_total 0 m with hm | hm <;> nlinarith
    linarith
  have b3 : ∀ p ∈ ms2, EdgesSpec edges p ∧ p.cols = 4 ∧ ∀ s t r, p.Contains [s, t, r] → 0 < t := by
    intro p hp
    refine ⟨C.edge p (b2.good p hp).2.cols (b2.good p hp).2.bounded, (b2.good p hp).2.cols, ?_⟩
    intro s t r hc
    obtain ⟨s', t', r', e, k1, _⟩ := (domTwo_contains m c _).mp (sound p hp _ hc).1
    simp only [List.cons.injEq, and_true] at e
    obtain ⟨rfl, rfl, rfl⟩ := e
    linarith
  obtain ⟨o1, g1, g2, g5⟩ := supOut_chain edges solve C.solves isZero C.zero ms1 ⟨x0, x1, true, false⟩ hD a3
  obtain ⟨o2, g3, g4, g6⟩ := supOut_chain edges solve C.solves isZero C.zero ms2 ⟨x0, x1, true, false⟩ hD b3
  refine ⟨ms1, ms2, o1, o2, ?_, ⟨g2, g5, ?_, ?_⟩, g4, g6, ?_, ?_⟩
  · unfold lvZlvToZd2 allHyps LargeValues.applyTransforms
    simp only [bind, Except.bind, pure, Except.pure, Bool.false_eq_true, if_false, List.append_nil, if_true, domOne_eq, domTwo_eq]
    rw [a1]
    simp only
    rw [g1]
    simp only
    rw [b1]
    simp only
    rw [g3]
  · intro s t r hl
    refine rightLimit_ratio (P := FullDim 4) (fun m hm => base_of_fullDim hm) (fun _ _ h => h) (fun m hm => hm.cols) _ hall a2 ?_
    intro ε hε
    obtain ⟨s', t', r', k1, k2, δ, k3, k4⟩ := hl ε hε
    refine ⟨s', t', r', k1, k2, δ, k3, fun z hz R hR => ?_⟩
    rcases List.mem_cons.mp hR with rfl | hR
    · rw [Mem]; exact (k4 z hz).1
    · exact (k4 z hz).2 R hR
  · rintro s v ⟨p, hp, t, r, hc, _, rfl⟩
    have := a2.sound p hp _ hc
    exact ⟨t, r, ⟨by simpa [Mem] using this _ (List.mem_cons_self ..), fun R hR => this R (List.mem_cons_of_mem _ hR)⟩, rfl⟩
  · intro s t r hl
    refine rightLimit_ratio3 (fun _ _ h => h.2) (fun m hm => hm.2.cols) _ ?_ b2 hl
    intro q hq
    rcases List.mem_cons.mp hq with rfl | hq
    · exact (domTwo_unb m c).toBase
    · obtain ⟨R, hR, hq⟩ := (mem_leavesList _ _).mp hq
      exact hyp_base (fun m hm => hm.toBase) (hrs R hR) q hq
  · rintro s v ⟨p, hp, t, r, hc, _, rfl⟩
    exact ⟨t, r, sound p hp _ hc, rfl⟩

/-- **C90** (second method, general part) `C87_value_partial` with the zeta large value estimate of a bound `mu(p.1) <= p.2`; the greatest ratio of the second
region is attained where this bound says nothing. As there, the code does not limit `tau` from above. -/
theorem C90_value2_partial (C : Contracts eng edges solve isZero orderR orderK) (LB : List (List (ℚ × ℚ × ℚ))) (lvs : List (Region ℕ)) (p : ℚ × ℚ)
    (hL : Covers lvs (LB.map (fun bs => (bs, 1)))) (hmv : ∀ bs ∈ LB, (2, -2, 0) ∈ bs) (x0 x1 m c : ℚ) (hx : x0 < x1)
    (hx0 : 1 / 2 ≤ x0) (hx1 : x1 ≤ 1) (ht0 : 0 < m * x0 + c) (ht1 : 0 < m * x1 + c) (hm0 : m * x0 + c ≤ 1000000) (hm1 : m * x1 + c ≤ 1000000)
    (htau0 : ∀ s, 1 / 2 ≤ s → s ≤ 1 → -1 ≤ m * s + c) (hp : 0 < p.2) (hp1 : ∃ t0, 2 < t0 ∧ t0 < 1000000 ∧ 1 ≤ p.1 + p.2 * t0)
    (n1 u1 n2 u2 : ℚ → ℚ) (W : ℝ → ℝ)
    (hu1 : ∀ s, x0 ≤ s → s < x1 → 0 < u1 s) (hu2 : ∀ s, x0 ≤ s → s < x1 → 0 < u2 s)
    (hW : ∀ s, x0 ≤ s → s < x1 → W s = ((max (n1 s / u1 s) (n2 s / u2 s) : ℚ) : ℝ))
    (hWc : ∀ x : ℝ, x0 ≤ x → x < x1 → ContinuousAt W x)
    (hd1 : ∀ s s', x0 ≤ s → s < s' → s' < x1 → n1 s' * u1 s < n1 s * u1 s')
    (hd2 : ∀ s s', x0 ≤ s → s < s' → s' < x1 → n2 s' * u2 s < n2 s * u2 s')
    (hatt1 : ∀ s, x0 ≤ s → s < x1 → ∃ t r, (2 / 3 * (m * s + c) ≤ t ∧ t ≤ m * s + c) ∧ (0 < r ∧ r ≤ 1000000) ∧ Under (l2 :: LB) s t r ∧
      r * u1 s = n1 s * t)
    (hatt2 : ∀ s, x0 ≤ s → s < x1 → ∃ t r, (2 ≤ t ∧ t ≤ 1000000) ∧ (0 < r ∧ r ≤ 1000000) ∧ Under (l2 :: LB) s t r ∧ s < p.1 + p.2 * t ∧
      r * u2 s = n2 s * t)
    (hub1 : ∀ s t r, x0 ≤ s → s < x1 → 2 / 3 * (m * s + c) ≤ t → t ≤ m * s + c → 0 ≤ r → Under (l2 :: LB) s t r → r * u1 s ≤ n1 s * t)
    (hub2 : ∀ s t r, x0 ≤ s → s < x1 → 2 ≤ t → t ≤ 1000000 → 0 ≤ r → Under (l2 :: LB) s t r → MuOk p s t r → r * u2 s ≤ n2 s * t) :
    ∃ zlvs out, LargeValues.muToZlv [p] = .ok zlvs ∧
      proveZeroDensity2 eng edges solve isZero orderR lvs zlvs x0 x1 m c = .ok out ∧ IsBound x0 x1 out W := by
  obtain ⟨ml, e1, _, _⟩ := convert_full C.engine.canon C.engine.canonNoZero l2 (by simp [l2]) l2_staggered
  have hl2 := realises_convert C.engine.canon C.engine.canonNoZero l2 (by simp [l2]) l2_staggered e1
  replace e1 : LargeValues.convertBounds eng.canon l2Bounds = .ok (unionOf ml) := e1
  set lv := orderR (unionOf ml :: lvs) with hlv
  have hcl : Covers lv ((l2 :: LB).map (fun bs => (bs, 1))) := by
    refine Covers.perm ?_ (C.permR _)
    have : Covers [unionOf ml] [(l2, 1)] := ⟨by simpa using hl2, by simpa using hl2⟩
    exact this.append hL
  set derived : List (Region ℕ) := lv.map (fun r => .intersect [.polytope tauTwo none, r]) with hder
  set Z : Region ℕ := unionOf [muThin p.1 p.2, muWide p.1 p.2] with hZ
  set zl := orderR ([Z] ++ derived) with hzl
  have hzm : ∀ R, R ∈ zl ↔ R = Z ∨ R ∈ derived := fun R => by
    rw [hzl, (C.permR _).mem_iff, List.mem_append, List.mem_singleton]
  have hne : lv ≠ [] := by
    rw [hlv]; intro h; simpa [h] using (C.permR (unionOf ml :: lvs)).length_eq
  have hone : ∀ B : List (List (ℚ × ℚ × ℚ)), ∀ p ∈ B.map (fun bs => (bs, (1 : ℚ))), 1 ≤ p.2 := by
    intro B p hp
    obtain ⟨bs, _, rfl⟩ := List.mem_map.mp hp
    exact le_refl _
  have htau : ∀ s, x0 ≤ s → s ≤ x1 → 0 < m * s + c ∧ m * s + c ≤ 1000000 := by
    intro s k1 k2
    rcases le_total 0 m with hm | hm <;> constructor <;> nlinarith
  have hZm : ∀ s t r, Z.Mem [s, t, r] ↔ (1 / 2 ≤ s ∧ s ≤ 1) ∧ (2 ≤ t ∧ t ≤ 1000000) ∧ (0 ≤ r ∧ r ≤ t) ∧ MuOk p s t r := by
    intro s t r
    rw [hZ]
    exact muUnion_mem p s t r
  have htriv : ∀ s t r, 1 / 2 ≤ s → 2 ≤ t → Under (l2 :: LB) s t r → r ≤ t := by
    intro s t r h1 h2 h
    obtain ⟨b, hb, hle⟩ := h l2 (by simp)
    unfold l2 at hb
    simp only [List.mem_cons, List.not_mem_nil, or_false] at hb
    unfold bval at hle
    rcases hb with rfl | rfl <;> norm_num at hle <;> linarith
  have hLmem : ∀ s t r, (∀ R ∈ lv, R.Mem [s, t, r]) ↔ ((1 / 2 ≤ s ∧ s ≤ 1) ∧ (0 ≤ t ∧ t ≤ 1000000) ∧ (0 ≤ r ∧ r ≤ 1000000)) ∧ Under (l2 :: LB) s t r := by
    intro s t r
    constructor
    · intro h
      obtain ⟨R, hRl⟩ := List.exists_mem_of_ne_nil lv hne
      obtain ⟨p, hp, hr⟩ := hcl.1 R hRl
      obtain ⟨bs, _, rfl⟩ := List.mem_map.mp hp
      obtain ⟨i3, _⟩ := (hr.2 s t r).mp (h R hRl)
      rw [div_one, div_one] at i3
      obtain ⟨q1, q2, q3, q4, q5, q6⟩ := i3
      refine ⟨⟨⟨q1, q2⟩, ⟨q3, q4⟩, q5, q6⟩, ?_⟩
      have := hcl.mem (hone _) (s := s) (t := t) (r := r) q1 q2 q3 q4 q5 q6
      rw [powered_one] at this
      exact this.mp h
    · rintro ⟨⟨⟨q1, q2⟩, ⟨q3, q4⟩, q5, q6⟩, h⟩
      have := hcl.mem (hone _) (s := s) (t := t) (r := r) q1 q2 q3 q4 q5 q6
      rw [powered_one] at this
      exact this.mpr h
  have hrs1 : ∀ r ∈ lv, Hyp 4 (FullDim 4) r := by
    intro R hR'
    obtain ⟨p, _, hr⟩ := hcl.1 R hR'
    exact .inl (realises_plain hr)
  have hrs : ∀ r ∈ lv ++ zl, Hyp 4 (OneThin 4 (muThin p.1 p.2).Contains) r := by
    intro R hR'
    rcases List.mem_append.mp hR' with hR' | hR'
    · obtain ⟨p, _, hr⟩ := hcl.1 R hR'
      obtain ⟨k1, k2⟩ := realises_plain hr
      exact .inl ⟨k1, fun m hm => oneThin_of_fullDim (k2 m hm)⟩
    · rcases (hzm R).mp hR' with rfl | hR'
      · refine .inl ⟨unionOf_plain _, fun m hm => ?_⟩
        rw [unionOf_leaves] at hm
        simp only [List.mem_cons, List.not_mem_nil, or_false] at hm
        rcases hm with rfl | rfl
        · exact muThin_oneThin _ _
        · obtain ⟨t0, k1, k2, k3⟩ := hp1
          exact oneThin_of_fullDim (muWide_fullDim _ _ t0 k1 k2 k3)
      · obtain ⟨R', hR'', rfl⟩ := List.mem_map.mp hR'
        obtain ⟨p, _, hr⟩ := hcl.1 R' hR''
        obtain ⟨k1, k2⟩ := realises_plain hr
        exact .inr ⟨tauTwo, none, R', rfl, tauTwo_unb, k1, fun m hm => oneThin_of_fullDim (k2 m hm)⟩
  have hall : ∀ s t r, ((domTwo m c).Contains [s, t, r] ∧ ∀ R ∈ lv ++ zl, R.Mem [s, t, r]) ↔
      ((1 / 2 ≤ s ∧ s ≤ 1) ∧ (2 ≤ t ∧ t ≤ 1000000) ∧ (0 ≤ r ∧ r ≤ 1000000)) ∧ Under (l2 :: LB) s t r ∧ MuOk p s t r := by
    intro s t r
    constructor
    · rintro ⟨h, hR⟩
      obtain ⟨q1, q2, q3, q4⟩ := (hZm s t r).mp (hR Z (List.mem_append_right _ ((hzm Z).mpr (.inl rfl))))
      obtain ⟨⟨k1, k2, k3⟩, k4⟩ := (hLmem s t r).mp (fun R h' => hR R (List.mem_append_left _ h'))
      exact ⟨⟨k1, q2, k3⟩, k4, q4⟩
    · rintro ⟨⟨k1, k2, k3⟩, k4, k5⟩
      have hlv' := (hLmem s t r).mpr ⟨⟨k1, ⟨by linarith [k2.1], k2.2⟩, k3⟩, k4⟩
      refine ⟨(domTwo_contains _ _ _).mpr ⟨s, t, r, rfl, k2.1, by linarith [htau0 s k1.1 k1.2, k2.1]⟩, fun R hR' => ?_⟩
      rcases List.mem_append.mp hR' with hR' | hR'
      · exact hlv' R hR'
      · rcases (hzm R).mp hR' with rfl | hR'
        · exact (hZm s t r).mpr ⟨k1, k2, ⟨k3.1, htriv s t r k1.1 k2.1 k4⟩, k5⟩
        · obtain ⟨R', hR'', rfl⟩ := List.mem_map.mp hR'
          rw [mem_pair]
          exact ⟨(tauTwo_contains _).mpr ⟨s, t, r, rfl, k2.1⟩, hlv' R' hR''⟩
  have hQ : ∀ x, (muThin p.1 p.2).Contains x → (domTwo m c).Contains x ∧ ∀ R ∈ lv ++ zl, R.Mem x := by
    intro x hxx
    obtain ⟨s, t, rfl, k1, k2, k3⟩ := (muThin_contains _ _ _).mp hxx
    refine (hall s t 0).mpr ⟨⟨k1, k2, by norm_num⟩, fun bs hbs => ⟨(2, -2, 0), ?_, ?_⟩, fun _ => rfl⟩
    · rcases List.mem_cons.mp hbs with h | h
      · rw [h]; simp [l2]
      · exact hmv _ h
    · unfold bval
      simp only
      linarith [k1.2]
  obtain ⟨ms1, ms2, o1, o2, h3, ⟨a1, a2, a3, a4⟩, b1, b2, b3, b4⟩ := zd2_core_one C lv zl hne hrs1 hrs x0 x1 m c hQ hx ht0 ht1
  set A1 : Pt → Prop := fun x => (domOne m c x0 x1).Contains x ∧ ∀ R ∈ lv, R.Mem x with hA1
  set A2 : Pt → Prop := fun x => (domTwo m c).Contains x ∧ ∀ R ∈ lv ++ zl, R.Mem x with hA2
  have hG1 : Given2 A1 x0 x1 (2 / 3 * c, 2 / 3 * m) (c, m) (l2 :: LB) := by
    intro s t r k1 k2
    obtain ⟨t1, t2⟩ := htau s k1 k2
    constructor
    · rintro ⟨h, hR⟩
      obtain ⟨s', t', r', e, _, k4, k5⟩ := (domOne_contains _ _ _ _ _).mp h
      simp only [List.cons.injEq, and_true] at e
      obtain ⟨rfl, rfl, rfl⟩ := e
      exact ⟨⟨by linarith [k4.1], by linarith [k4.2]⟩, k5, ((hLmem s t r).mp hR).2⟩
    · rintro ⟨⟨q1, q2⟩, ⟨q3, q4⟩, q5⟩
      have q1 : 2 / 3 * (m * s + c) ≤ t := by linarith
      have q2 : t ≤ m * s + c := by linarith
      exact ⟨(domOne_contains _ _ _ _ _).mpr ⟨s, t, r, rfl, ⟨k1, k2⟩, ⟨q1, q2⟩, q3, q4⟩,
        (hLmem s t r).mpr ⟨⟨⟨by linarith, by linarith⟩, ⟨by linarith, by linarith⟩, q3, q4⟩, q5⟩⟩
  set W2 : Pt → Prop := fun x => ∃ s t r, x = [s, t, r] ∧ ((1 / 2 ≤ s ∧ s ≤ 1) ∧ (2 ≤ t ∧ t ≤ 1000000) ∧ (0 ≤ r ∧ r ≤ 1000000)) ∧
    Under (l2 :: LB) s t r with hW2
  have hW2i : ∀ s t r, W2 [s, t, r] ↔ ((1 / 2 ≤ s ∧ s ≤ 1) ∧ (2 ≤ t ∧ t ≤ 1000000) ∧ (0 ≤ r ∧ r ≤ 1000000)) ∧ Under (l2 :: LB) s t r := by
    intro s t r
    constructor
    · rintro ⟨s', t', r', e, k⟩
      simp only [List.cons.injEq, and_true] at e
      obtain ⟨rfl, rfl, rfl⟩ := e
      exact k
    · intro k
      exact ⟨s, t, r, rfl, k⟩
  have hG2 : Given2 W2 x0 x1 (2, 0) (1000000, 0) (l2 :: LB) := by
    intro s t r k1 k2
    rw [hW2i]
    simp only [zero_mul, add_zero]
    exact ⟨fun h => ⟨h.1.2.1, h.1.2.2, h.2⟩, fun h => ⟨⟨⟨by linarith, by linarith⟩, h.1, h.2.1⟩, h.2.2⟩⟩
  have hR1 : ∀ s, x0 ≤ s → s < x1 → ∃ t r, RightLimit A1 s t r ∧ 0 < r ∧ 0 < t ∧ r * u1 s = n1 s * t := by
    intro s k1 k2
    obtain ⟨t, r, ⟨q1, q2⟩, ⟨q3, q4⟩, q5, q6⟩ := hatt1 s k1 k2
    obtain ⟨t1, t2⟩ := htau s k1 k2.le
    refine ⟨t, r, rightLimit_of_given2 hG1 (by simp only; linarith) ((hG1 s t r k1 k2.le).mpr ⟨⟨by simp only; linarith, by simp only; linarith⟩, ⟨q3.le, q4⟩, q5⟩) k1 k2 q3, q3,
      by linarith, q6⟩
  have hR2 : ∀ s, x0 ≤ s → s < x1 → ∃ t r, RightLimit A2 s t r ∧ 0 < r ∧ 0 < t ∧ r * u2 s = n2 s * t := by
    intro s k1 k2
    obtain ⟨t, r, ⟨q1, q2⟩, ⟨q3, q4⟩, q5, q7, q6⟩ := hatt2 s k1 k2
    have hlim : RightLimit W2 s t r := rightLimit_of_given2 hG2 (by norm_num)
      ((hG2 s t r k1 k2.le).mpr ⟨⟨by simpa using q1, by simpa using q2⟩, ⟨q3.le, q4⟩, q5⟩) k1 k2 q3
    refine ⟨t, r, rightLimit_strict (p := p) (fun u v w hw hlt => ?_) hp hlim q7, q3, by linarith, q6⟩
    obtain ⟨w1, w2⟩ := (hW2i u v w).mp hw
    exact (hall u v w).mpr ⟨w1, w2, fun hc => by linarith⟩
  have hle1 : ∀ s t r, x0 ≤ s → s < x1 → A1 [s, t, r] → 0 < t ∧ r * u1 s ≤ n1 s * t := by
    intro s t r k1 k2 h
    obtain ⟨⟨q1, q2⟩, ⟨q3, q4⟩, q5⟩ := (hG1 s t r k1 k2.le).mp h
    obtain ⟨t1, t2⟩ := htau s k1 k2.le
    simp only at q1 q2
    exact ⟨by linarith, hub1 s t r k1 k2 (by linarith) (by linarith) q3 q5⟩
  have hle2 : ∀ s t r, x0 ≤ s → s < x1 → A2 [s, t, r] → 0 < t ∧ r * u2 s ≤ n2 s * t := by
    intro s t r k1 k2 h
    obtain ⟨⟨_, ⟨q1, q2⟩, ⟨q3, q4⟩⟩, q5, q6⟩ := (hall s t r).mp h
    exact ⟨by linarith, hub2 s t r k1 k2 q1 q2 q3 q5 q6⟩
  have hmu : LargeValues.muToZlv [p] = .ok [Z] := by
    simp only [LargeValues.muToZlv, muRegion_eq, bind, Except.bind, pure, Except.pure, hZ]
  have hpole : ∀ p ∈ o1 ++ o2, ∀ x, (x0 : ℝ) ≤ x → x < x1 → p.fn.NoCommonZero x := by
    have go : ∀ (A : Pt → Prop) (n u : ℚ → ℚ), (∀ s, x0 ≤ s → s < x1 → 0 < u s) →
        (∀ s s', x0 ≤ s → s < s' → s' < x1 → n s' * u s < n s * u s') →
        (∀ s, x0 ≤ s → s < x1 → ∃ t r, RightLimit A s t r ∧ 0 < r ∧ 0 < t ∧ r * u s = n s * t) →
        (∀ s t r, x0 ≤ s → s < x1 → A [s, t, r] → 0 < t ∧ r * u s ≤ n s * t) →
        (∀ s s' t r, x0 ≤ s → s < s' → s' < x1 → A [s', t, r] → ∃ t' r', RightLimit A s t' r' ∧ r / t < r' / t') ∧
        ∀ s, x0 ≤ s → s < x1 → ∃ t r, RightLimit A s t r ∧ 0 ≤ r / t := by
      intro A n u hu hd hR hle
      constructor
      · intro s s' t r k1 k2 k3 h
        obtain ⟨t', r', g1, g2, g3, g4⟩ := hR s k1 (k2.trans k3)
        obtain ⟨g5, g6⟩ := hle s' t r (k1.trans k2.le) k3 h
        refine ⟨t', r', g1, ?_⟩
        have e : r' / t' = n s / u s := by
          rw [div_eq_div_iff g3.ne' (hu s k1 (k2.trans k3)).ne', g4]
        have e' : r / t ≤ n s' / u s' := by
          rw [div_le_div_iff₀ g5 (hu s' (k1.trans k2.le) k3)]; exact g6
        rw [e]
        refine lt_of_le_of_lt e' ?_
        rw [div_lt_div_iff₀ (hu s' (k1.trans k2.le) k3) (hu s k1 (k2.trans k3))]
        exact hd s s' k1 k2 k3
      · intro s k1 k2
        obtain ⟨t', r', g1, g2, g3, g4⟩ := hR s k1 k2
        exact ⟨t', r', g1, (div_pos g2 g3).le⟩
    intro p hp
    rcases List.mem_append.mp hp with hp | hp
    · obtain ⟨k1, k2⟩ := go A1 n1 u1 hu1 hd1 hR1 hle1
      exact noCommonZero_of_decreasing a1 a2 a3 a4 k1 k2 p hp
    · obtain ⟨k1, k2⟩ := go A2 n2 u2 hu2 hd2 hR2 hle2
      exact noCommonZero_of_decreasing b1 b2 b3 b4 k1 k2 p hp
  refine ⟨[Z], _, hmu, ?_, isBound_of_rat (pieces_max C.solves C.zero hx a1 b1 hpole) hWc fun s l1 l2 => ?_⟩
  · unfold proveZeroDensity2
    rw [e1]
    simp only [bind, Except.bind]
    rw [← hlv, lvToZlv_tauTwo]
    exact h3
  · obtain ⟨q, q1, q2, q3, q4, q5⟩ := zd_finish C.solves C.zero hx a1 a3 a4 b1 b3 b4 hpole s l1 l2
    refine ⟨q, q1, q2, q3, ?_⟩
    obtain ⟨t1, r1, p1, p2, p3, p4⟩ := hR1 s l1 l2
    obtain ⟨t2, r2, p5, p6, p7, p8⟩ := hR2 s l1 l2
    have f1 : r1 / t1 = n1 s / u1 s := by rw [div_eq_div_iff p3.ne' (hu1 s l1 l2).ne', p4]
    have f2 : r2 / t2 = n2 s / u2 s := by rw [div_eq_div_iff p7.ne' (hu2 s l1 l2).ne', p8]
    have g1 := q5.1 t1 r1 (.inl p1)
    have g2 := q5.1 t2 r2 (.inr p5)
    rw [f1] at g1
    rw [f2] at g2
    rw [hW s l1 l2]
    refine le_antisymm ?_ (by push_cast; push_cast at g1 g2; exact max_le g1 g2)
    have g3 : (0 : ℝ) < q.fn.at s := by
      refine lt_of_lt_of_le ?_ g1
      rw [← f1]
      exact_mod_cast div_pos p2 p3
    rcases q5.2 with h | ⟨t, r, h | h, e⟩
    · rw [h] at g3; norm_num at g3
    · obtain ⟨k1, k2⟩ := hle1 s t r l1 l2 h
      rw [e]
      have : r / t ≤ n1 s / u1 s := by rw [div_le_div_iff₀ k1 (hu1 s l1 l2)]; exact k2
      exact_mod_cast this.trans (le_max_left _ _)
    · obtain ⟨k1, k2⟩ := hle2 s t r l1 l2 h
      rw [e]
      have : r / t ≤ n2 s / u2 s := by rw [div_le_div_iff₀ k1 (hu2 s l1 l2)]; exact k2
      exact_mod_cast this.trans (le_max_right _ _)

theorem hux_under {B : List (List (ℚ × ℚ × ℚ))} {s t r : ℚ} (h : Under B s t r) (hm : hux ∈ B) :
    r ≤ 2 - 2 * s ∨ r ≤ 4 - 6 * s + t := by
  obtain ⟨b, hb, hle⟩ := h _ hm
  simp only [hux, List.mem_cons, List.not_mem_nil, or_false] at hb
  rcases hb with rfl | rfl <;> unfold bval at hle
  · left; linarith
  · right; linarith

/-- **C90** (Huxley, second method) `prove_zero_density_huxley_1972_v2` does not return `3 (1 - sigma) / (3 sigma - 1)`, as
`prove_zero_density_huxley_1972` does, but `1 + (4 - 6 sigma) / 10 ^ 6` on `[3/4, 1)`. -/
theorem C90_huxley_v2_counterexample (C : Contracts eng edges solve isZero orderR orderK) :
    ∃ out, proveHuxleyV2 eng edges solve isZero orderR = .ok out ∧ IsBound (3 / 4) 1 out (fun x => 1 + (4 - 6 * x) / 1000000) := by
  obtain ⟨R, e1, e2⟩ := covers_of C hux (by simp [hux]) hux_staggered
  replace e1 : LargeValues.convertBounds eng.canon Literature.huxley = .ok R := e1
  have := C90_value2_partial C [hux] [R] (1 / 2, 1 / 6) e2 (by decide +kernel) (3 / 4) 1 3 (-1) (by norm_num) (by norm_num) (by norm_num)
    (by norm_num) (by norm_num) (by norm_num) (by norm_num) (fun s k1 k2 => by linarith) (by norm_num) ⟨3, by norm_num⟩
    (fun s => 3 * (1 - s)) (fun s => 3 * s - 1) (fun s => 1000004 - 6 * s) (fun _ => 1000000) (fun x => 1 + (4 - 6 * x) / 1000000)
    (fun s l1 l2 => by linarith) (fun s l1 l2 => by norm_num) ?_ (fun x _ _ => by fun_prop) (fun s s' k1 k2 k3 => by nlinarith)
    (fun s s' k1 k2 k3 => by nlinarith) ?_ ?_ ?_ ?_
  · obtain ⟨zlvs, out, h0, h1, h2⟩ := this
    refine ⟨out, ?_, h2⟩
    unfold proveHuxleyV2
    rw [e1, h0]
    exact h1
  · intro s l1 l2
    rw [max_eq_right ((div_le_div_iff₀ (show 0 < 3 * s - 1 by linarith) (by norm_num)).mpr (by nlinarith))]
    push_cast
    ring
  · intro s l1 l2
    refine ⟨2 * s - 2 / 3, 2 * (1 - s), ⟨by linarith, by linarith⟩, ⟨by linarith, by linarith⟩, ?_, by ring⟩
    refine under_cons ⟨(2, -2, 0), by simp [DerivedZD.l2], by unfold bval; linarith⟩
      (under_cons ⟨(2, -2, 0), by simp [hux], by unfold bval; linarith⟩ (under_nil _ _ _))
  · intro s l1 l2
    refine ⟨1000000, 1000004 - 6 * s, ⟨by norm_num, le_rfl⟩, ⟨by linarith, by linarith⟩, ?_, by norm_num; linarith, by ring⟩
    refine under_cons ⟨(1, -2, 1), by simp [DerivedZD.l2], by unfold bval; linarith⟩
      (under_cons ⟨(4, -6, 1), by simp [hux], by unfold bval; linarith⟩ (under_nil _ _ _))
  · intro s t r l1 l2 t1 t2 r0 h
    have p := mul_nonneg (show 0 ≤ 1 - s by linarith) (show 0 ≤ t - 2 / 3 * (3 * s + -1) by linarith)
    have q := mul_nonneg (show 0 ≤ 6 * s - 4 by linarith) (show 0 ≤ 3 * s + -1 - t by linarith)
    rcases hux_under h (by simp) with h | h
    · nlinarith [mul_le_mul_of_nonneg_right h (show 0 ≤ 3 * s - 1 by linarith)]
    · nlinarith [mul_le_mul_of_nonneg_right h (show 0 ≤ 3 * s - 1 by linarith)]
  · intro s t r l1 l2 t1 t2 r0 h _
    rcases hux_under h (by simp) with h | h
    · nlinarith
    · nlinarith

/-- The value at `4 / 5`. -/
example : ∃ eng edges solve isZero orderR, ∃ out, proveHuxleyV2 eng edges solve isZero orderR = .ok out ∧
    ∃ q ∈ out, q.fn.at (4 / 5) = (1 - 8 / 10000000 : ℝ) := by
  obtain ⟨eng, edges, solve, isZero, orderR, orderK, C⟩ := contracts_satisfiable
  obtain ⟨out, h1, h2⟩ := C90_huxley_v2_counterexample C
  obtain ⟨q, q1, _, _, _, q5⟩ := h2 (4 / 5) (by norm_num) (by norm_num)
  exact ⟨eng, edges, solve, isZero, orderR, out, h1, q, q1, by rw [q5]; norm_num⟩

end DerivedZD
end Expdb
