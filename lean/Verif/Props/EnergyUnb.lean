import Verif.Props.DerivedEnergyValue
import Verif.Props.BourgainRegion

/-!
# Large value energy regions with unbounded polytopes

`compute_best_lver` and `lver_to_energy_bound` for unions of polytopes with interior points, some of which may be unbounded.
-/

namespace Expdb
namespace EnergyUnb

open Rational SupRatio Mat Region ZeroDensity DerivedZD DerivedEnergy RegionUnb

variable {n : ℕ} {Gen : Pt → Prop} {eng : Engine}

/-! ### Intersections with a bounded region -/

theorem distribute_b (heng : EngineSpec eng) (hneg : UnboundedNeg eng.lp) (hn : 2 ≤ n) (hGen : ∀ x, Gen x → x.length + 1 = n)
    (B A : List (Expdb.Piece ℕ)) (hB : ∀ q ∈ B, GoodB n Gen q.mat) (hA : ∀ q ∈ A, Good n Gen q.mat) :
    ∃ out, distribute eng false B A = .ok out ∧
      Approx n Gen (fun x => (∃ p ∈ A, p.mat.Contains x) ∧ ∃ q ∈ B, q.mat.Contains x) out := by
  induction A with
  | nil =>
    refine ⟨[], rfl, ⟨by simp, by simp, ?_⟩⟩
    rintro x _ ⟨⟨q, hq, _⟩, _⟩
    simp at hq
  | cons p A ih =>
    obtain ⟨out, h1, h2⟩ := ih (fun r hr => hA r (by simp [hr]))
    have hp := hA p (by simp)
    obtain ⟨is, h4, h5, h6⟩ := inters_b heng hneg hn hGen p ⟨base_of_fullDim hp.toFullDim, hp.inner, hp.gen⟩ B hB
    have h7 : Approx n Gen (fun x => p.mat.Contains x ∧ ∃ q ∈ B, q.mat.Contains x) is := by
      refine ⟨fun r hr => ?_, fun r hr x hx => ?_, fun x hg hx => h6 x hg hx.1 hx.2⟩
      · obtain ⟨k1, q, _, k3⟩ := h5 r hr
        exact ⟨k1.toBase.fullDim k1.inner (bounded_sub (fun x hx => (k3 x hx).1) hp.bounded), k1.gen⟩
      · obtain ⟨_, q, k2, k3⟩ := h5 r hr
        exact ⟨(k3 x hx).1, q, k2, (k3 x hx).2⟩
    obtain ⟨m, h8, h9, _⟩ := mergeInters_spec (track := false) heng hn _ is h7
    refine ⟨m ++ out, ?_, ?_, ?_, ?_⟩
    · unfold distribute
      rw [h4]
      simp only [bind, Except.bind]
      rw [h8, h1]
      rfl
    · intro r hr
      rcases List.mem_append.mp hr with hr | hr
      · exact h9.good r hr
      · exact h2.good r hr
    · intro r hr x hx
      rcases List.mem_append.mp hr with hr | hr
      · have := h9.sound r hr x hx
        exact ⟨⟨p, by simp, this.1⟩, this.2⟩
      · obtain ⟨⟨a, ha, hax⟩, b⟩ := h2.sound r hr x hx
        exact ⟨⟨a, by simp [ha], hax⟩, b⟩
    · rintro x hg ⟨⟨a, ha, hax⟩, hb⟩
      rcases List.mem_cons.mp ha with rfl | ha
      · obtain ⟨s, hs, hsx⟩ := h9.cover x hg ⟨hax, hb⟩
        exact ⟨s, by simp [hs], hsx⟩
      · obtain ⟨s, hs, hsx⟩ := h2.cover x hg ⟨⟨a, ha, hax⟩, hb⟩
        exact ⟨s, by simp [hs], hsx⟩

theorem intersectLoop_b (heng : EngineSpec eng) (hneg : UnboundedNeg eng.lp) (hn : 2 ≤ n) (hGen : ∀ x, Gen x → x.length + 1 = n)
    (i : ℕ) (A : List (Expdb.Piece ℕ)) (S : Pt → Prop) (hA : Approx n Gen S A) (Bs : List (List (Expdb.Piece ℕ)))
    (Ts : List (Pt → Prop)) (hB : List.Forall₂ (fun T B => ApproxB n Gen T B) Ts Bs) :
    ∃ out, intersectLoop eng false i A Bs = .ok out ∧ Approx n Gen (fun x => S x ∧ ∀ T ∈ Ts, T x) out := by
  induction hB generalizing i A S with
  | nil => exact ⟨A, rfl, by simpa using hA⟩
  | @cons T B Ts Bs hTB _ ih =>
    obtain ⟨A', h1, h2⟩ := distribute_b heng hneg hn hGen B A hTB.good hA.good
    have h2' : Approx n Gen (fun x => S x ∧ T x) A' := by
      refine ⟨h2.good, ?_, ?_⟩
      · intro p hp x hx
        obtain ⟨⟨a, ha, hax⟩, b, hb, hbx⟩ := h2.sound p hp x hx
        exact ⟨hA.sound a ha x hax, hTB.sound b hb x hbx⟩
      · rintro x hg ⟨hS, hT⟩
        exact h2.cover x hg ⟨hA.cover x hg hS, hTB.cover x hg hT⟩
    obtain ⟨A'', h4, h5, _⟩ := periodicSimplify_spec (track := false) heng hn (i + 1) _ A' h2'
    obtain ⟨out, h7, h8⟩ := ih (i + 1) A'' _ h5
    refine ⟨out, ?_, ⟨h8.good, ?_, ?_⟩⟩
    · unfold intersectLoop
      rw [h1]
      simp only [bind, Except.bind]
      rw [h4]
      exact h7
    · intro p hp x hx
      obtain ⟨⟨a, b⟩, c⟩ := h8.sound p hp x hx
      refine ⟨a, fun T' hT' => ?_⟩
      rcases List.mem_cons.mp hT' with rfl | hT'
      · exact b
      · exact c T' hT'
    · rintro x hg ⟨hS, hT⟩
      exact h8.cover x hg ⟨⟨hS, hT T (by simp)⟩, fun T' hT' => hT T' (by simp [hT'])⟩

/-- A union of polytopes with interior points in `n - 1` dimensions. -/
def SolidUnion (n : ℕ) (R : Region ℕ) : Prop := ∃ ms, R = unionOf ms ∧ ∀ m ∈ ms, Base n m ∧ HasInner n m

theorem generic_near_b (ms : List Mat) (hms : ∀ m ∈ ms, Base n m) (x : Pt) (hx : x.length + 1 = n) {ε : ℚ} (hε : 0 < ε) :
    ∃ y, Near ε x y ∧ Generic n ms y := Region.Thin.generic_near ms hms x hx hε

/-- `as_disjoint_union` of the intersection of a bounded polytope with such unions. -/
theorem convert_unb (heng : EngineSpec eng) (hneg : UnboundedNeg eng.lp) (hn : 2 ≤ n) (D : Mat) (hD : FullDim n D) (rs : List (Region ℕ))
    (hrs : ∀ R ∈ rs, SolidUnion n R) :
    ∃ ms : List Mat, asDisjointUnion eng false (.intersect (.polytope D none :: rs)) = .ok (.disjoint (ms.map (fun m => .polytope m none))) ∧
      (∀ m ∈ ms, FullDim n m) ∧ (∀ m ∈ ms, ∀ x, m.Contains x → D.Contains x ∧ ∀ R ∈ rs, R.Mem x) ∧
      ∀ x, x.length + 1 = n → ∀ Q : Mat → Prop, (∀ ε : ℚ, 0 < ε → ∃ y, Near ε x y ∧ ∃ δ : ℚ, 0 < δ ∧ ∀ z, Near δ y z →
        (D.Contains z ∧ ∀ R ∈ rs, R.Mem z) ∧ ∀ m ∈ ms, m.Contains z → Q m) → ∃ m ∈ ms, Q m ∧ m.Contains x := by
  set gs := D :: leavesList rs with hgs
  have hbase : ∀ m ∈ gs, Base n m := by
    intro m hm
    rcases List.mem_cons.mp hm with rfl | hm
    · exact base_of_fullDim hD
    · obtain ⟨R, hR, hm⟩ := (mem_leavesList _ _).mp hm
      obtain ⟨ms, rfl, h⟩ := hrs R hR
      rw [unionOf_leaves] at hm
      exact (h m hm).1
  have hGen : ∀ x, Generic n gs x → x.length + 1 = n := fun x hx => hx.1
  obtain ⟨Bs, b1, b2⟩ := asDisjointList_ok (eng := eng) (track := false) rs (fun R o => ApproxB n (Generic n gs) R.Mem o) (by
    intro R hR
    obtain ⟨ms, rfl, h⟩ := hrs R hR
    have hmem : ∀ m ∈ ms, m ∈ gs := fun m hm =>
      List.mem_cons_of_mem _ ((mem_leavesList _ _).mpr ⟨_, hR, by rw [unionOf_leaves]; exact hm⟩)
    refine ⟨_, RegionUnb.asDisjoint_unionOf ms, fun p hp => ?_, fun p hp x hx => ?_, fun x _ hx => ?_⟩
    · obtain ⟨m, hm, rfl⟩ := List.mem_map.mp hp
      exact goodB_of_generic (hmem m hm) (h m hm).1 (h m hm).2
    · obtain ⟨m, hm, rfl⟩ := List.mem_map.mp hp
      exact (unionOf_mem _ _).mpr ⟨m, hm, hx⟩
    · obtain ⟨m, hm, hc⟩ := (unionOf_mem _ _).mp hx
      exact ⟨_, List.mem_map.mpr ⟨m, hm, rfl⟩, hc⟩)
  have hB : List.Forall₂ (fun T B => ApproxB n (Generic n gs) T B) (rs.map Region.Mem) Bs := by
    rw [List.forall₂_map_left_iff]
    exact b2
  have hDG := goodB_of_generic (ms := gs) (by simp [hgs]) (base_of_fullDim hD) hD.inner
  have hA : Approx n (Generic n gs) D.Contains [(⟨D, []⟩ : Expdb.Piece ℕ)] := by
    refine ⟨?_, ?_, ?_⟩
    · intro p hp
      rw [List.mem_singleton.mp hp]
      exact ⟨hD, hDG.gen⟩
    · intro p hp x hx
      rw [List.mem_singleton.mp hp] at hx
      exact hx
    · intro x _ hx
      exact ⟨⟨D, []⟩, by simp, hx⟩
  obtain ⟨out, h1, h2⟩ := intersectLoop_b heng hneg hn hGen 0 _ _ hA Bs _ hB
  have hT : ∀ x, (D.Contains x ∧ ∀ T ∈ rs.map Region.Mem, T x) ↔ D.Contains x ∧ ∀ R ∈ rs, R.Mem x := by
    intro x
    simp only [List.mem_map, forall_exists_index, and_imp, forall_apply_eq_imp_iff₂]
  refine ⟨out.map (·.mat), ?_, ?_, ?_, ?_⟩
  · unfold asDisjointUnion
    rw [asDisjoint, asDisjointList, b1, asDisjoint, leafPieces]
    simp only [Bool.false_eq_true, if_false, bind, Except.bind, pure, Except.pure]
    rw [intersectSets, h1]
    simp only [List.map_map]
    rfl
  · intro m hm
    obtain ⟨p, hp, rfl⟩ := List.mem_map.mp hm
    exact (h2.good p hp).toFullDim
  · intro m hm x hx
    obtain ⟨p, hp, rfl⟩ := List.mem_map.mp hm
    exact (hT x).mp (h2.sound p hp x hx)
  · intro x hx Q h
    refine cover_near (n := n) _ Q x hx ?_ ?_
    · intro m hm
      obtain ⟨p, hp, rfl⟩ := List.mem_map.mp hm
      exact (h2.good p hp).cols
    · intro ε hε
      obtain ⟨y, h3, δ, hδ, h4⟩ := h (ε / 2) (by linarith)
      obtain ⟨z, hz, hzg⟩ := generic_near_b gs hbase y (by rw [h3.length]; exact hx) (lt_min hδ (show 0 < ε / 2 by linarith))
      obtain ⟨h5, h6⟩ := h4 z (hz.mono (min_le_left _ _))
      obtain ⟨p, hp, hpz⟩ := h2.cover z hzg ((hT z).mpr h5)
      have hmem : p.mat ∈ out.map (·.mat) := List.mem_map.mpr ⟨p, hp, rfl⟩
      exact ⟨z, (h3.trans (hz.mono (min_le_right _ _))).mono (by linarith), p.mat, hmem, h6 _ hmem hpz, hpz⟩

/-- `compute_best_lver` for such unions. -/
theorem best_unb (heng : EngineSpec eng) (hneg : UnboundedNeg eng.lp) (lvers tl : List (Region ℕ))
    (transforms : List (Region ℕ → Py (Region ℕ))) (ht : LargeValues.applyTransforms lvers transforms = .ok tl) (zeta : Bool)
    (zlvers : List (Region ℕ)) (hsol : ∀ R ∈ lvers ++ tl ++ (if zeta then zlvers else []), SolidUnion 6 R) (d : Mat) (hd : FullDim 3 d) :
    ∃ ms, IsBest eng lvers transforms zeta zlvers (lvers ++ tl ++ (if zeta then zlvers else [])) d ms := by
  obtain ⟨D, g1, g2, g3⟩ := lift_domain (L := ℕ) hd
  have hT : ∀ x, Tuples d (lvers ++ tl ++ (if zeta then zlvers else [])) x ↔
      D.Contains x ∧ ∀ R ∈ lvers ++ tl ++ (if zeta then zlvers else []), R.Mem x := by
    intro x
    rw [g3]
    constructor
    · rintro ⟨s, t, a, b, c, e, k1, k2, k3, k4, k5⟩
      exact ⟨⟨s, t, a, b, c, e, k1, k2, k3, k4⟩, k5⟩
    · rintro ⟨⟨s, t, a, b, c, e, k1, k2, k3, k4⟩, k5⟩
      exact ⟨s, t, a, b, c, e, k1, k2, k3, k4, k5⟩
  obtain ⟨ms, h1, h2, h3, h4⟩ := convert_unb heng hneg (n := 6) (by norm_num) D g2 _ hsol
  refine ⟨ms, ?_, h2, fun m hm x hx => (hT x).mpr (h3 m hm x hx), ?_⟩
  · unfold LargeValues.bestLver
    rw [ht]
    simp only [bind, Except.bind]
    rw [g1]
    exact h1
  · intro x hx Q h
    refine h4 x (by omega) Q (fun ε hε => ?_)
    obtain ⟨y, k1, δ, k2, k3⟩ := h ε hε
    exact ⟨y, k1, δ, k2, fun z hz => ⟨(hT z).mp (k3 z hz).1, (k3 z hz).2⟩⟩

/-- Two limits of interior points whose midpoint is not in the set. -/
def NotConvex5 (S : Pt → Prop) : Prop :=
  ∃ s t a b c s' t' a' b' c', InnerLimit S [s, t, a, b, c] ∧ InnerLimit S [s', t', a', b', c'] ∧
    ¬ S [(s + s') / 2, (t + t') / 2, (a + a') / 2, (b + b') / 2, (c + c') / 2]

theorem not_single_unb {lvers all : List (Region ℕ)} {transforms : List (Region ℕ → Py (Region ℕ))} {zeta : Bool}
    {zlvers : List (Region ℕ)} {d : Mat} {ms : List Mat} (h : IsBest eng lvers transforms zeta zlvers all d ms)
    (hn : NotConvex5 (Tuples d all)) : ms.length ≠ 1 := by
  intro hl
  obtain ⟨_, _, h3, h4⟩ := h
  obtain ⟨m, rfl⟩ := List.length_eq_one_iff.mp hl
  obtain ⟨s, t, a, b, c, s', t', a', b', c', r1, r2, hno⟩ := hn
  have hlim : ∀ x : Pt, x.length = 5 → InnerLimit (Tuples d all) x → m.Contains x := by
    intro x hx hi
    obtain ⟨m', hm', _, hc⟩ := h4 x hx (fun _ => True) (fun ε hε => by
      obtain ⟨y, e1, δ, e2, e3⟩ := hi ε hε
      exact ⟨y, e1, δ, e2, fun z hz => ⟨e3 z hz, fun _ _ _ => trivial⟩⟩)
    rw [List.mem_singleton.mp hm'] at hc
    exact hc
  exact hno (h3 m (by simp) _ (contains_mid (hlim _ rfl r1) (hlim _ rfl r2)))

variable {edges : Mat → List (Pt × Pt)} {solve : RF ℝ → RF ℝ → List ℝ} {isZero : Expr ℝ → Bool}
  {orderR : List (Region ℕ) → List (Region ℕ)} {orderK : List ℚ → List ℚ} {hrep : List Pt → Mat}

/-- `lver_to_energy_bound` for unions of polytopes with interior points, bounded or not: the returned function is `v / (1 - sigma)`, where
`v` is at least `rho* / tau` for all tuples that are limits from the right of interior points, and (if there is such a tuple) equal
to `rho* / tau` for some tuple. -/
theorem energy_value (C : Contracts eng edges solve isZero orderR orderK) (hh : HRepSpec hrep) (hhz : HRepNoZero hrep)
    (lv tl zl : List (Region ℕ)) (transforms : List (Region ℕ → Py (Region ℕ)))
    (ht : LargeValues.applyTransforms lv transforms = .ok tl) (hsol : ∀ R ∈ lv ++ tl ++ zl, SolidUnion 6 R) (m c x0 x1 : ℚ) (hx : x0 < x1)
    (h0 : 2 < m * x0 + c) (h1 : 2 < m * x1 + c) (hn1 : NotConvex5 (Tuples (ZeroDensity.strip x0 x1 m c (2 * m) (2 * c)) (lv ++ tl)))
    (hn2 : NotConvex5 (Tuples (ZeroDensity.strip x0 x1 0 2 m c) (lv ++ tl ++ zl))) :
    ∃ ps, lverToEnergyBound eng hrep edges solve isZero lv transforms zl m c x0 x1 true false =
        .ok (ps.map (fun p => (quotient p.fn (RF.make [-1, 1] none), p.dom))) ∧ Pieces x0 x1 ps ∧
      ∀ s : ℚ, x0 ≤ s → s < x1 → ∃ q ∈ ps, q.dom.x0 ≤ s ∧ s < q.dom.x1 ∧
        (∀ t a b e, (RightLimit5 (Tuples (ZeroDensity.strip x0 x1 m c (2 * m) (2 * c)) (lv ++ tl)) s t a b e ∨
          RightLimit5 (Tuples (ZeroDensity.strip x0 x1 0 2 m c) (lv ++ tl ++ zl)) s t a b e) → ((b / t : ℚ) : ℝ) ≤ q.fn.at s) ∧
        (q.fn.at s = -1000000 ∨ ∃ t a b e, (Tuples (ZeroDensity.strip x0 x1 m c (2 * m) (2 * c)) (lv ++ tl) [s, t, a, b, e] ∨
          Tuples (ZeroDensity.strip x0 x1 0 2 m c) (lv ++ tl ++ zl) [s, t, a, b, e]) ∧ q.fn.at s = ((b / t : ℚ) : ℝ)) := by
  have heng := C.engine
  have hbetween : ∀ s, x0 ≤ s → s ≤ x1 → 2 < m * s + c := by
    intro s k1 k2
    rcases le_total 0 m with hm | hm
    · have i1 := mul_le_mul_of_nonneg_left k1 hm
      linarith
    · have i2 := mul_le_mul_of_nonpos_left k2 hm
      linarith
  have hD : ((⟨x0, x1, true, false⟩ : Ival ℝ)).x0 < (⟨x0, x1, true, false⟩ : Ival ℝ).x1 := by
    simpa using hx
  have hmid := hbetween ((x0 + x1) / 2) (by linarith) (by linarith)
  have hfd1 : FullDim 3 (ZeroDensity.strip x0 x1 m c (2 * m) (2 * c)) :=
    strip_fullDim _ _ _ _ _ _ ((x0 + x1) / 2) (by linarith) (by linarith) (by linarith)
  have hfd2 : FullDim 3 (ZeroDensity.strip x0 x1 0 2 m c) :=
    strip_fullDim _ _ _ _ _ _ ((x0 + x1) / 2) (by linarith) (by linarith) (by linarith)
  obtain ⟨ms1, b1⟩ := best_unb heng C.neg lv tl transforms ht false zl (by
    intro R hR
    exact hsol R (List.mem_append_left _ (by simpa using hR))) _ hfd1
  obtain ⟨ms2, b2⟩ := best_unb heng C.neg lv tl transforms ht true zl (by simpa using hsol) _ hfd2
  simp only [Bool.false_eq_true, if_false, List.append_nil] at b1
  simp only [if_true] at b2
  obtain ⟨_, p1⟩ := energySup_of_best heng hh hhz C.edge C.solves C.zero lv _ transforms false zl _ (by
      intro s t hc
      obtain ⟨s', t', e, k, k3, _⟩ := (strip_contains _ _ _ _ _ _ _).mp hc
      simp only [List.cons.injEq, and_true] at e
      rw [e.2]
      linarith [hbetween s' k.1 k.2]) ⟨x0, x1, true, false⟩ hD ms1 b1
  obtain ⟨_, p2⟩ := energySup_of_best heng hh hhz C.edge C.solves C.zero lv _ transforms true zl _ (by
      intro s t hc
      obtain ⟨s', t', e, k, k3, _⟩ := (strip_contains _ _ _ _ _ _ _).mp hc
      simp only [List.cons.injEq, and_true] at e
      rw [e.2]
      linarith [hbetween s' k.1 k.2]) ⟨x0, x1, true, false⟩ hD ms2 b2
  obtain ⟨o1, q1, r1, r2, r3, r4⟩ := p1 (not_single_unb b1 hn1)
  obtain ⟨o2, q2, s1, s2, s3, s4⟩ := p2 (not_single_unb b2 hn2)
  refine ⟨rfMax solve isZero (funcDomains o1 ++ funcDomains o2) ⟨x0, x1, true, false⟩ true, ?_,
    pieces_maxE C.solves C.zero hx r2 s2, ?_⟩
  · unfold lverToEnergyBound
    rw [energyDomain_eq, energyZetaDomain_eq]
    simp only [bind, Except.bind, pure, Except.pure]
    rw [r1]
    simp only
    rw [s1]
  · intro s i1 i2
    obtain ⟨q, u1, u2, u3, _, u5⟩ := max2_core C.solves C.zero hD r2 s2 true (by simp) s (by simpa using i1) (by simpa using i2)
    refine ⟨q, u1, u2, u3, ?_, ?_⟩
    · rintro t a b e (h | h)
      · obtain ⟨p, hp, k⟩ := r3 s t a b e h
        exact u5.2 (.inr ⟨p, by simp [hp], k⟩)
      · obtain ⟨p, hp, k⟩ := s3 s t a b e h
        exact u5.2 (.inr ⟨p, by simp [hp], k⟩)
    · rcases u5.1 with h | ⟨p, hp, k⟩
      · exact .inl h
      · right
        rcases List.mem_append.mp hp with hp | hp
        · obtain ⟨t, a, b, e, j1, j2⟩ := r4 s _ ⟨p, hp, k⟩
          exact ⟨t, a, b, e, .inl j1, j2⟩
        · obtain ⟨t, a, b, e, j1, j2⟩ := s4 s _ ⟨p, hp, k⟩
          exact ⟨t, a, b, e, .inr j1, j2⟩

end EnergyUnb
end Expdb
