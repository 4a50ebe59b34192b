import Verif.Props.DerivedMu
import Verif.Props.DerivedEnergyValue
import Verif.Model.DerivedBeta

/-!
# C91: the extended Heath-Brown zero density estimate

A bound on beta on `[0, 1/2]` gives a zeta large value estimate whose region has four polytopes, three of them without interior points. Those
three are not inside the domain and disappear when the region is clipped.
-/

namespace Expdb
namespace DerivedZD

open Rational SupRatio Mat Region ZeroDensity

/-! ### Polytopes without interior points -/

/-- A polytope without interior points that is not inside the domain is dropped. -/
theorem pieceInter_drop {eng : Engine} (heng : EngineSpec eng) {n : ℕ} (hn : 2 ≤ n) {D q : Mat} (hD : FullDim n D) (hq : Base n q) (hqb : q.Bounded)
    (hthin : ∀ x : Pt, x.length + 1 = n → ¬ q.Interior x) (hnot : ∃ x, q.Contains x ∧ ¬ D.Contains x) :
    pieceInter (L := ℕ) eng false ⟨D, []⟩ ⟨q, []⟩ = .ok none := by
  obtain ⟨x, hx1, hx2⟩ := hnot
  have h1 : ¬ Mat.isSubsetOf eng.lp q D = true := by
    rw [C15_isSubsetOf_partial eng.lp heng.lp q D hq.wf hD.wf (by rw [hD.cols, hq.cols]) ⟨x, hx1⟩ (fun ab _ => hqb.below ab)]
    exact fun h => hx2 (h x hx1)
  have h2 : ¬ Mat.isSubsetOf eng.lp D q = true := by
    rw [subset_iffW heng hD hq]
    intro h
    obtain ⟨s, hs, hi⟩ := hD.inner
    exact hthin s hs (interior_of_subset n hD.cols hq.cols h hs hi)
  obtain ⟨i, e1, e2, e3, e4⟩ := C10_intersection_exact eng.canon heng.canon true [D, q] (by simp) n (by
    intro p hp
    simp only [List.mem_cons, List.not_mem_nil, or_false] at hp
    rcases hp with rfl | rfl
    · exact ⟨hD.wf, hD.cols⟩
    · exact ⟨hq.wf, hq.cols⟩)
  have hi : Mat.intersect eng.canon D q = .ok i := e1
  have hem : Mat.isEmptyExcl eng.lp i = true := by
    rw [C14_isEmptyExcl_iff eng.lp heng.lp i e2 (base_intersect_noZero heng hD.base hq hi) (by omega)]
    intro y hy hint
    exact hthin y (by rw [← e3]; exact hy)
      (interior_of_subset n e3 hq.cols (fun z hz => (e4 z).mp hz q (by simp)) (by rw [← e3]; exact hy) hint)
  unfold pieceInter
  rw [if_neg h2, if_neg h1]
  simp only
  rw [hi]
  simp only [bind, Except.bind]
  rw [if_pos hem]
  rfl

theorem clipLoop_congr (eng : Engine) (D : Region ℕ) {hs hs' : List (Region ℕ)} (h : List.Forall₂ (fun r r' => clip eng D r = clip eng D r') hs hs') :
    ∀ i seen, clipLoop eng D i seen hs = clipLoop eng D i seen hs' := by
  induction h with
  | nil => intro i seen; rfl
  | cons h1 _ ih =>
    intro i seen
    simp only [clipLoop, h1, ih]

theorem largeValueRegion_congr (eng : Engine) (D : Region ℕ) (hs hs' : List (Region ℕ))
    (h : List.Forall₂ (fun r r' => clip eng D r = clip eng D r') hs hs') : largeValueRegion eng D hs = largeValueRegion eng D hs' := by
  unfold largeValueRegion
  rw [clipLoop_congr eng D h]

theorem forall₂_map_tail {R : Region ℕ → Region ℕ → Prop} (as bs : List (Region ℕ)) (f : Region ℕ → Region ℕ) (h : ∀ x ∈ bs, R x (f x))
    [Std.Refl R] : List.Forall₂ R (as ++ bs) (as ++ bs.map f) := by
  induction as with
  | nil =>
    induction bs with
    | nil => exact .nil
    | cons b bs ih => exact .cons (h b (by simp)) (ih fun x hx => h x (by simp [hx]))
  | cons a as ih => exact .cons (Std.Refl.refl a) ih

theorem lvZlvToZd_congr (eng : Engine) (edges : Mat → List (Pt × Pt)) (solve : RF ℝ → RF ℝ → List ℝ) (isZero : Expr ℝ → Bool)
    (lvs : List (Region ℕ)) (transforms : List (Region ℕ → Py (Region ℕ))) (tl : List (Region ℕ))
    (ht : LargeValues.applyTransforms lvs transforms = .ok tl) (zl zl' : List (Region ℕ)) (x0 x1 : ℚ) (incL incU : Bool) (tau0 : ℚ)
    (h : largeValueRegion eng (.polytope (ZeroDensity.box3 x0 x1 2 tau0 0 1000000) none) (lvs ++ tl ++ zl) =
      largeValueRegion eng (.polytope (ZeroDensity.box3 x0 x1 2 tau0 0 1000000) none) (lvs ++ tl ++ zl')) :
    lvZlvToZd eng edges solve isZero lvs transforms zl x0 x1 incL incU tau0 = lvZlvToZd eng edges solve isZero lvs transforms zl' x0 x1 incL incU tau0 := by
  unfold lvZlvToZd allHyps
  simp only [ht, bind, Except.bind, pure, Except.pure, LargeValues.lvLimit, ZeroDensity.box3_rect, if_true, if_false, Bool.false_eq_true, h]

/-! ### The region of a bound on beta -/

/-- The polytope with `rho = 0`. -/
def betaThin (c m : ℚ) : Mat :=
  ⟨4, [⟨false, 0, [0, 0, -1]⟩, ⟨false, 0, [0, 0, 1]⟩, ⟨false, 1, [-1, 0, 0]⟩, ⟨false, -(1 / 2), [1, 0, 0]⟩, ⟨false, -2, [0, 1, 0]⟩,
    ⟨false, 1000000, [0, -1, 0]⟩, ⟨false, -c, [1, -m, 0]⟩]⟩

/-- The polytope between two limits for `tau` which are equal. -/
def tauPlane (u v : ℚ) : Mat :=
  ⟨4, [⟨false, 0, [0, 1, -1]⟩, ⟨false, 0, [0, 0, 1]⟩, ⟨false, 1, [-1, 0, 0]⟩, ⟨false, -(1 / 2), [1, 0, 0]⟩] ++ [⟨false, u, [0, -v, 0]⟩, ⟨false, -u, [0, v, 0]⟩]⟩

/-- The four polytopes. -/
def betaMats (c m : ℚ) : List Mat := [betaThin c m, muWide c m, tauPlane 2 1, tauPlane (-1000000) (-1)]

/-- Replaces the region made from a bound on beta. -/
def wideOnly (Z : Region ℕ) : Region ℕ → Region ℕ
  | .disjoint _ => Z
  | R => R

theorem betaRegion_eq (b : Affine (Option ℕ)) (h : b.dom = BetaPairs.half) :
    LargeValues.betaRegion b = .ok (unionOf (betaMats b.m b.c)) := by
  unfold LargeValues.betaRegion
  rw [h]
  have e1 : LargeValues.tauUpper BetaPairs.half.x0 = 1000000 := by decide +kernel
  have e2 : LargeValues.tauLower BetaPairs.half.x1 = 2 := by decide +kernel
  simp only [e1, e2]
  simp [LargeValues.polyRegions, Mat.ofConstraints, Mat.ofRows, LargeValues.rowOf, Row.isZero, LargeValues.tauLimit,
    betaMats, betaThin, muWide, tauPlane, unionOf, bind, Except.bind, pure, Except.pure]

theorem betaThin_contains (c m : ℚ) (x : Pt) : (betaThin c m).Contains x ↔
    ∃ s t, x = [s, t, 0] ∧ (1 / 2 ≤ s ∧ s ≤ 1) ∧ (2 ≤ t ∧ t ≤ 1000000) ∧ c + m * t ≤ s := by
  rw [← muThin_contains]
  constructor <;> intro h <;> have hl := contains_length h <;> rw [contains_iff_holds _ _ hl] at h <;>
    rw [contains_iff_holds _ _ (show x.length + 1 = 4 from hl)] <;>
    intro q hq <;> refine h q ?_ <;> simp only [betaThin, muThin, List.mem_cons, List.not_mem_nil, or_false] at hq ⊢ <;> tauto

theorem tauPlane_contains (u v : ℚ) (x : Pt) : (tauPlane u v).Contains x ↔
    ∃ s t r, x = [s, t, r] ∧ (1 / 2 ≤ s ∧ s ≤ 1) ∧ (0 ≤ r ∧ r ≤ t) ∧ v * t = u := by
  constructor
  · intro h
    have hl := contains_length h
    rw [contains_iff_holds _ _ hl] at h
    match x, hl with
    | [s, t, r], _ =>
      change ∀ q ∈ [⟨false, 0, [0, 1, -1]⟩, ⟨false, 0, [0, 0, 1]⟩, ⟨false, 1, [-1, 0, 0]⟩, ⟨false, -(1 / 2), [1, 0, 0]⟩, ⟨false, u, [0, -v, 0]⟩,
    ⟨false, -u, [0, v, 0]⟩], Row.Holds q [s, t, r] at h
      simp only [List.mem_cons, List.not_mem_nil, or_false, forall_eq_or_imp, forall_eq, row3_holds] at h
      obtain ⟨k1, k2, k3, k4, k5, k6⟩ := h
      exact ⟨s, t, r, rfl, ⟨by linarith, by linarith⟩, ⟨by linarith, by linarith⟩, by linarith⟩
  · rintro ⟨s, t, r, rfl, k1, k2, k3⟩
    rw [contains_iff_holds _ _ rfl]
    change ∀ q ∈ [⟨false, 0, [0, 1, -1]⟩, ⟨false, 0, [0, 0, 1]⟩, ⟨false, 1, [-1, 0, 0]⟩, ⟨false, -(1 / 2), [1, 0, 0]⟩, ⟨false, u, [0, -v, 0]⟩,
    ⟨false, -u, [0, v, 0]⟩], Row.Holds q [s, t, r]
    simp only [List.mem_cons, List.not_mem_nil, or_false, forall_eq_or_imp, forall_eq, row3_holds]
    refine ⟨?_, ?_, ?_, ?_, ?_, ?_⟩ <;> linarith

theorem betaThin_base (c m : ℚ) : Base 4 (betaThin c m) := by
  refine ⟨?_, rfl, ?_⟩ <;> intro r hr <;> simp only [betaThin, List.mem_cons, List.not_mem_nil, or_false] at hr <;>
    rcases hr with rfl | rfl | rfl | rfl | rfl | rfl | rfl <;> simp [Row.isZero, betaThin]

theorem tauPlane_base (u v : ℚ) (hv : v ≠ 0) : Base 4 (tauPlane u v) := by
  refine ⟨?_, rfl, ?_⟩ <;> intro r hr <;> simp only [tauPlane, List.cons_append, List.nil_append, List.mem_cons, List.not_mem_nil, or_false] at hr <;>
    rcases hr with rfl | rfl | rfl | rfl | rfl | rfl <;> simp [Row.isZero, tauPlane, hv]

/-- An interior point allows a step in each direction. -/
theorem interior_step {p : Mat} (hp : p.cols = 4) {s t r : ℚ} (h : p.Interior [s, t, r]) :
    ∃ e : ℚ, 0 < e ∧ p.Contains [s, t, r + e] ∧ p.Contains [s, t + e, r] := by
  obtain ⟨ε, h1, h2⟩ := h
  refine ⟨ε / 2, by linarith, ?_, ?_⟩
  · rw [contains_iff_holds _ _ (by rw [hp]; rfl)]
    refine h2 _ (.cons (by simpa using h1) (.cons (by simpa using h1) (.cons ?_ .nil)))
    rw [abs_lt]; constructor <;> linarith
  · rw [contains_iff_holds _ _ (by rw [hp]; rfl)]
    refine h2 _ (.cons (by simpa using h1) (.cons ?_ (.cons (by simpa using h1) .nil)))
    rw [abs_lt]; constructor <;> linarith

theorem betaThin_thin (c m : ℚ) (x : Pt) (hx : x.length + 1 = 4) : ¬ (betaThin c m).Interior x := by
  intro h
  match x, hx with
  | [s, t, r], _ =>
    obtain ⟨e, e0, e1, e2⟩ := interior_step rfl h
    obtain ⟨s1, t1, k1, _⟩ := (betaThin_contains c m _).mp e1
    obtain ⟨s2, t2, k2, _⟩ := (betaThin_contains c m _).mp e2
    simp only [List.cons.injEq, and_true] at k1 k2
    linarith [k1.2.2, k2.2.2]

theorem tauPlane_thin (u v : ℚ) (hv : v ≠ 0) (x : Pt) (hx : x.length + 1 = 4) : ¬ (tauPlane u v).Interior x := by
  intro h
  match x, hx with
  | [s, t, r], _ =>
    obtain ⟨e, e0, e1, e2⟩ := interior_step rfl h
    obtain ⟨s1, t1, r1, k1, _, _, k3⟩ := (tauPlane_contains u v _).mp e1
    obtain ⟨s2, t2, r2, k2, _, _, k4⟩ := (tauPlane_contains u v _).mp e2
    simp only [List.cons.injEq, and_true] at k1 k2
    obtain ⟨rfl, rfl, _⟩ := k1
    obtain ⟨_, rfl, _⟩ := k2
    have : v * e = 0 := by linarith
    rcases mul_eq_zero.mp this with h | h
    · exact hv h
    · linarith

theorem bounded_of {p : Mat} {M : ℚ} (h : ∀ x, p.Contains x → ∃ s t r, x = [s, t, r] ∧ (0 ≤ s ∧ s ≤ M) ∧ (0 ≤ t ∧ t ≤ M) ∧ (0 ≤ r ∧ r ≤ M)) : p.Bounded := by
  refine ⟨M, fun x hx => ?_⟩
  obtain ⟨s, t, r, rfl, k1, k2, k3⟩ := h x hx
  intro y hy
  simp only [List.mem_cons, List.not_mem_nil, or_false] at hy
  rcases hy with rfl | rfl | rfl <;> rw [abs_le] <;> constructor <;> linarith

/-- Clipped by the domain, only the full-dimensional polytope of the region is left. -/
theorem clip_beta {eng : Engine} (heng : EngineSpec eng) (p : ℚ × ℚ) (x0 tau0 : ℚ) (hx : x0 < 1) (hx0 : 1 / 2 < x0) (htau : 2 < tau0)
    (htau' : tau0 ≤ 1000) (hp0 : p.1 + p.2 * 2 < x0) :
    clip eng (.polytope (ZeroDensity.box3 x0 1 2 tau0 0 1000000) none) (unionOf (betaMats p.1 p.2)) =
      clip eng (.polytope (ZeroDensity.box3 x0 1 2 tau0 0 1000000) none) (unionOf [muWide p.1 p.2]) := by
  set D := ZeroDensity.box3 x0 1 2 tau0 0 1000000 with hDdef
  have hD : FullDim 4 D := ZeroDensity.box3_fullDim _ _ _ _ _ _ hx htau (by norm_num)
  have out : ∀ s t r : ℚ, s < x0 → ¬ D.Contains [s, t, r] := by
    intro s t r hs h
    rw [hDdef, ZeroDensity.box3_contains] at h
    obtain ⟨s', t', r', e, k, _⟩ := h
    simp only [List.cons.injEq, and_true] at e
    obtain ⟨rfl, rfl, rfl⟩ := e
    linarith [k.1]
  have d1 : pieceInter (L := ℕ) eng false ⟨D, []⟩ ⟨betaThin p.1 p.2, []⟩ = .ok none := by
    refine pieceInter_drop heng (by norm_num) hD (betaThin_base _ _) (bounded_of (M := 1000000) fun x h => ?_) (betaThin_thin _ _)
      ⟨[max (1 / 2) (p.1 + p.2 * 2), 2, 0], (betaThin_contains _ _ _).mpr ⟨_, 2, rfl, ⟨le_max_left _ _, max_le (by norm_num) (by linarith)⟩,
        by norm_num, le_max_right _ _⟩, out _ _ _ (max_lt hx0 hp0)⟩
    obtain ⟨s, t, rfl, k1, k2, _⟩ := (betaThin_contains _ _ _).mp h
    exact ⟨s, t, 0, rfl, ⟨by linarith, by linarith⟩, ⟨by linarith, by linarith⟩, by norm_num⟩
  have d2 : pieceInter (L := ℕ) eng false ⟨D, []⟩ ⟨tauPlane 2 1, []⟩ = .ok none := by
    refine pieceInter_drop heng (by norm_num) hD (tauPlane_base _ _ (by norm_num)) (bounded_of (M := 1000000) fun x h => ?_)
      (tauPlane_thin _ _ (by norm_num)) ⟨[1 / 2, 2, 0], (tauPlane_contains _ _ _).mpr ⟨_, _, _, rfl, by norm_num, by norm_num, by norm_num⟩, out _ _ _ hx0⟩
    obtain ⟨s, t, r, rfl, k1, k2, k3⟩ := (tauPlane_contains _ _ _).mp h
    exact ⟨s, t, r, rfl, ⟨by linarith, by linarith⟩, ⟨by linarith, by linarith⟩, by linarith, by linarith⟩
  have d3 : pieceInter (L := ℕ) eng false ⟨D, []⟩ ⟨tauPlane (-1000000) (-1), []⟩ = .ok none := by
    refine pieceInter_drop heng (by norm_num) hD (tauPlane_base _ _ (by norm_num)) (bounded_of (M := 1000000) fun x h => ?_)
      (tauPlane_thin _ _ (by norm_num)) ⟨[1 / 2, 1000000, 0], (tauPlane_contains _ _ _).mpr ⟨_, _, _, rfl, by norm_num, by norm_num, by norm_num⟩, out _ _ _ hx0⟩
    obtain ⟨s, t, r, rfl, k1, k2, k3⟩ := (tauPlane_contains _ _ _).mp h
    exact ⟨s, t, r, rfl, ⟨by linarith, by linarith⟩, ⟨by linarith, by linarith⟩, by linarith, by linarith⟩
  have hin : inters (L := ℕ) eng false ⟨D, []⟩ ((betaMats p.1 p.2).map (fun m => ⟨m, []⟩)) =
      inters (L := ℕ) eng false ⟨D, []⟩ ([muWide p.1 p.2].map (fun m => ⟨m, []⟩)) := by
    simp only [betaMats, List.map_cons, List.map_nil, inters, d1, d2, d3, bind, Except.bind, pure, Except.pure, Option.toList, List.nil_append, List.append_nil]
    cases pieceInter (L := ℕ) eng false ⟨D, []⟩ ⟨muWide p.1 p.2, []⟩ <;> rfl
  have hdis : ∀ ms : List Mat, asDisjoint eng false (.intersect [.polytope D none, unionOf ms]) =
      distribute eng false (ms.map (fun m => ⟨m, []⟩)) [⟨D, []⟩] >>= fun A => periodicSimplify eng false 1 A := by
    intro ms
    rw [asDisjoint, asDisjointList, asDisjointList, asDisjointList, DerivedEnergy.asDisjoint_unionOf, asDisjoint, leafPieces]
    simp only [Bool.false_eq_true, if_false, bind, Except.bind, pure, Except.pure, intersectSets, intersectLoop]
    cases distribute eng false (ms.map (fun m => (⟨m, []⟩ : Expdb.Piece ℕ))) [⟨D, []⟩] with
    | error e => rfl
    | ok A =>
      simp only
      cases periodicSimplify eng false 1 A <;> rfl
  unfold clip asDisjointUnion
  rw [hdis, hdis]
  simp only [distribute, hin]

theorem wideUnion_mem (p : ℚ × ℚ) (s t r : ℚ) : (unionOf [muWide p.1 p.2]).Mem [s, t, r] ↔
    (1 / 2 ≤ s ∧ s ≤ 1) ∧ (2 ≤ t ∧ t ≤ 1000000) ∧ (0 ≤ r ∧ r ≤ t) ∧ s ≤ p.1 + p.2 * t := by
  rw [unionOf_mem]
  simp only [List.mem_cons, List.not_mem_nil, or_false, exists_eq_left, muWide_contains, List.cons.injEq, and_true]
  constructor
  · rintro ⟨s', t', r', ⟨rfl, rfl, rfl⟩, k1, k2, k3, k4⟩
    exact ⟨k1, k2, k3, k4⟩
  · rintro ⟨k1, k2, k3, k4⟩
    exact ⟨s, t, r, ⟨rfl, rfl, rfl⟩, k1, k2, k3, k4⟩

variable {eng : Engine} {edges : Mat → List (Pt × Pt)} {solve : RF ℝ → RF ℝ → List ℝ} {isZero : Expr ℝ → Bool}
  {orderR : List (Region ℕ) → List (Region ℕ)} {orderK : List ℚ → List ℚ}

/-- **C91** (general part) With large value estimates that are maxima of bounds decreasing in `sigma` and one bound
`beta(alpha) <= c + m alpha` on `[0, 1/2]`, `prove_zero_density` on `[x0, 1)` with `x0 > 1/2` and `x0 > 2 c + m` does not raise if the bound says
nothing for `tau = tau0`; at each `s` exactly one of the returned pieces gives a value, and it is the maximum of `rho / tau` over all `(tau, rho)`
that obey the large value estimates and their powers up to 5, with `tau` in `[tau0, 2 tau0]`, or with `tau` in `[2, tau0]` and `rho = 0` where
`sigma > tau beta(1/tau)` by the bound. -/
theorem C91_value (C : Contracts eng edges solve isZero orderR orderK) (LB : List (List (ℚ × ℚ × ℚ))) (lvs : List (Region ℕ))
    (b : Beta.Hyp) (hdom : b.bound.dom = BetaPairs.half) (hL : Covers lvs (LB.map (fun bs => (bs, 1)))) (hdec : ∀ bs ∈ LB, ∀ b ∈ bs, b.2.1 < 0)
    (hmv : ∀ bs ∈ LB, (2, -2, 0) ∈ bs) (x0 tau0 : ℚ) (hx : x0 < 1) (hx0 : 1 / 2 < x0) (htau : 2 < tau0) (htau' : tau0 ≤ 1000)
    (hp : 0 < b.bound.c) (hp0 : b.bound.m + b.bound.c * 2 < x0) (hp1 : 1 ≤ b.bound.m + b.bound.c * tau0) :
    ∃ out, proveZeroDensityBeta eng edges solve isZero orderR orderK lvs [b] x0 1 tau0 = .ok out ∧ Pieces x0 1 out ∧
      ∀ s, x0 ≤ s → s < 1 → ∃ q ∈ out, q.dom.x0 ≤ s ∧ s < q.dom.x1 ∧ (∀ q' ∈ out, q'.dom.x0 ≤ s → s < q'.dom.x1 → q' = q) ∧
        IsGreatest {v : ℝ | ∃ t r, FeasibleMu LB (b.bound.m, b.bound.c) tau0 s t r ∧ v = ((r / t : ℚ) : ℝ)} (q.fn.at s) := by
  obtain ⟨heng, hneg, hed, hs, hz, hR, hK⟩ := C
  obtain ⟨ml, e1, _, _⟩ := convert_full heng.canon heng.canonNoZero l2 (by simp [l2]) l2_staggered
  have hl2 := realises_convert heng.canon heng.canonNoZero l2 (by simp [l2]) l2_staggered e1
  replace e1 : LargeValues.convertBounds eng.canon l2Bounds = .ok (unionOf ml) := e1
  set lv := orderR (unionOf ml :: lvs) with hlv
  set ks := orderK [2, 3, 4, 5] with hks
  have hkp : ks.Perm [2, 3, 4, 5] := hK _
  have hcl : Covers lv ((l2 :: LB).map (fun bs => (bs, 1))) := by
    refine Covers.perm ?_ (hR _)
    have : Covers [unionOf ml] [(l2, 1)] := ⟨by simpa using hl2, by simpa using hl2⟩
    exact this.append hL
  obtain ⟨tl, t1, t2⟩ := covers_transforms hcl ks (by
    intro k hk
    have := hkp.mem_iff.mp hk
    simp only [List.mem_cons, List.not_mem_nil, or_false] at this
    rcases this with rfl | rfl | rfl | rfl <;> norm_num)
  have hB1 : Covers (lv ++ tl) (withPowers ks (l2 :: LB)) := hcl.append t2
  set derived : List (Region ℕ) := (lv ++ tl).map (fun r => .intersect [.polytope tauTwo none, r]) with hder
  set p : ℚ × ℚ := (b.bound.m, b.bound.c) with hpdef
  set Z : Region ℕ := unionOf [muWide p.1 p.2] with hZ
  set zl := (orderR (derived ++ [unionOf (betaMats p.1 p.2)])).map (wideOnly Z) with hzl
  have hzm : ∀ R, R ∈ zl ↔ R = Z ∨ R ∈ derived := by
    intro R
    rw [hzl, List.mem_map]
    constructor
    · rintro ⟨R', h1, rfl⟩
      rw [(hR _).mem_iff, List.mem_append, List.mem_singleton] at h1
      rcases h1 with h1 | rfl
      · right
        obtain ⟨q, _, rfl⟩ := List.mem_map.mp h1
        exact h1
      · exact .inl rfl
    · rintro (rfl | h1)
      · exact ⟨unionOf (betaMats p.1 p.2), (hR _).mem_iff.mpr (by simp), rfl⟩
      · refine ⟨R, (hR _).mem_iff.mpr (by simp [h1]), ?_⟩
        obtain ⟨q, _, rfl⟩ := List.mem_map.mp h1
        rfl
  have hle1 : ∀ p ∈ withPowers ks (l2 :: LB), 1 ≤ p.2 := fun p hp => (five ((mem_withPowers hkp _ p).mp hp).2).1
  have hZm : ∀ s t r, Z.Mem [s, t, r] ↔ (1 / 2 ≤ s ∧ s ≤ 1) ∧ (2 ≤ t ∧ t ≤ 1000000) ∧ (0 ≤ r ∧ r ≤ t) ∧ s ≤ p.1 + p.2 * t :=
    wideUnion_mem p
  have hcapL : ∀ s t r, 1 / 2 ≤ s → t ≤ 2000 → LVOk (l2 :: LB) s t r → r ≤ 999999 := by
    intro s t r h1 h2 h
    obtain ⟨b, hb, hle⟩ := h l2 (by simp) 1 (by simp)
    unfold l2 at hb
    simp only [List.mem_cons, List.not_mem_nil, or_false] at hb
    unfold bval at hle
    rcases hb with rfl | rfl <;> norm_num at hle <;> linarith
  have htriv : ∀ s t r, 1 / 2 ≤ s → 2 ≤ t → LVOk (l2 :: LB) s t r → r ≤ t := by
    intro s t r h1 h2 h
    obtain ⟨b, hb, hle⟩ := h l2 (by simp) 1 (by simp)
    unfold l2 at hb
    simp only [List.mem_cons, List.not_mem_nil, or_false] at hb
    unfold bval at hle
    rcases hb with rfl | rfl <;> norm_num at hle <;> linarith
  have hG1 : Given (Allowed x0 1 tau0 (2 * tau0) (lv ++ tl)) x0 1 tau0 (2 * tau0) (powered (withPowers ks (l2 :: LB))) := by
    intro s t r
    unfold Allowed
    constructor
    · rintro ⟨s', t', r', e, k1, k2, k3, k4⟩
      simp only [List.cons.injEq, and_true] at e
      obtain ⟨rfl, rfl, rfl⟩ := e
      exact ⟨k1, k2, k3, (hB1.mem hle1 (by linarith [k1.1]) (by linarith [k1.2]) (by linarith [k2.1]) (by linarith [k2.2])
        k3.1 k3.2).mp k4⟩
    · rintro ⟨k1, k2, k3, k4⟩
      exact ⟨s, t, r, rfl, k1, k2, k3, (hB1.mem hle1 (by linarith [k1.1]) (by linarith [k1.2]) (by linarith [k2.1])
        (by linarith [k2.2]) k3.1 k3.2).mpr k4⟩
  have hG2 : GivenMu (Allowed x0 1 2 tau0 (lv ++ tl ++ zl)) x0 1 2 tau0 (powered (withPowers ks (l2 :: LB))) (fun s t _ => s ≤ p.1 + p.2 * t) := by
    have hmem : ∀ s t r, 2 ≤ t → ((∀ R ∈ lv ++ tl ++ zl, R.Mem [s, t, r]) ↔ (∀ R ∈ lv ++ tl, R.Mem [s, t, r]) ∧ Z.Mem [s, t, r]) := by
      intro s t r ht
      constructor
      · intro h
        exact ⟨fun R hR' => h R (List.mem_append_left _ hR'), h Z (List.mem_append_right _ ((hzm Z).mpr (.inl rfl)))⟩
      · rintro ⟨h, hz'⟩ R hR'
        rcases List.mem_append.mp hR' with hR' | hR'
        · exact h R hR'
        · rcases (hzm R).mp hR' with rfl | hR'
          · exact hz'
          · obtain ⟨R', hR'', rfl⟩ := List.mem_map.mp hR'
            rw [mem_pair]
            exact ⟨(tauTwo_contains _).mpr ⟨s, t, r, rfl, ht⟩, h R' hR''⟩
    intro s t r
    unfold Allowed
    constructor
    · rintro ⟨s', t', r', e, k1, k2, k3, k4⟩
      simp only [List.cons.injEq, and_true] at e
      obtain ⟨rfl, rfl, rfl⟩ := e
      obtain ⟨k5, k6⟩ := (hmem s t r k2.1).mp k4
      exact ⟨k1, k2, k3, (hB1.mem hle1 (by linarith [k1.1]) (by linarith [k1.2]) (by linarith [k2.1]) (by linarith [k2.2])
        k3.1 k3.2).mp k5, ((hZm s t r).mp k6).2.2.2⟩
    · rintro ⟨k1, k2, k3, k4, k5⟩
      exact ⟨s, t, r, rfl, k1, k2, k3, (hmem s t r k2.1).mpr ⟨(hB1.mem hle1 (by linarith [k1.1]) (by linarith [k1.2])
        (by linarith [k2.1]) (by linarith [k2.2]) k3.1 k3.2).mpr k4, (hZm s t r).mpr ⟨⟨by linarith [k1.1], k1.2⟩, ⟨k2.1, by linarith [k2.2]⟩,
          ⟨k3.1, htriv s t r (by linarith [k1.1]) k2.1 ((under_withPowers hkp _ _ _ _).mp k4)⟩, k5⟩⟩⟩
  have hposL : ∀ s t : ℚ, s < 1 → ∀ cs ∈ powered (withPowers ks (l2 :: LB)), ∃ c ∈ cs, 0 < bval c s t := by
    intro s t h1 cs hcs
    obtain ⟨p, hp, rfl⟩ := List.mem_map.mp hcs
    obtain ⟨k1, k2⟩ := (mem_withPowers hkp _ p).mp hp
    have h5 := five k2
    refine ⟨pw p.2 (2, -2, 0), List.mem_map.mpr ⟨_, ?_, rfl⟩, ?_⟩
    · rcases List.mem_cons.mp k1 with h | h
      · rw [h]; simp [l2]
      · exact hmv _ h
    · rw [bval_pw (by linarith)]
      unfold bval
      simp only
      nlinarith
  have hnegL : ∀ cs ∈ powered (withPowers ks (l2 :: LB)), ∀ c ∈ cs, c.2.1 < 0 := by
    intro cs hcs c hc
    obtain ⟨p, hp, rfl⟩ := List.mem_map.mp hcs
    obtain ⟨b, hb, rfl⟩ := List.mem_map.mp hc
    obtain ⟨k1, k2⟩ := (mem_withPowers hkp _ p).mp hp
    have h5 := five k2
    have : b.2.1 < 0 := by
      rcases List.mem_cons.mp k1 with h | h
      · rw [h] at hb
        unfold l2 at hb
        simp only [List.mem_cons, List.not_mem_nil, or_false] at hb
        rcases hb with rfl | rfl <;> norm_num
      · exact hdec _ h b hb
    unfold pw
    simp only
    nlinarith
  have hrs : ∀ r ∈ lv ++ tl ++ zl, Hyp 4 (FullDim 4) r := by
    intro R hR'
    rcases List.mem_append.mp hR' with hR' | hR'
    · obtain ⟨p, _, hr⟩ := hB1.1 R hR'
      exact .inl (realises_plain hr)
    · rcases (hzm R).mp hR' with rfl | hR'
      · refine .inl ⟨unionOf_plain _, fun m hm => ?_⟩
        rw [unionOf_leaves] at hm
        simp only [List.mem_cons, List.not_mem_nil, or_false] at hm
        subst hm
        exact muWide_fullDim _ _ tau0 htau (by linarith) hp1
      · obtain ⟨R', hR'', rfl⟩ := List.mem_map.mp hR'
        obtain ⟨p, _, hr⟩ := hB1.1 R' hR''
        exact .inr ⟨tauTwo, none, R', rfl, tauTwo_unb, realises_plain hr⟩
  obtain ⟨ms1, d1, ms2, d2, o1, o2, _, _, h3, ⟨a1, a2, a3, a4⟩, b1, b2, b3, b4⟩ :=
    zd_core heng hed hs hz lv (ks.map LargeValues.raiseToPower) tl t1 zl (by
      rw [hlv]; intro h; simpa [h] using (hR (unionOf ml :: lvs)).length_eq) hrs (.inl hneg) x0 1 tau0 hx htau true false
  have hq1 : ∀ s, x0 ≤ s → s < 1 → ∃ t r, RightLimit (Allowed x0 1 tau0 (2 * tau0) (lv ++ tl)) s t r ∧ 0 ≤ r / t :=
    fun s l1 l2 => some_of_pos hG1 (by linarith) (by linarith) l1 l2 (le_refl tau0) (by linarith) (hposL s tau0 l2)
  have hq2 : ∀ s, x0 ≤ s → s < 1 → ∃ t r, RightLimit (Allowed x0 1 2 tau0 (lv ++ tl ++ zl)) s t r ∧ 0 ≤ r / t := by
    intro s l1 l2
    obtain ⟨t, r, k1, k2⟩ := pos_of_mu hG2 (muLike_le p) htau (by norm_num) hp hp1 l1 l2 (hposL s tau0 l2)
    exact ⟨t, r, k1, k2.le⟩
  have hbeta : LargeValues.betaToZlv [b] = .ok [(unionOf (betaMats p.1 p.2) : Region ℕ)] := by
    unfold LargeValues.betaToZlv
    have e : Beta.computeBest [b] BetaPairs.half = .ok [Beta.Best.existing b] := rfl
    rw [e]
    simp only [bind, Except.bind, List.map_cons, List.map_nil, LargeValues.betaRegions, Beta.Best.bound, betaRegion_eq b.bound hdom, pure, Except.pure]
    rfl
  have hsame : largeValueRegion eng (.polytope (ZeroDensity.box3 x0 1 2 tau0 0 1000000) none)
      (lv ++ tl ++ orderR (derived ++ [unionOf (betaMats p.1 p.2)])) =
      largeValueRegion eng (.polytope (ZeroDensity.box3 x0 1 2 tau0 0 1000000) none) (lv ++ tl ++ zl) := by
    refine largeValueRegion_congr _ _ _ _ (forall₂_map_tail _ _ _ fun R hR' => ?_)
    rw [(hR _).mem_iff, List.mem_append, List.mem_singleton] at hR'
    rcases hR' with h1 | rfl
    · obtain ⟨q, _, rfl⟩ := List.mem_map.mp h1
      rfl
    · exact clip_beta heng p x0 tau0 hx hx0 htau (by linarith) hp0
  have hout : proveZeroDensityBeta eng edges solve isZero orderR orderK lvs [b] x0 1 tau0 =
      .ok (rfMax solve isZero (funcDomains o1 ++ funcDomains o2) ⟨x0, (1 : ℚ), true, false⟩ false) := by
    unfold proveZeroDensityBeta
    rw [e1]
    simp only [bind, Except.bind]
    rw [← hlv, ← hks, lvToZlv_eq lv _ tl t1, hbeta]
    simp only
    rw [lvZlvToZd_congr eng edges solve isZero lv _ tl t1 _ zl x0 1 true false tau0 hsame]
    exact h3
  have hpole : ∀ p ∈ o1 ++ o2, ∀ x, (x0 : ℝ) ≤ x → x < (1 : ℚ) → p.fn.NoCommonZero x := by
    intro f hf
    rcases List.mem_append.mp hf with hf | hf
    · exact noCommonZero_of_decreasing a1 a2 a3 a4 (higher_of_mem hG1 (by linarith) (by linarith) hnegL
        (fun s t r h => by
          obtain ⟨k1, k2, k3, k4⟩ := (hG1 s t r).mp h
          exact hcapL s t r (by linarith [k1.1]) (by linarith [k2.2]) ((under_withPowers hkp _ _ _ _).mp k4))) hq1 f hf
    · exact noCommonZero_of_decreasing b1 b2 b3 b4 (higher_of_mu hG2 (muLike_le p) htau (by norm_num) hp hp1 hnegL
        (fun s t r h => by
          obtain ⟨k1, k2, k3, k4, _⟩ := (hG2 s t r).mp h
          exact hcapL s t r (by linarith [k1.1]) (by linarith [k2.2]) ((under_withPowers hkp _ _ _ _).mp k4))
        (fun s _ l2 => hposL s tau0 l2)) hq2 f hf
  refine ⟨_, hout, pieces_max hs hz hx a1 b1 hpole, fun s l1 l2 => ?_⟩
  obtain ⟨q, q1, q2, q3, q4, q5⟩ := zd_finish hs hz hx a1 a3 a4 b1 b3 b4 hpole s l1 l2
  refine ⟨q, q1, q2, q3, q4, ?_⟩
  have hg := greatest_of_mu hG1 hG2 (muLike_le p) (by linarith) htau hp hp1 l2 (by
    obtain ⟨t, r, k1, k2⟩ := hq1 s l1 l2
    exact ⟨t, r, .inl k1, k2⟩) q5
  have e : RatioSet (Allowed x0 1 tau0 (2 * tau0) (lv ++ tl)) (Allowed x0 1 2 tau0 (lv ++ tl ++ zl)) s =
      {v : ℝ | ∃ t r, FeasibleMu LB p tau0 s t r ∧ v = ((r / t : ℚ) : ℝ)} := by
    ext v
    unfold RatioSet FeasibleMu
    simp only [Set.mem_ofPred_eq]
    constructor
    · rintro ⟨t, r, h | h, rfl⟩
      · obtain ⟨k1, k2, k3, k4⟩ := (hG1 s t r).mp h
        exact ⟨t, r, ⟨k3.1, (under_withPowers hkp _ _ _ _).mp k4, .inl k2⟩, rfl⟩
      · obtain ⟨k1, k2, k3, k4, k5⟩ := (hG2 s t r).mp h
        exact ⟨t, r, ⟨k3.1, (under_withPowers hkp _ _ _ _).mp k4, .inr ⟨k2.1, k2.2, fun h => absurd h (not_lt.mpr k5)⟩⟩, rfl⟩
    · rintro ⟨t, r, ⟨k1, k2, k3 | ⟨k3, k4, k5⟩⟩, rfl⟩
      · refine ⟨t, r, .inl ((hG1 s t r).mpr ⟨⟨l1, l2.le⟩, k3, ⟨k1, ?_⟩, (under_withPowers hkp _ _ _ _).mpr k2⟩), rfl⟩
        linarith [hcapL s t r (by linarith) (by linarith [k3.2]) k2]
      · rcases lt_or_ge (p.1 + p.2 * t) s with hlt | hge
        · obtain rfl : r = 0 := k5 hlt
          refine ⟨tau0, 0, .inl ((hG1 s tau0 0).mpr ⟨⟨l1, l2.le⟩, ⟨le_rfl, by linarith⟩, by norm_num, fun cs hcs => ?_⟩), by simp⟩
          obtain ⟨c, c1, c2⟩ := hposL s tau0 l2 cs hcs
          exact ⟨c, c1, c2.le⟩
        refine ⟨t, r, .inr ((hG2 s t r).mpr ⟨⟨l1, l2.le⟩, ⟨k3, k4⟩, ⟨k1, ?_⟩, (under_withPowers hkp _ _ _ _).mpr k2, hge⟩), rfl⟩
        linarith [hcapL s t r (by linarith) (by linarith) k2]
  rw [← e]
  exact hg

/-- **C91** (the extended Heath-Brown estimate) `prove_zero_density_heathbrown_extended` returns `3 (1 - sigma) / (10 sigma - 7)` on `[20/23, 1)`. -/
theorem C91_extended (C : Contracts eng edges solve isZero orderR orderK) :
    ∃ out, proveHBExtended eng edges solve isZero orderR orderK = .ok out ∧
      IsBound (20 / 23) 1 out (fun x => 3 * (1 - x) / (10 * x - 7)) := by
  obtain ⟨R, e1, e2⟩ := jut_of C
  obtain ⟨H, h1, h2⟩ := covers_of C hb (by simp [hb]) hb_staggered
  replace h1 : LargeValues.convertBounds eng.canon Literature.heathBrown = .ok H := h1
  have e3 : Covers [R, H] [(jut, 1), (hb, 1)] := e2.append h2
  obtain ⟨out, g1, g2, g3⟩ := C91_value C [jut, hb] [R, H] ⟨0, BetaPairs.pairBound (3 / 40) (31 / 40)⟩ rfl e3 (by decide +kernel) (by simp [jut, hb])
    (20 / 23) 4 (by norm_num) (by norm_num) (by norm_num) (by norm_num) (by norm_num [BetaPairs.pairBound]) (by norm_num [BetaPairs.pairBound])
    (by norm_num [BetaPairs.pairBound])
  refine ⟨out, ?_, isBound_of_rat g2 ?_ fun s l1 l2 => ?_⟩
  · unfold proveHBExtended
    rw [e1, h1]
    exact g1
  · intro x l1 l2
    push_cast at l1
    exact ContinuousAt.div (by fun_prop) (by fun_prop) (by intro h; linarith)
  obtain ⟨q, q1, q2, q3, _, q5⟩ := g3 s l1 l2
  refine ⟨q, q1, q2, q3, q5.unique ?_⟩
  have hu : 0 < 10 * s - 7 := by linarith
  have hW : 3 * (1 - (s : ℝ)) / (10 * s - 7) = ((3 * (1 - s) / (10 * s - 7) : ℚ) : ℝ) := by push_cast; rfl
  rw [hW]
  have hm : (BetaPairs.pairBound (3 / 40) (31 / 40)).m = 7 / 10 := by norm_num [BetaPairs.pairBound]
  have hc : (BetaPairs.pairBound (3 / 40) (31 / 40)).c = 3 / 40 := by norm_num [BetaPairs.pairBound]
  simp only [hm, hc]
  constructor
  · refine ⟨20 * s - 14, 6 * (1 - s), ⟨by linarith, lvOk_cons ?_ ?_ ?_ ?_ ?_ (lvOk_cons ?_ ?_ ?_ ?_ ?_ (lvOk_cons ?_ ?_ ?_ ?_ ?_ (lvOk_nil _ _ _))), ?_⟩, ?_⟩
    · exact ⟨(1, -2, 1), by simp [DerivedZD.l2], by unfold bval; linarith⟩
    · exact ⟨(1, -2, 1), by simp [DerivedZD.l2], by unfold bval; linarith⟩
    · exact ⟨(2, -2, 0), by simp [DerivedZD.l2], by unfold bval; linarith⟩
    · exact ⟨(2, -2, 0), by simp [DerivedZD.l2], by unfold bval; linarith⟩
    · exact ⟨(2, -2, 0), by simp [DerivedZD.l2], by unfold bval; linarith⟩
    · exact ⟨(10 / 3, -(16 / 3), 1), by simp [jut], by unfold bval; linarith⟩
    · exact ⟨(10 / 3, -(16 / 3), 1), by simp [jut], by unfold bval; linarith⟩
    · exact ⟨(2, -2, 0), by simp [jut], by unfold bval; linarith⟩
    · exact ⟨(2, -2, 0), by simp [jut], by unfold bval; linarith⟩
    · exact ⟨(2, -2, 0), by simp [jut], by unfold bval; linarith⟩
    · exact ⟨(10, -13, 1), by simp [hb], by unfold bval; linarith⟩
    · exact ⟨(10, -13, 1), by simp [hb], by unfold bval; linarith⟩
    · exact ⟨(2, -2, 0), by simp [hb], by unfold bval; linarith⟩
    · exact ⟨(2, -2, 0), by simp [hb], by unfold bval; linarith⟩
    · exact ⟨(2, -2, 0), by simp [hb], by unfold bval; linarith⟩
    · rcases le_total s (9 / 10) with h | h
      · exact .inr ⟨by linarith, by linarith, fun hc => by norm_num at hc; linarith⟩
      · exact .inl ⟨by linarith, by linarith⟩
    · have e : 3 * (1 - s) / (10 * s - 7) = 6 * (1 - s) / (20 * s - 14) := by
        rw [div_eq_div_iff hu.ne' (by linarith)]; ring
      rw [e]
  · rintro v ⟨t, r, ⟨r0, hok, hr⟩, rfl⟩
    have ht : 2 ≤ t ∧ t ≤ 8 := by rcases hr with hr | hr <;> constructor <;> linarith [hr.1, hr.2]
    have key : ∀ k ∈ [(1 : ℚ), 2, 3, 4, 5], 2 * k * (10 * s - 7) ≤ 3 * t → t ≤ k * (10 * s - 7) →
        r * (10 * s - 7) ≤ 3 * (1 - s) * t := by
      intro k hk k1 k2
      rcases hb_cases hok (by simp) k hk with h | h
      · nlinarith [mul_le_mul_of_nonneg_right h hu.le, mul_le_mul_of_nonneg_left k1 (show 0 ≤ 1 - s by linarith)]
      · nlinarith [mul_le_mul_of_nonneg_right h hu.le, mul_le_mul_of_nonneg_left k2 (show 0 ≤ 13 * s - 10 by linarith)]
    have main : r * (10 * s - 7) ≤ 3 * (1 - s) * t := by
      rcases lt_or_ge (3 * t) (4 * (10 * s - 7)) with h1 | h1
      · have : r = 0 := by
          rcases hr with hr | ⟨hr1, hr2, hr3⟩
          · linarith [hr.1]
          · refine hr3 ?_
            norm_num
            linarith
        rw [this]
        nlinarith
      rcases le_total t (2 * (10 * s - 7)) with h2 | h2
      · exact key 2 (by simp) (by linarith) h2
      rcases le_total t (3 * (10 * s - 7)) with h3 | h3
      · exact key 3 (by simp) (by linarith) h3
      rcases le_total t (4 * (10 * s - 7)) with h4 | h4
      · exact key 4 (by simp) (by linarith) h4
      · exact key 5 (by simp) (by linarith) (by linarith)
    have : r / t ≤ 3 * (1 - s) / (10 * s - 7) := by
      rw [div_le_div_iff₀ (by linarith) hu]
      exact main
    exact_mod_cast this

/-- The contracts can be met; at `9/10` the returned bound is `3/20`. -/
example : ∃ (eng : Engine) (edges : Mat → List (Pt × Pt)) (solve : RF ℝ → RF ℝ → List ℝ) (isZero : Expr ℝ → Bool)
    (orderR : List (Region ℕ) → List (Region ℕ)) (orderK : List ℚ → List ℚ) (out : List (Rational.Piece ℝ)),
    proveHBExtended eng edges solve isZero orderR orderK = .ok out ∧ ∃ q ∈ out, q.dom.x0 ≤ 9 / 10 ∧ 9 / 10 < q.dom.x1 ∧ q.fn.at (9 / 10) = 3 / 20 := by
  obtain ⟨eng, edges, solve, isZero, orderR, orderK, C⟩ := contracts_satisfiable
  obtain ⟨out, h1, h2⟩ := C91_extended C
  obtain ⟨q, q1, q2, q3, _, q5⟩ := h2 (9 / 10) (by norm_num) (by norm_num)
  exact ⟨eng, edges, solve, isZero, orderR, orderK, out, h1, q, q1, q2, q3, by rw [q5]; norm_num⟩

end DerivedZD
end Expdb
