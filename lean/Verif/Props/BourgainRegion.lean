import Verif.Props.ZeroDensityUnb
import Verif.Props.LiteratureLV

/-!
# The region of Bourgain's large value estimate in derivations

The region of `add_bourgain_large_values_estimate` has an unbounded polytope (see `C71_row5_counterexample`). Here it is raised to powers
and clipped.
-/

namespace Expdb
namespace RegionUnb

open Mat Region ZeroDensity DerivedZD
open Literature (InRow rowBound bourgainPolys bourgainRegion)
open LargeValues (rowOf)

variable {eng : Engine}

/-- The polytopes of the region. -/
def bMats : List Mat := ZeroDensity.box3 (1 / 2) 1 0 1 0 1000000 :: bourgainPolys.map (fun p => ⟨4, p.map rowOf⟩)

theorem bPolys_rows : ∀ p ∈ bourgainPolys, p.map rowOf ≠ [] ∧ ∀ r ∈ p.map rowOf, r.lin = false ∧ r.isZero = false ∧ r.cs.length + 1 = 4 := by
  decide +kernel

theorem bourgain_unionOf : bourgainRegion (L := ℕ) = .ok (unionOf bMats) := by
  have key : ∀ ps : List (List (List ℚ)), (∀ p ∈ ps, p.map rowOf ≠ [] ∧ ∀ r ∈ p.map rowOf, r.lin = false ∧ r.isZero = false ∧
      r.cs.length + 1 = 4) → LargeValues.polyRegions (L := ℕ) ps = .ok (ps.map (fun p => .polytope ⟨4, p.map rowOf⟩ none)) := by
    intro ps h
    induction ps with
    | nil => rfl
    | cons p ps ih =>
      unfold LargeValues.polyRegions
      rw [Mat.Thin.ofConstraints_ok (by norm_num) _ (h p (by simp)).1 (h p (by simp)).2, ih (fun q hq => h q (by simp [hq]))]
      rfl
  unfold bourgainRegion
  rw [show LargeValues.lvLimit = 1000000 from rfl, ZeroDensity.box3_rect, key _ bPolys_rows]
  simp [unionOf, bMats, bind, Except.bind, pure, Except.pure]

/-- Well-formed, with interior points, and with at least one row. -/
structure Solid (m : Mat) : Prop extends Base 4 m where
  inner : HasInner 4 m
  rows : m.rows ≠ []

theorem bMats_solid : ∀ m ∈ bMats, Solid m := by
  intro m hm
  rcases List.mem_cons.mp hm with rfl | hm
  · have h := box3_fullDim (1 / 2) 1 0 1 0 1000000 (by norm_num) (by norm_num) (by norm_num)
    exact ⟨⟨h.wf, h.cols, h.noZero⟩, h.inner, by decide +kernel⟩
  · obtain ⟨p, hp, rfl⟩ := List.mem_map.mp hm
    obtain ⟨h1, h2⟩ := bPolys_rows p hp
    refine ⟨⟨fun r hr => (h2 r hr).2.2, rfl, fun r hr => (h2 r hr).2.1⟩, ?_, h1⟩
    have : ∃ x : Pt, x.length + 1 = 4 ∧ ∀ r ∈ p.map rowOf, r.lin = false ∧ 0 < r.c0 + dot r.cs x := by
      have key : ∀ p ∈ bourgainPolys, ∃ x ∈ ([[19 / 25, 21 / 20, 1 / 100], [39 / 50, 29 / 20, 1 / 100], [4 / 5, 33 / 20, 1 / 100],
          [19 / 25, 29 / 10, 1 / 100], [51 / 100, 31 / 20, 1 / 100], [79 / 100, 21 / 20, 1 / 100], [51 / 100, 21 / 20, 1 / 100]] : List Pt),
          x.length + 1 = 4 ∧ ∀ r ∈ p.map rowOf, r.lin = false ∧ 0 < r.c0 + dot r.cs x := by decide +kernel
      obtain ⟨x, _, hx⟩ := key p hp
      exact ⟨x, hx⟩
    obtain ⟨x, x1, x2⟩ := this
    exact ⟨x, x1, Strict.interior x2⟩

/-- Membership in the region. -/
def BSet (s u p : ℚ) : Prop :=
  ((1 / 2 ≤ s ∧ s ≤ 1) ∧ (0 ≤ u ∧ u ≤ 1) ∧ 0 ≤ p ∧ p ≤ 1000000) ∨ 0 ≤ p ∧ ∃ i, InRow i s u ∧ (i = 5 ∨ p ≤ rowBound i s u)

theorem bMats_mem (s u p : ℚ) (hs : 1 / 2 ≤ s) : (∃ m ∈ bMats, m.Contains [s, u, p]) ↔ BSet s u p := by
  unfold BSet
  rw [← Literature.bourgain_rows s u p hs]
  unfold bMats
  rw [List.exists_mem_cons_iff]
  refine or_congr ?_ ?_
  · rw [ZeroDensity.box3_contains]
    constructor
    · rintro ⟨s', t', r', he, h⟩
      simp only [List.cons.injEq, and_true] at he
      obtain ⟨rfl, rfl, rfl⟩ := he
      exact h
    · intro h
      exact ⟨s, u, p, rfl, h⟩
  · constructor
    · rintro ⟨m, hm, hc⟩
      obtain ⟨q, hq, rfl⟩ := List.mem_map.mp hm
      rw [contains_iff_holds _ _ rfl] at hc
      exact ⟨q, hq, fun c hc' => hc _ (List.mem_map.mpr ⟨c, hc', rfl⟩)⟩
    · rintro ⟨q, hq, hc⟩
      refine ⟨_, List.mem_map.mpr ⟨q, hq, rfl⟩, ?_⟩
      rw [contains_iff_holds _ _ rfl]
      intro r hr
      obtain ⟨c, hc', rfl⟩ := List.mem_map.mp hr
      exact hc c hc'

/-- Only the polytope of row 5 is unbounded. -/
theorem bMats_bounded : ∀ m ∈ bMats, m.Bounded ∨ ∀ s u p, m.Contains [s, u, p] → u ≤ 12 - 12 * s := by
  intro m hm
  rcases List.mem_cons.mp hm with rfl | hm
  · exact .inl (box3_fullDim (1 / 2) 1 0 1 0 1000000 (by norm_num) (by norm_num) (by norm_num)).bounded
  · obtain ⟨p, hp, rfl⟩ := List.mem_map.mp hm
    have bd : ∀ (q : List (List ℚ)), (∀ s u v : ℚ, (∀ c ∈ q, (rowOf c).Holds [s, u, v]) → |s| ≤ 5000000 ∧ |u| ≤ 5000000 ∧ |v| ≤ 5000000) →
        (⟨4, q.map rowOf⟩ : Mat).Bounded := by
      intro q hq
      refine ⟨5000000, fun x hx c hc => ?_⟩
      have hl := contains_length hx
      match x, hl with
      | [s, u, v], _ =>
        rw [contains_iff_holds _ _ rfl] at hx
        obtain ⟨b1, b2, b3⟩ := hq s u v (fun c hc' => hx _ (List.mem_map.mpr ⟨c, hc', rfl⟩))
        simp only [List.mem_cons, List.not_mem_nil, or_false] at hc
        rcases hc with rfl | rfl | rfl <;> assumption
    unfold bourgainPolys LargeValues.tauLimit at hp
    simp only [List.mem_cons, List.not_mem_nil, or_false] at hp
    rcases hp with rfl | rfl | rfl | rfl | rfl | rfl | rfl
    rotate_left 4
    · refine .inr fun s u v h => ?_
      rw [contains_iff_holds _ _ rfl] at h
      have := (LargeValues.rowOf_holds4 12 (-12) (-1) 0 s u v).mp (h _ (List.mem_map.mpr ⟨[12, -12, -1, 0], by simp, rfl⟩))
      linarith
    all_goals
      refine .inl (bd _ fun s u v h => ?_)
      simp only [List.mem_cons, List.not_mem_nil, or_false, forall_eq_or_imp, forall_eq, LargeValues.rowOf_holds4] at h
      obtain ⟨h1, h2, h3, h4, h5, h6⟩ := h
      simp only [abs_le]
      refine ⟨⟨?_, ?_⟩, ⟨?_, ?_⟩, ⟨?_, ?_⟩⟩ <;> linarith

/-! ### Powers -/

/-- The polytope `m'` is the `k`-th power of the polytope `m`. -/
structure Scaled (k : ℚ) (m m' : Mat) : Prop extends Solid m' where
  contains : ∀ s t r, m'.Contains [s, t, r] ↔ m.Contains [s, t / k, r / k]
  bounded : m.Bounded → m'.Bounded

theorem scale_b {m : Mat} (h : Solid m) (k : ℚ) (hk : 0 < k) : ∃ m', m.scaleAll [1, k, k] = .ok m' ∧ Scaled k m m' := by
  have hnz : ∀ f ∈ [1, k, k], f ≠ 0 := by
    intro f hf
    simp only [List.mem_cons, List.not_mem_nil, or_false] at hf
    rcases hf with rfl | rfl | rfl
    · norm_num
    · exact hk.ne'
    · exact hk.ne'
  obtain ⟨m', h1, h2, h3, h4⟩ := C11_scaleAll_exact m h.wf [1, k, k] (by rw [h.cols]; rfl) hnz h.rows
  have h5 : ∀ s t r, m'.Contains [s, t, r] ↔ m.Contains [s, t / k, r / k] := by
    intro s t r
    rw [h4 [s, t, r] rfl]
    simp
  have h6 := h1
  unfold Mat.scaleAll at h6
  rw [if_neg (by simp [h.cols]), if_neg (by rintro ⟨_, h⟩; exact hnz 0 h rfl),
    if_neg (by rw [List.length_eq_zero_iff]; exact h.rows)] at h6
  refine ⟨m', h1, ⟨⟨⟨h2, by rw [h3, h.cols], ?_⟩, ?_, ?_⟩, h5, ?_⟩⟩
  · rw [← Except.ok.inj h6]
    intro r hr
    simp only [List.mem_map, List.mem_append, mem_asList] at hr
    obtain ⟨q, hq, rfl⟩ := hr
    have hq : q ∈ m.rows := by rcases hq with h | h <;> exact h.1
    have hl := h.wf q hq
    have hz := h.noZero q hq
    rw [h.cols] at hl
    obtain ⟨b, c0, cs⟩ := q
    match cs, hl with
    | [u, v, w], _ =>
      simp only [Row.isZero, scaleRow, Bool.and_eq_false_iff, decide_eq_false_iff_not, List.all_eq_false, List.mem_cons,
        List.not_mem_nil, or_false, decide_eq_true_eq, List.zipWith_cons_cons, List.zipWith_nil_right] at hz ⊢
      rcases hz with hz | ⟨x, hx, hz⟩
      · exact .inl hz
      · right
        rcases hx with rfl | rfl | rfl
        · exact ⟨x / 1, by simp, by simpa using hz⟩
        · exact ⟨x / k, by simp, by simp [hz, hk.ne']⟩
        · exact ⟨x / k, by simp, by simp [hz, hk.ne']⟩
  · obtain ⟨x, hx, ε, e1, e2⟩ := h.inner
    match x, hx with
    | [s, t, r], _ =>
      refine ⟨[s, t * k, r * k], rfl, min ε (ε * k), lt_min e1 (mul_pos e1 hk), fun y hy => ?_⟩
      rw [← contains_iff_holds _ _ (by rw [hy.length, h3, h.cols]; rfl)]
      obtain _ | ⟨n1, hy⟩ := hy
      obtain _ | ⟨n2, hy⟩ := hy
      obtain _ | ⟨n3, hy⟩ := hy
      cases hy
      rename_i u v w
      rw [h5, contains_iff_holds _ _ (by rw [h.cols]; rfl)]
      apply e2
      have hdiv : ∀ p q : ℚ, |q - p * k| < min ε (ε * k) → |q / k - p| < ε := by
        intro p q hpq
        have : q / k - p = (q - p * k) / k := by field_simp
        rw [this, abs_div, abs_of_pos hk, div_lt_iff₀ hk]
        exact hpq.trans_le (min_le_right _ _)
      exact .cons (n1.trans_le (min_le_left _ _)) (.cons (hdiv _ _ n2) (.cons (hdiv _ _ n3) .nil))
  · intro he
    rw [← Except.ok.inj h6] at he
    have hr := h.rows
    obtain ⟨q, qs, hq⟩ := List.exists_cons_of_ne_nil hr
    simp only [List.map_eq_nil_iff, List.append_eq_nil_iff] at he
    have hm : q ∈ m.rows := by rw [hq]; simp
    cases hb : q.lin with
    | true =>
      have : q ∈ m.asList true := (mem_asList _ _ _).mpr ⟨hm, hb⟩
      simp_all
    | false =>
      have : q ∈ m.asList false := (mem_asList _ _ _).mpr ⟨hm, hb⟩
      simp_all
  · rintro ⟨B, hB⟩
    refine ⟨|B| * (1 + k), fun x hx c hc => ?_⟩
    have hl := contains_length hx
    rw [h3, h.cols] at hl
    match x, hl with
    | [s, t, r], _ =>
      have h6 := hB _ ((h5 s t r).mp hx)
      have hle := le_abs_self B
      have hab := abs_nonneg B
      simp only [List.mem_cons, List.not_mem_nil, or_false, forall_eq_or_imp, forall_eq] at h6 hc
      obtain ⟨i1, i2, i3⟩ := h6
      rw [abs_div, abs_of_pos hk, div_le_iff₀ hk] at i2 i3
      rcases hc with rfl | rfl | rfl <;> nlinarith

theorem raise_b {ms : List Mat} (h : ∀ m ∈ ms, Solid m) (k : ℚ) (hk : 0 < k) :
    ∃ ms', LargeValues.raiseToPower k (unionOf ms) = .ok (unionOf ms') ∧ List.Forall₂ (Scaled k) ms ms' := by
  have key : ∃ ms' : List Mat, mapMatList (L := ℕ) (fun m => m.scaleAll [1, k, k]) (ms.map (fun m => .polytope m none)) =
      .ok (ms'.map (fun m => .polytope m none)) ∧ List.Forall₂ (Scaled k) ms ms' := by
    induction ms with
    | nil => exact ⟨[], rfl, .nil⟩
    | cons m ms ih =>
      obtain ⟨ms', h1, h2⟩ := ih (fun m hm => h m (by simp [hm]))
      obtain ⟨m', h4, h5⟩ := scale_b (h m (by simp)) k hk
      refine ⟨m' :: ms', ?_, .cons h5 h2⟩
      simp only [List.map_cons]
      unfold mapMatList mapMat
      rw [h4, h1]
      rfl
  obtain ⟨ms', h1, h2⟩ := key
  refine ⟨ms', ?_, h2⟩
  unfold LargeValues.raiseToPower Region.scaleAll unionOf mapMat
  rw [h1]
  rfl

theorem scaled_left {k : ℚ} {ms ms' : List Mat} (h : List.Forall₂ (Scaled k) ms ms') : ∀ m' ∈ ms', ∃ m ∈ ms, Scaled k m m' := by
  induction h with
  | nil => simp
  | cons hab _ ih =>
    intro m' hm'
    rcases List.mem_cons.mp hm' with rfl | hm'
    · exact ⟨_, by simp, hab⟩
    · obtain ⟨m, e1, e2⟩ := ih m' hm'
      exact ⟨m, by simp [e1], e2⟩

theorem scaled_right {k : ℚ} {ms ms' : List Mat} (h : List.Forall₂ (Scaled k) ms ms') : ∀ m ∈ ms, ∃ m' ∈ ms', Scaled k m m' := by
  induction h with
  | nil => simp
  | cons hab _ ih =>
    intro m hm
    rcases List.mem_cons.mp hm with rfl | hm
    · exact ⟨_, by simp, hab⟩
    · obtain ⟨m', e1, e2⟩ := ih m hm
      exact ⟨m', by simp [e1], e2⟩

theorem scaled_self {ms : List Mat} (h : ∀ m ∈ ms, Solid m) : List.Forall₂ (Scaled 1) ms ms := by
  induction ms with
  | nil => exact .nil
  | cons m ms ih =>
    exact .cons ⟨h m (by simp), fun s t r => by rw [div_one, div_one], id⟩ (ih fun m hm => h m (by simp [hm]))

theorem scaled_mem {k : ℚ} {ms ms' : List Mat} (h : List.Forall₂ (Scaled k) ms ms') (s t r : ℚ) :
    (unionOf ms').Mem [s, t, r] ↔ ∃ m ∈ ms, m.Contains [s, t / k, r / k] := by
  rw [unionOf_mem]
  constructor
  · rintro ⟨m', hm', hc⟩
    obtain ⟨m, hm, hs⟩ := scaled_left h m' hm'
    exact ⟨m, hm, (hs.contains s t r).mp hc⟩
  · rintro ⟨m, hm, hc⟩
    obtain ⟨m', hm', hs⟩ := scaled_right h m hm
    exact ⟨m', hm', (hs.contains s t r).mpr hc⟩

/-! ### Clipping -/

theorem asDisjoint_unionOf (ms : List Mat) : asDisjoint eng false (unionOf ms) = .ok (ms.map (fun m => ⟨m, []⟩)) := by
  have key : ∀ ms : List Mat, asDisjointList eng false (ms.map (fun m => (Region.polytope m none : Region ℕ))) =
      .ok (ms.map (fun m => [⟨m, []⟩])) := by
    intro ms
    induction ms with
    | nil => rfl
    | cons m ms ih =>
      simp only [List.map_cons]
      unfold asDisjointList
      rw [ih]
      rfl
  unfold unionOf asDisjoint
  rw [key]
  simp only [bind, Except.bind, pure, Except.pure]
  congr 1
  induction ms with
  | nil => rfl
  | cons m ms ih => simpa using ih

theorem approx_unionOf {ms : List Mat} (h : ∀ m ∈ ms, Solid m) (gs : List Mat) (hg : ∀ m ∈ ms, m ∈ gs) :
    ApproxB 4 (Generic 4 gs) (unionOf ms).Mem (ms.map (fun m => ⟨m, []⟩)) := by
  refine ⟨fun p hp => ?_, fun p hp x hx => ?_, fun x _ hx => ?_⟩
  · obtain ⟨m, hm, rfl⟩ := List.mem_map.mp hp
    exact goodB_of_generic (hg m hm) (h m hm).toBase (h m hm).inner
  · obtain ⟨m, hm, rfl⟩ := List.mem_map.mp hp
    exact (unionOf_mem _ _).mpr ⟨m, hm, hx⟩
  · obtain ⟨m, hm, hc⟩ := (unionOf_mem _ _).mp hx
    exact ⟨_, List.mem_map.mpr ⟨m, hm, rfl⟩, hc⟩

theorem clips_unionOf (heng : EngineSpec eng) (hneg : UnboundedNeg eng.lp) {ms : List Mat} (h : ∀ m ∈ ms, Solid m) :
    Clips eng (unionOf ms) := by
  refine ⟨fun m hm => (h m (by rwa [unionOf_leaves] at hm)).toBase, fun D hD gs hgs hDm hr => ?_⟩
  rw [unionOf_leaves] at hr
  exact clip_b heng hneg (by norm_num) (fun x hx => hx.1) D none (goodB_of_generic hDm (base_of_fullDim hD) hD.inner) hD.bounded _ _ _
    (asDisjoint_unionOf ms) (approx_unionOf h gs hr)

/-- The points used for the hole: near `(0.95, 2.02, 0.265)` and `(0.95, 2.2, 0.595)` the estimate allows all points, near their
midpoint none. -/
theorem bset_hole {s u p : ℚ} (h1 : |s - 19 / 20| < 1 / 2000) :
    (|u - 101 / 50| < 1 / 2000 → |p - 53 / 200| < 1 / 2000 → BSet s u p) ∧
    (|u - 11 / 5| < 1 / 2000 → |p - 119 / 200| < 1 / 2000 → BSet s u p) ∧
    (|u - 211 / 100| < 1 / 2000 → |p - 43 / 100| < 1 / 2000 → ¬ BSet s u p) := by
  rw [abs_lt] at h1
  refine ⟨fun h2 h3 => ?_, fun h2 h3 => ?_, fun h2 h3 => ?_⟩ <;> rw [abs_lt] at h2 h3
  · refine .inr ⟨by linarith, 3, ⟨?_, ?_, ?_, ?_⟩, .inr ?_⟩ <;> (try simp only [rowBound]) <;> linarith
  · refine .inr ⟨by linarith, 4, ⟨?_, ?_, ?_, ?_, ?_⟩, .inr ?_⟩ <;> (try simp only [rowBound]) <;> linarith
  · rintro (⟨_, ⟨_, h⟩, _⟩ | ⟨_, i, hi, hb⟩)
    · linarith
    · match i, hi, hb with
      | 1, ⟨p1, p2, p3, p4⟩, _ => linarith
      | 2, ⟨p1, p2, p3, p4⟩, _ => linarith
      | 3, ⟨p1, p2, p3, p4⟩, _ => linarith
      | 4, ⟨p1, p2, p3, p4, p5⟩, Or.inr hb =>
        have hb : p ≤ -4 * s + 2 * u := hb
        linarith
      | 5, ⟨p1, p2, p3, p4, p5⟩, _ => linarith
      | 6, ⟨p1, p2, p3, p4, p5, p6⟩, _ => linarith
      | 7, ⟨p1, p2, p3, p4, p5⟩, _ => linarith
      | 0, hi, _ => exact hi.elim
      | _ + 8, hi, _ => exact hi.elim

theorem clips_bourgain (heng : EngineSpec eng) (hneg : UnboundedNeg eng.lp) {k : ℚ} (hk : 1 ≤ k) {ms : List Mat}
    (h : List.Forall₂ (Scaled k) bMats ms) :
    Clips eng (unionOf ms) ∧ Clips eng (.intersect [.polytope tauTwo none, unionOf ms]) := by
  have hk0 : 0 < k := by linarith
  have hsol : ∀ m ∈ ms, Solid m := fun m hm => by
    obtain ⟨_, _, hs⟩ := scaled_left h m hm
    exact hs.toSolid
  refine ⟨clips_unionOf heng hneg hsol, ?_, fun D hD gs hgs hDm hr => ?_⟩
  · intro m hm
    simp only [leaves, leavesList, unionOf_leaves, List.append_nil, List.cons_append, List.nil_append, List.mem_cons] at hm
    rcases hm with rfl | hm
    · exact tauTwo_unb.toBase
    · exact (hsol m hm).toBase
  · have hr1 : tauTwo ∈ gs := hr _ (by simp [leaves, leavesList])
    have hr2 : ∀ m ∈ ms, m ∈ gs := fun m hm => hr _ (by simp [leaves, leavesList, unionOf_leaves, hm])
    have sc : ∀ (a : ℚ × ℚ × ℚ) (y : Pt), Near (1 / 2000) (pt (a.1, a.2.1 * k, a.2.2 * k)) y → ∃ s t r, y = [s, t, r] ∧ |s - a.1| < 1 / 2000 ∧
        |t / k - a.2.1| < 1 / 2000 ∧ |r / k - a.2.2| < 1 / 2000 := by
      intro a y hy
      obtain ⟨b, rfl, n1, n2, n3⟩ := (near3 _ _ _).mp hy
      have hdiv : ∀ p q : ℚ, |q - p * k| < 1 / 2000 → |q / k - p| < 1 / 2000 := by
        intro p q hpq
        have : q / k - p = (q - p * k) / k := by field_simp
        rw [this, abs_div, abs_of_pos hk0, div_lt_iff₀ hk0]
        linarith
      exact ⟨b.1, b.2.1, b.2.2, rfl, n1, hdiv _ _ n2, hdiv _ _ n3⟩
    have near : ∀ a : ℚ × ℚ × ℚ, (∀ s u p : ℚ, |s - a.1| < 1 / 2000 → |u - a.2.1| < 1 / 2000 → |p - a.2.2| < 1 / 2000 →
        1 / 2 ≤ s ∧ 2 ≤ u ∧ 12 - 12 * s < u ∧ BSet s u p) →
        ∀ y, Near (1 / 2000) (pt (a.1, a.2.1 * k, a.2.2 * k)) y → tauTwo.Contains y ∧ (unionOf ms).Mem y ∧
          ∀ q ∈ ms.map (fun m => (⟨m, []⟩ : Piece ℕ)), q.mat.Contains y → q.mat.Bounded := by
      intro a ha y hy
      obtain ⟨s, t, r, rfl, n1, n2, n3⟩ := sc a y hy
      obtain ⟨g1, g2, g3, g4⟩ := ha s (t / k) (r / k) n1 n2 n3
      refine ⟨(tauTwo_contains _).mpr ⟨s, t, r, rfl, ?_⟩, (scaled_mem h s t r).mpr ((bMats_mem _ _ _ g1).mpr g4), fun q hq hc => ?_⟩
      · rw [le_div_iff₀ hk0] at g2
        nlinarith
      · obtain ⟨m, hm, rfl⟩ := List.mem_map.mp hq
        obtain ⟨m0, hm0, hs⟩ := scaled_left h m hm
        rcases bMats_bounded m0 hm0 with hb | hb
        · exact hs.bounded hb
        · have := hb _ _ _ ((hs.contains s t r).mp hc)
          linarith
    obtain ⟨is, i1, i2⟩ := clip_unb heng hneg gs hgs tauTwo none tauTwo_unb hr1 (unionOf ms) _ (asDisjoint_unionOf ms)
      (approx_unionOf hsol gs hr2) (19 / 20, 101 / 50 * k, 53 / 200 * k) (19 / 20, 11 / 5 * k, 119 / 200 * k) (1 / 2000) (by norm_num)
      (near (19 / 20, 101 / 50, 53 / 200) fun s u p n1 n2 n3 => by
        have := (bset_hole n1).1 n2 n3
        rw [abs_lt] at n1 n2
        exact ⟨by linarith, by linarith, by linarith, this⟩)
      (near (19 / 20, 11 / 5, 119 / 200) fun s u p n1 n2 n3 => by
        have := (bset_hole n1).2.1 n2 n3
        rw [abs_lt] at n1 n2
        exact ⟨by linarith, by linarith, by linarith, this⟩)
      (by
        intro y hy
        have e : mid (19 / 20, 101 / 50 * k, 53 / 200 * k) (19 / 20, 11 / 5 * k, 119 / 200 * k) =
            ((19 / 20, 211 / 100, 43 / 100) : ℚ × ℚ × ℚ).map id (fun p => (p.1 * k, p.2 * k)) := by
          unfold mid
          simp only [Prod.map_apply, id_eq, Prod.mk.injEq]
          refine ⟨by norm_num, by ring, by ring⟩
        rw [e] at hy
        obtain ⟨s, t, r, rfl, n1, n2, n3⟩ := sc (19 / 20, 211 / 100, 43 / 100) y hy
        rw [scaled_mem h, bMats_mem _ _ _ (by rw [abs_lt] at n1; linarith [n1.1])]
        exact (bset_hole n1).2.2 n2 n3)
    exact clip_b heng hneg (by norm_num) (fun x hx => hx.1) D none (goodB_of_generic hDm (base_of_fullDim hD) hD.inner) hD.bounded _ _ _ i1 i2

end RegionUnb
end Expdb
