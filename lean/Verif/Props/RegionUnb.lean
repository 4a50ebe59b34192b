import Verif.Props.ZeroDensity

/-!
# Regions with unbounded polytopes

`as_disjoint_union` on unions of polytopes with interior points, some of which may be unbounded, clipped by a bounded box or by a
half-space. The vertex enumeration is only assumed to be correct on bounded polytopes.
-/

namespace Expdb
namespace RegionUnb

open Mat Region ZeroDensity

variable {n : ℕ} {Gen : Pt → Prop} {eng : Engine}

/-- A polytope with interior points, bounded or not, whose generic points are interior points. -/
structure GoodB (n : ℕ) (Gen : Pt → Prop) (m : Mat) : Prop extends Base n m where
  inner : HasInner n m
  gen : ∀ x, Gen x → m.Contains x → m.Interior x

/-- The pieces are contained in `S` and contain its generic points. -/
structure ApproxB (n : ℕ) (Gen S : Pt → Prop) (ps : List (Piece ℕ)) : Prop where
  good : ∀ p ∈ ps, GoodB n Gen p.mat
  sound : ∀ p ∈ ps, ∀ x, p.mat.Contains x → S x
  cover : ∀ x, Gen x → S x → ∃ p ∈ ps, p.mat.Contains x

theorem goodB_of_generic {ms : List Mat} {m : Mat} (hm : m ∈ ms) (hb : Base n m) (hi : HasInner n m) : GoodB n (Generic n ms) m :=
  ⟨hb, hi, fun x hx hc => Mat.Thin.off_interior (hx.2 m hm) ((contains_iff_holds m x (contains_length hc)).mp hc)⟩

theorem pieceInter_b (heng : EngineSpec eng) (hneg : UnboundedNeg eng.lp) (hn : 2 ≤ n)
    (hGen : ∀ x, Gen x → x.length + 1 = n) (p q : Piece ℕ) (hp : GoodB n Gen p.mat) (hq : GoodB n Gen q.mat) :
    ∃ o, pieceInter eng false p q = .ok o ∧
      (∀ r, o = some r → GoodB n Gen r.mat ∧ ∀ x, r.mat.Contains x → p.mat.Contains x ∧ q.mat.Contains x) ∧
      (∀ x, Gen x → p.mat.Contains x → q.mat.Contains x → ∃ r, o = some r ∧ r.mat.Contains x) := by
  unfold pieceInter
  by_cases h1 : Mat.isSubsetOf eng.lp p.mat q.mat = true
  · rw [if_pos h1]
    have hs := subset_of_unb heng hneg hp.toBase hq.toBase h1
    refine ⟨_, rfl, fun r hr => ?_, fun x _ hx _ => ⟨_, rfl, hx⟩⟩
    cases hr
    exact ⟨hp, fun x hx => ⟨hx, hs x hx⟩⟩
  rw [if_neg h1]
  by_cases h2 : Mat.isSubsetOf eng.lp q.mat p.mat = true
  · rw [if_pos h2]
    have hs := subset_of_unb heng hneg hq.toBase hp.toBase h2
    refine ⟨_, rfl, fun r hr => ?_, fun x _ _ hx => ⟨_, rfl, hx⟩⟩
    cases hr
    exact ⟨hq, fun x hx => ⟨hs x hx, hx⟩⟩
  rw [if_neg h2]
  obtain ⟨i, e1, e2, e3, e4⟩ := C10_intersection_exact eng.canon heng.canon true [p.mat, q.mat]
    (by simp) n (by
      intro r hr
      simp only [List.mem_cons, List.not_mem_nil, or_false] at hr
      rcases hr with rfl | rfl
      · exact ⟨hp.wf, hp.cols⟩
      · exact ⟨hq.wf, hq.cols⟩)
  have e5 : ∀ x, i.Contains x ↔ p.mat.Contains x ∧ q.mat.Contains x := fun x => by rw [e4]; simp
  have hi : Mat.intersect eng.canon p.mat q.mat = .ok i := e1
  have hnz := base_intersect_noZero heng hp.toBase hq.toBase hi
  have hem := C14_isEmptyExcl_iff eng.lp heng.lp i e2 hnz (by omega)
  rw [hi]
  simp only [bind, Except.bind]
  have hint : ∀ x, Gen x → p.mat.Contains x → q.mat.Contains x → i.Interior x := fun x hx h3 h4 =>
    interior_inter n hp.cols hq.cols e3 e5 (hGen x hx) (hp.gen x hx h3) (hq.gen x hx h4)
  by_cases h3 : Mat.isEmptyExcl eng.lp i = true
  · rw [if_pos h3]
    refine ⟨none, rfl, fun r hr => (by cases hr), fun x hx h4 h5 => ?_⟩
    exact absurd (hint x hx h4 h5) (hem.mp h3 x (by rw [e3]; exact hGen x hx))
  · rw [if_neg h3]
    rw [hem] at h3
    push Not at h3
    obtain ⟨s, hs1, hs2⟩ := h3
    refine ⟨_, rfl, fun r hr => ?_, fun x hx h4 h5 => ⟨_, rfl, (e5 x).mpr ⟨h4, h5⟩⟩⟩
    cases hr
    refine ⟨⟨⟨e2, e3, hnz⟩, ⟨s, by rw [← e3]; exact hs1, hs2⟩, fun x hx hix => ?_⟩, fun x hx => (e5 x).mp hx⟩
    have := (e5 x).mp hix
    exact hint x hx this.1 this.2

theorem inters_b (heng : EngineSpec eng) (hneg : UnboundedNeg eng.lp) (hn : 2 ≤ n)
    (hGen : ∀ x, Gen x → x.length + 1 = n) (p : Piece ℕ) (hp : GoodB n Gen p.mat) (B : List (Piece ℕ))
    (hB : ∀ q ∈ B, GoodB n Gen q.mat) :
    ∃ out, inters eng false p B = .ok out ∧
      (∀ r ∈ out, GoodB n Gen r.mat ∧ ∃ q ∈ B, ∀ x, r.mat.Contains x → p.mat.Contains x ∧ q.mat.Contains x) ∧
      ∀ x, Gen x → p.mat.Contains x → (∃ q ∈ B, q.mat.Contains x) → ∃ r ∈ out, r.mat.Contains x := by
  induction B with
  | nil => exact ⟨[], rfl, by simp, by simp⟩
  | cons q B ih =>
    obtain ⟨out, h1, h2, h3⟩ := ih (fun r hr => hB r (by simp [hr]))
    obtain ⟨o, h4, h5, h6⟩ := pieceInter_b heng hneg hn hGen p q hp (hB q (by simp))
    refine ⟨o.toList ++ out, ?_, ?_, ?_⟩
    · unfold inters
      rw [h4, h1]; rfl
    · intro r hr
      rcases List.mem_append.mp hr with hr | hr
      · obtain ⟨k1, k2⟩ := h5 r (Option.mem_toList.mp hr)
        exact ⟨k1, q, by simp, k2⟩
      · obtain ⟨k1, q', k2, k3⟩ := h2 r hr
        exact ⟨k1, q', by simp [k2], k3⟩
    · rintro x hg hpx ⟨r, hr, hrx⟩
      rcases List.mem_cons.mp hr with rfl | hr
      · obtain ⟨s, rfl, hsx⟩ := h6 x hg hpx hrx
        exact ⟨s, by simp, hsx⟩
      · obtain ⟨s, hs, hsx⟩ := h3 x hg hpx ⟨r, hr, hrx⟩
        exact ⟨s, by simp [hs], hsx⟩

theorem bounded_sub {p q : Mat} (h : ∀ x, p.Contains x → q.Contains x) (hq : q.Bounded) : p.Bounded := by
  obtain ⟨B, hB⟩ := hq
  exact ⟨B, fun x hx => hB x (h x hx)⟩

/-- Clipping with a bounded polytope. -/
theorem clip_b (heng : EngineSpec eng) (hneg : UnboundedNeg eng.lp) (hn : 2 ≤ n) (hGen : ∀ x, Gen x → x.length + 1 = n)
    (D : Mat) (l : Option ℕ) (hD : GoodB n Gen D) (hbd : D.Bounded) (R : Region ℕ) (S : Pt → Prop) (B : List (Piece ℕ))
    (hR : asDisjoint eng false R = .ok B) (hB : ApproxB n Gen S B) :
    ∃ out, asDisjoint eng false (.intersect [.polytope D l, R]) = .ok out ∧
      AppM Mat.Contains (Good n Gen) Gen (fun x => D.Contains x ∧ S x) (out.map (·.mat)) := by
  obtain ⟨is, h1, h2, h3⟩ := inters_b heng hneg hn hGen ⟨D, []⟩ hD B hB.good
  have h4 : Approx n Gen (fun x => D.Contains x ∧ S x) is := by
    refine ⟨?_, ?_, ?_⟩
    · intro r hr
      obtain ⟨k1, q, _, k3⟩ := h2 r hr
      exact ⟨k1.toBase.fullDim k1.inner (bounded_sub (fun x hx => (k3 x hx).1) hbd), k1.gen⟩
    · intro r hr x hx
      obtain ⟨_, q, k2, k3⟩ := h2 r hr
      exact ⟨(k3 x hx).1, hB.sound q k2 x (k3 x hx).2⟩
    · rintro x hg ⟨a, b⟩
      exact h3 x hg a (hB.cover x hg b)
  obtain ⟨out, o1, o2, _⟩ := mergeInters_spec (track := false) heng hn _ is h4
  exact ⟨out, asDisjoint_pair D l R B is out hR h1 o1, approx_iff.mpr o2⟩

/-- The midpoint of two triples. -/
def mid (a b : ℚ × ℚ × ℚ) : ℚ × ℚ × ℚ := ((a.1 + b.1) / 2, (a.2.1 + b.2.1) / 2, (a.2.2 + b.2.2) / 2)

/-- A triple as a list. -/
def pt (a : ℚ × ℚ × ℚ) : Pt := [a.1, a.2.1, a.2.2]

theorem near3 (ε : ℚ) (a : ℚ × ℚ × ℚ) (y : Pt) : Near ε (pt a) y ↔ ∃ b : ℚ × ℚ × ℚ, y = pt b ∧ |b.1 - a.1| < ε ∧ |b.2.1 - a.2.1| < ε ∧
    |b.2.2 - a.2.2| < ε := by
  constructor
  · intro h
    obtain _ | ⟨n1, h⟩ := h
    obtain _ | ⟨n2, h⟩ := h
    obtain _ | ⟨n3, h⟩ := h
    cases h
    exact ⟨(_, _, _), rfl, n1, n2, n3⟩
  · rintro ⟨b, rfl, h1, h2, h3⟩
    exact .cons h1 (.cons h2 (.cons h3 .nil))

/-- An inequality that holds near `a` and near `b` holds near their midpoint. -/
theorem row_mid {r : Row} (hl : r.lin = false) (hlen : r.cs.length + 1 = 4) {a b : ℚ × ℚ × ℚ} {ε : ℚ}
    (ha : ∀ y, Near ε (pt a) y → r.Holds y) (hb : ∀ y, Near ε (pt b) y → r.Holds y) :
    ∀ y, Near ε (pt (mid a b)) y → r.Holds y := by
  intro y hy
  obtain ⟨c, rfl, h1, h2, h3⟩ := (near3 _ _ _).mp hy
  have k1 := ha (pt (a.1 + (c.1 - (mid a b).1), a.2.1 + (c.2.1 - (mid a b).2.1), a.2.2 + (c.2.2 - (mid a b).2.2)))
    ((near3 _ _ _).mpr ⟨_, rfl, by simpa using h1, by simpa using h2, by simpa using h3⟩)
  have k2 := hb (pt (b.1 + (c.1 - (mid a b).1), b.2.1 + (c.2.1 - (mid a b).2.1), b.2.2 + (c.2.2 - (mid a b).2.2)))
    ((near3 _ _ _).mpr ⟨_, rfl, by simpa using h1, by simpa using h2, by simpa using h3⟩)
  have k1 := k1.2 hl
  have k2 := k2.2 hl
  refine ⟨fun h => (by rw [hl] at h; cases h), fun _ => ?_⟩
  obtain ⟨l, c0, cs⟩ := r
  match cs, hlen with
  | [u, v, w], _ =>
    simp only [pt, mid, dot] at k1 k2 ⊢
    linarith

/-- `try_union` does not merge polytopes if two of them have interior points whose midpoint is in the interior of the complement of all
of them. -/
theorem mergeInters_hole (heng : EngineSpec eng) (ps : List (Piece ℕ)) (hb : ∀ p ∈ ps, Base 4 p.mat) (p q : Piece ℕ)
    (hp : p ∈ ps) (hq : q ∈ ps) (hpb : p.mat.Bounded) (hqb : q.mat.Bounded) (a b : ℚ × ℚ × ℚ) (ha : p.mat.Interior (pt a))
    (hbi : q.mat.Interior (pt b)) (ε : ℚ) (hε : 0 < ε)
    (hole : ∀ y, Near ε (pt (mid a b)) y → ∀ r ∈ ps, ¬ r.mat.Contains y) : mergeInters eng false ps = .ok ps := by
  unfold mergeInters
  split
  swap
  · rfl
  rename_i hlen
  have hb' : ∀ m ∈ ps.map (·.mat), Base 4 m := by
    intro m hm
    obtain ⟨r, hr, rfl⟩ := List.mem_map.mp hm
    exact hb r hr
  have core : tryUnionCore eng.canon eng.lp eng.verts (ps.map (·.mat)) = .ok none := by
    obtain ⟨bad, h1, h2⟩ := Mat.Thin.core_eq (canon := eng.canon) (lp := eng.lp) (verts := eng.verts) (polys := ps.map (·.mat)) heng.lp
      (by norm_num) hb' (by intro h; rw [List.map_eq_nil_iff] at h; rw [h] at hp; simp at hp)
    rw [h1]
    cases bad with
    | true => rfl
    | false =>
      exfalso
      obtain ⟨e1, f1, f2⟩ := ha
      obtain ⟨e2, f3, f4⟩ := hbi
      have hm : 0 < min (min e1 e2) ε := lt_min (lt_min f1 f3) hε
      have sub : ∀ (r : Piece ℕ) (hr : r ∈ ps) (hrb : r.mat.Bounded) (c : ℚ × ℚ × ℚ) (e : ℚ),
          (∀ y, Near e (pt c) y → r.mat.Holds y) → ∀ y, Near e (pt c) y → ∀ row ∈ envSet eng.verts (ps.map (·.mat)), row.Holds y := by
        intro r hr hrb c e h y hy
        refine Mat.Thin.sub_env r.mat (List.mem_map.mpr ⟨r, hr, rfl⟩) (heng.verts _ (by rw [(hb r hr).cols]; norm_num) hrb) y ?_
        rw [contains_iff_holds _ _ (by rw [hy.length, (hb r hr).cols]; rfl)]
        exact h y hy
      obtain ⟨y, y1, y2⟩ := Mat.Thin.off_near hb' (pt (mid a b)) rfl hm
      obtain ⟨m, hm1, hm2⟩ := Mat.Thin.env_off (n := 4) (by rw [← h2]; simp) y (by rw [y1.length]; rfl) y2 (by
        intro row hrow
        obtain ⟨l1, _, l2⟩ := Mat.Thin.envSet_row hb' row hrow
        refine row_mid l1 l2 (ε := min (min e1 e2) ε) ?_ ?_ y y1
        · intro z hz
          exact sub p hp hpb a _ (fun y hy => f2 y (hy.mono ((min_le_left _ _).trans (min_le_left _ _)))) z hz row hrow
        · intro z hz
          exact sub q hq hqb b _ (fun y hy => f4 y (hy.mono ((min_le_left _ _).trans (min_le_right _ _)))) z hz row hrow)
      obtain ⟨r, hr, rfl⟩ := List.mem_map.mp hm1
      refine hole y (y1.mono (min_le_right _ _)) r hr ?_
      rw [contains_iff_holds _ _ (by rw [y1.length, (hb r hr).cols]; rfl)]
      exact hm2.holds
  have htry : tryUnion eng.canon eng.lp eng.verts (ps.map (·.mat)) = .ok none := by
    have hl : 2 ≤ (ps.map (·.mat)).length := by rw [List.length_map]; exact hlen.1
    clear hlen
    generalize ps.map (·.mat) = l at core hb' hl
    match l, core, hb', hl with
    | [], _, _, _ => rfl
    | [m], _, _, hl => simp at hl
    | [m, m'], core, hb', _ =>
      obtain ⟨i, e1, _⟩ := C10_intersection_exact eng.canon heng.canon false [m, m'] (by simp) 4 (by
        intro r hr
        exact ⟨(hb' r hr).wf, (hb' r hr).cols⟩)
      unfold tryUnion
      dsimp only
      rw [e1, core]
      simp only [bind, Except.bind, pure, Except.pure]
      split <;> rfl
    | m :: m' :: m'' :: l, core, _, _ => unfold tryUnion; exact core
  rw [htry]
  rfl

/-- Clipping with an unbounded polytope, if the region has a hole as in `mergeInters_hole`. -/
theorem clip_unb (heng : EngineSpec eng) (hneg : UnboundedNeg eng.lp) (ms : List Mat) (hms : ∀ m ∈ ms, Base 4 m)
    (H : Mat) (l : Option ℕ) (hH : Unb 4 H) (hmH : H ∈ ms) (R : Region ℕ) (B : List (Piece ℕ))
    (hR : asDisjoint eng false R = .ok B) (hB : ApproxB 4 (Generic 4 ms) R.Mem B) (a b : ℚ × ℚ × ℚ) (ε : ℚ) (hε : 0 < ε)
    (ha : ∀ y, Near ε (pt a) y → H.Contains y ∧ R.Mem y ∧ ∀ q ∈ B, q.mat.Contains y → q.mat.Bounded)
    (hb : ∀ y, Near ε (pt b) y → H.Contains y ∧ R.Mem y ∧ ∀ q ∈ B, q.mat.Contains y → q.mat.Bounded)
    (hole : ∀ y, Near ε (pt (mid a b)) y → ¬ R.Mem y) :
    ∃ is, asDisjoint eng false (.intersect [.polytope H l, R]) = .ok is ∧
      ApproxB 4 (Generic 4 ms) (Region.intersect [.polytope H l, R]).Mem is := by
  have hGen : ∀ x, Generic 4 ms x → x.length + 1 = 4 := fun x hx => hx.1
  obtain ⟨is, h1, h2, h3⟩ := inters_b heng hneg (by norm_num) hGen ⟨H, []⟩ (goodB_of_generic hmH hH.toBase hH.inner) B hB.good
  have h4 : ApproxB 4 (Generic 4 ms) (Region.intersect [.polytope H l, R]).Mem is := by
    refine ⟨fun r hr => (h2 r hr).1, fun r hr x hx => ?_, fun x hg hx => ?_⟩
    · obtain ⟨_, q, k2, k3⟩ := h2 r hr
      exact (mem_pair _ _ _ _).mpr ⟨(k3 x hx).1, hB.sound q k2 x (k3 x hx).2⟩
    · obtain ⟨k1, k2⟩ := (mem_pair _ _ _ _).mp hx
      exact h3 x hg k1 (hB.cover x hg k2)
  have find : ∀ c : ℚ × ℚ × ℚ, (∀ y, Near ε (pt c) y → H.Contains y ∧ R.Mem y ∧ ∀ q ∈ B, q.mat.Contains y → q.mat.Bounded) →
      ∃ c' : ℚ × ℚ × ℚ, Near (ε / 2) (pt c) (pt c') ∧ ∃ r ∈ is, r.mat.Bounded ∧ r.mat.Interior (pt c') := by
    intro c hc
    obtain ⟨y, y1, y2⟩ := Region.Thin.generic_near ms hms (pt c) rfl (show 0 < ε / 2 by linarith)
    obtain ⟨k1, k2, k3⟩ := hc y (y1.mono (by linarith))
    obtain ⟨c', rfl, _⟩ := (near3 _ _ _).mp y1
    obtain ⟨r, hr, hrc⟩ := h3 _ y2 k1 (hB.cover _ y2 k2)
    obtain ⟨g, q, g2, g3⟩ := h2 r hr
    exact ⟨c', y1, r, hr, bounded_sub (fun x hx => (g3 x hx).2) (k3 q g2 (g3 _ hrc).2), g.gen _ y2 hrc⟩
  obtain ⟨a', a1, p, p1, p2, p3⟩ := find a ha
  obtain ⟨b', b1, q, q1, q2, q3⟩ := find b hb
  have hmid : Near (ε / 2) (pt (mid a b)) (pt (mid a' b')) := by
    obtain ⟨c, e, c1, c2, c3⟩ := (near3 _ _ _).mp a1
    obtain ⟨d, e', d1, d2, d3⟩ := (near3 _ _ _).mp b1
    simp only [pt, List.cons.injEq, and_true] at e e'
    rw [← e.1] at c1
    rw [← e.2.1] at c2
    rw [← e.2.2] at c3
    rw [← e'.1] at d1
    rw [← e'.2.1] at d2
    rw [← e'.2.2] at d3
    rw [abs_lt] at c1 c2 c3 d1 d2 d3
    refine (near3 _ _ _).mpr ⟨_, rfl, ?_, ?_, ?_⟩ <;> simp only [mid] <;> rw [abs_lt] <;> constructor <;> linarith
  have h5 := mergeInters_hole heng is (fun r hr => (h4.good r hr).toBase) p q p1 q1 p2 q2 a' b' p3 q3 (ε / 2) (by linarith) (by
    intro y hy r hr hc
    exact hole y ((hmid.trans hy).mono (by linarith)) ((mem_pair _ _ _ _).mp (h4.sound r hr y hc)).2)
  exact ⟨is, asDisjoint_pair H l R B is is hR h1 h5, h4⟩

/-! ### The computation for hypotheses that can be clipped -/

/-- Intersections of bounded polytopes with the region are computed correctly. -/
def Clips (eng : Engine) (r : Region ℕ) : Prop :=
  (∀ m ∈ r.leaves, Base 4 m) ∧ ∀ D, FullDim 4 D → ∀ ms, (∀ m ∈ ms, Base 4 m) → D ∈ ms → (∀ m ∈ r.leaves, m ∈ ms) →
    ∃ out, asDisjoint eng false (.intersect [.polytope D none, r]) = .ok out ∧
      AppM Mat.Contains (Good 4 (Generic 4 ms)) (Generic 4 ms) (fun x => D.Contains x ∧ r.Mem x) (out.map (·.mat))

theorem clips_hyp (heng : EngineSpec eng) (hneg : UnboundedNeg eng.lp) {r : Region ℕ} (h : Hyp 4 (FullDim 4) r) : Clips eng r := by
  refine ⟨hyp_base (P := FullDim 4) (fun m hm => base_of_fullDim hm) h, fun D hD ms hms hDm hr => ?_⟩
  have hGen : ∀ x, Generic 4 ms x → x.length + 1 = 4 := fun x hx => hx.1
  obtain ⟨B, h3, h4⟩ := conv_full heng (n := 4) (by norm_num) ms r hr h (.inl hneg)
  have h4 := approx_iff.mp h4
  refine clip_b heng hneg (by norm_num) hGen D none (goodB_of_generic hDm (base_of_fullDim hD) hD.inner) hD.bounded r r.Mem B h3
    ⟨fun p hp => ⟨base_of_fullDim (h4.good p hp).toFullDim, (h4.good p hp).inner, (h4.good p hp).gen⟩, h4.sound, h4.cover⟩

theorem region_clips (heng : EngineSpec eng) (D : Mat) (hD : FullDim 4 D) (hyps : List (Region ℕ)) (hne : hyps ≠ [])
    (hrs : ∀ r ∈ hyps, Clips eng r) :
    ∃ ms deps, largeValueRegion eng (.polytope D none) hyps = .ok (ms, deps) ∧
      AppM Mat.Contains (Good 4 (Generic 4 (D :: leavesList hyps))) (Generic 4 (D :: leavesList hyps))
        (fun x => D.Contains x ∧ ∀ r ∈ hyps, r.Mem x) ms ∧ ∀ i ∈ deps, i < hyps.length := by
  have k := kit_full heng (n := 4) (by norm_num) (Gen := Generic 4 (D :: leavesList hyps)) (fun x hx => hx.1)
  have hbase : ∀ m ∈ D :: leavesList hyps, Base 4 m := by
    intro m hm
    rcases List.mem_cons.mp hm with rfl | hm
    · exact base_of_fullDim hD
    · obtain ⟨r, hr, hm⟩ := (mem_leavesList _ _).mp hm
      exact (hrs r hr).1 m hm
  obtain ⟨ms, deps, h1, h2, h3⟩ := region_of_clip k (.polytope D none) hyps hne (fun r hr => by
    obtain ⟨out, e1, e2⟩ := (hrs r hr).2 D hD _ hbase (by simp)
      (fun m hm => List.mem_cons_of_mem _ ((mem_leavesList _ _).mpr ⟨r, hr, hm⟩))
    obtain ⟨ms, f1, f2⟩ := clip_of_disjoint k (.polytope D none) r e1 e2
    exact ⟨ms, f1, f2.imp (fun x => by rw [Mem])⟩)
  exact ⟨ms, deps, h1, h2.imp (fun x => by rw [Mem]), h3⟩

end RegionUnb
end Expdb
