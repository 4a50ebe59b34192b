import Verif.Props.UnionThin

/-!
# `as_disjoint_union` when some of the polytopes have no interior point (C21)

`C21_asDisjointUnion_partial` needs every polytope of the region to have interior points. Some of the regions of the
code (the parts with `ρ = 0`) do not have that. Here arbitrary thin polytopes are allowed beside full-dimensional ones.
-/

namespace Expdb

namespace Mat

variable {n : Nat} {Gen : Pt → Prop} {eng : Engine}

/-- The invariant of the pieces: those with interior points are bounded, and their generic points are interior points.
Nothing is known about pieces without interior points. -/
structure GoodW (n : Nat) (Gen : Pt → Prop) (m : Mat) : Prop extends Base n m where
  bounded : HasInner n m → m.Bounded
  gen : HasInner n m → ∀ x, Gen x → m.Contains x → m.Interior x

/-- The condition on the polytopes of the input: as before, and thin ones contain no generic points. -/
structure LeafW (n : Nat) (Gen : Pt → Prop) (m : Mat) : Prop extends Base n m where
  bounded : HasInner n m → m.Bounded
  gen : ∀ x, Gen x → m.Contains x → m.Interior x

theorem LeafW.goodW {m : Mat} (h : LeafW n Gen m) : GoodW n Gen m := ⟨h.toBase, h.bounded, fun _ => h.gen⟩

theorem GoodW.fullDim {m : Mat} (h : GoodW n Gen m) (hi : HasInner n m) : FullDim n m :=
  h.toBase.fullDim hi (h.bounded hi)

theorem SMem.length {m : Mat} {x : Pt} (h : SMem n m x) (hm : Base n m) : x.length + 1 = n := by
  rw [← hm.cols]; exact contains_length h.2

theorem tryUnion_goodW (heng : EngineSpec eng) (hn : 2 ≤ n) {ps : List Mat}
    (hps : ∀ p ∈ ps, GoodW n Gen p) (hne : ps ≠ []) :
    ∃ o, tryUnion eng.canon eng.lp eng.verts ps = .ok o ∧
      ∀ U, o = some U → GoodW n Gen U ∧ ∀ x, SMem n U x ↔ ∃ q ∈ ps, SMem n q x := by
  obtain ⟨o, h1, h2⟩ := C17_tryUnion_thin_partial eng.canon heng.canon heng.canonNoZero eng.lp heng.lp eng.verts ps n hn
    hne (fun p hp => (hps p hp).toBase) (fun p hp => (hps p hp).bounded)
    (fun p hp hi => heng.verts p (by rw [(hps p hp).cols]; omega) ((hps p hp).bounded hi))
  refine ⟨o, h1, fun U hU => ?_⟩
  obtain ⟨hb, hi, hx⟩ := h2 U hU
  have hmem : ∀ x, SMem n U x ↔ ∃ q ∈ ps, SMem n q x := by
    intro x
    constructor
    · rintro ⟨h3, h4⟩; exact (hx h3 x).mp h4
    · rintro ⟨q, hq, h3, h4⟩
      have h5 := hi.mpr ⟨q, hq, h3⟩
      exact ⟨h5, (hx h5 x).mpr ⟨q, hq, h3, h4⟩⟩
  refine ⟨⟨hb, fun h3 => ?_, fun h3 x hg hc => ?_⟩, hmem⟩
  · have hg : ∀ q ∈ ps.filter (fun q => @decide (HasInner n q) (Classical.propDecidable _)),
        Good n (fun _ => False) q := by
      intro q hq
      rw [List.mem_filter] at hq
      exact ⟨(hps q hq.1).fullDim (by simpa using hq.2), fun x h => h.elim⟩
    refine (good_union hg ?_ hb.cols hb.wf hb.noZero ?_).bounded
    · obtain ⟨q, hq, hqi⟩ := hi.mp h3
      exact List.ne_nil_of_mem (List.mem_filter.mpr ⟨hq, by simpa using hqi⟩)
    · intro x
      rw [hx h3]
      constructor
      · rintro ⟨q, hq, h4, h5⟩; exact ⟨q, List.mem_filter.mpr ⟨hq, by simpa using h4⟩, h5⟩
      · rintro ⟨q, hq, h5⟩
        rw [List.mem_filter] at hq
        exact ⟨q, hq.1, by simpa using hq.2, h5⟩
  · obtain ⟨q, hq, h4, h5⟩ := (hx h3 x).mp hc
    refine interior_of_subset n (hps q hq).cols hb.cols (fun y hy => (hx h3 y).mpr ⟨q, hq, h4, hy⟩) ?_
      ((hps q hq).gen h4 x hg h5)
    rw [← hb.cols]; exact contains_length hc

theorem base_intersect_noZero (heng : EngineSpec eng) {p q m : Mat} (hp : Base n p)
    (hq : Base n q) (h : intersect eng.canon p q = .ok m) : m.NoZero := by
  have hlen : ∀ (b : Bool), ∀ r ∈ q.asList b, r.cs.length + 1 = p.cols := fun b r hr => by
    rw [hp.cols, ← hq.cols]; exact hq.wf r ((mem_asList _ _ _).mp hr).1
  unfold intersect intersection at h
  simp only [List.flatMap_cons, List.flatMap_nil, List.append_nil, bind, Except.bind] at h
  rw [extendIf_ok p _ (hlen false)] at h
  simp only at h
  rw [extendIf_ok _ _ (fun r hr => by simpa using hlen true r hr)] at h
  simp only [if_true, Except.ok.injEq] at h
  rw [← h]
  apply heng.canonNoZero
  · intro r hr
    simp only [List.mem_append] at hr ⊢
    rcases hr with (hr | hr) | hr
    · exact hp.wf r hr
    · exact hlen false r hr
    · exact hlen true r hr
  · intro r hr
    simp only [List.mem_append] at hr
    rcases hr with (hr | hr) | hr
    · exact hp.noZero r hr
    · exact hq.noZero r ((mem_asList _ _ _).mp hr).1
    · exact hq.noZero r ((mem_asList _ _ _).mp hr).1

theorem subset_iffW (heng : EngineSpec eng) {p q : Mat} (hp : FullDim n p) (hq : Base n q) :
    isSubsetOf eng.lp p q = true ↔ ∀ x, p.Contains x → q.Contains x :=
  C15_isSubsetOf_partial eng.lp heng.lp p q hp.wf hq.wf (by rw [hp.cols, hq.cols]) hp.nonempty
    (fun ab _ => hp.bounded.below ab)

end Mat

namespace Region
namespace Thin

open Mat

variable {L : Type} [DecidableEq L] {n : Nat} {Gen : Pt → Prop} {eng : Engine} {track : Bool}

theorem tryUnion_unionExact (heng : EngineSpec eng) (hn : 2 ≤ n) :
    UnionExactM (SMem n) (GoodW n Gen) (tryUnion eng.canon eng.lp eng.verts) := by
  intro p q hp hq
  obtain ⟨o, h1, h2⟩ := tryUnion_goodW heng hn (ps := [p, q]) (Gen := Gen) (by
    intro r hr
    simp only [List.mem_cons, List.not_mem_nil, or_false] at hr
    rcases hr with rfl | rfl
    · exact hp
    · exact hq) (by simp)
  refine ⟨o, h1, fun u hu => ?_⟩
  obtain ⟨e1, e2⟩ := h2 u hu
  exact ⟨e1, fun x => by rw [e2]; simp⟩

theorem pieceInter_spec (heng : EngineSpec eng) (hn : 2 ≤ n)
    (hGen : ∀ x, Gen x → x.length + 1 = n) (p q : Piece L)
    (hp : GoodW n Gen p.mat) (hq : GoodW n Gen q.mat) :
    ∃ o, pieceInter eng track p q = .ok o ∧
      (∀ r, o = some r → GoodW n Gen r.mat ∧
        (∀ x, SMem n r.mat x → SMem n p.mat x ∧ SMem n q.mat x)) ∧
      (∀ x, Gen x → SMem n p.mat x → SMem n q.mat x → ∃ r, o = some r ∧ SMem n r.mat x) := by
  unfold pieceInter
  by_cases h1 : Mat.isSubsetOf eng.lp p.mat q.mat = true
  · rw [if_pos h1]
    refine ⟨_, rfl, fun r hr => ?_, fun x _ hx _ => ⟨_, rfl, hx⟩⟩
    cases hr
    refine ⟨hp, fun x hx => ⟨hx, ?_⟩⟩
    have hs := (subset_iffW heng (hp.fullDim hx.1) hq.toBase).mp h1
    obtain ⟨s, h3, h4⟩ := hx.1
    exact ⟨⟨s, h3, interior_of_subset n hp.cols hq.cols hs h3 h4⟩, hs x hx.2⟩
  rw [if_neg h1]
  by_cases h2 : Mat.isSubsetOf eng.lp q.mat p.mat = true
  · rw [if_pos h2]
    refine ⟨_, rfl, fun r hr => ?_, fun x _ _ hx => ⟨_, rfl, hx⟩⟩
    cases hr
    refine ⟨hq, fun x hx => ⟨?_, hx⟩⟩
    have hs := (subset_iffW heng (hq.fullDim hx.1) hp.toBase).mp h2
    obtain ⟨s, h3, h4⟩ := hx.1
    exact ⟨⟨s, h3, interior_of_subset n hq.cols hp.cols hs h3 h4⟩, hs x hx.2⟩
  rw [if_neg h2]
  obtain ⟨i, e1, e2, e3, e4⟩ := C10_intersection_exact eng.canon heng.canon true [p.mat, q.mat]
    (by simp) n (by
      intro r hr
      simp only [List.mem_cons, List.not_mem_nil, or_false] at hr
      rcases hr with rfl | rfl
      · exact ⟨hp.wf, hp.cols⟩
      · exact ⟨hq.wf, hq.cols⟩)
  have e5 : ∀ x, i.Contains x ↔ p.mat.Contains x ∧ q.mat.Contains x := fun x => by rw [e4]; simp
  have hi : Mat.intersect eng.canon p.mat q.mat = .ok i := e1
  have hnz := base_intersect_noZero heng hp.toBase hq.toBase hi
  have hem := C14_isEmptyExcl_iff eng.lp heng.lp i e2 hnz (by omega)
  rw [hi]
  simp only [bind, Except.bind]
  have hint : ∀ x, Gen x → SMem n p.mat x → SMem n q.mat x → i.Interior x := fun x hx h3 h4 =>
    interior_inter n hp.cols hq.cols e3 e5 (hGen x hx) (hp.gen h3.1 x hx h3.2) (hq.gen h4.1 x hx h4.2)
  have hpi : ∀ s : Pt, s.length + 1 = n → i.Interior s → p.mat.Interior s ∧ q.mat.Interior s := fun s h3 h4 =>
    ⟨interior_of_subset n e3 hp.cols (fun x hx => ((e5 x).mp hx).1) h3 h4,
      interior_of_subset n e3 hq.cols (fun x hx => ((e5 x).mp hx).2) h3 h4⟩
  by_cases h3 : Mat.isEmptyExcl eng.lp i = true
  · rw [if_pos h3]
    refine ⟨none, rfl, fun r hr => (by cases hr), fun x hx h4 h5 => ?_⟩
    exact absurd (hint x hx h4 h5) (hem.mp h3 x (by rw [e3]; exact hGen x hx))
  · rw [if_neg h3]
    rw [hem] at h3
    push Not at h3
    obtain ⟨s, hs1, hs2⟩ := h3
    have hs1 : s.length + 1 = n := by rw [← e3]; exact hs1
    have hsi : HasInner n i := ⟨s, hs1, hs2⟩
    have hsp := hpi s hs1 hs2
    refine ⟨_, rfl, fun r hr => ?_, fun x hx h4 h5 => ⟨_, rfl, hsi, (e5 x).mpr ⟨h4.2, h5.2⟩⟩⟩
    cases hr
    refine ⟨⟨⟨e2, e3, hnz⟩, fun _ => ?_, fun _ x hx hix => ?_⟩, fun x hx => ?_⟩
    · obtain ⟨B, hB⟩ := hp.bounded ⟨s, hs1, hsp.1⟩
      exact ⟨B, fun x hx => hB x ((e5 x).mp hx).1⟩
    · have := (e5 x).mp hix
      exact hint x hx ⟨⟨s, hs1, hsp.1⟩, this.1⟩ ⟨⟨s, hs1, hsp.2⟩, this.2⟩
    · have := (e5 x).mp hx.2
      exact ⟨⟨⟨s, hs1, hsp.1⟩, this.1⟩, ⟨⟨s, hs1, hsp.2⟩, this.2⟩⟩

/-- The pieces with interior points lie in `S` and contain all generic points of `S`. -/
structure SApprox (n : Nat) (Gen : Pt → Prop) (S : Pt → Prop) (out : List (Piece L)) : Prop where
  good : ∀ p ∈ out, GoodW n Gen p.mat
  sound : ∀ p ∈ out, ∀ x, SMem n p.mat x → S x
  cover : ∀ x, Gen x → S x → ∃ p ∈ out, SMem n p.mat x

/-- The pieces with interior points have pairwise no common generic points. -/
def SDisj (n : Nat) (Gen : Pt → Prop) (out : List (Piece L)) : Prop :=
  out.Pairwise (fun p q => ∀ x, Gen x → ¬ (SMem n p.mat x ∧ SMem n q.mat x))

theorem inters_spec (heng : EngineSpec eng) (hn : 2 ≤ n)
    (hGen : ∀ x, Gen x → x.length + 1 = n) (p : Piece L) (hp : GoodW n Gen p.mat)
    (B : List (Piece L)) (hB : ∀ q ∈ B, GoodW n Gen q.mat) :
    ∃ out, inters eng track p B = .ok out ∧
      SApprox n Gen (fun x => SMem n p.mat x ∧ ∃ q ∈ B, SMem n q.mat x) out ∧
      (SDisj n Gen B → SDisj n Gen out) := by
  induction B with
  | nil =>
    refine ⟨[], rfl, ⟨by simp, by simp, ?_⟩, fun _ => List.Pairwise.nil⟩
    rintro x _ ⟨_, q, hq, _⟩; simp at hq
  | cons q B ih =>
    obtain ⟨out, h1, h2, h3⟩ := ih (fun r hr => hB r (by simp [hr]))
    obtain ⟨o, h4, h5, h6⟩ := pieceInter_spec (track := track) heng hn hGen p q hp (hB q (by simp))
    refine ⟨o.toList ++ out, ?_, ⟨?_, ?_, ?_⟩, ?_⟩
    · unfold inters
      rw [h4, h1]; rfl
    · intro r hr
      rcases List.mem_append.mp hr with hr | hr
      · exact (h5 r (Option.mem_toList.mp hr)).1
      · exact h2.good r hr
    · intro r hr x hx
      rcases List.mem_append.mp hr with hr | hr
      · have := (h5 r (Option.mem_toList.mp hr)).2 x hx
        exact ⟨this.1, q, by simp, this.2⟩
      · obtain ⟨a, r', hr', b⟩ := h2.sound r hr x hx
        exact ⟨a, r', by simp [hr'], b⟩
    · rintro x hg ⟨hpx, r, hr, hrx⟩
      rcases List.mem_cons.mp hr with rfl | hr
      · obtain ⟨s, rfl, hsx⟩ := h6 x hg hpx hrx
        exact ⟨s, by simp, hsx⟩
      · obtain ⟨s, hs, hsx⟩ := h2.cover x hg ⟨hpx, r, hr, hrx⟩
        exact ⟨s, by simp [hs], hsx⟩
    · intro hd
      unfold SDisj at hd ⊢
      rw [List.pairwise_cons] at hd
      rw [List.pairwise_append]
      refine ⟨by cases o <;> simp, h3 hd.2, ?_⟩
      rintro a ha b hb x hg ⟨hax, hbx⟩
      obtain ⟨_, r', hr', hr'x⟩ := h2.sound b hb x hbx
      exact hd.1 r' hr' x hg ⟨((h5 a (Option.mem_toList.mp ha)).2 x hax).2, hr'x⟩


theorem mergeInters_spec (heng : EngineSpec eng) (hn : 2 ≤ n) (S : Pt → Prop) (ps : List (Piece L))
    (h : SApprox n Gen S ps) :
    ∃ out, mergeInters eng track ps = .ok out ∧ SApprox n Gen S out ∧
      (SDisj n Gen ps → SDisj n Gen out) := by
  unfold mergeInters
  split
  · rename_i hlen
    obtain ⟨o, h1, h2⟩ := tryUnion_goodW heng hn (ps := ps.map (·.mat)) (Gen := Gen) (by
      intro m hm
      obtain ⟨p, hp, rfl⟩ := List.mem_map.mp hm
      exact h.good p hp) (by intro h0; have := congrArg List.length h0; simp at this; subst this; simp at hlen)
    rw [h1]
    simp only [bind, Except.bind]
    cases o with
    | none => exact ⟨ps, rfl, h, fun hd => hd⟩
    | some u =>
      obtain ⟨e1, e2⟩ := h2 u rfl
      have e3 : ∀ x, SMem n u x ↔ ∃ q ∈ ps, SMem n q.mat x := by
        intro x
        rw [e2]
        constructor
        · rintro ⟨q, hq, hx⟩
          obtain ⟨p, hp, rfl⟩ := List.mem_map.mp hq
          exact ⟨p, hp, hx⟩
        · rintro ⟨p, hp, hx⟩; exact ⟨p.mat, List.mem_map.mpr ⟨p, hp, rfl⟩, hx⟩
      refine ⟨_, rfl, ⟨?_, ?_, ?_⟩, fun _ => List.pairwise_singleton _ _⟩
      · intro p hp; rw [List.mem_singleton] at hp; subst hp; exact e1
      · intro p hp x hx
        rw [List.mem_singleton] at hp; subst hp
        obtain ⟨q, hq, hqx⟩ := (e3 x).mp hx
        exact h.sound q hq x hqx
      · intro x hg hx
        exact ⟨_, List.mem_singleton.mpr rfl, (e3 x).mpr (h.cover x hg hx)⟩
  · exact ⟨ps, rfl, h, fun hd => hd⟩


theorem distribute_spec (heng : EngineSpec eng) (hn : 2 ≤ n)
    (hGen : ∀ x, Gen x → x.length + 1 = n) (B A : List (Piece L))
    (hB : ∀ q ∈ B, GoodW n Gen q.mat) (hA : ∀ q ∈ A, GoodW n Gen q.mat) :
    ∃ out, distribute eng track B A = .ok out ∧
      SApprox n Gen (fun x => (∃ p ∈ A, SMem n p.mat x) ∧ ∃ q ∈ B, SMem n q.mat x) out ∧
      (SDisj n Gen A → SDisj n Gen B → SDisj n Gen out) := by
  induction A with
  | nil =>
    refine ⟨[], rfl, ⟨by simp, by simp, ?_⟩, fun _ _ => List.Pairwise.nil⟩
    rintro x _ ⟨⟨q, hq, _⟩, _⟩; simp at hq
  | cons p A ih =>
    obtain ⟨out, h1, h2, h3⟩ := ih (fun r hr => hA r (by simp [hr]))
    obtain ⟨is, h4, h5, h6⟩ := inters_spec (track := track) heng hn hGen p (hA p (by simp)) B hB
    obtain ⟨m, h7, h8, h9⟩ := mergeInters_spec (track := track) heng hn _ is h5
    refine ⟨m ++ out, ?_, ⟨?_, ?_, ?_⟩, ?_⟩
    · unfold distribute
      rw [h4]; simp only [bind, Except.bind]; rw [h7, h1]; rfl
    · intro r hr
      rcases List.mem_append.mp hr with hr | hr
      · exact h8.good r hr
      · exact h2.good r hr
    · intro r hr x hx
      rcases List.mem_append.mp hr with hr | hr
      · have := h8.sound r hr x hx
        exact ⟨⟨p, by simp, this.1⟩, this.2⟩
      · obtain ⟨⟨a, ha, hax⟩, b⟩ := h2.sound r hr x hx
        exact ⟨⟨a, by simp [ha], hax⟩, b⟩
    · rintro x hg ⟨⟨a, ha, hax⟩, hb⟩
      rcases List.mem_cons.mp ha with rfl | ha
      · obtain ⟨s, hs, hsx⟩ := h8.cover x hg ⟨hax, hb⟩
        exact ⟨s, by simp [hs], hsx⟩
      · obtain ⟨s, hs, hsx⟩ := h2.cover x hg ⟨⟨a, ha, hax⟩, hb⟩
        exact ⟨s, by simp [hs], hsx⟩
    · intro hdA hdB
      unfold SDisj at hdA
      rw [List.pairwise_cons] at hdA
      unfold SDisj
      rw [List.pairwise_append]
      refine ⟨h9 (h6 hdB), h3 hdA.2 hdB, ?_⟩
      rintro a ha b hb x hg ⟨hax, hbx⟩
      obtain ⟨⟨c, hc, hcx⟩, _⟩ := h2.sound b hb x hbx
      exact hdA.1 c hc x hg ⟨(h8.sound a ha x hax).1, hcx⟩


omit [DecidableEq L] in
theorem rep_disj (inp out : List (Piece L)) (groups : List (List Nat))
    (hg : groups.flatten.Nodup)
    (hf : List.Forall₂ (fun S p => RepM (SMem n) inp track p S) groups out) (hd : SDisj n Gen inp) :
    SDisj n Gen out := by
  unfold SDisj at *
  induction hf with
  | nil => exact List.Pairwise.nil
  | @cons S p Ss ps h hrest ih =>
    rw [List.flatten_cons, List.nodup_append] at hg
    rw [List.pairwise_cons]
    refine ⟨?_, ih hg.2.1⟩
    rintro q hq x hgx ⟨hpx, hqx⟩
    obtain ⟨k, hk, a, ha, hax⟩ := (h.1 x).mp hpx
    obtain ⟨T, hT, hTq⟩ := forall₂_mem_right hrest q hq
    obtain ⟨k', hk', b, hb, hbx⟩ := (hTq.1 x).mp hqx
    have hne : k ≠ k' := hg.2.2 k hk k' (List.mem_flatten.mpr ⟨T, hT, hk'⟩)
    obtain ⟨hk1, rfl⟩ := List.getElem?_eq_some_iff.mp ha
    obtain ⟨hk2, rfl⟩ := List.getElem?_eq_some_iff.mp hb
    rw [List.pairwise_iff_getElem] at hd
    rcases lt_or_gt_of_ne hne with hlt | hlt
    · exact hd k k' hk1 hk2 hlt x hgx ⟨hax, hbx⟩
    · exact hd k' k hk2 hk1 hlt x hgx ⟨hbx, hax⟩


theorem periodicSimplify_spec (heng : EngineSpec eng) (hn : 2 ≤ n) (i : Nat) (S : Pt → Prop)
    (A : List (Piece L)) (h : SApprox n Gen S A) :
    ∃ out, periodicSimplify eng track i A = .ok out ∧ SApprox n Gen S out ∧
      (SDisj n Gen A → SDisj n Gen out) := by
  unfold periodicSimplify
  split
  · obtain ⟨out, h1, ⟨groups, h2, h2'⟩, h3, h4, _⟩ := simplifyUnion_spec (SMem n) (GoodW n Gen) _
      (tryUnion_unionExact heng hn) eng.order heng.order track A h.good
    refine ⟨out, h1, ⟨h4, ?_, ?_⟩, rep_disj A out groups (h2.nodup_iff.mpr List.nodup_range) h2'⟩
    · intro p hp x hx
      obtain ⟨q, hq, hqx⟩ := (h3 x).mp ⟨p, hp, hx⟩
      exact h.sound q hq x hqx
    · intro x hg hx
      exact (h3 x).mpr (h.cover x hg hx)
  · exact ⟨A, rfl, h, fun hd => hd⟩


theorem intersectLoop_spec (heng : EngineSpec eng) (hn : 2 ≤ n)
    (hGen : ∀ x, Gen x → x.length + 1 = n) (i : Nat) (A : List (Piece L)) (S : Pt → Prop)
    (hA : SApprox n Gen S A) (Bs : List (List (Piece L))) (Ts : List (Pt → Prop))
    (hB : List.Forall₂ (fun T B => SApprox n Gen T B) Ts Bs) :
    ∃ out, intersectLoop eng track i A Bs = .ok out ∧
      SApprox n Gen (fun x => S x ∧ ∀ T ∈ Ts, T x) out ∧
      (SDisj n Gen A → (∀ B ∈ Bs, SDisj n Gen B) → SDisj n Gen out) := by
  induction hB generalizing i A S with
  | nil => exact ⟨A, rfl, by simpa using hA, fun h _ => h⟩
  | @cons T B Ts Bs hTB _ ih =>
    obtain ⟨A', h1, h2, h3⟩ := distribute_spec (track := track) heng hn hGen B A hTB.good hA.good
    have h2' : SApprox n Gen (fun x => S x ∧ T x) A' := by
      refine ⟨h2.good, ?_, ?_⟩
      · intro p hp x hx
        obtain ⟨⟨a, ha, hax⟩, b, hb, hbx⟩ := h2.sound p hp x hx
        exact ⟨hA.sound a ha x hax, hTB.sound b hb x hbx⟩
      · rintro x hg ⟨hS, hT⟩
        exact h2.cover x hg ⟨hA.cover x hg hS, hTB.cover x hg hT⟩
    obtain ⟨A'', h4, h5, h6⟩ := periodicSimplify_spec (track := track) heng hn (i + 1) _ A' h2'
    obtain ⟨out, h7, h8, h9⟩ := ih (i + 1) A'' _ h5
    refine ⟨out, ?_, ⟨h8.good, ?_, ?_⟩, ?_⟩
    · unfold intersectLoop
      rw [h1]; simp only [bind, Except.bind]; rw [h4]; exact h7
    · intro p hp x hx
      obtain ⟨⟨a, b⟩, c⟩ := h8.sound p hp x hx
      refine ⟨a, fun T' hT' => ?_⟩
      rcases List.mem_cons.mp hT' with rfl | hT'
      · exact b
      · exact c T' hT'
    · rintro x hg ⟨hS, hT⟩
      exact h8.cover x hg ⟨⟨hS, hT T (by simp)⟩, fun T' hT' => hT T' (by simp [hT'])⟩
    · intro hdA hdB
      exact h9 (h6 (h3 hdA (hdB B (by simp)))) (fun B' hB' => hdB B' (by simp [hB']))


theorem asDisjoint_spec (heng : EngineSpec eng) (hn : 2 ≤ n)
    (hGen : ∀ x, Gen x → x.length + 1 = n) (r : Region L) (hpl : Plain track r)
    (hg : r.AllMat (LeafW n Gen)) :
    ∃ out, asDisjoint eng track r = .ok out ∧ SApprox n Gen r.Mem out ∧
      (ChildrenRel (GenDisjoint Gen) r → SDisj n Gen out) := by
  induction r using induct with
  | hp m l =>
    unfold AllMat at hg
    unfold asDisjoint leafPieces
    unfold Plain at hpl
    have key : ∀ d : List L, SApprox n Gen (Mem (.polytope m l)) [⟨m, d⟩] := by
      intro d
      refine ⟨?_, ?_, ?_⟩
      · intro p hp; rw [List.mem_singleton] at hp; subst hp; exact hg.goodW
      · intro p hp x hx; rw [List.mem_singleton] at hp; subst hp; unfold Mem; exact hx.2
      · intro x _ hx; unfold Mem at hx; exact ⟨_, List.mem_singleton.mpr rfl, ⟨x, by rw [← hg.cols]; exact contains_length hx, hg.gen x ‹_› hx⟩, hx⟩
    cases track with
    | false => exact ⟨_, rfl, key _, fun _ => List.pairwise_singleton _ _⟩
    | true =>
      cases l with
      | none => exact absurd rfl (hpl rfl)
      | some l => exact ⟨_, rfl, key _, fun _ => List.pairwise_singleton _ _⟩
  | hw r _ => unfold Plain at hpl; exact hpl.elim
  | hc r _ => unfold Plain at hpl; exact hpl.elim
  | hu rs _ => unfold Plain at hpl; exact hpl.elim
  | hd rs ih =>
    unfold Plain at hpl
    rw [plainList_iff] at hpl
    rw [AllMat, allMatList_iff] at hg
    obtain ⟨os, h1, h2⟩ := asDisjointList_ok rs
      (fun r o => SApprox n Gen r.Mem o ∧ (ChildrenRel (GenDisjoint Gen) r → SDisj n Gen o))
      (fun r hr => ih r hr (hpl r hr) (hg r hr))
    refine ⟨os.flatten, ?_, ⟨?_, ?_, ?_⟩, ?_⟩
    · unfold asDisjoint; rw [h1]; rfl
    · intro p hp
      obtain ⟨o, ho, hpo⟩ := List.mem_flatten.mp hp
      obtain ⟨r, _, hr⟩ := forall₂_mem_right h2 o ho
      exact hr.1.good p hpo
    · intro p hp x hx
      obtain ⟨o, ho, hpo⟩ := List.mem_flatten.mp hp
      obtain ⟨r, hr1, hr⟩ := forall₂_mem_right h2 o ho
      unfold Mem
      rw [memAny_iff]
      exact ⟨r, hr1, hr.1.sound p hpo x hx⟩
    · intro x hgx hx
      unfold Mem at hx
      rw [memAny_iff] at hx
      obtain ⟨r, hr, hrx⟩ := hx
      obtain ⟨o, ho, hro⟩ := forall₂_mem_left h2 r hr
      obtain ⟨p, hp, hpx⟩ := hro.1.cover x hgx hrx
      exact ⟨p, List.mem_flatten.mpr ⟨o, ho, hp⟩, hpx⟩
    · intro htd
      unfold ChildrenRel at htd
      obtain ⟨htd1, htd2⟩ := htd
      rw [childrenRelList_iff] at htd1
      unfold SDisj
      clear ih hpl hg h1
      induction h2 with
      | nil => exact List.Pairwise.nil
      | @cons r o rs os h hrest ih =>
        rw [List.flatten_cons, List.pairwise_append]
        rw [List.pairwise_cons] at htd2
        refine ⟨h.2 (htd1 r (by simp)), ih (fun r' hr' => htd1 r' (by simp [hr'])) htd2.2, ?_⟩
        rintro a ha b hb x hgx ⟨hax, hbx⟩
        obtain ⟨o', ho', hbo'⟩ := List.mem_flatten.mp hb
        obtain ⟨r', hr1, hr'⟩ := forall₂_mem_right hrest o' ho'
        exact htd2.1 r' hr1 x hgx ⟨h.1.sound a ha x hax, hr'.1.sound b hbo' x hbx⟩
  | hi rs ih =>
    unfold Plain at hpl
    obtain ⟨hne, hpl⟩ := hpl
    rw [plainList_iff] at hpl
    rw [AllMat, allMatList_iff] at hg
    obtain ⟨os, h1, h2⟩ := asDisjointList_ok rs
      (fun r o => SApprox n Gen r.Mem o ∧ (ChildrenRel (GenDisjoint Gen) r → SDisj n Gen o))
      (fun r hr => ih r hr (hpl r hr) (hg r hr))
    cases h2 with
    | nil => exact absurd rfl hne
    | @cons r o rs os h hrest =>
      have hB : List.Forall₂ (fun T B => SApprox n Gen T B) (rs.map Mem) os :=
        forall₂_map_left Mem _ _ (hrest.imp (fun _ _ h => h.1))
      obtain ⟨out, h3, h4, h5⟩ := intersectLoop_spec (track := track) heng hn hGen 0 o _ h.1 os _ hB
      have hmem : ∀ x, (r.Mem x ∧ ∀ T ∈ rs.map Mem, T x) ↔ Mem (.intersect (r :: rs)) x := by
        intro x
        rw [show Mem (.intersect (r :: rs)) x = MemAll (r :: rs) x by simp only [Mem], memAll_iff]
        simp
      refine ⟨out, ?_, ⟨h4.good, ?_, ?_⟩, ?_⟩
      · unfold asDisjoint; rw [h1]; exact h3
      · intro p hp x hx; exact (hmem x).mp (h4.sound p hp x hx)
      · intro x hgx hx; exact h4.cover x hgx ((hmem x).mpr hx)
      · intro htd
        unfold ChildrenRel at htd
        rw [childrenRelList_iff] at htd
        refine h5 (h.2 (htd r (by simp))) (fun B hB' => ?_)
        obtain ⟨r', hr1, hr'⟩ := forall₂_mem_right hrest B hB'
        exact hr'.2 (htd r' (by simp [hr1]))


omit [DecidableEq L] in
/-- Generic points of a plain region are interior points of it. -/
theorem intMem_of_generic (hGen : ∀ x, Gen x → x.length + 1 = n) (r : Region L)
    (hpl : Plain track r) (hg : r.AllMat (LeafW n Gen)) (x : Pt)
    (hx : Gen x) (hm : r.Mem x) : IntMem r x := by
  induction r using induct with
  | hp m l =>
    unfold AllMat at hg
    unfold Mem at hm
    obtain ⟨ε, h1, h2⟩ := hg.gen x hx hm
    refine ⟨ε, h1, fun y hy => ?_⟩
    unfold Mem
    rw [contains_iff_holds m y (by rw [hg.cols, hy.length]; exact hGen x hx)]
    exact h2 y hy
  | hw r _ => unfold Plain at hpl; exact hpl.elim
  | hc r _ => unfold Plain at hpl; exact hpl.elim
  | hu rs _ => unfold Plain at hpl; exact hpl.elim
  | hd rs ih =>
    unfold Plain at hpl
    rw [plainList_iff] at hpl
    rw [AllMat, allMatList_iff] at hg
    unfold Mem at hm
    rw [memAny_iff] at hm
    obtain ⟨r, hr, hrx⟩ := hm
    obtain ⟨ε, h1, h2⟩ := ih r hr (hpl r hr) (hg r hr) hrx
    refine ⟨ε, h1, fun y hy => ?_⟩
    unfold Mem
    rw [memAny_iff]
    exact ⟨r, hr, h2 y hy⟩
  | hi rs ih =>
    unfold Plain at hpl
    rw [plainList_iff] at hpl
    rw [AllMat, allMatList_iff] at hg
    unfold Mem at hm
    rw [memAll_iff] at hm
    obtain ⟨ε, h1, h2⟩ := near_all (fun (r : Region L) y => r.Mem y) x rs
      (fun r hr => ih r hr (hpl.2 r hr) (hg r hr) (hm r hr))
    refine ⟨ε, h1, fun y hy => ?_⟩
    unfold Mem
    rw [memAll_iff]
    exact h2 y hy

omit [DecidableEq L] in
theorem childrenRel_gen (hGen : ∀ x, Gen x → x.length + 1 = n) (r : Region L)
    (hpl : Plain track r) (hg : r.AllMat (LeafW n Gen)) (h : ChildrenRel (IntDisjoint n) r) :
    ChildrenRel (GenDisjoint Gen) r := by
  induction r using induct with
  | hp m l => unfold ChildrenRel; trivial
  | hw r _ => unfold Plain at hpl; exact hpl.elim
  | hc r _ => unfold Plain at hpl; exact hpl.elim
  | hu rs _ => unfold Plain at hpl; exact hpl.elim
  | hd rs ih =>
    unfold Plain at hpl
    rw [plainList_iff] at hpl
    rw [AllMat, allMatList_iff] at hg
    unfold ChildrenRel at h ⊢
    rw [childrenRelList_iff] at h ⊢
    refine ⟨fun r hr => ih r hr (hpl r hr) (hg r hr) (h.1 r hr), ?_⟩
    refine List.Pairwise.imp_of_mem ?_ h.2
    rintro a b ha hb hab x hx ⟨hax, hbx⟩
    exact hab x (hGen x hx) ⟨intMem_of_generic hGen a (hpl a ha) (hg a ha) x hx hax,
      intMem_of_generic hGen b (hpl b hb) (hg b hb) x hx hbx⟩
  | hi rs ih =>
    unfold Plain at hpl
    rw [plainList_iff] at hpl
    rw [AllMat, allMatList_iff] at hg
    unfold ChildrenRel at h ⊢
    rw [childrenRelList_iff] at h ⊢
    exact fun r hr => ih r hr (hpl.2 r hr) (hg r hr) (h r hr)

theorem leafW_of_generic (ms : List Mat) (m : Mat) (hm : m ∈ ms) (h : Base n m)
    (hb : HasInner n m → m.Bounded) : LeafW n (Generic n ms) m :=
  ⟨h, hb, fun x hx hc => Mat.Thin.off_interior (hx.2 m hm)
    ((contains_iff_holds m x (contains_length hc)).mp hc)⟩

theorem generic_near (ms : List Mat) (h : ∀ m ∈ ms, Base n m) (x : Pt) (hx : x.length + 1 = n)
    {ε : ℚ} (hε : 0 < ε) : ∃ y, Near ε x y ∧ Generic n ms y := by
  obtain ⟨y, h1, h2⟩ := Mat.Thin.off_near h x hx hε
  exact ⟨y, h1, by rw [h1.length]; exact hx, h2⟩

end Thin

open Mat

variable {L : Type} [DecidableEq L] {n : Nat} {eng : Engine} {track : Bool}

/-- **C21, lower-dimensional polytopes allowed** For every region built by (non-empty) intersections and disjoint unions
from polytopes without zero rows (with or without interior points, with or without equality rows; those with interior points
bounded), `as_disjoint_union` does not raise, and: every output polytope that has an interior point is contained in the
region; every point of the region on no bounding hyperplane of the region's polytopes is in such an output polytope;
every interior point of the region is in such an output polytope; and if the disjoint unions of the input have children with
disjoint interiors then the output polytopes have disjoint interiors.  Missing: the lower-dimensional parts of the region
(which are dropped or wrongly merged, `C21_lower_dim_counterexample`), and unbounded full-dimensional polytopes. -/
theorem C21_asDisjointUnion_thin_partial (heng : EngineSpec eng) (hn : 2 ≤ n) (r : Region L)
    (hpl : Plain track r) (hfd : ∀ m ∈ r.leaves, Base n m)
    (hbd : ∀ m ∈ r.leaves, HasInner n m → m.Bounded) :
    ∃ out : List Mat,
      asDisjointUnion eng track r = .ok (.disjoint (out.map (fun m => .polytope m none))) ∧
      (∀ m ∈ out, HasInner n m → ∀ x, m.Contains x → r.Mem x) ∧
      (∀ x, Generic n r.leaves x → r.Mem x → ∃ m ∈ out, HasInner n m ∧ m.Contains x) ∧
      (∀ x, x.length + 1 = n → IntMem r x → ∃ m ∈ out, HasInner n m ∧ m.Contains x) ∧
      (ChildrenRel (IntDisjoint n) r →
        out.Pairwise (fun a b => ∀ x, x.length + 1 = n → ¬ (a.Interior x ∧ b.Interior x))) := by
  have hg : r.AllMat (LeafW n (Generic n r.leaves)) :=
    (allMat_iff_leaves _ r).mpr (fun m hm => Thin.leafW_of_generic _ m hm (hfd m hm) (hbd m hm))
  have hGen : ∀ x, Generic n r.leaves x → x.length + 1 = n := fun x hx => hx.1
  obtain ⟨out, h1, h2, h3⟩ := Thin.asDisjoint_spec (track := track) heng hn hGen r hpl hg
  refine ⟨out.map (·.mat), ?_, ?_, ?_, ?_, ?_⟩
  · unfold asDisjointUnion
    rw [h1]
    simp only [bind, Except.bind, pure, Except.pure, List.map_map]
    rfl
  · intro m hm hi x hx
    obtain ⟨p, hp, rfl⟩ := List.mem_map.mp hm
    exact h2.sound p hp x ⟨hi, hx⟩
  · intro x hx hr
    obtain ⟨p, hp, hpx⟩ := h2.cover x hx hr
    exact ⟨p.mat, List.mem_map.mpr ⟨p, hp, rfl⟩, hpx⟩
  · rintro x hx ⟨ε, hε, hr⟩
    obtain ⟨m, hm, hmx⟩ := union_closed ((out.map (·.mat)).filter
        (fun q => @decide (HasInner n q) (Classical.propDecidable _))) x (by
      intro δ hδ
      obtain ⟨y, hy, hyg⟩ := Thin.generic_near r.leaves hfd x hx (lt_min hε hδ)
      obtain ⟨p, hp, hpy⟩ := h2.cover y hyg (hr y (hy.mono (min_le_left _ _)))
      exact ⟨y, hy.mono (min_le_right _ _), p.mat,
        List.mem_filter.mpr ⟨List.mem_map.mpr ⟨p, hp, rfl⟩, by simpa using hpy.1⟩,
        (contains_iff_holds _ _ (contains_length hpy.2)).mp hpy.2⟩)
    rw [List.mem_filter] at hm
    refine ⟨m, hm.1, by simpa using hm.2, ?_⟩
    obtain ⟨p, hp, rfl⟩ := List.mem_map.mp hm.1
    exact (contains_iff_holds _ _ (by rw [(h2.good p hp).cols]; exact hx)).mpr hmx
  · intro hd
    rw [List.pairwise_map]
    refine List.Pairwise.imp_of_mem ?_ (h3 (Thin.childrenRel_gen hGen r hpl hg hd))
    rintro a b ha hb hab x hx ⟨⟨ε, hε, hia⟩, ⟨δ, hδ, hib⟩⟩
    obtain ⟨y, hy, hyg⟩ := Thin.generic_near r.leaves hfd x hx (lt_min hε hδ)
    have hyl : y.length + 1 = n := hyg.1
    refine hab y hyg ⟨⟨⟨x, hx, ε, hε, hia⟩, (contains_iff_holds _ _ (by rw [(h2.good a ha).cols]; exact hyl)).mpr
      (hia y (hy.mono (min_le_left _ _)))⟩,
      ⟨⟨x, hx, δ, hδ, hib⟩, (contains_iff_holds _ _ (by rw [(h2.good b hb).cols]; exact hyl)).mpr
      (hib y (hy.mono (min_le_right _ _)))⟩⟩

theorem box2_base (a b c d : ℚ) : Base 3 (box2 a b c d) := by
  refine ⟨box2_wf a b c d, rfl, ?_⟩
  intro r hr
  simp only [box2, List.mem_cons, List.not_mem_nil, or_false] at hr
  rcases hr with rfl | rfl | rfl | rfl <;> simp [Row.isZero]

/-- Non-vacuity of the extended C17: for every correct engine the hypotheses hold for a rectangle and a segment
without interior points. -/
example (heng : EngineSpec eng) : (∀ p ∈ [box2 0 2 0 1, box2 2 3 0 0], Base 3 p) ∧
    (∀ p ∈ [box2 0 2 0 1, box2 2 3 0 0], HasInner 3 p → p.Bounded) ∧
    (∀ p ∈ [box2 0 2 0 1, box2 2 3 0 0], HasInner 3 p → VertsSpec eng.verts p) := by
  refine ⟨?_, ?_, ?_⟩ <;> intro p hp <;>
    simp only [List.mem_cons, List.not_mem_nil, or_false] at hp
  · rcases hp with rfl | rfl <;> exact box2_base _ _ _ _
  · rcases hp with rfl | rfl <;> exact fun _ => box2_bounded _ _ _ _
  · rcases hp with rfl | rfl <;> exact fun _ => heng.verts _ (by simp [box2]) (box2_bounded _ _ _ _)

/-- Non-vacuity of the extended C21: the disjoint union of a rectangle and a segment (which has no interior point),
intersected with a rectangle. -/
example : Plain false (.intersect [.disjoint [.polytope (box2 0 2 0 1) none, .polytope (box2 2 3 0 0) none],
      .polytope (box2 1 4 0 1) none] : Region Nat) ∧
    (∀ m ∈ leaves (.intersect [.disjoint [.polytope (box2 0 2 0 1) none, .polytope (box2 2 3 0 0) none],
      .polytope (box2 1 4 0 1) none] : Region Nat), Base 3 m ∧ m.Bounded) ∧
    ¬ HasInner 3 (box2 2 3 0 0) := by
  refine ⟨by simp [Plain, PlainList], ?_, ?_⟩
  · intro m hm
    simp only [leaves, leavesList, List.append_nil, List.cons_append, List.nil_append,
      List.mem_cons, List.not_mem_nil, or_false] at hm
    rcases hm with rfl | rfl | rfl <;> exact ⟨box2_base _ _ _ _, box2_bounded _ _ _ _⟩
  · rintro ⟨s, h1, ε, hε, h2⟩
    match s, h1 with
    | [u, v], _ =>
      have key : ∀ w : ℚ, |w - v| < ε → w = 0 := by
        intro w hw
        have hc := (contains_iff_holds (box2 2 3 0 0) [u, w] rfl).mpr (h2 _ (.cons (by simpa using hε) (.cons hw .nil)))
        obtain ⟨s', t', e, _, _, k1, k2⟩ := (box2_contains _ _ _ _ _).mp hc
        simp only [List.cons.injEq, and_true] at e
        rw [e.2]
        exact le_antisymm k2 k1
      have a1 := key v (by simpa using hε)
      have a2 := key (v + ε / 2) (by rw [add_sub_cancel_left, abs_of_pos (by linarith)]; linarith)
      linarith

end Region
end Expdb
