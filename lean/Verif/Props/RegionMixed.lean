import Verif.Props.EnergyRegion

/-!
# Energy regions some of whose polytopes are empty (C67)

`from_union_of_halfplanes` returns empty polytopes beside full-dimensional ones when a half space is covered by the ones before it.
`as_disjoint_union` then returns pieces which are full-dimensional or empty, and the projection drops the empty ones.
-/

namespace Expdb

open Mat Region

namespace Mat

variable {n : ℕ} {eng : Engine}

/-- A polytope with interior points, or without points. -/
def Whole (n : ℕ) (m : Mat) : Prop := HasInner n m ∨ ∀ x, ¬ m.Contains x

/-- A polytope which is full-dimensional and bounded, or empty (without rows of zeros). -/
structure Mixed (n : ℕ) (m : Mat) : Prop extends Base n m where
  bounded : HasInner n m → m.Bounded
  whole : Whole n m

theorem FullDim.mixed {m : Mat} (h : FullDim n m) : Mixed n m := ⟨h.base, fun _ => h.bounded, .inl h.inner⟩

theorem Mixed.fullDim {m : Mat} (h : Mixed n m) (x : Pt) (hx : m.Contains x) : FullDim n m := by
  rcases h.whole with hi | he
  · exact h.toBase.fullDim hi (h.bounded hi)
  · exact absurd hx (he x)

theorem Mixed.isBounded {m : Mat} (h : Mixed n m) : m.Bounded := by
  rcases h.whole with hi | he
  · exact h.bounded hi
  · exact ⟨0, fun x hx => absurd hx (he x)⟩

theorem verts_empty {verts : Mat → List Pt} {m : Mat} (hv : VertsSpec verts m) (he : ∀ x, ¬ m.Contains x) : verts m = [] := by
  cases hvs : verts m with
  | nil => rfl
  | cons v vs =>
    refine absurd ((hv.2 (combo (m.cols - 1) (1 :: List.replicate vs.length 0) (v :: vs))).mpr ?_) (he _)
    rw [hvs]
    exact ⟨1 :: List.replicate vs.length 0, by simp, by simp, by simp, rfl⟩

/-- The union of empty polytopes, if returned, is empty. -/
theorem tryUnion_empty (heng : EngineSpec eng) (hn : 2 ≤ n) (ps : List Mat) (hb : ∀ p ∈ ps, Base n p)
    (he : ∀ p ∈ ps, ∀ x, ¬ p.Contains x) (U : Mat) (h : tryUnion eng.canon eng.lp eng.verts ps = .ok (some U)) :
    ∀ x, ¬ U.Contains x := by
  have core : ps ≠ [] → tryUnionCore eng.canon eng.lp eng.verts ps = .ok (some U) → ∀ x, ¬ U.Contains x := by
    intro hne h
    have hv : ∀ p ∈ ps, eng.verts p = [] := fun p hp =>
      verts_empty (heng.verts p (by rw [(hb p hp).cols]; omega) ⟨0, fun x hx => absurd hx (he p hp x)⟩) (he p hp)
    have henv : ∀ i r, rowIsEnv eng.verts ps i r = true := by
      intro i r
      unfold rowIsEnv
      rw [List.all_eq_true]
      rintro ⟨p, j⟩ hp
      rw [List.mk_mem_zipIdx_iff_getElem?] at hp
      simp [hv p (List.mem_of_getElem? hp)]
    obtain ⟨bad, h1, _⟩ := Thin.core_eq (canon := eng.canon) (verts := eng.verts) heng.lp hn hb hne
    rw [h1] at h
    cases bad with
    | true => simp at h
    | false =>
      simp only [Bool.false_eq_true, if_false] at h
      obtain ⟨p, hp⟩ := List.exists_mem_of_ne_nil _ hne
      obtain ⟨i, hi⟩ := List.mem_iff_getElem?.mp hp
      have hrow := fun r hr => Thin.envSet_row (verts := eng.verts) hb r (List.mem_dedup.mp hr)
      by_cases hdne : (envSet eng.verts ps).dedup = []
      · refine absurd ((contains_iff_holds p (List.replicate (n - 1) 0) (by rw [(hb p hp).cols, List.length_replicate]; omega)).mpr
          (fun s hs => ?_)) (he p hp _)
        have := List.mem_dedup.mpr ((Thin.mem_envSet (verts := eng.verts) _).mpr ⟨i, p, hi, s, hs, henv i s, .inl rfl⟩)
        rw [hdne] at this
        simp at this
      · obtain h2 := Thin.ofConstraints_ok hn _ hdne hrow
        rw [h2] at h
        simp only [bind, Except.bind, pure, Except.pure, Except.ok.injEq, Option.some.injEq] at h
        subst h
        intro x hx
        have hwf : (⟨n, (envSet eng.verts ps).dedup⟩ : Mat).WF := fun r hr => (hrow r hr).2.2
        obtain ⟨c1, _, c3⟩ := heng.canon _ hwf
        have hl := contains_length hx
        rw [contains_iff_holds _ _ hl, c3 x (by rw [hl, c1])] at hx
        rw [c1] at hl
        refine he p hp x ((contains_iff_holds p x (by rw [(hb p hp).cols]; exact hl)).mpr (fun s hs => ?_))
        have ha := hx s.asIneq (List.mem_dedup.mpr ((Thin.mem_envSet _).mpr ⟨i, p, hi, s, hs, henv i s, .inl rfl⟩))
        rw [Row.asIneq_holds] at ha
        refine ⟨fun hlin => ?_, fun _ => ha⟩
        have hb' := hx s.negIneq (List.mem_dedup.mpr ((Thin.mem_envSet _).mpr ⟨i, p, hi, s, hs, henv i s, .inr ⟨hlin, rfl⟩⟩))
        rw [Row.negIneq_holds] at hb'
        exact le_antisymm hb' ha
  match ps, h, core with
  | [], h, _ => simp [tryUnion] at h
  | [p], h, _ =>
    simp only [tryUnion, Except.ok.injEq, Option.some.injEq] at h
    rw [← h]
    exact he p (by simp)
  | [p, q], h, core =>
    unfold tryUnion at h
    simp only [bind, Except.bind] at h
    split at h
    · cases h
    · split at h
      · cases h
      · exact core (by simp) h
  | p :: q :: r :: rest, h, core => exact core (by simp) h

theorem tryUnion_mixed (heng : EngineSpec eng) (hn : 2 ≤ n) (ps : List Mat) (hps : ∀ p ∈ ps, Mixed n p) (hne : ps ≠ []) :
    ∃ o, tryUnion eng.canon eng.lp eng.verts ps = .ok o ∧ ∀ U, o = some U → Mixed n U := by
  obtain ⟨o, h1, h2⟩ := tryUnion_goodW (Gen := fun _ => False) heng hn (ps := ps)
    (fun p hp => ⟨(hps p hp).toBase, (hps p hp).bounded, fun _ _ h => h.elim⟩) hne
  refine ⟨o, h1, fun U hU => ?_⟩
  obtain ⟨g1, g2⟩ := h2 U hU
  refine ⟨g1.toBase, g1.bounded, ?_⟩
  by_cases hi : ∃ p ∈ ps, HasInner n p
  · obtain ⟨p, hp, s, hs1, hs2⟩ := hi
    have : SMem n p s := ⟨⟨s, hs1, hs2⟩, (contains_iff_holds _ _ (by rw [(hps p hp).cols]; exact hs1)).mpr hs2.holds⟩
    exact .inl ((g2 s).mpr ⟨p, hp, this⟩).1
  · right
    subst hU
    exact tryUnion_empty heng hn ps (fun p hp => (hps p hp).toBase)
      (fun p hp => (hps p hp).whole.resolve_left (fun h => hi ⟨p, hp, h⟩)) U h1

end Mat

namespace Region

variable {L : Type} [DecidableEq L] {n : ℕ} {eng : Engine} {track : Bool}

theorem pieceInter_mixed (heng : EngineSpec eng) (hn : 2 ≤ n) (p q : Piece L) (hp : Mixed n p.mat) (hq : Mixed n q.mat)
    (r : Piece L) (h : pieceInter eng track p q = .ok (some r)) : Mixed n r.mat := by
  unfold pieceInter at h
  split at h
  · cases h; exact hp
  · split at h
    · cases h; exact hq
    · obtain ⟨i, e1, e2, e3, e4⟩ := C10_intersection_exact eng.canon heng.canon true [p.mat, q.mat]
        (by simp) n (by
          intro r hr
          simp only [List.mem_cons, List.not_mem_nil, or_false] at hr
          rcases hr with rfl | rfl
          · exact ⟨hp.wf, hp.cols⟩
          · exact ⟨hq.wf, hq.cols⟩)
      have hi : Mat.intersect eng.canon p.mat q.mat = .ok i := e1
      have hnz := base_intersect_noZero heng hp.toBase hq.toBase hi
      rw [hi] at h
      simp only [bind, Except.bind] at h
      split at h
      · cases h
      · rename_i hE
        cases h
        rw [C14_isEmptyExcl_iff eng.lp heng.lp i e2 hnz (by omega)] at hE
        push Not at hE
        obtain ⟨s, hs1, hs2⟩ := hE
        refine ⟨⟨e2, e3, hnz⟩, fun _ => ?_, .inl ⟨s, by rw [← e3]; exact hs1, hs2⟩⟩
        obtain ⟨B, hB⟩ := hp.isBounded
        exact ⟨B, fun x hx => hB x ((e4 x).mp hx _ (by simp))⟩

theorem inters_mixed (heng : EngineSpec eng) (hn : 2 ≤ n) (p : Piece L) (hp : Mixed n p.mat) (B : List (Piece L))
    (hB : ∀ q ∈ B, Mixed n q.mat) (out : List (Piece L)) (h : inters eng track p B = .ok out) : ∀ r ∈ out, Mixed n r.mat := by
  induction B generalizing out with
  | nil => unfold inters at h; cases h; simp
  | cons q B ih =>
    unfold inters at h
    simp only [bind, Except.bind] at h
    split at h
    · cases h
    · rename_i o ho
      split at h
      · cases h
      · rename_i rest hrest
        cases h
        intro r hr
        rcases List.mem_append.mp hr with hr | hr
        · rw [Option.mem_toList] at hr
          cases hr
          exact pieceInter_mixed heng hn p q hp (hB q (by simp)) r ho
        · exact ih (fun q hq => hB q (by simp [hq])) rest hrest r hr

theorem mergeInters_mixed (heng : EngineSpec eng) (hn : 2 ≤ n) (ps : List (Piece L)) (hps : ∀ q ∈ ps, Mixed n q.mat)
    (out : List (Piece L)) (h : mergeInters eng track ps = .ok out) : ∀ r ∈ out, Mixed n r.mat := by
  unfold mergeInters at h
  split at h
  · rename_i hlen
    obtain ⟨o, h1, h2⟩ := tryUnion_mixed heng hn (ps.map (·.mat)) (by
      intro m hm
      obtain ⟨p, hp, rfl⟩ := List.mem_map.mp hm
      exact hps p hp) (by
        intro h0
        have := congrArg List.length h0
        simp at this
        subst this
        simp at hlen)
    rw [h1] at h
    simp only [bind, Except.bind] at h
    cases o with
    | none => cases h; exact hps
    | some u =>
      cases h
      intro r hr
      rw [List.mem_singleton.mp hr]
      exact h2 u rfl
  · cases h; exact hps

theorem distribute_mixed (heng : EngineSpec eng) (hn : 2 ≤ n) (B A : List (Piece L)) (hB : ∀ q ∈ B, Mixed n q.mat)
    (hA : ∀ q ∈ A, Mixed n q.mat) (out : List (Piece L)) (h : distribute eng track B A = .ok out) : ∀ r ∈ out, Mixed n r.mat := by
  induction A generalizing out with
  | nil => unfold distribute at h; cases h; simp
  | cons p A ih =>
    unfold distribute at h
    simp only [bind, Except.bind] at h
    split at h
    · cases h
    · rename_i is his
      split at h
      · cases h
      · rename_i m hm
        split at h
        · cases h
        · rename_i rest hrest
          cases h
          intro r hr
          rcases List.mem_append.mp hr with hr | hr
          · exact mergeInters_mixed heng hn is (inters_mixed heng hn p (hA p (by simp)) B hB is his) m hm r hr
          · exact ih (fun q hq => hA q (by simp [hq])) rest hrest r hr

theorem periodicSimplify_mixed (heng : EngineSpec eng) (hn : 2 ≤ n) (i : ℕ) (A : List (Piece L)) (hA : ∀ q ∈ A, Mixed n q.mat)
    (out : List (Piece L)) (h : periodicSimplify eng track i A = .ok out) : ∀ r ∈ out, Mixed n r.mat := by
  unfold periodicSimplify at h
  split at h
  · obtain ⟨out', h1, _, _, h4, _⟩ := simplifyUnion_spec (fun _ _ => False) (Mixed n) _ (by
      intro p q hp hq
      obtain ⟨o, h1, h2⟩ := tryUnion_mixed heng hn [p, q] (by
        intro r hr
        simp only [List.mem_cons, List.not_mem_nil, or_false] at hr
        rcases hr with rfl | rfl
        · exact hp
        · exact hq) (by simp)
      exact ⟨o, h1, fun u hu => ⟨h2 u hu, by simp⟩⟩) eng.order heng.order track A hA
    rw [h1] at h
    cases h
    exact h4
  · cases h; exact hA

theorem intersectLoop_mixed (heng : EngineSpec eng) (hn : 2 ≤ n) (i : ℕ) (A : List (Piece L)) (hA : ∀ q ∈ A, Mixed n q.mat)
    (Bs : List (List (Piece L))) (hB : ∀ B ∈ Bs, ∀ q ∈ B, Mixed n q.mat) (out : List (Piece L))
    (h : intersectLoop eng track i A Bs = .ok out) : ∀ r ∈ out, Mixed n r.mat := by
  induction Bs generalizing i A with
  | nil => unfold intersectLoop at h; cases h; exact hA
  | cons B Bs ih =>
    unfold intersectLoop at h
    simp only [bind, Except.bind] at h
    split at h
    · cases h
    · rename_i A' h1
      split at h
      · cases h
      · rename_i A'' h2
        exact ih (i + 1) A'' (periodicSimplify_mixed heng hn (i + 1) A' (distribute_mixed heng hn B A (hB B (by simp)) hA A' h1) A'' h2)
          (fun B hB' => hB B (by simp [hB'])) h

/-- The pieces are full-dimensional or empty. -/
theorem asDisjoint_mixed (heng : EngineSpec eng) (hn : 2 ≤ n) (r : Region L) (hg : ∀ m ∈ r.leaves, Mixed n m)
    (out : List (Piece L)) (h : asDisjoint eng track r = .ok out) : ∀ p ∈ out, Mixed n p.mat := by
  rw [← allMat_iff_leaves] at hg
  have list : ∀ rs : List (Region L), (∀ r ∈ rs, ∀ out, asDisjoint eng track r = .ok out → ∀ p ∈ out, Mixed n p.mat) →
      ∀ os, asDisjointList eng track rs = .ok os → ∀ o ∈ os, ∀ p ∈ o, Mixed n p.mat := by
    intro rs
    induction rs with
    | nil => intro _ os hos; unfold asDisjointList at hos; cases hos; simp
    | cons r rs ih =>
      intro hr os hos
      unfold asDisjointList at hos
      simp only [bind, Except.bind] at hos
      split at hos
      · cases hos
      · rename_i a ha
        split at hos
        · cases hos
        · rename_i b hb
          cases hos
          intro o ho
          rcases List.mem_cons.mp ho with rfl | ho
          · exact hr r (by simp) _ ha
          · exact ih (fun r' hr' => hr r' (by simp [hr'])) b hb o ho
  induction r using induct generalizing out with
  | hp m l =>
    unfold AllMat at hg
    unfold asDisjoint leafPieces at h
    split at h
    · split at h
      · cases h
      · cases h
        intro p hp
        rw [List.mem_singleton.mp hp]
        exact hg
    · cases h
      intro p hp
      rw [List.mem_singleton.mp hp]
      exact hg
  | hw r _ => unfold asDisjoint at h; cases h
  | hc r _ => unfold asDisjoint at h; cases h
  | hu rs _ => unfold asDisjoint at h; cases h
  | hd rs ih =>
    rw [AllMat, allMatList_iff] at hg
    unfold asDisjoint at h
    simp only [bind, Except.bind] at h
    split at h
    · cases h
    · rename_i os hos
      cases h
      intro p hp
      obtain ⟨o, ho, hpo⟩ := List.mem_flatten.mp hp
      exact list rs (fun r hr out hout => ih r hr (hg r hr) out hout) os hos o ho p hpo
  | hi rs ih =>
    rw [AllMat, allMatList_iff] at hg
    unfold asDisjoint at h
    simp only [bind, Except.bind] at h
    split at h
    · cases h
    · rename_i os hos
      have hall := list rs (fun r hr out hout => ih r hr (hg r hr) out hout) os hos
      unfold intersectSets at h
      cases os with
      | nil => cases h
      | cons A Bs =>
        exact intersectLoop_mixed heng hn 0 A (hall A (by simp)) Bs (fun B hB => hall B (by simp [hB])) out h

end Region

namespace ZeroDensity

variable {L : Type} [DecidableEq L] {eng : Engine}

/-- Conversion of a region from polytopes which are full-dimensional or empty. -/
theorem convert_mixed (heng : EngineSpec eng) {n : ℕ} (hn : 2 ≤ n) (r : Region L) (hpl : Plain false r)
    (hfd : ∀ m ∈ r.leaves, Mixed n m) :
    ∃ ms : List Mat, asDisjointUnion eng false r = .ok (.disjoint (ms.map (fun m => .polytope m none))) ∧
      (∀ m ∈ ms, Mixed n m) ∧ (∀ m ∈ ms, ∀ x, m.Contains x → r.Mem x) ∧
      ∀ x, x.length + 1 = n → InnerLimit r.Mem x → ∃ m ∈ ms, m.Contains x := by
  have hg : r.AllMat (LeafW n (Generic n r.leaves)) :=
    (allMat_iff_leaves _ r).mpr (fun m hm => Thin.leafW_of_generic _ m hm (hfd m hm).toBase (hfd m hm).bounded)
  obtain ⟨out, h1, h2, _⟩ := Thin.asDisjoint_spec (track := false) heng hn (fun x hx => hx.1) r hpl hg
  have h3 := asDisjoint_mixed heng hn r hfd out h1
  refine ⟨out.map (·.mat), ?_, ?_, ?_, ?_⟩
  · unfold asDisjointUnion
    rw [h1]
    simp only [bind, Except.bind, pure, Except.pure, List.map_map]
    rfl
  · intro m hm
    obtain ⟨p, hp, rfl⟩ := List.mem_map.mp hm
    exact h3 p hp
  · intro m hm x hx
    obtain ⟨p, hp, rfl⟩ := List.mem_map.mp hm
    exact h2.sound p hp x ⟨((h3 p hp).fullDim x hx).inner, hx⟩
  · intro x hx h
    obtain ⟨m, hm, hmx⟩ := union_closed (out.map (·.mat)) x (by
      intro ε hε
      obtain ⟨y, h4, δ, hδ, h5⟩ := h (ε / 2) (by linarith)
      obtain ⟨z, hz, hzg⟩ := Thin.generic_near r.leaves (fun m hm => (hfd m hm).toBase) y (by rw [h4.length]; exact hx)
        (lt_min hδ (show 0 < ε / 2 by linarith))
      obtain ⟨p, hp, hpz⟩ := h2.cover z hzg (h5 z (hz.mono (min_le_left _ _)))
      exact ⟨z, (h4.trans (hz.mono (min_le_right _ _))).mono (by linarith), p.mat, List.mem_map.mpr ⟨p, hp, rfl⟩,
        (contains_iff_holds _ _ (contains_length hpz.2)).mp hpz.2⟩)
    refine ⟨m, hm, ?_⟩
    obtain ⟨p, hp, rfl⟩ := List.mem_map.mp hm
    exact (contains_iff_holds _ _ (by rw [(h3 p hp).cols]; exact hx)).mpr hmx

omit [DecidableEq L] in
/-- Empty polytopes do not matter for the projection. -/
theorem projectList_mixed {hrep : List Pt → Mat} (heng : EngineSpec eng) (hh : HRepSpec hrep) {n : ℕ} (hn : 2 ≤ n) (dims : List ℕ)
    (ms : List Mat) (hm : ∀ m ∈ ms, Mixed n m) :
    ∃ fs : List Mat, (∀ m ∈ fs, FullDim n m) ∧ (∀ x, (∃ m ∈ fs, m.Contains x) ↔ ∃ m ∈ ms, m.Contains x) ∧ (∀ m ∈ fs, m ∈ ms) ∧
      projectList eng.verts hrep dims (ms.map (fun m => (.polytope m none : Region L))) =
        projectList eng.verts hrep dims (fs.map (fun m => (.polytope m none : Region L))) := by
  induction ms with
  | nil => exact ⟨[], by simp, by simp, by simp, rfl⟩
  | cons m ms ih =>
    obtain ⟨fs, h1, h2, h3, h4⟩ := ih (fun m hm' => hm m (by simp [hm']))
    by_cases he : ∀ x, ¬ m.Contains x
    · refine ⟨fs, h1, fun x => by rw [h2]; simp [he], fun m' hm' => by simp [h3 m' hm'], ?_⟩
      have hv : VertsSpec eng.verts m := heng.verts m (by rw [(hm m (by simp)).cols]; omega) (hm m (by simp)).isBounded
      rw [List.map_cons, projectList_cons, Region.project, (Mat.C63_project eng.verts hrep hh m hv dims).1.mpr he, h4]
      cases projectList eng.verts hrep dims (fs.map (fun m => (.polytope m none : Region L))) <;> rfl
    · push Not at he
      obtain ⟨x, hx⟩ := he
      refine ⟨m :: fs, ?_, fun x => ?_, ?_, ?_⟩
      · intro m' hm'
        rcases List.mem_cons.mp hm' with rfl | hm'
        · exact (hm m' (by simp)).fullDim x hx
        · exact h1 m' hm'
      · have := h2 x
        simp only [List.mem_cons, exists_eq_or_imp, this]
      · intro m' hm'
        rcases List.mem_cons.mp hm' with rfl | hm'
        · simp
        · simp [h3 m' hm']
      · rw [List.map_cons, List.map_cons, projectList_cons, projectList_cons, h4]

theorem projectSimplify_mixed (heng : EngineSpec eng) {hrep : List Pt → Mat} (hh : HRepSpec hrep) (hz : HRepNoZero hrep) {n : ℕ}
    (hn : 2 ≤ n) (dims : List ℕ) (hd : 1 ≤ pickDim dims 0 (n - 1)) (ms : List Mat) (hm : ∀ m ∈ ms, Mixed n m) :
    ((∀ m ∈ ms, ∀ x, ¬ m.Contains x) ∧ projectSimplify eng hrep dims (.disjoint (ms.map (fun m => .polytope m none)) : Region L) = .ok none) ∨
    ∃ (qs fs : List Mat) (p : Region L), projectSimplify eng hrep dims (.disjoint (ms.map (fun m => .polytope m none)) : Region L) = .ok (some p) ∧
      (∀ m ∈ fs, FullDim n m ∧ m ∈ ms) ∧ (∀ x, (∃ m ∈ fs, m.Contains x) ↔ ∃ m ∈ ms, m.Contains x) ∧
      ((fs.length = 1 ∧ ∃ q, qs = [q] ∧ p = .polytope q none) ∨ (2 ≤ fs.length ∧ p = .union (qs.map (fun m => .polytope m none)))) ∧
      (∀ q ∈ qs, FullDim (pickDim dims 0 (n - 1) + 1) q) ∧
      ∀ x, (∃ q ∈ qs, q.Contains x) ↔ ∃ m ∈ ms, ∃ y, m.Contains y ∧ pickDims dims y = x := by
  obtain ⟨fs, h1, h2, h3, h4⟩ := projectList_mixed (L := L) heng hh hn dims ms hm
  have he : projectSimplify eng hrep dims (.disjoint (ms.map (fun m => .polytope m none)) : Region L) =
      projectSimplify eng hrep dims (.disjoint (fs.map (fun m => .polytope m none)) : Region L) := by
    unfold projectSimplify
    rw [Region.project, Region.project, h4]
  rw [he]
  rcases projectSimplify_spec (L := L) heng hh hz hn dims hd fs h1 with ⟨g1, g2⟩ | ⟨qs, p, g1, g2, g3, g4⟩
  · left
    refine ⟨fun m hm' x hx => ?_, g2⟩
    obtain ⟨m', hm'', _⟩ := (h2 x).mpr ⟨m, hm', hx⟩
    rw [g1] at hm''
    simp at hm''
  · right
    refine ⟨qs, fs, p, g1, fun m hm' => ⟨h1 m hm', h3 m hm'⟩, h2, g2, g3, fun x => ?_⟩
    rw [g4]
    constructor
    · rintro ⟨m, hm', y, hy, e⟩
      obtain ⟨m', k1, k2⟩ := (h2 y).mp ⟨m, hm', hy⟩
      exact ⟨m', k1, y, k2, e⟩
    · rintro ⟨m, hm', y, hy, e⟩
      obtain ⟨m', k1, k2⟩ := (h2 y).mpr ⟨m, hm', hy⟩
      exact ⟨m', k1, y, k2, e⟩

/-- `compute_best_lver` for regions from polytopes which are full-dimensional or empty. -/
theorem best_mixed (heng : EngineSpec eng) (lvers tl : List (Region L)) (transforms : List (Region L → Py (Region L)))
    (ht : LargeValues.applyTransforms lvers transforms = .ok tl) (zeta : Bool) (zlvers : List (Region L))
    (hpl : ∀ r ∈ lvers ++ tl ++ (if zeta then zlvers else []), Plain false r ∧ ∀ m ∈ r.leaves, Mixed 6 m)
    (d : Mat) (hd : FullDim 3 d) :
    ∃ ms : List Mat, LargeValues.bestLver eng lvers transforms zeta zlvers (.polytope d none) =
        .ok (.disjoint (ms.map (fun m => .polytope m none))) ∧
      (∀ m ∈ ms, Mixed 6 m) ∧
      (∀ m ∈ ms, ∀ x, m.Contains x → Tuples d (lvers ++ tl ++ (if zeta then zlvers else [])) x) ∧
      ∀ x, InnerLimit (Tuples d (lvers ++ tl ++ (if zeta then zlvers else []))) x → ∃ m ∈ ms, m.Contains x := by
  obtain ⟨D, g1, g2, g3⟩ := lift_domain (L := L) hd
  have hT : ∀ x, Tuples d (lvers ++ tl ++ (if zeta then zlvers else [])) x ↔
      (Region.intersect (.polytope D none :: (lvers ++ tl ++ (if zeta then zlvers else [])))).Mem x := by
    intro x
    rw [Mem, memAll_iff]
    simp only [List.mem_cons, forall_eq_or_imp]
    rw [Mem, g3]
    constructor
    · rintro ⟨s, t, a, b, c, e, k1, k2, k3, k4, k5⟩
      exact ⟨⟨s, t, a, b, c, e, k1, k2, k3, k4⟩, k5⟩
    · rintro ⟨⟨s, t, a, b, c, e, k1, k2, k3, k4⟩, k5⟩
      exact ⟨s, t, a, b, c, e, k1, k2, k3, k4, k5⟩
  obtain ⟨ms, h1, h2, h3, h4⟩ := convert_mixed heng (n := 6) (by norm_num)
    (.intersect (.polytope D none :: (lvers ++ tl ++ (if zeta then zlvers else [])))) (by
      rw [Plain]
      refine ⟨by simp, ?_⟩
      rw [plainList_iff]
      intro r hr
      rcases List.mem_cons.mp hr with rfl | hr
      · rw [Plain]; simp
      · exact (hpl r hr).1) (by
      rw [← allMat_iff_leaves, AllMat, allMatList_iff]
      intro r hr
      rcases List.mem_cons.mp hr with rfl | hr
      · rw [AllMat]; exact g2.mixed
      · exact (allMat_iff_leaves _ r).mpr (hpl r hr).2)
  refine ⟨ms, ?_, h2, fun m hm x hx => (hT x).mpr (h3 m hm x hx), ?_⟩
  · unfold LargeValues.bestLver
    rw [ht]
    simp only [bind, Except.bind]
    rw [g1]
    exact h1
  · intro x hx
    have hl : x.length = 5 := by
      obtain ⟨y, k1, δ, k2, k3⟩ := hx 1 one_pos
      obtain ⟨s, t, a, b, c, e, _⟩ := k3 y (Near.refl k2 y)
      rw [← k1.length, e]
      rfl
    refine h4 x (by omega) (fun ε hε => ?_)
    obtain ⟨y, k1, δ, k2, k3⟩ := hx ε hε
    exact ⟨y, k1, δ, k2, fun z hz => (hT z).mp (k3 z hz)⟩

end ZeroDensity
end Expdb
