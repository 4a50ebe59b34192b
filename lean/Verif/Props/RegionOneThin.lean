import Verif.Props.ZeroDensity

/-!
# Regions one of whose polytopes has no interior point

The regions of `mu_to_zlv` have a polytope with `rho = 0` beside full-dimensional ones. `as_disjoint_union` then returns pieces which are
full-dimensional or which have the same points as that polytope: a piece without interior points is never cut, it is kept or dropped.
-/

namespace Expdb

open Mat Region

namespace Mat

variable {n : ℕ} {eng : Engine} {Q : Pt → Prop}

/-- Properties of polytopes which the operations of `as_disjoint_union` keep. -/
structure ClosedClass (eng : Engine) (n : ℕ) (C : Mat → Prop) : Prop where
  base : ∀ m, C m → Base n m
  bounded : ∀ m, C m → m.Bounded
  inner : ∀ m, Base n m → HasInner n m → m.Bounded → C m
  union : ∀ ps : List Mat, (∀ p ∈ ps, C p) → ps ≠ [] →
    ∃ o, tryUnion eng.canon eng.lp eng.verts ps = .ok o ∧ ∀ U, o = some U → C U

/-- A bounded polytope with interior points, or with the points `Q`. -/
structure OneThin (n : ℕ) (Q : Pt → Prop) (m : Mat) : Prop extends Base n m where
  bounded : m.Bounded
  whole : HasInner n m ∨ ∀ x, m.Contains x ↔ Q x

/-- The union of polytopes with the same points, if returned, has these points. -/
theorem tryUnion_same (heng : EngineSpec eng) (hn : 2 ≤ n) (ps : List Mat) (hb : ∀ p ∈ ps, Base n p) (hbd : ∀ p ∈ ps, p.Bounded)
    (he : ∀ p ∈ ps, ∀ x, p.Contains x ↔ Q x) (U : Mat) (h : tryUnion eng.canon eng.lp eng.verts ps = .ok (some U)) :
    ∀ x, U.Contains x ↔ Q x := by
  have core : ps ≠ [] → tryUnionCore eng.canon eng.lp eng.verts ps = .ok (some U) → ∀ x, U.Contains x ↔ Q x := by
    intro hne h
    have hv : ∀ p ∈ ps, ∀ v ∈ eng.verts p, Q v := fun p hp v hv =>
      have hs := heng.verts p (by rw [(hb p hp).cols]; omega) (hbd p hp)
      (he p hp v).mp ((hs.2 v).mpr (hull_mem _ _ (fun v hv' => by have := hs.1 v hv'; omega) v hv))
    have henv : ∀ (i : ℕ) (p : Mat), p ∈ ps → ∀ r ∈ p.rows, rowIsEnv eng.verts ps i r = true := by
      intro i p hp r hr
      unfold rowIsEnv
      rw [List.all_eq_true]
      rintro ⟨p', j⟩ hp'
      rw [List.mk_mem_zipIdx_iff_getElem?] at hp'
      simp only [Bool.or_eq_true, List.all_eq_true]
      right
      intro v hvv
      have := (he p hp v).mpr (hv p' (List.mem_of_getElem? hp') v hvv)
      exact (Row.satisfies_iff r v).mpr ((contains_iff_holds p v (contains_length this)).mp this r hr)
    obtain ⟨bad, h1, _⟩ := Thin.core_eq (canon := eng.canon) (verts := eng.verts) heng.lp hn hb hne
    rw [h1] at h
    cases bad with
    | true => simp at h
    | false =>
      simp only [Bool.false_eq_true, if_false] at h
      obtain ⟨p, hp⟩ := List.exists_mem_of_ne_nil _ hne
      obtain ⟨i, hi⟩ := List.mem_iff_getElem?.mp hp
      have hrow := fun r hr => Thin.envSet_row (verts := eng.verts) hb r (List.mem_dedup.mp hr)
      by_cases hdne : (envSet eng.verts ps).dedup = []
      · exfalso
        have hrows : p.rows = [] := by
          rw [List.eq_nil_iff_forall_not_mem]
          intro s hs
          have := List.mem_dedup.mpr ((Thin.mem_envSet (verts := eng.verts) _).mpr ⟨i, p, hi, s, hs, henv i p hp s hs, .inl rfl⟩)
          rw [hdne] at this
          simp at this
        obtain ⟨B, hB⟩ := hbd p hp
        have hc : p.Contains (List.replicate (n - 1) (|B| + 1)) :=
          (contains_iff_holds p _ (by rw [(hb p hp).cols, List.length_replicate]; omega)).mpr (fun s hs => by rw [hrows] at hs; simp at hs)
        have h2 := hB _ hc (|B| + 1) (List.mem_replicate.mpr ⟨by omega, rfl⟩)
        have h3 := le_abs_self B
        rw [abs_of_pos (by positivity)] at h2
        linarith
      · obtain h2 := Thin.ofConstraints_ok hn _ hdne hrow
        rw [h2] at h
        simp only [bind, Except.bind, pure, Except.pure, Except.ok.injEq, Option.some.injEq] at h
        subst h
        intro x
        have hwf : (⟨n, (envSet eng.verts ps).dedup⟩ : Mat).WF := fun r hr => (hrow r hr).2.2
        obtain ⟨c1, _, c3⟩ := heng.canon _ hwf
        constructor
        · intro hx
          have hl := contains_length hx
          rw [contains_iff_holds _ _ hl, c3 x (by rw [hl, c1])] at hx
          rw [c1] at hl
          refine (he p hp x).mp ((contains_iff_holds p x (by rw [(hb p hp).cols]; exact hl)).mpr (fun s hs => ?_))
          have ha := hx s.asIneq (List.mem_dedup.mpr ((Thin.mem_envSet _).mpr ⟨i, p, hi, s, hs, henv i p hp s hs, .inl rfl⟩))
          rw [Row.asIneq_holds] at ha
          refine ⟨fun hlin => ?_, fun _ => ha⟩
          have hb' := hx s.negIneq (List.mem_dedup.mpr ((Thin.mem_envSet _).mpr ⟨i, p, hi, s, hs, henv i p hp s hs, .inr ⟨hlin, rfl⟩⟩))
          rw [Row.negIneq_holds] at hb'
          exact le_antisymm hb' ha
        · intro hx
          have hl := contains_length ((he p hp x).mpr hx)
          rw [(hb p hp).cols] at hl
          rw [contains_iff_holds _ _ (by rw [c1]; exact hl), c3 x hl]
          intro s hs
          obtain ⟨j, p', hp', r, hr, _, hsr⟩ := (Thin.mem_envSet _).mp (List.mem_dedup.mp hs)
          have hm := List.mem_of_getElem? hp'
          have hc := (contains_iff_holds p' x (by rw [(hb p' hm).cols]; exact hl)).mp ((he p' hm x).mpr hx) r hr
          rcases hsr with rfl | ⟨hlin, rfl⟩
          · rw [Row.asIneq_holds]
            by_cases hlin : r.lin = true
            · exact (hc.1 hlin).ge
            · exact hc.2 (by simpa using hlin)
          · rw [Row.negIneq_holds]
            exact (hc.1 hlin).le
  match ps, h, core with
  | [], h, _ => simp [tryUnion] at h
  | [p], h, _ =>
    simp only [tryUnion, Except.ok.injEq, Option.some.injEq] at h
    rw [← h]
    exact he p (by simp)
  | [p, q], h, core =>
    unfold tryUnion at h
    simp only [bind, Except.bind] at h
    split at h
    · cases h
    · split at h
      · cases h
      · exact core (by simp) h
  | p :: q :: r :: rest, h, core => exact core (by simp) h

theorem closed_oneThin (heng : EngineSpec eng) (hn : 2 ≤ n) : ClosedClass eng n (OneThin n Q) := by
  refine ⟨fun m h => h.toBase, fun m h => h.bounded, fun m h1 h2 h3 => ⟨h1, h3, .inl h2⟩, ?_⟩
  intro ps hps hne
  obtain ⟨o, h1, h2⟩ := tryUnion_goodW (Gen := fun _ => False) heng hn (ps := ps)
    (fun p hp => ⟨(hps p hp).toBase, fun _ => (hps p hp).bounded, fun _ _ h => h.elim⟩) hne
  refine ⟨o, h1, fun U hU => ?_⟩
  obtain ⟨g1, g2⟩ := h2 U hU
  by_cases hi : ∃ p ∈ ps, HasInner n p
  · obtain ⟨p, hp, s, hs1, hs2⟩ := hi
    have : SMem n p s := ⟨⟨s, hs1, hs2⟩, (contains_iff_holds _ _ (by rw [(hps p hp).cols]; exact hs1)).mpr hs2.holds⟩
    have hin := ((g2 s).mpr ⟨p, hp, this⟩).1
    exact ⟨g1.toBase, g1.bounded hin, .inl hin⟩
  · subst hU
    have hsame := tryUnion_same (Q := Q) heng hn ps (fun p hp => (hps p hp).toBase) (fun p hp => (hps p hp).bounded)
      (fun p hp => (hps p hp).whole.resolve_left (fun h => hi ⟨p, hp, h⟩)) U h1
    obtain ⟨p, hp⟩ := List.exists_mem_of_ne_nil _ hne
    obtain ⟨B, hB⟩ := (hps p hp).bounded
    have hp' := (hps p hp).whole.resolve_left (fun h => hi ⟨p, hp, h⟩)
    exact ⟨g1.toBase, ⟨B, fun x hx => hB x ((hp' x).mpr ((hsame x).mp hx))⟩, .inr hsame⟩

end Mat

namespace Region

variable {L : Type} [DecidableEq L] {n : ℕ} {eng : Engine} {track : Bool} {C : Mat → Prop}

theorem pieceInter_class (heng : EngineSpec eng) (hn : 2 ≤ n) (hC : ClosedClass eng n C) (p q : Piece L) (hp : C p.mat) (hq : C q.mat)
    (r : Piece L) (h : pieceInter eng track p q = .ok (some r)) : C r.mat := by
  unfold pieceInter at h
  split at h
  · cases h; exact hp
  · split at h
    · cases h; exact hq
    · have hbp := hC.base _ hp
      have hbq := hC.base _ hq
      obtain ⟨i, e1, e2, e3, e4⟩ := C10_intersection_exact eng.canon heng.canon true [p.mat, q.mat]
        (by simp) n (by
          intro r hr
          simp only [List.mem_cons, List.not_mem_nil, or_false] at hr
          rcases hr with rfl | rfl
          · exact ⟨hbp.wf, hbp.cols⟩
          · exact ⟨hbq.wf, hbq.cols⟩)
      have hi : Mat.intersect eng.canon p.mat q.mat = .ok i := e1
      have hnz := base_intersect_noZero heng hbp hbq hi
      rw [hi] at h
      simp only [bind, Except.bind] at h
      split at h
      · cases h
      · rename_i hE
        cases h
        rw [C14_isEmptyExcl_iff eng.lp heng.lp i e2 hnz (by omega)] at hE
        push Not at hE
        obtain ⟨s, hs1, hs2⟩ := hE
        refine hC.inner _ ⟨e2, e3, hnz⟩ ⟨s, by rw [← e3]; exact hs1, hs2⟩ ?_
        obtain ⟨B, hB⟩ := hC.bounded _ hp
        exact ⟨B, fun x hx => hB x ((e4 x).mp hx _ (by simp))⟩

theorem inters_class (heng : EngineSpec eng) (hn : 2 ≤ n) (hC : ClosedClass eng n C) (p : Piece L) (hp : C p.mat) (B : List (Piece L))
    (hB : ∀ q ∈ B, C q.mat) (out : List (Piece L)) (h : inters eng track p B = .ok out) : ∀ r ∈ out, C r.mat := by
  induction B generalizing out with
  | nil => unfold inters at h; cases h; simp
  | cons q B ih =>
    unfold inters at h
    simp only [bind, Except.bind] at h
    split at h
    · cases h
    · rename_i o ho
      split at h
      · cases h
      · rename_i rest hrest
        cases h
        intro r hr
        rcases List.mem_append.mp hr with hr | hr
        · rw [Option.mem_toList] at hr
          cases hr
          exact pieceInter_class heng hn hC p q hp (hB q (by simp)) r ho
        · exact ih (fun q hq => hB q (by simp [hq])) rest hrest r hr

theorem mergeInters_class (heng : EngineSpec eng) (hn : 2 ≤ n) (hC : ClosedClass eng n C) (ps : List (Piece L)) (hps : ∀ q ∈ ps, C q.mat)
    (out : List (Piece L)) (h : mergeInters eng track ps = .ok out) : ∀ r ∈ out, C r.mat := by
  unfold mergeInters at h
  split at h
  · rename_i hlen
    obtain ⟨o, h1, h2⟩ := hC.union (ps.map (·.mat)) (by
      intro m hm
      obtain ⟨p, hp, rfl⟩ := List.mem_map.mp hm
      exact hps p hp) (by
        intro h0
        have := congrArg List.length h0
        simp at this
        subst this
        simp at hlen)
    rw [h1] at h
    simp only [bind, Except.bind] at h
    cases o with
    | none => cases h; exact hps
    | some u =>
      cases h
      intro r hr
      rw [List.mem_singleton.mp hr]
      exact h2 u rfl
  · cases h; exact hps

theorem distribute_class (heng : EngineSpec eng) (hn : 2 ≤ n) (hC : ClosedClass eng n C) (B A : List (Piece L)) (hB : ∀ q ∈ B, C q.mat)
    (hA : ∀ q ∈ A, C q.mat) (out : List (Piece L)) (h : distribute eng track B A = .ok out) : ∀ r ∈ out, C r.mat := by
  induction A generalizing out with
  | nil => unfold distribute at h; cases h; simp
  | cons p A ih =>
    unfold distribute at h
    simp only [bind, Except.bind] at h
    split at h
    · cases h
    · rename_i is his
      split at h
      · cases h
      · rename_i m hm
        split at h
        · cases h
        · rename_i rest hrest
          cases h
          intro r hr
          rcases List.mem_append.mp hr with hr | hr
          · exact mergeInters_class heng hn hC is (inters_class heng hn hC p (hA p (by simp)) B hB is his) m hm r hr
          · exact ih (fun q hq => hA q (by simp [hq])) rest hrest r hr

theorem periodicSimplify_class (heng : EngineSpec eng) (hn : 2 ≤ n) (hC : ClosedClass eng n C) (i : ℕ) (A : List (Piece L)) (hA : ∀ q ∈ A, C q.mat)
    (out : List (Piece L)) (h : periodicSimplify eng track i A = .ok out) : ∀ r ∈ out, C r.mat := by
  unfold periodicSimplify at h
  split at h
  · obtain ⟨out', h1, _, _, h4, _⟩ := simplifyUnion_spec (fun _ _ => False) (C) _ (by
      intro p q hp hq
      obtain ⟨o, h1, h2⟩ := hC.union [p, q] (by
        intro r hr
        simp only [List.mem_cons, List.not_mem_nil, or_false] at hr
        rcases hr with rfl | rfl
        · exact hp
        · exact hq) (by simp)
      exact ⟨o, h1, fun u hu => ⟨h2 u hu, by simp⟩⟩) eng.order heng.order track A hA
    rw [h1] at h
    cases h
    exact h4
  · cases h; exact hA

theorem intersectLoop_class (heng : EngineSpec eng) (hn : 2 ≤ n) (hC : ClosedClass eng n C) (i : ℕ) (A : List (Piece L)) (hA : ∀ q ∈ A, C q.mat)
    (Bs : List (List (Piece L))) (hB : ∀ B ∈ Bs, ∀ q ∈ B, C q.mat) (out : List (Piece L))
    (h : intersectLoop eng track i A Bs = .ok out) : ∀ r ∈ out, C r.mat := by
  induction Bs generalizing i A with
  | nil => unfold intersectLoop at h; cases h; exact hA
  | cons B Bs ih =>
    unfold intersectLoop at h
    simp only [bind, Except.bind] at h
    split at h
    · cases h
    · rename_i A' h1
      split at h
      · cases h
      · rename_i A'' h2
        exact ih (i + 1) A'' (periodicSimplify_class heng hn hC (i + 1) A' (distribute_class heng hn hC B A (hB B (by simp)) hA A' h1) A'' h2)
          (fun B hB' => hB B (by simp [hB'])) h

/-- The pieces are full-dimensional or empty. -/
theorem asDisjoint_class (heng : EngineSpec eng) (hn : 2 ≤ n) (hC : ClosedClass eng n C) (r : Region L) (hg : ∀ m ∈ r.leaves, C m)
    (out : List (Piece L)) (h : asDisjoint eng track r = .ok out) : ∀ p ∈ out, C p.mat := by
  rw [← allMat_iff_leaves] at hg
  have list : ∀ rs : List (Region L), (∀ r ∈ rs, ∀ out, asDisjoint eng track r = .ok out → ∀ p ∈ out, C p.mat) →
      ∀ os, asDisjointList eng track rs = .ok os → ∀ o ∈ os, ∀ p ∈ o, C p.mat := by
    intro rs
    induction rs with
    | nil => intro _ os hos; unfold asDisjointList at hos; cases hos; simp
    | cons r rs ih =>
      intro hr os hos
      unfold asDisjointList at hos
      simp only [bind, Except.bind] at hos
      split at hos
      · cases hos
      · rename_i a ha
        split at hos
        · cases hos
        · rename_i b hb
          cases hos
          intro o ho
          rcases List.mem_cons.mp ho with rfl | ho
          · exact hr r (by simp) _ ha
          · exact ih (fun r' hr' => hr r' (by simp [hr'])) b hb o ho
  induction r using induct generalizing out with
  | hp m l =>
    unfold AllMat at hg
    unfold asDisjoint leafPieces at h
    split at h
    · split at h
      · cases h
      · cases h
        intro p hp
        rw [List.mem_singleton.mp hp]
        exact hg
    · cases h
      intro p hp
      rw [List.mem_singleton.mp hp]
      exact hg
  | hw r _ => unfold asDisjoint at h; cases h
  | hc r _ => unfold asDisjoint at h; cases h
  | hu rs _ => unfold asDisjoint at h; cases h
  | hd rs ih =>
    rw [AllMat, allMatList_iff] at hg
    unfold asDisjoint at h
    simp only [bind, Except.bind] at h
    split at h
    · cases h
    · rename_i os hos
      cases h
      intro p hp
      obtain ⟨o, ho, hpo⟩ := List.mem_flatten.mp hp
      exact list rs (fun r hr out hout => ih r hr (hg r hr) out hout) os hos o ho p hpo
  | hi rs ih =>
    rw [AllMat, allMatList_iff] at hg
    unfold asDisjoint at h
    simp only [bind, Except.bind] at h
    split at h
    · cases h
    · rename_i os hos
      have hall := list rs (fun r hr out hout => ih r hr (hg r hr) out hout) os hos
      unfold intersectSets at h
      cases os with
      | nil => cases h
      | cons A Bs =>
        exact intersectLoop_class heng hn hC 0 A (hall A (by simp)) Bs (fun B hB => hall B (by simp [hB])) out h

end Region

namespace ZeroDensity

variable {n : ℕ} {Gen : Pt → Prop} {eng : Engine} {Q : Pt → Prop}

/-- The invariant of the pieces. -/
def GoodOne (n : ℕ) (Gen Q : Pt → Prop) (m : Mat) : Prop := GoodW n Gen m ∧ OneThin n Q m

theorem kit_one (heng : EngineSpec eng) (hn : 2 ≤ n) (hGen : ∀ x, Gen x → x.length + 1 = n) :
    Kit eng n (SMem n) (GoodOne n Gen Q) Gen := by
  refine ⟨fun m h => ⟨h.1.wf, h.1.cols⟩, ?_, heng.order, ?_⟩
  · intro p q hp hq
    obtain ⟨o, h1, h2⟩ := Thin.tryUnion_unionExact (Gen := Gen) heng hn p q hp.1 hq.1
    obtain ⟨o', h3, h4⟩ := (closed_oneThin (Q := Q) heng hn).union [p, q] (by
      intro r hr
      simp only [List.mem_cons, List.not_mem_nil, or_false] at hr
      rcases hr with rfl | rfl
      · exact hp.2
      · exact hq.2) (by simp)
    rw [h1] at h3
    cases h3
    exact ⟨o, h1, fun u hu => ⟨⟨(h2 u hu).1, h4 u hu⟩, (h2 u hu).2⟩⟩
  · intro track i A S Bs Ts hA hB
    have weak : ∀ (T : Pt → Prop) (ms : List Mat), AppM (SMem n) (GoodOne n Gen Q) Gen T ms → AppM (SMem n) (GoodW n Gen) Gen T ms :=
      fun T ms h => ⟨fun m hm => (h.good m hm).1, h.sound, h.cover⟩
    obtain ⟨out, h1, h2⟩ := (kit_thin (Gen := Gen) heng hn hGen).loop track i A S Bs Ts (weak _ _ hA) (hB.imp (fun _ _ h => weak _ _ h))
    have h3 := intersectLoop_class heng hn (closed_oneThin (Q := Q) heng hn) i A
      (fun q hq => (hA.good q.mat (List.mem_map.mpr ⟨q, hq, rfl⟩)).2) Bs (by
        intro B hB' q hq
        obtain ⟨T, _, hT⟩ := forall₂_mem_right hB B hB'
        exact (hT.good q.mat (List.mem_map.mpr ⟨q, hq, rfl⟩)).2) out h1
    refine ⟨out, h1, ⟨fun m hm => ?_, h2.sound, h2.cover⟩⟩
    obtain ⟨p, hp, rfl⟩ := List.mem_map.mp hm
    exact ⟨h2.good _ hm, h3 p hp⟩

/-- An unbounded polytope intersected with a region that the conversion represents. -/
theorem conv_pair_one (heng : EngineSpec eng) (hneg : UnboundedNeg eng.lp) (hn : 2 ≤ n) (ms : List Mat) (H : Mat) (l : Option ℕ)
    (R : Region ℕ) (hH : Unb n H) (hmH : H ∈ ms) (hR : Conv eng (SMem n) (GoodOne n (Generic n ms) Q) (Generic n ms) R) :
    Conv eng (SMem n) (GoodOne n (Generic n ms) Q) (Generic n ms) (.intersect [.polytope H l, R]) := by
  have hGen : ∀ x, Generic n ms x → x.length + 1 = n := fun x hx => hx.1
  have hC := closed_oneThin (eng := eng) (Q := Q) heng hn
  obtain ⟨B, hB, hB2⟩ := hR
  have hB3 : ∀ q ∈ B, GoodOne n (Generic n ms) Q q.mat := fun q hq => hB2.good _ (List.mem_map.mpr ⟨q, hq, rfl⟩)
  obtain ⟨is, i1, i2, i3⟩ := inters_unb heng hneg hn hGen ⟨H, []⟩ hH
    (fun x hx hc => Mat.Thin.off_interior (hx.2 H hmH) ((contains_iff_holds H x (contains_length hc)).mp hc)) B (fun q hq => (hB3 q hq).1)
  have i4 : ∀ r ∈ is, OneThin n Q r.mat := by
    intro r hr
    rcases i2 r hr with ⟨q, hq, e⟩ | h
    · rw [e]; exact (hB3 q hq).2
    · exact ⟨(i3.good r hr).toBase, (i3.good r hr).bounded h, .inl h⟩
  have i5 : Thin.SApprox n (Generic n ms) (fun x => H.Contains x ∧ R.Mem x) is := by
    refine ⟨i3.good, ?_, ?_⟩
    · intro r hr x hx
      obtain ⟨a, q, hq, b⟩ := i3.sound r hr x hx
      exact ⟨a, hB2.sound q.mat (List.mem_map.mpr ⟨q, hq, rfl⟩) x b⟩
    · rintro x hg ⟨a, b⟩
      obtain ⟨m, hm, hmx⟩ := hB2.cover x hg b
      obtain ⟨q, hq, rfl⟩ := List.mem_map.mp hm
      exact i3.cover x hg ⟨a, q, hq, hmx⟩
  obtain ⟨out, o1, o2, _⟩ := Thin.mergeInters_spec (track := false) heng hn _ is i5
  have o3 := mergeInters_class heng hn hC is i4 out o1
  have o4 := sapprox_iff.mpr o2
  have o5 : AppM (SMem n) (GoodOne n (Generic n ms) Q) (Generic n ms) (fun x => H.Contains x ∧ R.Mem x) (out.map (·.mat)) := by
    refine ⟨fun m hm => ?_, o4.sound, o4.cover⟩
    obtain ⟨q, hq, rfl⟩ := List.mem_map.mp hm
    exact ⟨o2.good q hq, o3 q hq⟩
  exact ⟨out, asDisjoint_pair H l R B is out hB i1 o1, o5.imp (fun x => (mem_pair H l R x).symm)⟩

theorem conv_one (heng : EngineSpec eng) (hneg : UnboundedNeg eng.lp) (hn : 2 ≤ n) (ms : List Mat) (r : Region ℕ)
    (hms : ∀ m ∈ r.leaves, m ∈ ms) (h : Hyp n (OneThin n Q) r) :
    Conv eng (SMem n) (GoodOne n (Generic n ms) Q) (Generic n ms) r := by
  have hGen : ∀ x, Generic n ms x → x.length + 1 = n := fun x hx => hx.1
  have hC := closed_oneThin (eng := eng) (Q := Q) heng hn
  have plain : ∀ R : Region ℕ, (∀ m ∈ R.leaves, m ∈ ms) → Plain false R → (∀ m ∈ R.leaves, OneThin n Q m) →
      Conv eng (SMem n) (GoodOne n (Generic n ms) Q) (Generic n ms) R := by
    intro R h1 h2 h3
    obtain ⟨out, a1, a2, _⟩ := Thin.asDisjoint_spec heng hn hGen R h2
      ((allMat_iff_leaves _ R).mpr (fun m hm => Thin.leafW_of_generic _ m (h1 m hm) (h3 m hm).toBase (fun _ => (h3 m hm).bounded)))
    have h4 := sapprox_iff.mpr a2
    refine ⟨out, a1, fun m hm => ?_, h4.sound, h4.cover⟩
    obtain ⟨p, hp, rfl⟩ := List.mem_map.mp hm
    exact ⟨a2.good p hp, asDisjoint_class heng hn hC R h3 out a1 p hp⟩
  rcases h with ⟨h1, h2⟩ | ⟨H, l, R, rfl, hH, h1, h2⟩
  · exact plain r hms h1 h2
  · exact conv_pair_one heng hneg hn ms H l R hH (hms H (by simp [leaves, leavesList]))
      (plain R (fun m hm => hms m (by simp [leaves, leavesList, hm])) h1 h2)

/-- The computation for an unbounded domain. -/
theorem region_unb_one (heng : EngineSpec eng) (hneg : UnboundedNeg eng.lp) (hn : 2 ≤ n) (D : Mat) (hD : Unb n D) (hyps : List (Region ℕ))
    (hne : hyps ≠ []) (hrs : ∀ r ∈ hyps, Hyp n (OneThin n Q) r) :
    ∃ ms deps, largeValueRegion eng (.polytope D none) hyps = .ok (ms, deps) ∧
      AppM (SMem n) (GoodOne n (Generic n (D :: leavesList hyps)) Q) (Generic n (D :: leavesList hyps))
        (fun x => D.Contains x ∧ ∀ r ∈ hyps, r.Mem x) ms ∧ ∀ i ∈ deps, i < hyps.length := by
  have k := kit_one heng hn (Q := Q) (Gen := Generic n (D :: leavesList hyps)) (fun x hx => hx.1)
  obtain ⟨ms, deps, h1, h2, h3⟩ := region_of_clip k (.polytope D none) hyps hne (fun r hr => by
    obtain ⟨out, e1, e2⟩ := conv_pair_one heng hneg hn (D :: leavesList hyps) D none r hD (by simp)
      (conv_one heng hneg hn _ r (fun m hm => List.mem_cons_of_mem _ ((mem_leavesList _ _).mpr ⟨r, hr, hm⟩)) (hrs r hr))
    obtain ⟨ms, f1, f2⟩ := clip_of_disjoint k (.polytope D none) r e1 e2
    exact ⟨ms, f1, f2.imp (fun x => by rw [mem_pair, Mem])⟩)
  exact ⟨ms, deps, h1, h2.imp (fun x => by rw [Mem]), h3⟩

/-- **C65, one lower-dimensional polytope** If the polytopes of the regions are full-dimensional except some that all have the same points, then
those of the computed region are full-dimensional, or have these points. -/
theorem region_one (heng : EngineSpec eng) (hneg : UnboundedNeg eng.lp) (hn : 2 ≤ n) (domain : Region ℕ) (hyps : List (Region ℕ))
    (hne : hyps ≠ []) (hrs : ∀ r ∈ domain :: hyps, Hyp n (OneThin n Q) r) :
    ∃ ms deps, largeValueRegion eng domain hyps = .ok (ms, deps) ∧
      AppM (SMem n) (GoodOne n (Generic n (leavesList (domain :: hyps))) Q) (Generic n (leavesList (domain :: hyps)))
        (fun x => ∀ r ∈ domain :: hyps, r.Mem x) ms ∧ ∀ i ∈ deps, i < hyps.length := by
  have hc : ∀ r ∈ domain :: hyps, Conv eng (SMem n) (GoodOne n (Generic n (leavesList (domain :: hyps))) Q)
      (Generic n (leavesList (domain :: hyps))) r := fun r hr =>
    conv_one heng hneg hn _ r (fun m hm => (mem_leavesList _ _).mpr ⟨r, hr, hm⟩) (hrs r hr)
  obtain ⟨ms, deps, h1, h2, h3⟩ := region_spec (kit_one heng hn (fun x hx => hx.1)) domain (hc domain (by simp)) hyps hne
    (fun r hr => hc r (by simp [hr]))
  exact ⟨ms, deps, h1, h2.imp (fun x => by simp), h3⟩

/-- A full-dimensional polytope is in the class. -/
theorem oneThin_of_fullDim {m : Mat} (h : FullDim n m) : OneThin n Q m := ⟨base_of_fullDim h, h.bounded, .inl h.inner⟩

open SupRatio Rational in
/-- What the two calls of `compute_large_value_region` and `compute_sup_rho_on_tau` give if the zeta large value estimates have polytopes with
the points `Q` and all points of `Q` are allowed. -/
theorem zd_core_one (heng : EngineSpec eng) (hneg : UnboundedNeg eng.lp) {edges : Mat → List (Pt × Pt)}
    (hed : ∀ p : Mat, p.cols = 4 → p.Bounded → EdgesSpec edges p) {solve : RF ℝ → RF ℝ → List ℝ} (hs : SolveSpec solve)
    {isZero : Expr ℝ → Bool} (hz : ZeroSpec isZero) (lvs : List (Region ℕ)) (transforms : List (Region ℕ → Py (Region ℕ)))
    (tl : List (Region ℕ)) (ht : LargeValues.applyTransforms lvs transforms = .ok tl) (zlvs : List (Region ℕ))
    (hne : lvs ≠ []) (hrs1 : ∀ r ∈ lvs ++ tl, Hyp 4 (FullDim 4) r) (hrs : ∀ r ∈ lvs ++ tl ++ zlvs, Hyp 4 (OneThin 4 Q) r)
    (x0 x1 tau0 : ℚ) (hx : x0 < x1) (htau : 2 < tau0) (hQ : ∀ x, Q x → Allowed x0 x1 2 tau0 (lvs ++ tl ++ zlvs) x) (incL incU : Bool) :
    ∃ ms1 d1 ms2 d2 o1 o2,
      largeValueRegion eng (.polytope (ZeroDensity.box3 x0 x1 tau0 (2 * tau0) 0 1000000) none) (lvs ++ tl) = .ok (ms1, d1) ∧
      largeValueRegion eng (.polytope (ZeroDensity.box3 x0 x1 2 tau0 0 1000000) none) (lvs ++ tl ++ zlvs) = .ok (ms2, d2) ∧
      lvZlvToZd eng edges solve isZero lvs transforms zlvs x0 x1 incL incU tau0 =
        .ok (rfMax solve isZero (funcDomains o1 ++ funcDomains o2) ⟨x0, x1, incL, incU⟩ false) ∧
      (SupOut edges ⟨x0, x1, incL, incU⟩ ms1 o1 ∧ Chain x0 x1 o1 ∧
        (∀ s t r, RightLimit (Allowed x0 x1 tau0 (2 * tau0) (lvs ++ tl)) s t r → ((r / t : ℚ) : ℝ) ∈ Ratios ms1 s) ∧
        (∀ s, ∀ v ∈ Ratios ms1 s, ∃ t r, Allowed x0 x1 tau0 (2 * tau0) (lvs ++ tl) [s, t, r] ∧ v = ((r / t : ℚ) : ℝ))) ∧
      (SupOut edges ⟨x0, x1, incL, incU⟩ ms2 o2 ∧ Chain x0 x1 o2 ∧
        (∀ s t r, RightLimit (Allowed x0 x1 2 tau0 (lvs ++ tl ++ zlvs)) s t r → ((r / t : ℚ) : ℝ) ∈ Ratios ms2 s) ∧
        (∀ s, ∀ v ∈ Ratios ms2 s, ∃ t r, Allowed x0 x1 2 tau0 (lvs ++ tl ++ zlvs) [s, t, r] ∧ v = ((r / t : ℚ) : ℝ))) := by
  have go : ∀ (P : Pt → Prop) (a b : ℚ) (rs : List (Region ℕ)), a < b → 0 < a → rs ≠ [] → (∀ r ∈ rs, Hyp 4 (OneThin 4 P) r) →
      (∀ x, P x → Allowed x0 x1 a b rs x) →
      ∃ ms deps, largeValueRegion eng (.polytope (ZeroDensity.box3 x0 x1 a b 0 1000000) none) rs = .ok (ms, deps) ∧
        (∀ p ∈ ms, EdgesSpec edges p ∧ p.cols = 4 ∧ ∀ s t r, p.Contains [s, t, r] → 0 < t) ∧
        (∀ s t r, RightLimit (Allowed x0 x1 a b rs) s t r → ((r / t : ℚ) : ℝ) ∈ Ratios ms s) ∧
        (∀ s, ∀ v ∈ Ratios ms s, ∃ t r, Allowed x0 x1 a b rs [s, t, r] ∧ v = ((r / t : ℚ) : ℝ)) := by
    intro P a b rs hab ha hne hsub hP
    have hall : ∀ r ∈ Region.polytope (ZeroDensity.box3 x0 x1 a b 0 1000000) none :: rs, Hyp 4 (OneThin 4 P) r := by
      intro r hr
      rcases List.mem_cons.mp hr with rfl | hr
      · refine .inl ⟨by simp [Plain], ?_⟩
        intro m hm
        rw [leaves, List.mem_singleton] at hm
        subst hm
        exact oneThin_of_fullDim (ZeroDensity.box3_fullDim _ _ _ _ _ _ hx hab (by norm_num))
      · exact hsub r hr
    obtain ⟨ms, deps, h1, h2, _⟩ := region_one heng hneg (n := 4) (by norm_num)
      (.polytope (ZeroDensity.box3 x0 x1 a b 0 1000000) none) rs hne hall
    have sound : ∀ p ∈ ms, ∀ x, p.Contains x → Allowed x0 x1 a b rs x := by
      intro p hp x hx
      rcases (h2.good p hp).2.whole with hi | he
      · exact (allowed_iff x0 x1 a b rs _).mpr (h2.sound p hp _ ⟨hi, hx⟩)
      · exact hP x ((he x).mp hx)
    refine ⟨ms, deps, h1, ?_, ?_, ?_⟩
    · intro p hp
      refine ⟨hed p (h2.good p hp).2.cols (h2.good p hp).2.bounded, (h2.good p hp).2.cols, ?_⟩
      intro s t r hc
      obtain ⟨s', t', r', e, _, h, _⟩ := sound p hp _ hc
      simp only [List.cons.injEq, and_true] at e
      rw [e.2.1]
      linarith [h.1]
    · intro s t r hl
      refine rightLimit_ratio (P := OneThin 4 P) (fun m hm => hm.toBase) (fun _ _ h => h.2) (fun m hm => hm.2.cols) _ hall h2 ?_
      intro ε hε
      obtain ⟨s', t', r', k1, k2, δ, k3, k4⟩ := hl ε hε
      exact ⟨s', t', r', k1, k2, δ, k3, fun z hz => (allowed_iff x0 x1 a b rs z).mp (k4 z hz)⟩
    · rintro s v ⟨p, hp, t, r, hc, _, rfl⟩
      exact ⟨t, r, sound p hp _ hc, rfl⟩
  obtain ⟨ms1, d1, a1, a2, a3, a4⟩ := go (fun _ => False) tau0 (2 * tau0) (lvs ++ tl) (by linarith) (by linarith)
    (by simp [hne]) (fun r hr => by
      rcases hrs1 r hr with ⟨k1, k2⟩ | ⟨H, l, R, k0, k1, k2, k3⟩
      · exact .inl ⟨k1, fun m hm => oneThin_of_fullDim (k2 m hm)⟩
      · exact .inr ⟨H, l, R, k0, k1, k2, fun m hm => oneThin_of_fullDim (k3 m hm)⟩) (fun x h => h.elim)
  obtain ⟨ms2, d2, b1, b2, b3, b4⟩ := go Q 2 tau0 (lvs ++ tl ++ zlvs) htau (by norm_num) (by simp [hne]) hrs hQ
  have hD : ((⟨x0, x1, incL, incU⟩ : Ival ℝ)).x0 < (⟨x0, x1, incL, incU⟩ : Ival ℝ).x1 := by
    simpa using hx
  obtain ⟨o1, g1, g2, g5⟩ := supOut_chain edges solve hs isZero hz ms1 ⟨x0, x1, incL, incU⟩ hD a2
  obtain ⟨o2, g3, g4, g6⟩ := supOut_chain edges solve hs isZero hz ms2 ⟨x0, x1, incL, incU⟩ hD b2
  exact ⟨ms1, d1, ms2, d2, o1, o2, a1, b1,
    lvZlv_eq eng edges solve isZero lvs transforms tl ht zlvs x0 x1 incL incU tau0 ms1 ms2 d1 d2 a1 b1 o1 o2 g1 g3,
    ⟨g2, g5, a3, a4⟩, g4, g6, b3, b4⟩

end ZeroDensity
end Expdb
