import Verif.Props.Region
import Verif.Props.RegionSimplify
import Verif.Props.PolytopeContracts
import Verif.Props.PolytopeUnion
import Verif.Props.PolytopeMinkowski

/-!
# Properties C21 and C22: conversion of a region to a disjoint union of polytopes
-/

namespace Expdb

namespace Mat

theorem dot_bound (a : List ℚ) (x : Pt) (B : ℚ) (hB : 0 ≤ B) (h : ∀ c ∈ x, |c| ≤ B) :
    |dot a x| ≤ (a.map (fun c => |c|)).sum * B := by
  induction a generalizing x with
  | nil => simp
  | cons c a ih => cases x with
    | nil =>
      simp only [dot_nil_right, abs_zero]
      exact mul_nonneg (abs_sum_nonneg _) hB
    | cons u x =>
      simp only [dot_cons, List.map_cons, List.sum_cons, add_mul]
      refine (abs_add_le _ _).trans (add_le_add ?_ (ih x (fun d hd => h d (by simp [hd]))))
      rw [abs_mul]
      exact mul_le_mul_of_nonneg_left (h u (by simp)) (abs_nonneg _)

theorem Bounded.below {p : Mat} (hb : p.Bounded) (ab : Row) : p.BoundedBelow ab := by
  obtain ⟨B, hB⟩ := hb
  refine ⟨ab.c0 - (ab.cs.map (fun c => |c|)).sum * max B 0, fun x hx => ?_⟩
  have := dot_bound ab.cs x (max B 0) (le_max_right _ _)
    (fun c hc => (hB x ((feasible_iff p x).mp hx) c hc).trans (le_max_left _ _))
  have := (abs_le.mp this).1
  linarith

/-- Contract of the external engines: cdd's canonicalisation, linear programming and vertex
enumeration (on bounded polytopes), and set iteration order. -/
structure _root_.Expdb.EngineSpec (eng : Engine) : Prop where
  canon : CanonSpec eng.canon
  canonNoZero : CanonNoZero eng.canon
  lp : LPSpec eng.lp
  verts : ∀ m : Mat, 1 ≤ m.cols → m.Bounded → VertsSpec eng.verts m
  order : ∀ l, (eng.order l).Perm l

/-- Full-dimensional bounded polytopes without zero rows. -/
structure FullDim (n : Nat) (m : Mat) : Prop where
  wf : m.WF
  cols : m.cols = n
  noZero : m.NoZero
  bounded : m.Bounded
  inner : ∃ s, s.length + 1 = n ∧ m.Interior s

/-- The invariant of the pieces: full-dimensional, and generic points are interior points. -/
structure Good (n : Nat) (Gen : Pt → Prop) (m : Mat) : Prop extends FullDim n m where
  gen : ∀ x, Gen x → m.Contains x → m.Interior x

theorem contains_length {m : Mat} {x : Pt} (h : m.Contains x) : x.length + 1 = m.cols :=
  ((feasible_iff m x).mpr h).1

theorem FullDim.noLin {n : Nat} {m : Mat} (h : FullDim n m) : m.NoLin := by
  obtain ⟨s, h1, h2⟩ := h.inner
  exact (h2.strict h.wf h.noZero (by rw [h.cols]; exact h1)).noLin

theorem FullDim.nonempty {n : Nat} {m : Mat} (h : FullDim n m) : ∃ x, m.Contains x := by
  obtain ⟨s, h1, h2⟩ := h.inner
  exact ⟨s, (contains_iff_holds m s (by rw [h.cols]; exact h1)).mpr h2.holds⟩

theorem interior_of_subset {p q : Mat} (n : Nat) (hp : p.cols = n) (hq : q.cols = n)
    (h : ∀ x, p.Contains x → q.Contains x) {x : Pt} (hx : x.length + 1 = n) (hi : p.Interior x) :
    q.Interior x := by
  obtain ⟨ε, h1, h2⟩ := hi
  refine ⟨ε, h1, fun y hy => ?_⟩
  have hy' : y.length + 1 = n := by rw [hy.length]; exact hx
  exact (contains_iff_holds q y (by rw [hq]; exact hy')).mp
    (h y ((contains_iff_holds p y (by rw [hp]; exact hy')).mpr (h2 y hy)))

theorem interior_inter {p q r : Mat} (n : Nat) (hp : p.cols = n) (hq : q.cols = n) (hr : r.cols = n)
    (h : ∀ x, r.Contains x ↔ p.Contains x ∧ q.Contains x) {x : Pt} (hx : x.length + 1 = n)
    (hip : p.Interior x) (hiq : q.Interior x) : r.Interior x := by
  obtain ⟨ε, h1, h2⟩ := hip
  obtain ⟨δ, h3, h4⟩ := hiq
  refine ⟨min ε δ, lt_min h1 h3, fun y hy => ?_⟩
  have hy' : y.length + 1 = n := by rw [hy.length]; exact hx
  rw [← contains_iff_holds r y (by rw [hr]; exact hy'), h,
    contains_iff_holds p y (by rw [hp]; exact hy'), contains_iff_holds q y (by rw [hq]; exact hy')]
  exact ⟨h2 y (hy.mono (min_le_left _ _)), h4 y (hy.mono (min_le_right _ _))⟩

variable {n : Nat} {Gen : Pt → Prop} {eng : Engine}

theorem subset_iff (heng : EngineSpec eng) {p q : Mat} (hp : FullDim n p) (hq : FullDim n q) :
    isSubsetOf eng.lp p q = true ↔ ∀ x, p.Contains x → q.Contains x :=
  C15_isSubsetOf_partial eng.lp heng.lp p q hp.wf hq.wf (by rw [hp.cols, hq.cols]) hp.nonempty
    (fun ab _ => hp.bounded.below ab)

theorem intersect_noZero (heng : EngineSpec eng) {p q m : Mat} (hp : FullDim n p)
    (hq : FullDim n q) (h : intersect eng.canon p q = .ok m) : m.NoZero := by
  have hlen : ∀ (b : Bool), ∀ r ∈ q.asList b, r.cs.length + 1 = p.cols := fun b r hr => by
    rw [hp.cols, ← hq.cols]; exact hq.wf r ((mem_asList _ _ _).mp hr).1
  unfold intersect intersection at h
  simp only [List.flatMap_cons, List.flatMap_nil, List.append_nil, bind, Except.bind] at h
  rw [extendIf_ok p _ (hlen false)] at h
  simp only at h
  rw [extendIf_ok _ _ (fun r hr => by simpa using hlen true r hr)] at h
  simp only [if_true, Except.ok.injEq] at h
  rw [← h]
  apply heng.canonNoZero
  · intro r hr
    simp only [List.mem_append] at hr ⊢
    rcases hr with (hr | hr) | hr
    · exact hp.wf r hr
    · exact hlen false r hr
    · exact hlen true r hr
  · intro r hr
    simp only [List.mem_append] at hr
    rcases hr with (hr | hr) | hr
    · exact hp.noZero r hr
    · exact hq.noZero r ((mem_asList _ _ _).mp hr).1
    · exact hq.noZero r ((mem_asList _ _ _).mp hr).1

/-- An exact union of good polytopes is good. -/
theorem good_union {ps : List Mat} (hps : ∀ p ∈ ps, Good n Gen p) (hne : ps ≠ [])
    {U : Mat} (hcols : U.cols = n) (hwf : U.WF) (hnz : U.NoZero)
    (hU : ∀ x, U.Contains x ↔ ∃ q ∈ ps, q.Contains x) : Good n Gen U := by
  refine ⟨⟨hwf, hcols, hnz, ?_, ?_⟩, ?_⟩
  · have : ∃ B : ℚ, ∀ q ∈ ps, ∀ x, q.Contains x → ∀ c ∈ x, |c| ≤ B := by
      clear hU hne
      induction ps with
      | nil => exact ⟨0, fun q hq => by simp at hq⟩
      | cons p ps ih =>
        obtain ⟨B, hB⟩ := ih (fun q hq => hps q (by simp [hq]))
        obtain ⟨B', hB'⟩ := (hps p (by simp)).bounded
        refine ⟨max B B', fun q hq x hx c hc => ?_⟩
        rcases List.mem_cons.mp hq with rfl | hq
        · exact (hB' x hx c hc).trans (le_max_right _ _)
        · exact (hB q hq x hx c hc).trans (le_max_left _ _)
    obtain ⟨B, hB⟩ := this
    refine ⟨B, fun x hx => ?_⟩
    obtain ⟨q, hq, hqx⟩ := (hU x).mp hx
    exact hB q hq x hqx
  · obtain ⟨q, hq⟩ := List.exists_mem_of_ne_nil ps hne
    obtain ⟨s, h1, h2⟩ := (hps q hq).inner
    exact ⟨s, h1, interior_of_subset n (hps q hq).cols hcols (fun x hx => (hU x).mpr ⟨q, hq, hx⟩) h1 h2⟩
  · intro x hx hUx
    obtain ⟨q, hq, hqx⟩ := (hU x).mp hUx
    exact interior_of_subset n (hps q hq).cols hcols (fun y hy => (hU y).mpr ⟨q, hq, hy⟩)
      (by rw [← hcols]; exact contains_length hUx) ((hps q hq).gen x hx hqx)

theorem tryUnion_good (heng : EngineSpec eng) (hn : 2 ≤ n) {ps : List Mat}
    (hps : ∀ p ∈ ps, Good n Gen p) (hne : ps ≠ []) :
    ∃ o, tryUnion eng.canon eng.lp eng.verts ps = .ok o ∧
      ∀ U, o = some U → Good n Gen U ∧ ∀ x, U.Contains x ↔ ∃ q ∈ ps, q.Contains x := by
  have H : UnionHyp eng.verts ps n := ⟨fun p hp => (hps p hp).wf, fun p hp => (hps p hp).cols,
    fun p hp => (hps p hp).toFullDim.noLin, fun p hp => (hps p hp).noZero,
    fun p hp => heng.verts p (by rw [(hps p hp).cols]; omega) (hps p hp).bounded, hn⟩
  obtain ⟨q, hq⟩ := List.exists_mem_of_ne_nil ps hne
  obtain ⟨s, h1, h2⟩ := (hps q hq).inner
  obtain ⟨o, h3, h4, _⟩ := C17_tryUnion_partial eng.canon heng.canon eng.lp heng.lp eng.verts ps n H
    (fun q hq => (hps q hq).toFullDim.nonempty) q hq s h1 h2
  refine ⟨o, h3, fun U hU => ?_⟩
  obtain ⟨e1, e2, e3, e4⟩ := h4 U hU
  exact ⟨good_union hps hne e1 e3 (e4 heng.canonNoZero) e2, e2⟩

end Mat

namespace Region

open Mat

variable {L : Type} [DecidableEq L] {n : Nat} {Gen : Pt → Prop} {eng : Engine} {track : Bool}

/-- The union operation used by the code meets the contract of C24 on full-dimensional bounded
polytopes. -/
theorem tryUnion_unionExact (heng : EngineSpec eng) (hn : 2 ≤ n) :
    UnionExact (Good n Gen) (tryUnion eng.canon eng.lp eng.verts) := by
  intro p q hp hq
  obtain ⟨o, h1, h2⟩ := tryUnion_good heng hn (ps := [p, q]) (Gen := Gen) (by
    intro r hr
    simp only [List.mem_cons, List.not_mem_nil, or_false] at hr
    rcases hr with rfl | rfl
    · exact hp
    · exact hq) (by simp)
  refine ⟨o, h1, fun u hu => ?_⟩
  obtain ⟨e1, e2⟩ := h2 u hu
  exact ⟨e1, fun x => by rw [e2]; simp⟩

theorem pieceInter_spec (heng : EngineSpec eng) (hn : 2 ≤ n)
    (hGen : ∀ x, Gen x → x.length + 1 = n) (p q : Piece L)
    (hp : Good n Gen p.mat) (hq : Good n Gen q.mat) :
    ∃ o, pieceInter eng track p q = .ok o ∧
      (∀ r, o = some r → Good n Gen r.mat ∧
        (∀ x, r.mat.Contains x ↔ p.mat.Contains x ∧ q.mat.Contains x) ∧
        ((r = p ∧ ∀ x, p.mat.Contains x → q.mat.Contains x) ∨
         (r = q ∧ ∀ x, q.mat.Contains x → p.mat.Contains x) ∨
         r.deps = mergeDeps track p.deps q.deps)) ∧
      (o = none → ∀ x, x.length + 1 = n → ¬ (p.mat.Interior x ∧ q.mat.Interior x)) := by
  unfold pieceInter
  by_cases h1 : Mat.isSubsetOf eng.lp p.mat q.mat = true
  · rw [if_pos h1]
    have hs := (subset_iff heng hp.toFullDim hq.toFullDim).mp h1
    refine ⟨_, rfl, fun r hr => ?_, fun h => by cases h⟩
    cases hr
    exact ⟨hp, fun x => ⟨fun hx => ⟨hx, hs x hx⟩, fun hx => hx.1⟩, Or.inl ⟨rfl, hs⟩⟩
  rw [if_neg h1]
  by_cases h2 : Mat.isSubsetOf eng.lp q.mat p.mat = true
  · rw [if_pos h2]
    have hs := (subset_iff heng hq.toFullDim hp.toFullDim).mp h2
    refine ⟨_, rfl, fun r hr => ?_, fun h => by cases h⟩
    cases hr
    exact ⟨hq, fun x => ⟨fun hx => ⟨hs x hx, hx⟩, fun hx => hx.2⟩, Or.inr (Or.inl ⟨rfl, hs⟩)⟩
  rw [if_neg h2]
  obtain ⟨i, e1, e2, e3, e4⟩ := C10_intersection_exact eng.canon heng.canon true [p.mat, q.mat]
    (by simp) n (by
      intro r hr
      simp only [List.mem_cons, List.not_mem_nil, or_false] at hr
      rcases hr with rfl | rfl
      · exact ⟨hp.wf, hp.cols⟩
      · exact ⟨hq.wf, hq.cols⟩)
  have e5 : ∀ x, i.Contains x ↔ p.mat.Contains x ∧ q.mat.Contains x := fun x => by rw [e4]; simp
  have hi : Mat.intersect eng.canon p.mat q.mat = .ok i := e1
  have hnz := intersect_noZero heng hp.toFullDim hq.toFullDim hi
  have hem := C14_isEmptyExcl_iff eng.lp heng.lp i e2 hnz (by omega)
  rw [hi]
  simp only [bind, Except.bind]
  by_cases h3 : Mat.isEmptyExcl eng.lp i = true
  · rw [if_pos h3]
    refine ⟨none, rfl, fun r hr => (by cases hr), fun _ x hx hpq => ?_⟩
    exact hem.mp h3 x (by rw [e3]; exact hx)
      (interior_inter n hp.cols hq.cols e3 e5 hx hpq.1 hpq.2)
  · rw [if_neg h3]
    refine ⟨_, rfl, fun r hr => ?_, fun h => by cases h⟩
    cases hr
    rw [hem] at h3
    push Not at h3
    obtain ⟨s, hs1, hs2⟩ := h3
    refine ⟨⟨⟨e2, e3, hnz, ?_, s, by rw [← e3]; exact hs1, hs2⟩, ?_⟩, e5, Or.inr (Or.inr rfl)⟩
    · obtain ⟨B, hB⟩ := hp.bounded
      exact ⟨B, fun x hx => hB x ((e5 x).mp hx).1⟩
    · intro x hx hix
      have := (e5 x).mp hix
      exact interior_inter n hp.cols hq.cols e3 e5 (hGen x hx) (hp.gen x hx this.1)
        (hq.gen x hx this.2)

/-- The pieces lie in `S` and contain all generic points of `S`. -/
structure Approx (n : Nat) (Gen : Pt → Prop) (S : Pt → Prop) (out : List (Piece L)) : Prop where
  good : ∀ p ∈ out, Good n Gen p.mat
  sound : ∀ p ∈ out, ∀ x, p.mat.Contains x → S x
  cover : ∀ x, Gen x → S x → ∃ p ∈ out, p.mat.Contains x

/-- Pairwise without common generic points. -/
def Disj (Gen : Pt → Prop) (out : List (Piece L)) : Prop :=
  out.Pairwise (fun p q => ∀ x, Gen x → ¬ (p.mat.Contains x ∧ q.mat.Contains x))

theorem inters_spec (heng : EngineSpec eng) (hn : 2 ≤ n)
    (hGen : ∀ x, Gen x → x.length + 1 = n) (p : Piece L) (hp : Good n Gen p.mat)
    (B : List (Piece L)) (hB : ∀ q ∈ B, Good n Gen q.mat) :
    ∃ out, inters eng track p B = .ok out ∧
      Approx n Gen (fun x => p.mat.Contains x ∧ ∃ q ∈ B, q.mat.Contains x) out ∧
      (Disj Gen B → Disj Gen out) := by
  induction B with
  | nil =>
    refine ⟨[], rfl, ⟨by simp, by simp, ?_⟩, fun _ => List.Pairwise.nil⟩
    rintro x _ ⟨_, q, hq, _⟩; simp at hq
  | cons q B ih =>
    obtain ⟨out, h1, h2, h3⟩ := ih (fun r hr => hB r (by simp [hr]))
    obtain ⟨o, h4, h5, h6⟩ := pieceInter_spec (track := track) heng hn hGen p q hp (hB q (by simp))
    refine ⟨o.toList ++ out, ?_, ⟨?_, ?_, ?_⟩, ?_⟩
    · unfold inters
      rw [h4, h1]; rfl
    · intro r hr
      rcases List.mem_append.mp hr with hr | hr
      · exact (h5 r (Option.mem_toList.mp hr)).1
      · exact h2.good r hr
    · intro r hr x hx
      rcases List.mem_append.mp hr with hr | hr
      · have := ((h5 r (Option.mem_toList.mp hr)).2.1 x).mp hx
        exact ⟨this.1, q, by simp, this.2⟩
      · obtain ⟨a, r', hr', b⟩ := h2.sound r hr x hx
        exact ⟨a, r', by simp [hr'], b⟩
    · rintro x hg ⟨hpx, r, hr, hrx⟩
      rcases List.mem_cons.mp hr with rfl | hr
      · cases o with
        | none =>
          exact absurd ⟨hp.gen x hg hpx, (hB r (by simp)).gen x hg hrx⟩ (h6 rfl x (hGen x hg))
        | some s => exact ⟨s, by simp, ((h5 s rfl).2.1 x).mpr ⟨hpx, hrx⟩⟩
      · obtain ⟨s, hs, hsx⟩ := h2.cover x hg ⟨hpx, r, hr, hrx⟩
        exact ⟨s, by simp [hs], hsx⟩
    · intro hd
      unfold Disj at hd ⊢
      rw [List.pairwise_cons] at hd
      rw [List.pairwise_append]
      refine ⟨by cases o <;> simp, h3 hd.2, ?_⟩
      rintro a ha b hb x hg ⟨hax, hbx⟩
      obtain ⟨_, r', hr', hr'x⟩ := h2.sound b hb x hbx
      exact hd.1 r' hr' x hg ⟨(((h5 a (Option.mem_toList.mp ha)).2.1 x).mp hax).2, hr'x⟩

theorem mergeInters_spec (heng : EngineSpec eng) (hn : 2 ≤ n) (S : Pt → Prop) (ps : List (Piece L))
    (h : Approx n Gen S ps) :
    ∃ out, mergeInters eng track ps = .ok out ∧ Approx n Gen S out ∧
      (Disj Gen ps → Disj Gen out) := by
  unfold mergeInters
  split
  · rename_i hlen
    obtain ⟨o, h1, h2⟩ := tryUnion_good heng hn (ps := ps.map (·.mat)) (Gen := Gen) (by
      intro m hm
      obtain ⟨p, hp, rfl⟩ := List.mem_map.mp hm
      exact h.good p hp) (by intro h0; have := congrArg List.length h0; simp at this; subst this; simp at hlen)
    rw [h1]
    simp only [bind, Except.bind]
    cases o with
    | none => exact ⟨ps, rfl, h, fun hd => hd⟩
    | some u =>
      obtain ⟨e1, e2⟩ := h2 u rfl
      have e3 : ∀ x, u.Contains x ↔ ∃ q ∈ ps, q.mat.Contains x := by
        intro x
        rw [e2]
        constructor
        · rintro ⟨q, hq, hx⟩
          obtain ⟨p, hp, rfl⟩ := List.mem_map.mp hq
          exact ⟨p, hp, hx⟩
        · rintro ⟨p, hp, hx⟩; exact ⟨p.mat, List.mem_map.mpr ⟨p, hp, rfl⟩, hx⟩
      refine ⟨_, rfl, ⟨?_, ?_, ?_⟩, fun _ => List.pairwise_singleton _ _⟩
      · intro p hp; rw [List.mem_singleton] at hp; subst hp; exact e1
      · intro p hp x hx
        rw [List.mem_singleton] at hp; subst hp
        obtain ⟨q, hq, hqx⟩ := (e3 x).mp hx
        exact h.sound q hq x hqx
      · intro x hg hx
        exact ⟨_, List.mem_singleton.mpr rfl, (e3 x).mpr (h.cover x hg hx)⟩
  · exact ⟨ps, rfl, h, fun hd => hd⟩

theorem distribute_spec (heng : EngineSpec eng) (hn : 2 ≤ n)
    (hGen : ∀ x, Gen x → x.length + 1 = n) (B A : List (Piece L))
    (hB : ∀ q ∈ B, Good n Gen q.mat) (hA : ∀ q ∈ A, Good n Gen q.mat) :
    ∃ out, distribute eng track B A = .ok out ∧
      Approx n Gen (fun x => (∃ p ∈ A, p.mat.Contains x) ∧ ∃ q ∈ B, q.mat.Contains x) out ∧
      (Disj Gen A → Disj Gen B → Disj Gen out) := by
  induction A with
  | nil =>
    refine ⟨[], rfl, ⟨by simp, by simp, ?_⟩, fun _ _ => List.Pairwise.nil⟩
    rintro x _ ⟨⟨q, hq, _⟩, _⟩; simp at hq
  | cons p A ih =>
    obtain ⟨out, h1, h2, h3⟩ := ih (fun r hr => hA r (by simp [hr]))
    obtain ⟨is, h4, h5, h6⟩ := inters_spec (track := track) heng hn hGen p (hA p (by simp)) B hB
    obtain ⟨m, h7, h8, h9⟩ := mergeInters_spec (track := track) heng hn _ is h5
    refine ⟨m ++ out, ?_, ⟨?_, ?_, ?_⟩, ?_⟩
    · unfold distribute
      rw [h4]; simp only [bind, Except.bind]; rw [h7, h1]; rfl
    · intro r hr
      rcases List.mem_append.mp hr with hr | hr
      · exact h8.good r hr
      · exact h2.good r hr
    · intro r hr x hx
      rcases List.mem_append.mp hr with hr | hr
      · have := h8.sound r hr x hx
        exact ⟨⟨p, by simp, this.1⟩, this.2⟩
      · obtain ⟨⟨a, ha, hax⟩, b⟩ := h2.sound r hr x hx
        exact ⟨⟨a, by simp [ha], hax⟩, b⟩
    · rintro x hg ⟨⟨a, ha, hax⟩, hb⟩
      rcases List.mem_cons.mp ha with rfl | ha
      · obtain ⟨s, hs, hsx⟩ := h8.cover x hg ⟨hax, hb⟩
        exact ⟨s, by simp [hs], hsx⟩
      · obtain ⟨s, hs, hsx⟩ := h2.cover x hg ⟨⟨a, ha, hax⟩, hb⟩
        exact ⟨s, by simp [hs], hsx⟩
    · intro hdA hdB
      unfold Disj at hdA
      rw [List.pairwise_cons] at hdA
      unfold Disj
      rw [List.pairwise_append]
      refine ⟨h9 (h6 hdB), h3 hdA.2 hdB, ?_⟩
      rintro a ha b hb x hg ⟨hax, hbx⟩
      obtain ⟨⟨c, hc, hcx⟩, _⟩ := h2.sound b hb x hbx
      exact hdA.1 c hc x hg ⟨(h8.sound a ha x hax).1, hcx⟩

omit [DecidableEq L] in
theorem rep_disj (inp out : List (Piece L)) (groups : List (List Nat))
    (hg : groups.flatten.Nodup)
    (hf : List.Forall₂ (fun S p => Rep inp track p S) groups out) (hd : Disj Gen inp) :
    Disj Gen out := by
  unfold Disj at *
  induction hf with
  | nil => exact List.Pairwise.nil
  | @cons S p Ss ps h hrest ih =>
    rw [List.flatten_cons, List.nodup_append] at hg
    rw [List.pairwise_cons]
    refine ⟨?_, ih hg.2.1⟩
    rintro q hq x hgx ⟨hpx, hqx⟩
    obtain ⟨k, hk, a, ha, hax⟩ := (h.1 x).mp hpx
    obtain ⟨T, hT, hTq⟩ := forall₂_mem_right hrest q hq
    obtain ⟨k', hk', b, hb, hbx⟩ := (hTq.1 x).mp hqx
    have hne : k ≠ k' := hg.2.2 k hk k' (List.mem_flatten.mpr ⟨T, hT, hk'⟩)
    obtain ⟨hk1, rfl⟩ := List.getElem?_eq_some_iff.mp ha
    obtain ⟨hk2, rfl⟩ := List.getElem?_eq_some_iff.mp hb
    rw [List.pairwise_iff_getElem] at hd
    rcases lt_or_gt_of_ne hne with hlt | hlt
    · exact hd k k' hk1 hk2 hlt x hgx ⟨hax, hbx⟩
    · exact hd k' k hk2 hk1 hlt x hgx ⟨hbx, hax⟩

theorem periodicSimplify_spec (heng : EngineSpec eng) (hn : 2 ≤ n) (i : Nat) (S : Pt → Prop)
    (A : List (Piece L)) (h : Approx n Gen S A) :
    ∃ out, periodicSimplify eng track i A = .ok out ∧ Approx n Gen S out ∧
      (Disj Gen A → Disj Gen out) := by
  unfold periodicSimplify
  split
  · obtain ⟨out, h1, ⟨groups, h2, h2'⟩, h3, h4, _⟩ := C24_simplifyUnion (Good n Gen) _
      (tryUnion_unionExact heng hn) eng.order heng.order track A h.good
    refine ⟨out, h1, ⟨h4, ?_, ?_⟩, rep_disj A out groups (h2.nodup_iff.mpr List.nodup_range) h2'⟩
    · intro p hp x hx
      obtain ⟨q, hq, hqx⟩ := (h3 x).mp ⟨p, hp, hx⟩
      exact h.sound q hq x hqx
    · intro x hg hx
      exact (h3 x).mpr (h.cover x hg hx)
  · exact ⟨A, rfl, h, fun hd => hd⟩

theorem intersectLoop_spec (heng : EngineSpec eng) (hn : 2 ≤ n)
    (hGen : ∀ x, Gen x → x.length + 1 = n) (i : Nat) (A : List (Piece L)) (S : Pt → Prop)
    (hA : Approx n Gen S A) (Bs : List (List (Piece L))) (Ts : List (Pt → Prop))
    (hB : List.Forall₂ (fun T B => Approx n Gen T B) Ts Bs) :
    ∃ out, intersectLoop eng track i A Bs = .ok out ∧
      Approx n Gen (fun x => S x ∧ ∀ T ∈ Ts, T x) out ∧
      (Disj Gen A → (∀ B ∈ Bs, Disj Gen B) → Disj Gen out) := by
  induction hB generalizing i A S with
  | nil => exact ⟨A, rfl, by simpa using hA, fun h _ => h⟩
  | @cons T B Ts Bs hTB _ ih =>
    obtain ⟨A', h1, h2, h3⟩ := distribute_spec (track := track) heng hn hGen B A hTB.good hA.good
    have h2' : Approx n Gen (fun x => S x ∧ T x) A' := by
      refine ⟨h2.good, ?_, ?_⟩
      · intro p hp x hx
        obtain ⟨⟨a, ha, hax⟩, b, hb, hbx⟩ := h2.sound p hp x hx
        exact ⟨hA.sound a ha x hax, hTB.sound b hb x hbx⟩
      · rintro x hg ⟨hS, hT⟩
        exact h2.cover x hg ⟨hA.cover x hg hS, hTB.cover x hg hT⟩
    obtain ⟨A'', h4, h5, h6⟩ := periodicSimplify_spec (track := track) heng hn (i + 1) _ A' h2'
    obtain ⟨out, h7, h8, h9⟩ := ih (i + 1) A'' _ h5
    refine ⟨out, ?_, ⟨h8.good, ?_, ?_⟩, ?_⟩
    · unfold intersectLoop
      rw [h1]; simp only [bind, Except.bind]; rw [h4]; exact h7
    · intro p hp x hx
      obtain ⟨⟨a, b⟩, c⟩ := h8.sound p hp x hx
      refine ⟨a, fun T' hT' => ?_⟩
      rcases List.mem_cons.mp hT' with rfl | hT'
      · exact b
      · exact c T' hT'
    · rintro x hg ⟨hS, hT⟩
      exact h8.cover x hg ⟨⟨hS, hT T (by simp)⟩, fun T' hT' => hT T' (by simp [hT'])⟩
    · intro hdA hdB
      exact h9 (h6 (h3 hdA (hdB B (by simp)))) (fun B' hB' => hdB B' (by simp [hB']))

/-! ### Specification notions for regions -/

mutual
/-- Regions on which `_as_disjoint_union_poly` is meant to be used: built from polytopes by
(non-empty) intersections and disjoint unions; polytopes are labelled if dependencies are tracked. -/
def Plain (track : Bool) : Region L → Prop
  | .polytope _ l => track = true → l ≠ none
  | .wrapped _ => False
  | .complement _ => False
  | .union _ => False
  | .disjoint rs => PlainList track rs
  | .intersect rs => rs ≠ [] ∧ PlainList track rs
/-- all regions of a list are plain -/
def PlainList (track : Bool) : List (Region L) → Prop
  | [] => True
  | r :: rs => Plain track r ∧ PlainList track rs
end

omit [DecidableEq L] in
theorem plainList_iff (rs : List (Region L)) : PlainList track rs ↔ ∀ r ∈ rs, Plain track r := by
  induction rs with
  | nil => simp [PlainList]
  | cons r rs ih => simp [PlainList, ih]

mutual
/-- In every disjoint-union node of the tree any two children are related by `R`. -/
def ChildrenRel (R : Region L → Region L → Prop) : Region L → Prop
  | .polytope _ _ => True
  | .wrapped r => ChildrenRel R r
  | .complement r => ChildrenRel R r
  | .union rs => ChildrenRelList R rs
  | .disjoint rs => ChildrenRelList R rs ∧ rs.Pairwise R
  | .intersect rs => ChildrenRelList R rs
/-- the same for all regions of a list -/
def ChildrenRelList (R : Region L → Region L → Prop) : List (Region L) → Prop
  | [] => True
  | r :: rs => ChildrenRel R r ∧ ChildrenRelList R rs
end

omit [DecidableEq L] in
theorem childrenRelList_iff (R : Region L → Region L → Prop) (rs : List (Region L)) :
    ChildrenRelList R rs ↔ ∀ r ∈ rs, ChildrenRel R r := by
  induction rs with
  | nil => simp [ChildrenRelList]
  | cons r rs ih => simp [ChildrenRelList, ih]

/-- No common point among those satisfying `Gen`. -/
def GenDisjoint (Gen : Pt → Prop) (a b : Region L) : Prop := ∀ x, Gen x → ¬ (Mem a x ∧ Mem b x)

theorem asDisjointList_ok (rs : List (Region L)) (Q : Region L → List (Piece L) → Prop)
    (h : ∀ r ∈ rs, ∃ o, asDisjoint eng track r = .ok o ∧ Q r o) :
    ∃ os, asDisjointList eng track rs = .ok os ∧ List.Forall₂ Q rs os := by
  induction rs with
  | nil => exact ⟨[], by unfold asDisjointList; rfl, .nil⟩
  | cons r rs ih =>
    obtain ⟨o, h1, h2⟩ := h r (by simp)
    obtain ⟨os, h3, h4⟩ := ih (fun s hs => h s (by simp [hs]))
    refine ⟨o :: os, ?_, .cons h2 h4⟩
    unfold asDisjointList
    rw [h1, h3]; rfl

theorem asDisjoint_spec (heng : EngineSpec eng) (hn : 2 ≤ n)
    (hGen : ∀ x, Gen x → x.length + 1 = n) (r : Region L) (hpl : Plain track r)
    (hg : r.AllMat (Good n Gen)) :
    ∃ out, asDisjoint eng track r = .ok out ∧ Approx n Gen r.Mem out ∧
      (ChildrenRel (GenDisjoint Gen) r → Disj Gen out) := by
  induction r using induct with
  | hp m l =>
    unfold AllMat at hg
    unfold asDisjoint leafPieces
    unfold Plain at hpl
    have key : ∀ d : List L, Approx n Gen (Mem (.polytope m l)) [⟨m, d⟩] := by
      intro d
      refine ⟨?_, ?_, ?_⟩
      · intro p hp; rw [List.mem_singleton] at hp; subst hp; exact hg
      · intro p hp x hx; rw [List.mem_singleton] at hp; subst hp; unfold Mem; exact hx
      · intro x _ hx; unfold Mem at hx; exact ⟨_, List.mem_singleton.mpr rfl, hx⟩
    cases track with
    | false => exact ⟨_, rfl, key _, fun _ => List.pairwise_singleton _ _⟩
    | true =>
      cases l with
      | none => exact absurd rfl (hpl rfl)
      | some l => exact ⟨_, rfl, key _, fun _ => List.pairwise_singleton _ _⟩
  | hw r _ => unfold Plain at hpl; exact hpl.elim
  | hc r _ => unfold Plain at hpl; exact hpl.elim
  | hu rs _ => unfold Plain at hpl; exact hpl.elim
  | hd rs ih =>
    unfold Plain at hpl
    rw [plainList_iff] at hpl
    rw [AllMat, allMatList_iff] at hg
    obtain ⟨os, h1, h2⟩ := asDisjointList_ok rs
      (fun r o => Approx n Gen r.Mem o ∧ (ChildrenRel (GenDisjoint Gen) r → Disj Gen o))
      (fun r hr => ih r hr (hpl r hr) (hg r hr))
    refine ⟨os.flatten, ?_, ⟨?_, ?_, ?_⟩, ?_⟩
    · unfold asDisjoint; rw [h1]; rfl
    · intro p hp
      obtain ⟨o, ho, hpo⟩ := List.mem_flatten.mp hp
      obtain ⟨r, _, hr⟩ := forall₂_mem_right h2 o ho
      exact hr.1.good p hpo
    · intro p hp x hx
      obtain ⟨o, ho, hpo⟩ := List.mem_flatten.mp hp
      obtain ⟨r, hr1, hr⟩ := forall₂_mem_right h2 o ho
      unfold Mem
      rw [memAny_iff]
      exact ⟨r, hr1, hr.1.sound p hpo x hx⟩
    · intro x hgx hx
      unfold Mem at hx
      rw [memAny_iff] at hx
      obtain ⟨r, hr, hrx⟩ := hx
      obtain ⟨o, ho, hro⟩ := forall₂_mem_left h2 r hr
      obtain ⟨p, hp, hpx⟩ := hro.1.cover x hgx hrx
      exact ⟨p, List.mem_flatten.mpr ⟨o, ho, hp⟩, hpx⟩
    · intro htd
      unfold ChildrenRel at htd
      obtain ⟨htd1, htd2⟩ := htd
      rw [childrenRelList_iff] at htd1
      unfold Disj
      clear ih hpl hg h1
      induction h2 with
      | nil => exact List.Pairwise.nil
      | @cons r o rs os h hrest ih =>
        rw [List.flatten_cons, List.pairwise_append]
        rw [List.pairwise_cons] at htd2
        refine ⟨h.2 (htd1 r (by simp)), ih (fun r' hr' => htd1 r' (by simp [hr'])) htd2.2, ?_⟩
        rintro a ha b hb x hgx ⟨hax, hbx⟩
        obtain ⟨o', ho', hbo'⟩ := List.mem_flatten.mp hb
        obtain ⟨r', hr1, hr'⟩ := forall₂_mem_right hrest o' ho'
        exact htd2.1 r' hr1 x hgx ⟨h.1.sound a ha x hax, hr'.1.sound b hbo' x hbx⟩
  | hi rs ih =>
    unfold Plain at hpl
    obtain ⟨hne, hpl⟩ := hpl
    rw [plainList_iff] at hpl
    rw [AllMat, allMatList_iff] at hg
    obtain ⟨os, h1, h2⟩ := asDisjointList_ok rs
      (fun r o => Approx n Gen r.Mem o ∧ (ChildrenRel (GenDisjoint Gen) r → Disj Gen o))
      (fun r hr => ih r hr (hpl r hr) (hg r hr))
    cases h2 with
    | nil => exact absurd rfl hne
    | @cons r o rs os h hrest =>
      have hB : List.Forall₂ (fun T B => Approx n Gen T B) (rs.map Mem) os :=
        forall₂_map_left Mem _ _ (hrest.imp (fun _ _ h => h.1))
      obtain ⟨out, h3, h4, h5⟩ := intersectLoop_spec (track := track) heng hn hGen 0 o _ h.1 os _ hB
      have hmem : ∀ x, (r.Mem x ∧ ∀ T ∈ rs.map Mem, T x) ↔ Mem (.intersect (r :: rs)) x := by
        intro x
        rw [show Mem (.intersect (r :: rs)) x = MemAll (r :: rs) x by simp only [Mem], memAll_iff]
        simp
      refine ⟨out, ?_, ⟨h4.good, ?_, ?_⟩, ?_⟩
      · unfold asDisjoint; rw [h1]; exact h3
      · intro p hp x hx; exact (hmem x).mp (h4.sound p hp x hx)
      · intro x hgx hx; exact h4.cover x hgx ((hmem x).mpr hx)
      · intro htd
        unfold ChildrenRel at htd
        rw [childrenRelList_iff] at htd
        refine h5 (h.2 (htd r (by simp))) (fun B hB' => ?_)
        obtain ⟨r', hr1, hr'⟩ := forall₂_mem_right hrest B hB'
        exact hr'.2 (htd r' (by simp [hr1]))

/-! ### The main statements -/

mutual
/-- The polytopes occurring in a region. -/
def leaves : Region L → List Mat
  | .polytope m _ => [m]
  | .wrapped r => leaves r
  | .complement r => leaves r
  | .union rs => leavesList rs
  | .disjoint rs => leavesList rs
  | .intersect rs => leavesList rs
/-- The polytopes occurring in a list of regions. -/
def leavesList : List (Region L) → List Mat
  | [] => []
  | r :: rs => leaves r ++ leavesList rs
end

omit [DecidableEq L] in
theorem mem_leavesList (rs : List (Region L)) (m : Mat) :
    m ∈ leavesList rs ↔ ∃ r ∈ rs, m ∈ leaves r := by
  induction rs with
  | nil => simp [leavesList]
  | cons r rs ih => simp [leavesList, ih]

omit [DecidableEq L] in
theorem allMat_iff_leaves (P : Mat → Prop) (r : Region L) :
    AllMat P r ↔ ∀ m ∈ leaves r, P m := by
  have key : ∀ rs : List (Region L), (∀ r ∈ rs, (AllMat P r ↔ ∀ m ∈ leaves r, P m)) →
      (AllMatList P rs ↔ ∀ m ∈ leavesList rs, P m) := by
    intro rs ih
    rw [allMatList_iff]
    constructor
    · intro h m hm
      obtain ⟨r, hr, hm⟩ := (mem_leavesList rs m).mp hm
      exact (ih r hr).mp (h r hr) m hm
    · intro h r hr
      exact (ih r hr).mpr (fun m hm => h m ((mem_leavesList rs m).mpr ⟨r, hr, hm⟩))
  induction r using induct with
  | hp m l => simp [AllMat, leaves]
  | hw r ih => simpa only [AllMat, leaves] using ih
  | hc r ih => simpa only [AllMat, leaves] using ih
  | hu rs ih => simpa only [AllMat, leaves] using key rs ih
  | hd rs ih => simpa only [AllMat, leaves] using key rs ih
  | hi rs ih => simpa only [AllMat, leaves] using key rs ih

/-- Interior points of the set denoted by a region. -/
def IntMem (r : Region L) (x : Pt) : Prop := ∃ ε : ℚ, 0 < ε ∧ ∀ y, Near ε x y → r.Mem y

/-- `x` lies on no bounding hyperplane of the given polytopes. -/
def Generic (n : Nat) (ms : List Mat) (x : Pt) : Prop :=
  x.length + 1 = n ∧ ∀ m ∈ ms, ∀ row ∈ m.rows, row.c0 + dot row.cs x ≠ 0

/-- Two regions of dimension `n - 1` have no common interior point. -/
def IntDisjoint (n : Nat) (a b : Region L) : Prop :=
  ∀ x, x.length + 1 = n → ¬ (IntMem a x ∧ IntMem b x)

theorem good_of_generic (ms : List Mat) (m : Mat) (hm : m ∈ ms) (h : FullDim n m) :
    Good n (Generic n ms) m := by
  refine ⟨h, fun x hx hc => Strict.interior (fun r hr => ⟨h.noLin r hr, ?_⟩)⟩
  have h1 := (contains_iff_holds m x (contains_length hc)).mp hc r hr
  have h2 := h1.2 (h.noLin r hr)
  exact lt_of_le_of_ne h2 (Ne.symm (hx.2 m hm r hr))

theorem generic_near (ms : List Mat) (h : ∀ m ∈ ms, FullDim n m) (x : Pt) (hx : x.length + 1 = n)
    {ε : ℚ} (hε : 0 < ε) : ∃ y, Near ε x y ∧ Generic n ms y := by
  obtain ⟨y, h1, h2⟩ := exists_generic (ms.flatMap (·.rows)) x (by
    intro g hg
    obtain ⟨m, hm, hg⟩ := List.mem_flatMap.mp hg
    have := (h m hm).wf g hg
    have := (h m hm).cols
    exact ⟨(h m hm).noZero g hg, by omega⟩) hε
  exact ⟨y, h1, by rw [h1.length]; exact hx,
    fun m hm r hr => h2 r (List.mem_flatMap.mpr ⟨m, hm, hr⟩)⟩

omit [DecidableEq L] in
/-- Generic points of a plain region are interior points of it. -/
theorem intMem_of_generic (hGen : ∀ x, Gen x → x.length + 1 = n) (r : Region L)
    (hpl : Plain track r) (hg : r.AllMat (Good n Gen)) (x : Pt)
    (hx : Gen x) (hm : r.Mem x) : IntMem r x := by
  induction r using induct with
  | hp m l =>
    unfold AllMat at hg
    unfold Mem at hm
    obtain ⟨ε, h1, h2⟩ := hg.gen x hx hm
    refine ⟨ε, h1, fun y hy => ?_⟩
    unfold Mem
    rw [contains_iff_holds m y (by rw [hg.cols, hy.length]; exact hGen x hx)]
    exact h2 y hy
  | hw r _ => unfold Plain at hpl; exact hpl.elim
  | hc r _ => unfold Plain at hpl; exact hpl.elim
  | hu rs _ => unfold Plain at hpl; exact hpl.elim
  | hd rs ih =>
    unfold Plain at hpl
    rw [plainList_iff] at hpl
    rw [AllMat, allMatList_iff] at hg
    unfold Mem at hm
    rw [memAny_iff] at hm
    obtain ⟨r, hr, hrx⟩ := hm
    obtain ⟨ε, h1, h2⟩ := ih r hr (hpl r hr) (hg r hr) hrx
    refine ⟨ε, h1, fun y hy => ?_⟩
    unfold Mem
    rw [memAny_iff]
    exact ⟨r, hr, h2 y hy⟩
  | hi rs ih =>
    unfold Plain at hpl
    rw [plainList_iff] at hpl
    rw [AllMat, allMatList_iff] at hg
    unfold Mem at hm
    rw [memAll_iff] at hm
    obtain ⟨ε, h1, h2⟩ := near_all (fun (r : Region L) y => r.Mem y) x rs
      (fun r hr => ih r hr (hpl.2 r hr) (hg r hr) (hm r hr))
    refine ⟨ε, h1, fun y hy => ?_⟩
    unfold Mem
    rw [memAll_iff]
    exact h2 y hy

omit [DecidableEq L] in
theorem childrenRel_gen (hGen : ∀ x, Gen x → x.length + 1 = n) (r : Region L)
    (hpl : Plain track r) (hg : r.AllMat (Good n Gen)) (h : ChildrenRel (IntDisjoint n) r) :
    ChildrenRel (GenDisjoint Gen) r := by
  induction r using induct with
  | hp m l => unfold ChildrenRel; trivial
  | hw r _ => unfold Plain at hpl; exact hpl.elim
  | hc r _ => unfold Plain at hpl; exact hpl.elim
  | hu rs _ => unfold Plain at hpl; exact hpl.elim
  | hd rs ih =>
    unfold Plain at hpl
    rw [plainList_iff] at hpl
    rw [AllMat, allMatList_iff] at hg
    unfold ChildrenRel at h ⊢
    rw [childrenRelList_iff] at h ⊢
    refine ⟨fun r hr => ih r hr (hpl r hr) (hg r hr) (h.1 r hr), ?_⟩
    refine List.Pairwise.imp_of_mem ?_ h.2
    rintro a b ha hb hab x hx ⟨hax, hbx⟩
    exact hab x (hGen x hx) ⟨intMem_of_generic hGen a (hpl a ha) (hg a ha) x hx hax,
      intMem_of_generic hGen b (hpl b hb) (hg b hb) x hx hbx⟩
  | hi rs ih =>
    unfold Plain at hpl
    rw [plainList_iff] at hpl
    rw [AllMat, allMatList_iff] at hg
    unfold ChildrenRel at h ⊢
    rw [childrenRelList_iff] at h ⊢
    exact fun r hr => ih r hr (hpl.2 r hr) (hg r hr) (h r hr)

/-- **C21** For every region built from full-dimensional bounded polytopes by (non-empty)
intersections and disjoint unions, `as_disjoint_union` does not raise, and for the polytopes it
returns:
each is contained in the region; every point of the region on no bounding hyperplane of the
region's polytopes is in one of them; every interior point of the region is in one of them; and if
the disjoint unions of the input have children with disjoint interiors then the output polytopes
have disjoint interiors. Missing: polytopes without interior points, whose intersections are dropped
(`C21_lower_dim_counterexample`), and unbounded polytopes. -/
theorem C21_asDisjointUnion_partial (heng : EngineSpec eng) (hn : 2 ≤ n) (r : Region L)
    (hpl : Plain track r) (hfd : ∀ m ∈ r.leaves, FullDim n m) :
    ∃ out : List Mat,
      asDisjointUnion eng track r = .ok (.disjoint (out.map (fun m => .polytope m none))) ∧
      (∀ m ∈ out, ∀ x, m.Contains x → r.Mem x) ∧
      (∀ x, Generic n r.leaves x → r.Mem x → ∃ m ∈ out, m.Contains x) ∧
      (∀ x, x.length + 1 = n → IntMem r x → ∃ m ∈ out, m.Contains x) ∧
      (ChildrenRel (IntDisjoint n) r →
        out.Pairwise (fun a b => ∀ x, x.length + 1 = n → ¬ (a.Interior x ∧ b.Interior x))) := by
  have hg : r.AllMat (Good n (Generic n r.leaves)) :=
    (allMat_iff_leaves _ r).mpr (fun m hm => good_of_generic _ m hm (hfd m hm))
  have hGen : ∀ x, Generic n r.leaves x → x.length + 1 = n := fun x hx => hx.1
  obtain ⟨out, h1, h2, h3⟩ := asDisjoint_spec (track := track) heng hn hGen r hpl hg
  refine ⟨out.map (·.mat), ?_, ?_, ?_, ?_, ?_⟩
  · unfold asDisjointUnion
    rw [h1]
    simp only [bind, Except.bind, pure, Except.pure, List.map_map]
    rfl
  · intro m hm x hx
    obtain ⟨p, hp, rfl⟩ := List.mem_map.mp hm
    exact h2.sound p hp x hx
  · intro x hx hr
    obtain ⟨p, hp, hpx⟩ := h2.cover x hx hr
    exact ⟨p.mat, List.mem_map.mpr ⟨p, hp, rfl⟩, hpx⟩
  · rintro x hx ⟨ε, hε, hr⟩
    obtain ⟨m, hm, hmx⟩ := union_closed (out.map (·.mat)) x (by
      intro δ hδ
      obtain ⟨y, hy, hyg⟩ := generic_near r.leaves hfd x hx (lt_min hε hδ)
      obtain ⟨p, hp, hpy⟩ := h2.cover y hyg (hr y (hy.mono (min_le_left _ _)))
      exact ⟨y, hy.mono (min_le_right _ _), p.mat, List.mem_map.mpr ⟨p, hp, rfl⟩,
        (contains_iff_holds _ _ (contains_length hpy)).mp hpy⟩)
    refine ⟨m, hm, ?_⟩
    obtain ⟨p, hp, rfl⟩ := List.mem_map.mp hm
    exact (contains_iff_holds _ _ (by rw [(h2.good p hp).cols]; exact hx)).mpr hmx
  · intro hd
    rw [List.pairwise_map]
    refine List.Pairwise.imp_of_mem ?_ (h3 (childrenRel_gen hGen r hpl hg hd))
    rintro a b ha hb hab x hx ⟨⟨ε, hε, hia⟩, ⟨δ, hδ, hib⟩⟩
    obtain ⟨y, hy, hyg⟩ := generic_near r.leaves hfd x hx (lt_min hε hδ)
    have hyl : y.length + 1 = n := hyg.1
    refine hab y hyg ⟨(contains_iff_holds _ _ (by rw [(h2.good a ha).cols]; exact hyl)).mpr
      (hia y (hy.mono (min_le_left _ _))),
      (contains_iff_holds _ _ (by rw [(h2.good b hb).cols]; exact hyl)).mpr
      (hib y (hy.mono (min_le_right _ _)))⟩

/-- The contract of the engines can be met. -/
theorem engineSpec_satisfiable : ∃ eng : Engine, EngineSpec eng := by
  obtain ⟨lp, hlp, _⟩ := lpSpec_satisfiable 0
  obtain ⟨verts, hv⟩ := vertsSpec_satisfiable
  exact ⟨⟨id, lp, verts, id⟩, ⟨fun m h => ⟨rfl, h, fun _ _ => Iff.rfl⟩, fun m _ h => h, hlp, hv,
    fun l => List.Perm.refl l⟩⟩

theorem ivl_fullDim (a b : ℚ) (h : a < b) : FullDim 2 (ivl a b) := by
  refine ⟨?_, rfl, ?_, ⟨max |a| |b|, ?_⟩, [(a + b) / 2], rfl, Strict.interior ?_⟩
  · intro r hr
    simp only [ivl, List.mem_cons, List.not_mem_nil, or_false] at hr
    rcases hr with rfl | rfl <;> rfl
  · intro r hr
    simp only [ivl, List.mem_cons, List.not_mem_nil, or_false] at hr
    rcases hr with rfl | rfl <;> simp [Row.isZero]
  · intro x hx c hc
    obtain ⟨t, rfl, h1, h2⟩ := (ivl_contains a b x).mp hx
    rw [List.mem_singleton] at hc; subst hc
    exact abs_le_max_abs_abs h1 h2
  · intro r hr
    simp only [ivl, List.mem_cons, List.not_mem_nil, or_false] at hr
    rcases hr with rfl | rfl
    · refine ⟨rfl, ?_⟩; simp; linarith
    · refine ⟨rfl, ?_⟩; simp; linarith

/-- Non-vacuity of C21: a region with a disjoint union inside an intersection, whose interior
contains `1/2` and `9/4`. -/
example : Plain true (.intersect [.disjoint [.polytope (ivl 0 1) (some 0),
      .polytope (ivl 2 3) (some 1)], .polytope (ivl 0 (5/2)) (some 2)] : Region Nat) ∧
    (∀ m ∈ leaves (.intersect [.disjoint [.polytope (ivl 0 1) (some 0),
      .polytope (ivl 2 3) (some 1)], .polytope (ivl 0 (5/2)) (some 2)] : Region Nat),
      FullDim 2 m) := by
  refine ⟨by simp [Plain, PlainList], ?_⟩
  intro m hm
  simp only [leaves, leavesList, List.append_nil, List.cons_append, List.nil_append,
    List.mem_cons, List.not_mem_nil, or_false] at hm
  rcases hm with rfl | rfl | rfl
  · exact ivl_fullDim 0 1 (by norm_num)
  · exact ivl_fullDim 2 3 (by norm_num)
  · exact ivl_fullDim 0 (5/2) (by norm_num)

/-- The rectangle `[a, b] × [c, d]`. -/
def box2 (a b c d : ℚ) : Mat :=
  ⟨3, [⟨false, -a, [1, 0]⟩, ⟨false, b, [-1, 0]⟩, ⟨false, -c, [0, 1]⟩, ⟨false, d, [0, -1]⟩]⟩

theorem box2_wf (a b c d : ℚ) : (box2 a b c d).WF := by
  intro r hr
  simp only [box2, List.mem_cons, List.not_mem_nil, or_false] at hr
  rcases hr with rfl | rfl | rfl | rfl <;> rfl

theorem box2_contains (a b c d : ℚ) (x : Pt) :
    (box2 a b c d).Contains x ↔ ∃ s t, x = [s, t] ∧ a ≤ s ∧ s ≤ b ∧ c ≤ t ∧ t ≤ d := by
  constructor
  · intro h
    have hl := contains_length h
    rw [contains_iff_holds _ _ hl] at h
    match x, hl with
    | [s, t], _ =>
      have h1 := (h ⟨false, -a, [1, 0]⟩ (by simp [box2])).2 rfl
      have h2 := (h ⟨false, b, [-1, 0]⟩ (by simp [box2])).2 rfl
      have h3 := (h ⟨false, -c, [0, 1]⟩ (by simp [box2])).2 rfl
      have h4 := (h ⟨false, d, [0, -1]⟩ (by simp [box2])).2 rfl
      simp at h1 h2 h3 h4
      exact ⟨s, t, rfl, by linarith, by linarith, by linarith, by linarith⟩
  · rintro ⟨s, t, rfl, h1, h2, h3, h4⟩
    rw [contains_iff_holds _ _ rfl]
    intro r hr
    simp only [box2, List.mem_cons, List.not_mem_nil, or_false] at hr
    rcases hr with rfl | rfl | rfl | rfl <;> refine ⟨fun h => (by cases h), fun _ => ?_⟩ <;> simp <;> linarith

theorem box2_bounded (a b c d : ℚ) : (box2 a b c d).Bounded := by
  refine ⟨max (max |a| |b|) (max |c| |d|), fun x hx e he => ?_⟩
  obtain ⟨s, t, rfl, h1, h2, h3, h4⟩ := (box2_contains a b c d x).mp hx
  simp only [List.mem_cons, List.not_mem_nil, or_false] at he
  rcases he with rfl | rfl
  · exact (abs_le_max_abs_abs h1 h2).trans (le_max_left _ _)
  · exact (abs_le_max_abs_abs h3 h4).trans (le_max_right _ _)

/-- Finding (why C21 needs interior points): the intersection of a lower-dimensional polytope with another one is dropped
unless one of them contains the other. The segment `[0, 2] × {0}` and the rectangle `[1, 3] × [-1, 1]` have common points,
but `as_disjoint_union` of their intersection is the empty union. (The regions of `beta_to_zlv` and `mu_to_zlv` consist
of such lower-dimensional pieces where `ρ = 0`.) -/
theorem C21_lower_dim_counterexample (heng : EngineSpec eng) :
    asDisjointUnion eng false (.intersect [.polytope (box2 0 2 0 0) none, .polytope (box2 1 3 (-1) 1) none] : Region L) =
      .ok (.disjoint []) ∧
    (.intersect [.polytope (box2 0 2 0 0) none, .polytope (box2 1 3 (-1) 1) none] : Region L).Mem [3 / 2, 0] := by
  have hsub : ∀ a b c d a' b' c' d' x y : ℚ, (box2 a b c d).Contains [x, y] → ¬ (box2 a' b' c' d').Contains [x, y] →
      Mat.isSubsetOf eng.lp (box2 a b c d) (box2 a' b' c' d') = false := by
    intro a b c d a' b' c' d' x y h1 h2
    rw [Bool.eq_false_iff, Ne, C15_isSubsetOf_partial eng.lp heng.lp (box2 a b c d) (box2 a' b' c' d') (box2_wf _ _ _ _) (box2_wf _ _ _ _) rfl ⟨_, h1⟩
      (fun ab _ => (box2_bounded _ _ _ _).below ab)]
    exact fun h => h2 (h _ h1)
  have s1 : Mat.isSubsetOf eng.lp (box2 0 2 0 0) (box2 1 3 (-1) 1) = false := by
    refine hsub _ _ _ _ _ _ _ _ 0 0 ?_ ?_ <;> (unfold Mat.Contains; decide +kernel)
  have s2 : Mat.isSubsetOf eng.lp (box2 1 3 (-1) 1) (box2 0 2 0 0) = false := by
    refine hsub _ _ _ _ _ _ _ _ 3 1 ?_ ?_ <;> (unfold Mat.Contains; decide +kernel)
  obtain ⟨m, h1, h2, h3, h4⟩ := C10_intersection_exact eng.canon heng.canon true [box2 0 2 0 0, box2 1 3 (-1) 1]
    (by simp) 3 (by
      intro p hp
      simp only [List.mem_cons, List.not_mem_nil, or_false] at hp
      rcases hp with rfl | rfl <;> exact ⟨box2_wf _ _ _ _, rfl⟩)
  have s3 : isEmptyExcl eng.lp m = true := by
    rw [C14_isEmptyExcl_strict eng.lp heng.lp m h2 (by omega)]
    intro x hx hst
    obtain ⟨ε, hε, hh⟩ := hst.interior
    rw [h3] at hx
    match x, hx with
    | [s, t], _ =>
      have key : ∀ u : ℚ, |u - t| < ε → u = 0 := by
        intro u hu
        have hn : Near ε [s, t] [s, u] := .cons (by simpa using hε) (.cons hu .nil)
        have hc := (contains_iff_holds m [s, u] (by rw [h3]; rfl)).mpr (hh _ hn)
        obtain ⟨s', t', e, _, _, k1, k2⟩ := (box2_contains _ _ _ _ _).mp ((h4 _).mp hc (box2 0 2 0 0) (by simp))
        simp only [List.cons.injEq, and_true] at e
        rw [e.2]
        exact le_antisymm k2 k1
      have a1 := key t (by simpa using hε)
      have a2 := key (t + ε / 2) (by rw [add_sub_cancel_left, abs_of_pos (by linarith)]; linarith)
      linarith
  constructor
  · have hpi : pieceInter (L := L) eng false ⟨box2 0 2 0 0, []⟩ ⟨box2 1 3 (-1) 1, []⟩ = .ok none := by
      unfold pieceInter
      simp only
      rw [s1, s2]
      simp only [Bool.false_eq_true, if_false]
      unfold Mat.intersect
      rw [h1]
      simp only [bind, Except.bind]
      rw [s3]
      rfl
    unfold asDisjointUnion asDisjoint asDisjointList asDisjoint asDisjointList asDisjoint asDisjointList leafPieces
    simp only [bind, Except.bind, pure, Except.pure, Bool.false_eq_true, if_false, intersectSets, intersectLoop, distribute,
      inters, hpi, Option.toList, List.append_nil, mergeInters, periodicSimplify]
    rfl
  · unfold Region.Mem Region.MemAll Region.Mem Region.MemAll Region.Mem Region.MemAll Mat.Contains
    refine ⟨?_, ?_, trivial⟩ <;> decide +kernel

/-! ### C22: reported dependencies -/

/-- The region that is the intersection of labelled polytopes. -/
def ofLabelled (cs : List (Mat × L)) : Region L :=
  .intersect (cs.map (fun c => .polytope c.1 (some c.2)))

/-- Invariant of the intersection loop on labelled polytopes: at most one piece is left; it is the
intersection of the polytopes processed, and also the intersection of those whose label is among
its dependencies. -/
def Tracked (n : Nat) (done : List (Mat × L)) : List (Piece L) → Prop
  | [] => ∀ x, x.length + 1 = n → ¬ ∀ c ∈ done, c.1.Interior x
  | [p] => Good n (fun _ => False) p.mat ∧
      (∀ x, p.mat.Contains x ↔ ∀ c ∈ done, c.1.Contains x) ∧
      (∀ x, (∀ c ∈ done, c.2 ∈ p.deps → c.1.Contains x) → p.mat.Contains x) ∧
      ∀ l ∈ p.deps, ∃ c ∈ done, c.2 = l
  | _ => False

theorem tracked_loop (heng : EngineSpec eng) (hn : 2 ≤ n) (cs : List (Mat × L)) :
    ∀ (i : Nat) (done : List (Mat × L)) (A : List (Piece L)), done ≠ [] →
    (∀ c ∈ done, FullDim n c.1) → (∀ c ∈ cs, FullDim n c.1) → Tracked n done A →
    ∃ out, intersectLoop eng true i A (cs.map (fun c => [⟨c.1, [c.2]⟩])) = .ok out ∧
      Tracked n (done ++ cs) out := by
  induction cs with
  | nil => intro i done A _ _ _ h; exact ⟨A, rfl, by simpa using h⟩
  | cons c cs ih =>
    intro i done A hd hdone hcs h
    have hc : Good n (fun _ => False) c.1 := ⟨hcs c (by simp), fun x hx => hx.elim⟩
    have step : ∃ A', distribute eng true [⟨c.1, [c.2]⟩] A = .ok A' ∧ Tracked n (done ++ [c]) A' ∧
        A'.length ≤ 1 := by
      match A, h with
      | [], h =>
        refine ⟨[], rfl, ?_, by simp⟩
        intro x hx hall
        exact h x hx (fun c' hc' => hall c' (by simp [hc']))
      | [p], h =>
        obtain ⟨hp, h1, h2, h3⟩ := h
        obtain ⟨o, e1, e2, e3⟩ := pieceInter_spec (track := true) heng hn (Gen := fun _ => False)
          (fun x hx => hx.elim) p ⟨c.1, [c.2]⟩ hp hc
        have hdist : distribute eng true [⟨c.1, [c.2]⟩] [p] = .ok o.toList := by
          unfold distribute inters
          rw [e1]
          simp only [bind, Except.bind, inters]
          cases o with
          | none => rfl
          | some r => rfl
        refine ⟨o.toList, hdist, ?_, by cases o <;> simp⟩
        cases o with
        | none =>
          intro x hx hall
          refine e3 rfl x hx ⟨?_, hall c (by simp)⟩
          obtain ⟨ε, hε, hh⟩ := near_all (fun (d : Mat × L) y => d.1.Holds y) x done
            (fun d hd => hall d (by simp [hd]))
          refine ⟨ε, hε, fun y hy => ?_⟩
          have hyl : y.length + 1 = n := by rw [hy.length]; exact hx
          rw [← contains_iff_holds _ _ (by rw [hp.cols]; exact hyl), h1]
          intro d hd
          rw [contains_iff_holds _ _ (by rw [(hdone d hd).cols]; exact hyl)]
          exact hh y hy d hd
        | some r =>
          obtain ⟨g1, g2, g3⟩ := e2 r rfl
          refine ⟨g1, ?_, ?_, ?_⟩
          · intro x
            rw [g2, h1]
            simp only [List.mem_append, List.mem_singleton]
            constructor
            · rintro ⟨a, b⟩ d (hd | rfl)
              · exact a d hd
              · exact b
            · intro a; exact ⟨fun d hd => a d (Or.inl hd), a c (Or.inr rfl)⟩
          · intro x hx
            rcases g3 with ⟨rfl, hs⟩ | ⟨rfl, hs⟩ | hdeps
            · exact h2 x (fun d hd hl => hx d (by simp [hd]) hl)
            · exact hx c (by simp) (by simp)
            · rw [g2]
              have hmem : ∀ l, l ∈ r.deps ↔ l ∈ p.deps ∨ l = c.2 := by
                intro l
                rw [hdeps]
                unfold mergeDeps
                simp only [if_true, mem_union_list, List.mem_singleton]
              exact ⟨h2 x (fun d hd hl => hx d (by simp [hd]) ((hmem _).mpr (Or.inl hl))),
                hx c (by simp) ((hmem _).mpr (Or.inr rfl))⟩
          · intro l hl
            rcases g3 with ⟨rfl, hs⟩ | ⟨rfl, hs⟩ | hdeps
            · obtain ⟨d, hd, e⟩ := h3 l hl; exact ⟨d, by simp [hd], e⟩
            · rw [List.mem_singleton] at hl; exact ⟨c, by simp, hl.symm⟩
            · rw [hdeps] at hl
              unfold mergeDeps at hl
              simp only [if_true, mem_union_list, List.mem_singleton] at hl
              rcases hl with hl | rfl
              · obtain ⟨d, hd, e⟩ := h3 l hl; exact ⟨d, by simp [hd], e⟩
              · exact ⟨c, by simp, rfl⟩
      | _ :: _ :: _, h => exact h.elim
    obtain ⟨A', s1, s2, s3⟩ := step
    have hper : periodicSimplify eng true (i + 1) A' = .ok A' := by
      unfold periodicSimplify
      rw [if_neg]; rintro ⟨_, h⟩; omega
    obtain ⟨out, t1, t2⟩ := ih (i + 1) (done ++ [c]) A' (by simp) (by
      intro d hd
      simp only [List.mem_append, List.mem_singleton] at hd
      rcases hd with hd | rfl
      · exact hdone d hd
      · exact hcs d (by simp)) (fun d hd => hcs d (by simp [hd])) s2
    refine ⟨out, ?_, by simpa using t2⟩
    simp only [List.map_cons]
    unfold intersectLoop
    rw [s1]; simp only [bind, Except.bind]; rw [hper]; exact t1

/-- **C22 (partial)** For an intersection of labelled (full-dimensional, bounded) polytopes: at most
one polytope is returned.  If one is returned, it is the intersection of all inputs *and* already
the intersection of the inputs whose labels it reports; the reported labels are labels of inputs.
If none is returned, the inputs have no common interior point.

The full claim (for intersections of regions with several pieces) is false of the code:
`C22_dependencies_counterexample`. -/
theorem C22_convex_partial (heng : EngineSpec eng) (hn : 2 ≤ n) (cs : List (Mat × L))
    (hne : cs ≠ []) (hcs : ∀ c ∈ cs, FullDim n c.1) :
    (∃ p : Piece L, asDisjoint eng true (ofLabelled cs) = .ok [p] ∧
      (∀ x, p.mat.Contains x ↔ ∀ c ∈ cs, c.1.Contains x) ∧
      (∀ x, p.mat.Contains x ↔ ∀ c ∈ cs, c.2 ∈ p.deps → c.1.Contains x) ∧
      ∀ l ∈ p.deps, ∃ c ∈ cs, c.2 = l) ∨
    (asDisjoint eng true (ofLabelled cs) = .ok [] ∧
      ∀ x, x.length + 1 = n → ¬ ∀ c ∈ cs, c.1.Interior x) := by
  cases cs with
  | nil => exact absurd rfl hne
  | cons c cs =>
    have hc : Good n (fun _ => False) c.1 := ⟨hcs c (by simp), fun x hx => hx.elim⟩
    obtain ⟨out, h1, h2⟩ := tracked_loop heng hn cs 0 [c] [⟨c.1, [c.2]⟩] (by simp)
      (by intro d hd; rw [List.mem_singleton] at hd; subst hd; exact hcs d (by simp))
      (fun d hd => hcs d (by simp [hd]))
      ⟨hc, by simp, fun x hx => hx c (by simp) (by simp), by simp⟩
    have hl : ∀ ds : List (Mat × L), asDisjointList eng true
        (ds.map (fun c => (.polytope c.1 (some c.2) : Region L))) =
        .ok (ds.map (fun c => [⟨c.1, [c.2]⟩])) := by
      intro ds
      induction ds with
      | nil => unfold asDisjointList; rfl
      | cons d ds ih =>
        simp only [List.map_cons]
        unfold asDisjointList
        rw [ih]
        unfold asDisjoint leafPieces
        rfl
    have hout : asDisjoint eng true (ofLabelled (c :: cs)) = .ok out := by
      unfold ofLabelled asDisjoint
      rw [hl]
      exact h1
    rw [hout]
    rw [List.singleton_append] at h2
    match out, h2 with
    | [], h2 => exact Or.inr ⟨rfl, h2⟩
    | [p], h2 =>
      obtain ⟨_, a, b, d⟩ := h2
      exact Or.inl ⟨p, rfl, a, fun x => ⟨fun hx c' hc' _ => (a x).mp hx c' hc', b x⟩, d⟩
    | _ :: _ :: _, h2 => exact h2.elim

/-- Non-vacuity of C22: three labelled intervals, one of which is redundant. -/
example : ∀ c ∈ [(ivl 0 2, 0), (ivl 1 3, 1), (ivl 0 5, 2)], FullDim 2 (c : Mat × Nat).1 := by
  intro c hc
  simp only [List.mem_cons, List.not_mem_nil, or_false] at hc
  rcases hc with rfl | rfl | rfl
  · exact ivl_fullDim 0 2 (by norm_num)
  · exact ivl_fullDim 1 3 (by norm_num)
  · exact ivl_fullDim 0 5 (by norm_num)

/-- Finding: with a child consisting of several pieces, an input that removes a whole piece is not
reported. Here `[0,1] ∪ [2,3]` (label 0) is intersected with `[0,3/2]` (label 1); for every correct
engine the result is `[0,1]` with the single dependency 0, although input 0 alone also contains
`5/2`. -/
theorem C22_dependencies_counterexample (heng : EngineSpec eng) :
    asDisjoint eng true (.intersect [.disjoint [.polytope (ivl 0 1) (some 0),
      .polytope (ivl 2 3) (some 0)], .polytope (ivl 0 (3/2)) (some 1)] : Region Nat)
      = .ok [⟨ivl 0 1, [0]⟩] ∧
    Mem (.disjoint [.polytope (ivl 0 1) (some 0), .polytope (ivl 2 3) (some 0)] : Region Nat) [5/2] ∧
    ¬ Mem (.intersect [.disjoint [.polytope (ivl 0 1) (some 0),
      .polytope (ivl 2 3) (some 0)], .polytope (ivl 0 (3/2)) (some 1)] : Region Nat) [5/2] := by
  have f1 := ivl_fullDim 0 1 (by norm_num)
  have f2 := ivl_fullDim 2 3 (by norm_num)
  have f3 := ivl_fullDim 0 (3/2) (by norm_num)
  refine ⟨?_, ?_, ?_⟩
  · have g1 : pieceInter eng true (⟨ivl 0 1, [0]⟩ : Piece Nat) ⟨ivl 0 (3/2), [1]⟩ =
        .ok (some ⟨ivl 0 1, [0]⟩) := by
      unfold pieceInter
      rw [if_pos]
      rw [subset_iff heng f1 f3]
      intro x hx
      obtain ⟨t, rfl, h1, h2⟩ := (ivl_contains _ _ x).mp hx
      exact (ivl_contains _ _ _).mpr ⟨t, rfl, h1, by linarith⟩
    have g2 : pieceInter eng true (⟨ivl 2 3, [0]⟩ : Piece Nat) ⟨ivl 0 (3/2), [1]⟩ = .ok none := by
      obtain ⟨o, h1, h2, _⟩ := pieceInter_spec (track := true) heng (n := 2) (le_refl _)
        (Gen := fun _ => False) (fun x hx => hx.elim) (⟨ivl 2 3, [0]⟩ : Piece Nat)
        ⟨ivl 0 (3/2), [1]⟩ ⟨f2, fun x hx => hx.elim⟩ ⟨f3, fun x hx => hx.elim⟩
      rw [h1]
      cases o with
      | none => rfl
      | some r =>
        obtain ⟨g, hr, _⟩ := h2 r rfl
        obtain ⟨x, hx⟩ := g.toFullDim.nonempty
        obtain ⟨a, b⟩ := (hr x).mp hx
        obtain ⟨t, rfl, h1, h2⟩ := (ivl_contains _ _ x).mp a
        obtain ⟨t', e, h3, h4⟩ := (ivl_contains _ _ _).mp b
        cases e
        linarith
    simp only [asDisjoint, asDisjointList, leafPieces, if_true, bind, Except.bind, pure,
      Except.pure, List.flatten_cons, List.flatten_nil, List.append_nil, List.cons_append,
      List.nil_append, intersectSets, intersectLoop, distribute, inters, g1, g2,
      Option.toList, mergeInters, List.length_cons, List.length_nil, periodicSimplify]
    norm_num
  · simp only [Mem, MemAny]
    right; left
    exact (ivl_contains _ _ _).mpr ⟨5/2, rfl, by norm_num, by norm_num⟩
  · simp only [Mem, MemAny, MemAll]
    rintro ⟨_, h, _⟩
    obtain ⟨t, e, h1, h2⟩ := (ivl_contains _ _ _).mp h
    cases e
    norm_num at h2

end Region
end Expdb
