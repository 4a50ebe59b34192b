import Verif.Model.Affine
import Verif.Props.Interval
import Verif.Tactics
import Mathlib.Data.List.Sort

/-!
# Lemmas on the envelope computation for affine functions
-/

namespace Expdb
namespace Affine

open Expdb.Interval

variable {L : Type} [DecidableEq L]

/-- all points of `I` are smaller than all points of `J` -/
def Before (I J : Interval) : Prop := ∀ x y, I.contains x = true → J.contains y = true → x < y

/-- `x` is in the domain, if one is given -/
def InD (domain : Option Interval) (x : ℚ) : Prop := ∀ D, domain = some D → D.contains x = true

/-! ### Merging -/

/-- constructible and non-empty -/
def Proper (I : Interval) : Prop := I.x0 ≤ I.x1 ∧ ∃ x, I.contains x = true

theorem extend_contains {I J : Interval} (hI : Proper I) (hJ : Proper J) (h1 : I.x1 = J.x0)
    (h2 : I.incU = true ∨ J.incL = true) (x : ℚ) :
    (⟨I.x0, J.x1, I.incL, J.incU⟩ : Interval).contains x = true ↔
      I.contains x = true ∨ J.contains x = true := by
  obtain ⟨hI, a, ha⟩ := hI
  obtain ⟨hJ, b, hb⟩ := hJ
  simp only [contains_iff, Mem] at *
  constructor
  · rintro ⟨h3, h4⟩
    rcases lt_trichotomy x I.x1 with h | h | h
    · exact Or.inl ⟨h3, Or.inl h⟩
    · rcases h2 with h2 | h2
      · exact Or.inl ⟨h3, Or.inr ⟨h2, h⟩⟩
      · exact Or.inr ⟨Or.inr ⟨h2, by rw [h, h1]⟩, h4⟩
    · exact Or.inr ⟨Or.inl (by rw [← h1]; exact h), h4⟩
  · rintro (⟨h3, h4⟩ | ⟨h3, h4⟩)
    · refine ⟨h3, ?_⟩
      rcases h4 with h4 | ⟨h4, h5⟩
      · left; linarith
      · rcases hb.2 with h6 | ⟨h6, h7⟩
        · left; rcases hb.1 with h8 | ⟨_, h8⟩ <;> linarith
        · rcases eq_or_lt_of_le hJ with h8 | h8
          · right; exact ⟨h6, by linarith⟩
          · left; linarith
    · refine ⟨?_, h4⟩
      rcases h3 with h3 | ⟨h3, h5⟩
      · left; linarith
      · rcases ha.1 with h6 | ⟨h6, h7⟩
        · left; rcases ha.2 with h8 | ⟨_, h8⟩ <;> linarith
        · rcases eq_or_lt_of_le hI with h8 | h8
          · right; exact ⟨h6, by linarith⟩
          · left; linarith

theorem proper_extend {I J : Interval} (hI : Proper I) (hJ : Proper J) (h1 : I.x1 = J.x0)
    (h2 : I.incU = true ∨ J.incL = true) : Proper ⟨I.x0, J.x1, I.incL, J.incU⟩ := by
  refine ⟨by simp only; linarith [hI.1, hJ.1], ?_⟩
  obtain ⟨x, hx⟩ := hI.2
  exact ⟨x, (extend_contains hI hJ h1 h2 x).mpr (Or.inl hx)⟩

/-- Pieces with the same label are equal as functions or disjoint. -/
def PairOK (p q : Affine L) : Prop :=
  p.label = q.label → (p.m = q.m ∧ p.c = q.c) ∨ Before p.dom q.dom

omit [DecidableEq L] in
theorem functionEquals_iff (p q : Affine L) : p.functionEquals q = true ↔ p.m = q.m ∧ p.c = q.c := by
  unfold functionEquals; simp

theorem isMatch_imp {p q : Affine L} (hp : Proper p.dom) (hq : Proper q.dom) (hpq : PairOK p q)
    (h : isMatch p q = true) :
    p.dom.x1 = q.dom.x0 ∧ (p.dom.incU = true ∨ q.dom.incL = true) ∧ p.label = q.label ∧
      p.m = q.m ∧ p.c = q.c := by
  unfold isMatch at h
  simp only [Bool.and_eq_true, decide_eq_true_eq, Bool.or_eq_true] at h
  obtain ⟨⟨⟨h1, h2⟩, h3⟩, h4⟩ := h
  refine ⟨h1, h2, h3, ?_⟩
  have key : p.at p.dom.x1 = q.at q.dom.x0 → (p.dom.length = 0 ∨ q.dom.length = 0) →
      p.m = q.m ∧ p.c = q.c := by
    intro hat hlen
    rcases hpq h3 with h | hbef
    · exact h
    exfalso
    have both : p.dom.contains p.dom.x1 = true ∧ q.dom.contains q.dom.x0 = true := by
      unfold «at» at hat
      rcases hlen with hlen | hlen
      · have : p.dom.contains p.dom.x1 = true := by
          obtain ⟨_, x, hx⟩ := hp
          have : x = p.dom.x1 := by
            unfold Interval.length at hlen
            have hx' := (contains_iff _ _).mp hx
            unfold Mem at hx'
            rcases hx'.1 with h5 | ⟨_, h5⟩ <;> rcases hx'.2 with h6 | ⟨_, h6⟩ <;> linarith
          rw [← this]; exact hx
        rw [if_pos this] at hat
        refine ⟨this, ?_⟩
        by_contra hcon
        rw [if_neg hcon] at hat; cases hat
      · have : q.dom.contains q.dom.x0 = true := by
          obtain ⟨_, x, hx⟩ := hq
          have : x = q.dom.x0 := by
            unfold Interval.length at hlen
            have hx' := (contains_iff _ _).mp hx
            unfold Mem at hx'
            rcases hx'.1 with h5 | ⟨_, h5⟩ <;> rcases hx'.2 with h6 | ⟨_, h6⟩ <;> linarith
          rw [← this]; exact hx
        rw [if_pos this] at hat
        refine ⟨?_, this⟩
        by_contra hcon
        rw [if_neg hcon] at hat; cases hat
    have := hbef _ _ both.1 both.2
    linarith
  rcases h4 with (⟨h5, h6⟩ | ⟨h5, h6⟩) | h5
  · exact key h6 (Or.inl h5)
  · exact key h6 (Or.inr h5)
  · exact (functionEquals_iff p q).mp h5

/-- The points, values and labels given by a list of pieces. -/
def Graph (ps : List (Affine L)) (x v : ℚ) (l : L) : Prop :=
  ∃ p ∈ ps, p.dom.contains x = true ∧ p.ev x = v ∧ p.label = l

omit [DecidableEq L] in
theorem graph_cons (p : Affine L) (ps : List (Affine L)) (x v : ℚ) (l : L) :
    Graph (p :: ps) x v l ↔ (p.dom.contains x = true ∧ p.ev x = v ∧ p.label = l) ∨ Graph ps x v l := by
  unfold Graph; simp

/-- Invariant of the merge loop. -/
structure MergeInv (s0 : Affine L) (ps : List (Ref L)) : Prop where
  proper : ∀ p ∈ ps, Proper (p.deref s0).dom
  pair : (ps.map (Ref.deref s0)).Pairwise PairOK
  selfInc : Ref.self ∈ ps → ∀ p ∈ ps, (p.deref s0).label = s0.label →
    ∀ x, (p.deref s0).dom.contains x = true → s0.dom.contains x = true

omit [DecidableEq L] in
theorem extend_self {s q : Affine L} (hs : Proper s.dom) (hq : Proper q.dom)
    (h : s.dom.x1 = q.dom.x0) (hsub : ∀ x, q.dom.contains x = true → s.dom.contains x = true) :
    extendTo s q = s := by
  obtain ⟨h0, x, hx⟩ := hq
  have hx1 := (contains_iff _ _).mp hx
  have hx2 := (contains_iff _ _).mp (hsub x hx)
  -- all points of `q` equal the upper end point of `s`
  have hpt : ∀ y, q.dom.contains y = true → y = s.dom.x1 := by
    intro y hy
    have h1 := (contains_iff _ _).mp hy
    have h2 := (contains_iff _ _).mp (hsub y hy)
    unfold Mem at h1 h2
    rcases h1.1 with h3 | ⟨_, h3⟩ <;> rcases h2.2 with h4 | ⟨_, h4⟩ <;> linarith
  have hxe := hpt x hx
  have hq1 : q.dom.x1 = q.dom.x0 := by
    rcases eq_or_lt_of_le h0 with h1 | h1
    · exact h1.symm
    · have hmid : q.dom.contains ((q.dom.x0 + q.dom.x1) / 2) = true := by
        rw [contains_iff]; unfold Mem
        exact ⟨Or.inl (by linarith), Or.inl (by linarith)⟩
      have := hpt _ hmid
      linarith
  have hqU : q.dom.incU = true := by
    unfold Mem at hx1
    rcases hx1.2 with h3 | ⟨h3, _⟩
    · rcases hx1.1 with h4 | ⟨_, h4⟩ <;> linarith
    · exact h3
  have hsU : s.dom.incU = true := by
    unfold Mem at hx2
    rcases hx2.2 with h3 | ⟨h3, _⟩
    · linarith
    · exact h3
  unfold extendTo
  obtain ⟨m, c, ⟨a, b, l, u⟩, lab⟩ := s
  simp only [Affine.mk.injEq, Interval.mk.injEq, true_and, and_true] at *
  exact ⟨by linarith, by rw [hqU, hsU]⟩

theorem mergeLoop_spec (self : Affine L) (rest : List (Ref L)) (p : Ref L)
    (h : MergeInv self (p :: rest)) :
    ∃ out, mergeLoop self p rest = (self, out) ∧ out ≠ [] ∧
      (∀ x v l, Graph (out.map (Ref.deref self)) x v l ↔
        Graph ((p :: rest).map (Ref.deref self)) x v l) ∧
      (∀ q ∈ out, Proper (q.deref self).dom) ∧
      (((p :: rest).map (Ref.deref self)).Pairwise (fun a b => Before a.dom b.dom) →
        (out.map (Ref.deref self)).Pairwise (fun a b => Before a.dom b.dom)) := by
  induction rest generalizing p with
  | nil => exact ⟨[p], rfl, by simp, fun _ _ _ => Iff.rfl, h.proper, fun h => h⟩
  | cons q rest ih =>
    have hp := h.proper p (by simp)
    have hq := h.proper q (by simp)
    have hpair := h.pair
    simp only [List.map_cons, List.pairwise_cons, List.mem_cons] at hpair
    have hpq : PairOK (p.deref self) (q.deref self) := hpair.1 _ (Or.inl rfl)
    unfold mergeLoop
    by_cases hm : isMatch (p.deref self) (q.deref self) = true
    · rw [if_pos hm]
      obtain ⟨m1, m2, m3, m4, m5⟩ := isMatch_imp hp hq hpq hm
      have hcon := extend_contains hp hq m1 m2
      have hprop := proper_extend hp hq m1 m2
      -- the merged piece
      have main : ∀ p' : Ref L, p'.deref self = extendTo (p.deref self) (q.deref self) →
          (p' = Ref.self → p = Ref.self) →
          ∃ out, mergeLoop self p' rest = (self, out) ∧ out ≠ [] ∧
          (∀ x v l, Graph (out.map (Ref.deref self)) x v l ↔
            Graph ((p :: q :: rest).map (Ref.deref self)) x v l) ∧
          (∀ q ∈ out, Proper (q.deref self).dom) ∧
          (((p :: q :: rest).map (Ref.deref self)).Pairwise (fun a b => Before a.dom b.dom) →
            (out.map (Ref.deref self)).Pairwise (fun a b => Before a.dom b.dom)) := by
        intro p' hp' hself
        have e1 : (p'.deref self).dom = ⟨(p.deref self).dom.x0, (q.deref self).dom.x1,
            (p.deref self).dom.incL, (q.deref self).dom.incU⟩ := by rw [hp']; rfl
        have e2 : (p'.deref self).label = (p.deref self).label := by rw [hp']; rfl
        have e3 : (p'.deref self).m = (p.deref self).m := by rw [hp']; rfl
        have e4 : (p'.deref self).c = (p.deref self).c := by rw [hp']; rfl
        have hc' : ∀ x, (p'.deref self).dom.contains x = true ↔
            (p.deref self).dom.contains x = true ∨ (q.deref self).dom.contains x = true := by
          intro x; rw [e1]; exact hcon x
        have hbef : ∀ r : Affine L, Before (p.deref self).dom r.dom → Before (q.deref self).dom r.dom →
            Before (p'.deref self).dom r.dom := by
          intro r h1 h2 x y hx hy
          rcases (hc' x).mp hx with hx | hx
          · exact h1 x y hx hy
          · exact h2 x y hx hy
        have hinv : MergeInv self (p' :: rest) := by
          refine ⟨?_, ?_, ?_⟩
          · intro r hr
            rcases List.mem_cons.mp hr with rfl | hr
            · rw [e1]; exact hprop
            · exact h.proper r (by simp [hr])
          · simp only [List.map_cons, List.pairwise_cons]
            refine ⟨?_, hpair.2.2⟩
            intro r hr hl
            rw [e2] at hl
            rw [e3, e4]
            rcases hpair.1 r (Or.inr hr) hl with h1 | h1
            · exact Or.inl h1
            · rcases hpair.2.1 r hr (by rw [← m3]; exact hl) with h2 | h2
              · exact Or.inl ⟨m4.trans h2.1, m5.trans h2.2⟩
              · exact Or.inr (hbef r h1 h2)
          · intro hmem r hr hl x hx
            have hmem' : Ref.self ∈ p :: q :: rest := by
              rcases List.mem_cons.mp hmem with h1 | h1
              · rw [hself h1.symm]; simp
              · simp [h1]
            have hinc := h.selfInc hmem'
            rcases List.mem_cons.mp hr with rfl | hr
            · rw [e2] at hl
              rcases (hc' x).mp hx with hx | hx
              · exact hinc p (by simp) hl x hx
              · exact hinc q (by simp) (by rw [← m3]; exact hl) x hx
            · exact hinc r (by simp [hr]) hl x hx
        obtain ⟨out, o1, o2, o3, o4, o5⟩ := ih p' hinv
        refine ⟨out, o1, o2, ?_, o4, ?_⟩
        · intro x v l
          rw [o3]
          simp only [List.map_cons, graph_cons]
          have ev1 : (p'.deref self).ev x = (p.deref self).ev x := by unfold ev; rw [e3, e4]
          have ev2 : (q.deref self).ev x = (p.deref self).ev x := by unfold ev; rw [m4, m5]
          rw [hc', ev1, e2, ev2, ← m3]
          constructor
          · rintro (⟨h1 | h1, h2, h3⟩ | h1)
            · exact Or.inl ⟨h1, h2, h3⟩
            · exact Or.inr (Or.inl ⟨h1, h2, h3⟩)
            · exact Or.inr (Or.inr h1)
          · rintro (⟨h1, h2, h3⟩ | ⟨h1, h2, h3⟩ | h1)
            · exact Or.inl ⟨Or.inl h1, h2, h3⟩
            · exact Or.inl ⟨Or.inr h1, h2, h3⟩
            · exact Or.inr h1
        · intro hbf
          apply o5
          simp only [List.map_cons, List.pairwise_cons, List.mem_cons] at hbf ⊢
          exact ⟨fun r hr => hbef r (hbf.1 r (Or.inr hr)) (hbf.2.1 r hr), hbf.2.2⟩
      cases p with
      | self =>
        have hex : extendTo self (q.deref self) = self :=
          extend_self hp hq m1 (h.selfInc (by simp) q (by simp) m3.symm)
        simp only [hex]
        refine main .self ?_ (fun _ => rfl)
        exact hex.symm
      | new f => exact main (.new (extendTo f (q.deref self))) rfl (fun hh => by cases hh)
    · rw [if_neg hm]
      obtain ⟨out, o1, o2, o3, o4, o5⟩ := ih q ⟨fun r hr => h.proper r (by simp [hr]), by
        simp only [List.map_cons, List.pairwise_cons]; exact hpair.2, fun hmem r hr =>
          h.selfInc (by simp [hmem]) r (by simp [hr])⟩
      refine ⟨p :: out, by rw [o1], by simp, ?_, ?_, ?_⟩
      · intro x v l
        rw [List.map_cons, List.map_cons, graph_cons, graph_cons, o3]
      · intro r hr
        rcases List.mem_cons.mp hr with rfl | hr
        · exact hp
        · exact o4 r hr
      · intro hbf
        rw [List.map_cons, List.pairwise_cons] at hbf
        rw [List.map_cons, List.pairwise_cons]
        refine ⟨?_, o5 hbf.2⟩
        intro r hr x y hx hy
        obtain ⟨r', hr', hr'2, _⟩ := (o3 y (r.ev y) r.label).mp ⟨r, hr, hy, rfl, rfl⟩
        exact hbf.1 r' hr' x y hx hr'2

theorem merge_spec (self : Affine L) (ps : List (Ref L)) (h : MergeInv self ps) :
    ∃ out, merge self ps = (self, out) ∧
      (∀ x v l, Graph (out.map (Ref.deref self)) x v l ↔ Graph (ps.map (Ref.deref self)) x v l) ∧
      (∀ q ∈ out, Proper (q.deref self).dom) ∧
      ((ps.map (Ref.deref self)).Pairwise (fun a b => Before a.dom b.dom) →
        (out.map (Ref.deref self)).Pairwise (fun a b => Before a.dom b.dom)) := by
  cases ps with
  | nil => exact ⟨[], rfl, fun _ _ _ => Iff.rfl, by simp, fun h => h⟩
  | cons p rest =>
    obtain ⟨out, h1, _, h2, h3, h4⟩ := mergeLoop_spec self rest p h
    exact ⟨out, h1, h2, h3, h4⟩

end Affine
end Expdb
