import Verif.Model.Beta
import Verif.Props.Affine

/-!
# Property C51: `compute_best_beta_bounds`
-/

namespace Expdb
namespace Beta

open Expdb.Affine Expdb.Interval

/-- Equality of `Affine` objects means equality as partial functions (when the first is not
nowhere defined). -/
theorem pyEq_spec {L : Type} [DecidableEq L] (b d : Affine L) (hb : Proper b.dom) (h : b.pyEq d = true) (x : ℚ) :
    (b.dom.contains x = true ↔ d.dom.contains x = true) ∧
      (b.dom.contains x = true → b.ev x = d.ev x) := by
  unfold Affine.pyEq at h
  split at h
  · rename_i hl
    obtain ⟨h1, h2, h3⟩ := hl
    unfold Interval.length at h1 h2
    have key : ∀ I : Interval, I.x1 - I.x0 = 0 → ∀ y, I.contains y = true → y = I.x0 := by
      intro I hI y hy
      rw [contains_iff] at hy; unfold Mem at hy
      rcases hy.1 with a | ⟨_, a⟩ <;> rcases hy.2 with c | ⟨_, c⟩ <;> linarith
    obtain ⟨y, hy⟩ := hb.2
    have hy0 := key _ h1 y hy
    have hb0 : b.dom.contains b.dom.x0 = true := hy0 ▸ hy
    rw [decide_eq_true_eq] at h
    unfold Affine.at at h
    rw [if_pos hb0] at h
    split at h
    · rename_i hd0
      constructor
      · constructor
        · intro hx; rw [key _ h1 x hx]; exact hd0
        · intro hx; rw [key _ h2 x hx, ← h3]; exact hb0
      · intro hx; rw [key _ h1 x hx]; simpa using h
    · cases h
  · simp only [Bool.and_eq_true, beq_iff_eq] at h
    obtain ⟨⟨h1, h2⟩, h3⟩ := h
    have hd : b.dom = d.dom := by
      unfold Interval.pyEq at h3
      split at h3
      · rename_i he
        simp only [Bool.and_eq_true] at he
        obtain ⟨y, hy⟩ := hb.2
        rw [contains_iff] at hy; unfold Mem at hy
        have he := he.1
        unfold Interval.isEmpty Interval.length at he
        split at he
        · rename_i h0
          simp only [Bool.not_eq_true', Bool.and_eq_false_iff] at he
          rcases hy.1 with a | ⟨a', a⟩ <;> rcases hy.2 with c | ⟨c', c⟩
          · linarith
          · linarith
          · linarith
          · rw [a', c'] at he; simp at he
        · cases he
      · simp only [Bool.and_eq_true, beq_iff_eq] at h3
        obtain ⟨⟨⟨e1, e2⟩, e3⟩, e4⟩ := h3
        cases hb1 : b.dom; cases hd1 : d.dom
        rw [hb1, hd1] at e1 e2 e3 e4
        simp only at e1 e2 e3 e4
        subst e1 e2 e3 e4; rfl
    rw [hd]
    exact ⟨Iff.rfl, fun _ => by unfold ev; rw [h1, h2]⟩

/-- The pieces of a state of the loop. -/
def pieces (st : Affine (Option ℕ) × List (Ref (Option ℕ))) : List (Affine (Option ℕ)) :=
  st.2.map (Ref.deref st.1)

/-- Invariant of the loop that also holds initially. -/
structure Inv0 (bounds : List Hyp) (domain : Interval) (done : List (Affine (Option ℕ)))
    (st : Affine (Option ℕ) × List (Ref (Option ℕ))) : Prop where
  le : ∀ p ∈ pieces st, p.dom.x0 ≤ p.dom.x1
  src : ∀ p ∈ pieces st, ∃ i d, p.label = some i ∧ bounds[i]? = some d ∧
    ∀ x, p.dom.contains x = true → d.bound.dom.contains x = true ∧ d.bound.ev x = p.ev x
  best : ∀ x, domain.contains x = true → ∀ b ∈ done, b.dom.contains x = true →
    ∃ p ∈ pieces st, p.dom.contains x = true ∧ p.ev x ≤ b.ev x
  cov : ∀ x, domain.contains x = true → ∃ p ∈ pieces st, p.dom.contains x = true

/-- Invariant after the first step. -/
structure Inv1 (bounds : List Hyp) (domain : Interval) (done : List (Affine (Option ℕ)))
    (st : Affine (Option ℕ) × List (Ref (Option ℕ))) : Prop extends Inv0 bounds domain done st where
  proper : ∀ p ∈ pieces st, Proper p.dom
  ordered : (pieces st).Pairwise (fun a b => Before a.dom b.dom)
  inD : ∀ p ∈ pieces st, ∀ x, p.dom.contains x = true → domain.contains x = true
  noself : Ref.self ∉ st.2

theorem inD_some (D : Interval) (x : ℚ) : InD (some D) x ↔ D.contains x = true := by
  unfold InD
  constructor
  · intro h; exact h D rfl
  · intro h D' hD'; cases hD'; exact h

theorem step_spec (bounds : List Hyp) (domain : Interval) (hD : domain.x0 ≤ domain.x1)
    (done : List (Affine (Option ℕ))) (st : Affine (Option ℕ) × List (Ref (Option ℕ)))
    (h : Inv0 bounds domain done st) (b : Affine (Option ℕ)) (hb : b.dom.x0 ≤ b.dom.x1) (i : ℕ) (d : Hyp)
    (hl : b.label = some i) (hd : bounds[i]? = some d)
    (hv : ∀ x, b.dom.contains x = true → d.bound.dom.contains x = true ∧ d.bound.ev x = b.ev x) :
    ∃ st', compareRefs (fun x y => decide (x < y)) b (st.2.map (Ref.deref st.1)) (some domain) = .ok st' ∧
      Inv1 bounds domain (done ++ [b]) st' := by
  have hcv : Covers b (pieces st) (some domain) := by
    intro x hx _
    rw [inD_some] at hx
    exact h.cov x hx
  obtain ⟨refs, r1, r2, r3, r4⟩ := compareRefs_spec 1 (fun x y => decide (x < y)) (by intro u v; simp)
    b (pieces st) (some domain) (by
      intro f hf
      rcases List.mem_cons.mp hf with rfl | hf
      · exact hb
      · exact h.le f hf) (by intro D hD'; cases hD'; exact hD) (Or.inl hcv)
  obtain ⟨r4, r5, r6⟩ := r4 hcv
  refine ⟨(b, refs), r1, ⟨⟨fun p hp => (r2 p hp).1.1, ?_, ?_, ?_⟩, fun p hp => (r2 p hp).1, r4, ?_, r6⟩⟩
  · intro p hp
    -- all points of a piece have the same label
    obtain ⟨⟨_, x0, hx0⟩, hp2⟩ := r2 p hp
    have key : ∀ x, p.dom.contains x = true → ∃ i d, p.label = some i ∧ bounds[i]? = some d ∧
        d.bound.dom.contains x = true ∧ d.bound.ev x = p.ev x := by
      intro x hx
      obtain ⟨g, hg, g1, g2, g3⟩ := hp2 x hx
      rcases List.mem_cons.mp hg with rfl | hg
      · exact ⟨i, d, g3 ▸ hl, hd, (hv x g1).1, (hv x g1).2.trans g2⟩
      · obtain ⟨i', d', e1, e2, e3⟩ := h.src g hg
        exact ⟨i', d', g3 ▸ e1, e2, (e3 x g1).1, (e3 x g1).2.trans g2⟩
    obtain ⟨i', d', e1, e2, _⟩ := key x0 hx0
    refine ⟨i', d', e1, e2, fun x hx => ?_⟩
    obtain ⟨i'', d'', e1', e2', e3, e4⟩ := key x hx
    rw [e1] at e1'; cases e1'
    rw [e2] at e2'; cases e2'
    exact ⟨e3, e4⟩
  · intro x hx c hc hcx
    have hex : ∃ g ∈ b :: pieces st, g.dom.contains x = true ∧ g.ev x ≤ c.ev x := by
      rcases List.mem_append.mp hc with hc | hc
      · obtain ⟨p, hp, p1, p2⟩ := h.best x hx c hc hcx
        exact ⟨p, List.mem_cons_of_mem _ hp, p1, p2⟩
      · rw [List.mem_singleton] at hc; subst hc
        exact ⟨c, List.mem_cons_self, hcx, le_refl _⟩
    obtain ⟨g, hg, g1, g2⟩ := hex
    obtain ⟨p, hp, p1, p2⟩ := r3 x ((inD_some _ _).mpr hx) ⟨g, hg, g1⟩
    refine ⟨p, hp, p1, ?_⟩
    have := p2 g hg g1
    simp only [one_mul] at this
    exact this.trans g2
  · intro x hx
    obtain ⟨q, hq, q1⟩ := h.cov x hx
    obtain ⟨p, hp, p1, _⟩ := r3 x ((inD_some _ _).mpr hx) ⟨q, List.mem_cons_of_mem _ hq, q1⟩
    exact ⟨p, hp, p1⟩
  · intro p hp x hx
    exact (inD_some _ _).mp (r5 p hp x hx)

/-- A working copy. -/
def IsCopy (bounds : List Hyp) (b : Affine (Option ℕ)) : Prop :=
  b.dom.x0 ≤ b.dom.x1 ∧ ∃ i d, b.label = some i ∧ bounds[i]? = some d ∧ b.m = d.bound.m ∧
    b.c = d.bound.c ∧ b.dom = d.bound.dom

theorem IsCopy.val {b : Affine (Option ℕ)} {d : Hyp} (h1 : b.m = d.bound.m)
    (h2 : b.c = d.bound.c) (h3 : b.dom = d.bound.dom) (x : ℚ) (hx : b.dom.contains x = true) :
    d.bound.dom.contains x = true ∧ d.bound.ev x = b.ev x := by
  refine ⟨h3 ▸ hx, ?_⟩
  unfold ev; rw [h1, h2]

theorem loop_spec (bounds : List Hyp) (domain : Interval) (hD : domain.x0 ≤ domain.x1)
    (bs : List (Affine (Option ℕ))) (hbs : ∀ b ∈ bs, IsCopy bounds b)
    (done : List (Affine (Option ℕ))) (st : Affine (Option ℕ) × List (Ref (Option ℕ)))
    (h : Inv1 bounds domain done st) :
    ∃ st', loop domain st bs = .ok st' ∧ Inv1 bounds domain (done ++ bs) st' := by
  induction bs generalizing done st with
  | nil => exact ⟨st, rfl, by simpa using h⟩
  | cons b bs ih =>
    obtain ⟨hle, i, d, e1, e2, e3, e4, e5⟩ := hbs b (by simp)
    obtain ⟨st', s1, s2⟩ := step_spec bounds domain hD done st h.toInv0 b hle i d e1 e2
      (fun x hx => IsCopy.val e3 e4 e5 x hx)
    obtain ⟨st'', l1, l2⟩ := ih (fun c hc => hbs c (by simp [hc])) _ st' s2
    refine ⟨st'', ?_, by simpa using l2⟩
    unfold loop
    rw [s1]
    exact l1

theorem finish_spec (bounds : List Hyp) (self : Affine (Option ℕ)) (cl : Bool)
    (rs : List (Ref (Option ℕ))) (hns : Ref.self ∉ rs)
    (hpr : ∀ p ∈ rs.map (Ref.deref self), Proper p.dom)
    (hcon : ∀ d ∈ bounds, d.bound.dom.x0 ≤ d.bound.dom.x1)
    (hsrc : ∀ p ∈ rs.map (Ref.deref self), ∃ i d, p.label = some i ∧ bounds[i]? = some d ∧
      ∀ x, p.dom.contains x = true → d.bound.dom.contains x = true ∧ d.bound.ev x = p.ev x) :
    ∃ out, finish bounds self cl rs = .ok out ∧
      List.Forall₂ (fun (p : Affine (Option ℕ)) (o : Best) => (o.source ∈ bounds ∧ Proper o.bound.dom) ∧
        (∀ x, o.bound.dom.contains x = true ↔ p.dom.contains x = true) ∧
        (∀ x, p.dom.contains x = true → o.bound.ev x = p.ev x ∧
          o.source.bound.dom.contains x = true ∧ o.source.bound.ev x = p.ev x))
        (rs.map (Ref.deref self)) out := by
  induction rs with
  | nil => exact ⟨[], rfl, List.Forall₂.nil⟩
  | cons r rest ih =>
    simp only [List.mem_cons, not_or] at hns
    cases r with
    | self => exact absurd rfl hns.1
    | new b =>
      obtain ⟨os, f1, f2⟩ := ih hns.2 (fun p hp => hpr p (by simp only [List.map_cons, List.mem_cons]; exact Or.inr hp))
        (fun p hp => hsrc p (by simp only [List.map_cons, List.mem_cons]; exact Or.inr hp))
      obtain ⟨i, d, e1, e2, e3⟩ := hsrc b (by simp [Ref.deref])
      have hb : Proper b.dom := hpr b (by simp [Ref.deref])
      have hdm : d ∈ bounds := List.mem_of_getElem? e2
      refine ⟨(if ({ b with label := none } : Affine (Option ℕ)).pyEq d.bound then Best.existing d
          else Best.derived { b with label := none } d) :: os, ?_, ?_⟩
      · unfold finish
        simp only [Ref.deref, Bool.false_and, Bool.false_eq_true, if_false, e1, e2, Bool.or_false]
        rw [f1]; rfl
      · rw [List.map_cons]
        refine List.Forall₂.cons ?_ f2
        simp only [Ref.deref]
        split
        · rename_i hq
          have := fun x => pyEq_spec ({ b with label := none } : Affine (Option ℕ)) d.bound hb hq x
          refine ⟨⟨hdm, hcon d hdm, ?_⟩, fun x => (this x).1.symm, fun x hx => ⟨((this x).2 hx).symm, e3 x hx⟩⟩
          obtain ⟨x, hx⟩ := hb.2
          exact ⟨x, (this x).1.mp hx⟩
        · exact ⟨⟨hdm, hb⟩, fun x => Iff.rfl, fun x hx => ⟨rfl, e3 x hx⟩⟩

theorem mem_copies (bounds : List Hyp) (b : Affine (Option ℕ)) :
    b ∈ copies bounds ↔ ∃ (i : ℕ) (d : Hyp), bounds[i]? = some d ∧
      b = { d.bound with label := some i } := by
  unfold copies
  rw [List.mem_map]
  constructor
  · rintro ⟨⟨d, i⟩, h, rfl⟩
    exact ⟨i, d, List.mem_zipIdx_iff_getElem?.mp h, rfl⟩
  · rintro ⟨i, d, h, rfl⟩
    exact ⟨(d, i), List.mem_zipIdx_iff_getElem?.mpr h, rfl⟩

/-- The result formed from a state that satisfies the invariant for all bounds. -/
theorem conclude (bounds : List Hyp) (domain : Interval) (hb : ∀ h ∈ bounds, h.bound.dom.Constructible)
    (done : List (Affine (Option ℕ))) (st2 : Affine (Option ℕ) × List (Ref (Option ℕ)))
    (l2 : Inv1 bounds domain done st2) (hdone : ∀ b ∈ copies bounds, b ∈ done)
    (hrun' : computeBest bounds domain = finish bounds st2.1 false st2.2) :
    ∃ out, computeBest bounds domain = .ok out ∧ Ordered (out.map Best.bound) ∧
      (∀ x v, HasValue (out.map Best.bound) x v ↔ (InDomain (some domain) x ∧
        HasValue (bounds.map Hyp.bound) x v ∧
        ∀ w, HasValue (bounds.map Hyp.bound) x w → v ≤ w)) ∧
      ∀ o ∈ out, o.bound.dom.Constructible ∧ (∃ x v, HasValue [o.bound] x v) ∧ o.source ∈ bounds ∧
        ∀ x v, HasValue [o.bound] x v → HasValue [o.source.bound] x v := by
  obtain ⟨out, f1, f2⟩ := finish_spec bounds st2.1 false st2.2 l2.noself l2.proper
    (fun d hd => (constructible_iff _).mp (hb d hd)) l2.src
  have hrun : computeBest bounds domain = .ok out := hrun'.trans f1
  -- transfer along `Forall₂`
  have hmem : ∀ o ∈ out, ∃ p ∈ pieces st2, (o.source ∈ bounds ∧ Proper o.bound.dom) ∧
      (∀ x, o.bound.dom.contains x = true ↔ p.dom.contains x = true) ∧
      (∀ x, p.dom.contains x = true → o.bound.ev x = p.ev x ∧
        o.source.bound.dom.contains x = true ∧ o.source.bound.ev x = p.ev x) := by
    intro o ho
    obtain ⟨n, hn, hno⟩ := List.getElem_of_mem ho
    have hlen := f2.length_eq
    have hn' : n < (pieces st2).length := by unfold pieces; omega
    have := List.Forall₂.get f2 hn' hn
    simp only [List.get_eq_getElem] at this
    rw [hno] at this
    exact ⟨(pieces st2)[n], List.getElem_mem hn', this⟩
  have hmem' : ∀ p ∈ pieces st2, ∃ o ∈ out,
      (∀ x, o.bound.dom.contains x = true ↔ p.dom.contains x = true) ∧
      (∀ x, p.dom.contains x = true → o.bound.ev x = p.ev x) := by
    intro p hp
    obtain ⟨n, hn, rfl⟩ := List.getElem_of_mem hp
    have hlen := f2.length_eq
    have hn' : n < out.length := by unfold pieces at hn; omega
    have := List.Forall₂.get f2 hn hn'
    exact ⟨out[n], List.getElem_mem hn', this.2.1, fun x hx => (this.2.2 x hx).1⟩
  have hord : Ordered (out.map Best.bound) := by
    unfold Ordered
    rw [List.pairwise_map]
    have := l2.ordered
    rw [List.pairwise_iff_getElem] at this ⊢
    intro i j hi hj hij x y hx hy
    have hlen := f2.length_eq
    have hi' : i < (pieces st2).length := by unfold pieces; omega
    have hj' : j < (pieces st2).length := by unfold pieces; omega
    have ei := List.Forall₂.get f2 hi' hi
    have ej := List.Forall₂.get f2 hj' hj
    simp only [List.get_eq_getElem] at ei ej
    exact this i j hi' hj' hij x y ((ei.2.1 x).mp ((contains_iff _ _).mpr hx))
      ((ej.2.1 y).mp ((contains_iff _ _).mpr hy))
  -- uniqueness of the piece at a point
  have huniq : ∀ p ∈ pieces st2, ∀ q ∈ pieces st2, ∀ x, p.dom.contains x = true →
      q.dom.contains x = true → p = q := by
    intro p hp q hq x hpx hqx
    by_contra hne
    rcases pairwise_or l2.ordered p hp q hq hne with h | h
    · exact absurd (h x x hpx hqx) (lt_irrefl _)
    · exact absurd (h x x hqx hpx) (lt_irrefl _)
  have hin : ∀ h ∈ bounds, ∃ b ∈ copies bounds, b.dom = h.bound.dom ∧ ∀ x, b.ev x = h.bound.ev x := by
    intro h hh
    obtain ⟨n, hn, hno⟩ := List.getElem_of_mem hh
    refine ⟨{ h.bound with label := some n }, (mem_copies _ _).mpr ⟨n, h, ?_, rfl⟩, rfl, fun x => rfl⟩
    rw [List.getElem?_eq_getElem hn, hno]
  refine ⟨out, hrun, hord, ?_, ?_⟩
  · intro x v
    rw [inDomain_iff, inD_some]
    simp only [hasValue_iff, List.mem_map, exists_exists_and_eq_and]
    constructor
    · rintro ⟨o, ho, hox, rfl⟩
      obtain ⟨p, hp, p1, p2, p3⟩ := hmem o ho
      have hpx := (p2 x).mp hox
      obtain ⟨q1, q2, q3⟩ := p3 x hpx
      have hxD := l2.inD p hp x hpx
      refine ⟨hxD, ⟨o.source, p1.1, q2, q3.trans q1.symm⟩, ?_⟩
      rintro w ⟨h, hh, hhx, rfl⟩
      obtain ⟨b, hb', b1', b2'⟩ := hin h hh
      obtain ⟨q, hq, hqx, hle⟩ := l2.best x hxD b (hdone b hb') (by rw [b1']; exact hhx)
      rw [q1, huniq p hp q hq x hpx hqx, ← b2']
      exact hle
    · rintro ⟨hxD, ⟨h, hh, hhx, rfl⟩, hmin⟩
      obtain ⟨b, hb', b1', b2'⟩ := hin h hh
      obtain ⟨q, hq, hqx, hle⟩ := l2.best x hxD b (hdone b hb') (by rw [b1']; exact hhx)
      obtain ⟨o, ho, o1, o2⟩ := hmem' q hq
      refine ⟨o, ho, (o1 x).mpr hqx, ?_⟩
      rw [o2 x hqx]
      refine le_antisymm (by rw [← b2']; exact hle) ?_
      obtain ⟨i, d, _, d2, d3⟩ := l2.src q hq
      exact hmin _ ⟨d, List.mem_of_getElem? d2, (d3 x hqx).1, (d3 x hqx).2⟩
  · intro o ho
    obtain ⟨p, hp, p1, p2, p3⟩ := hmem o ho
    refine ⟨(constructible_iff _).mpr p1.2.1, ?_, p1.1, fun x v hv => ?_⟩
    · obtain ⟨x, hx⟩ := p1.2.2
      exact ⟨x, o.bound.ev x, o.bound, by simp, (contains_iff _ _).mp hx, rfl⟩
    simp only [hasValue_iff, List.mem_singleton, exists_eq_left] at hv ⊢
    have hpx := (p2 x).mp hv.1
    obtain ⟨q1, q2, q3⟩ := p3 x hpx
    exact ⟨q2, by rw [q3, ← q1]; exact hv.2⟩

/-- **C51** (partial: requires that the first bound is defined on the whole domain, and at least two
bounds). `compute_best_beta_bounds` then returns bounds on disjoint, increasing intervals; together
they are exactly the pointwise minimum over the domain of all given bounds; each returned bound has a
nonempty interval as its domain and is attributed to a given hypothesis that has the same values on its interval. Without the covering
hypothesis the function may raise, see `C51_counterexample`. -/
theorem C51_best_beta_bounds_partial (h0 h1 : Hyp) (hs : List Hyp) (domain : Interval)
    (hD : domain.Constructible) (hb : ∀ h ∈ h0 :: h1 :: hs, h.bound.dom.Constructible)
    (hc : ∀ x, InDomain (some domain) x → ∃ v, HasValue [h0.bound] x v) :
    ∃ out, computeBest (h0 :: h1 :: hs) domain = .ok out ∧ Ordered (out.map Best.bound) ∧
      (∀ x v, HasValue (out.map Best.bound) x v ↔ (InDomain (some domain) x ∧
        HasValue ((h0 :: h1 :: hs).map Hyp.bound) x v ∧
        ∀ w, HasValue ((h0 :: h1 :: hs).map Hyp.bound) x w → v ≤ w)) ∧
      ∀ o ∈ out, o.bound.dom.Constructible ∧ (∃ x v, HasValue [o.bound] x v) ∧ o.source ∈ h0 :: h1 :: hs ∧
        ∀ x v, HasValue [o.bound] x v → HasValue [o.source.bound] x v := by
  rw [constructible_iff] at hD
  set bounds := h0 :: h1 :: hs with hbd
  have hcopy : ∀ b ∈ copies bounds, IsCopy bounds b := by
    intro b hbm
    obtain ⟨i, d, hd, rfl⟩ := (mem_copies bounds b).mp hbm
    exact ⟨(constructible_iff _).mp (hb d (List.mem_of_getElem? hd)), i, d, rfl, hd, rfl, rfl, rfl⟩
  obtain ⟨b0, b1, bs, hcs, hb0⟩ : ∃ b0 b1 bs, copies bounds = b0 :: b1 :: bs ∧
      b0 = { h0.bound with label := some 0 } := by
    rw [hbd]; unfold copies
    simp only [List.zipIdx_cons, List.map_cons]
    exact ⟨_, _, _, rfl, rfl⟩
  have hinit : Inv0 bounds domain [b0] (b0, [Ref.self]) := by
    obtain ⟨hle, i, d, e1, e2, e3, e4, e5⟩ := hcopy b0 (by rw [hcs]; simp)
    have hp : ∀ p ∈ pieces (b0, [Ref.self]), p = b0 := by intro p hp; simpa [pieces, Ref.deref] using hp
    have hm : b0 ∈ pieces (b0, [Ref.self]) := by simp [pieces, Ref.deref]
    refine ⟨fun p h => by rw [hp p h]; exact hle, ?_, ?_, ?_⟩
    · intro p h
      rw [hp p h]
      exact ⟨i, d, e1, e2, fun x hx => IsCopy.val e3 e4 e5 x hx⟩
    · intro x hx b hb' hbx
      rw [List.mem_singleton] at hb'
      subst hb'
      exact ⟨b, hm, hbx, le_refl _⟩
    · intro x hx
      obtain ⟨v, f, hf, hfx, _⟩ := hc x ((inDomain_iff _ _).mpr ((inD_some _ _).mpr hx))
      rw [List.mem_singleton] at hf
      subst hf
      exact ⟨b0, hm, by rw [hb0]; exact (contains_iff _ _).mpr hfx⟩
  obtain ⟨hle1, i1, d1, e1, e2, e3, e4, e5⟩ := hcopy b1 (by rw [hcs]; simp)
  obtain ⟨st1, s1, s2⟩ := step_spec bounds domain hD [b0] _ hinit b1 hle1 i1 d1 e1 e2
    (fun x hx => IsCopy.val e3 e4 e5 x hx)
  obtain ⟨st2, l1, l2⟩ := loop_spec bounds domain hD bs (fun b hb' => hcopy b (by rw [hcs]; simp [hb']))
    _ st1 s2
  have hdone : ∀ b ∈ copies bounds, b ∈ [b0] ++ [b1] ++ bs := by
    intro b hb'; rw [hcs] at hb'; simpa using hb'
  refine conclude bounds domain hb _ st2 l2 hdone ?_
  unfold computeBest
  rw [hcs]
  simp only
  unfold loop
  rw [s1]
  simp only [bind, Except.bind]
  rw [l1]

/-- **C51** fails without the covering hypothesis: with bounds on `[0,0]` and on `[0,1/2]` (in this
order) the function raises a `TypeError`, because the list of best bounds contains the same object
twice and its label is cleared at the first occurrence. -/
theorem C51_counterexample :
    ∃ bounds : List Hyp, (∀ h ∈ bounds, h.bound.dom.Constructible) ∧
      computeBest bounds ⟨0, 1/2, true, true⟩ = .error .typeError := by
  refine ⟨[⟨0, 0, 0, ⟨0, 0, true, true⟩, none⟩, ⟨1, 1, 1, ⟨0, 1/2, true, true⟩, none⟩], ?_, ?_⟩
  · intro h hh
    rw [constructible_iff]
    simp only [List.mem_cons, List.not_mem_nil, or_false] at hh
    rcases hh with rfl | rfl <;> norm_num
  · decide +kernel

/-- The hypotheses of `C51_best_beta_bounds_partial` hold for the trivial bound `β ≤ α` on `[0,1]`,
the van der Corput bound `1/6 + α/2` on `[0,1/2]` and a constant; the result has three pieces. -/
example : ∃ out, computeBest
    [⟨0, 1, 0, ⟨0, 1, true, true⟩, none⟩, ⟨1, 1/2, 1/6, ⟨0, 1/2, true, true⟩, none⟩,
      ⟨2, 0, 2/5, ⟨1/10, 1/2, true, true⟩, none⟩] ⟨0, 1/2, true, true⟩ = .ok out ∧ out.length = 3 ∧
    (out.map (fun o => o.source.id)) = [0, 1, 2] := by
  obtain ⟨out, h, _⟩ := C51_best_beta_bounds_partial ⟨0, 1, 0, ⟨0, 1, true, true⟩, none⟩
    ⟨1, 1/2, 1/6, ⟨0, 1/2, true, true⟩, none⟩ [⟨2, 0, 2/5, ⟨1/10, 1/2, true, true⟩, none⟩]
    ⟨0, 1/2, true, true⟩ (by rw [constructible_iff]; norm_num) (by
      intro h hh
      rw [constructible_iff]
      simp only [List.mem_cons, List.not_mem_nil, or_false] at hh
      rcases hh with rfl | rfl | rfl <;> norm_num) (by
      intro x hx
      refine ⟨x, _, List.mem_cons_self, ?_, by ring⟩
      have := hx _ rfl
      unfold Mem at this ⊢
      simp only [true_and] at this ⊢
      refine ⟨this.1, Or.inl ?_⟩
      rcases this.2 with h | h <;> linarith)
  refine ⟨out, h, ?_⟩
  have key : ((computeBest
    [⟨0, 1, 0, ⟨0, 1, true, true⟩, none⟩, ⟨1, 1/2, 1/6, ⟨0, 1/2, true, true⟩, none⟩,
      ⟨2, 0, 2/5, ⟨1/10, 1/2, true, true⟩, none⟩] ⟨0, 1/2, true, true⟩).toOption.map
      (fun out => (out.length, out.map (fun o => o.source.id)))) = some (3, [0, 1, 2]) := by decide +kernel
  rw [h] at key
  simpa [Except.toOption] using key

end Beta
end Expdb
