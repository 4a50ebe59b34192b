import Verif.Props.Beta

/-!
# Property C51: `compute_best_beta_bounds` for bounds in any order

The hypotheses of a set are listed in an arbitrary order. It is enough that the bounds other than the last one cover
the domain; in particular any order will do when two of the bounds cover the domain.
-/

namespace Expdb
namespace Beta

open Expdb.Affine Expdb.Interval

/-- Invariant of the loop before the domain is covered: the first `n` bounds have been processed. -/
structure InvW (bounds : List Hyp) (domain : Interval) (n : ℕ) (done : List (Affine (Option ℕ)))
    (st : Affine (Option ℕ) × List (Ref (Option ℕ))) : Prop where
  le : ∀ p ∈ pieces st, p.dom.x0 ≤ p.dom.x1
  src : ∀ p ∈ pieces st, ∃ i d, i < n ∧ p.label = some i ∧ bounds[i]? = some d ∧
    ∀ x, p.dom.contains x = true → d.bound.dom.contains x = true ∧ d.bound.ev x = p.ev x
  best : ∀ x, domain.contains x = true → ∀ b ∈ done, b.dom.contains x = true →
    ∃ p ∈ pieces st, p.dom.contains x = true ∧ p.ev x ≤ b.ev x

theorem stepW_spec (bounds : List Hyp) (domain : Interval) (hD : domain.x0 ≤ domain.x1) (n : ℕ)
    (done : List (Affine (Option ℕ))) (st : Affine (Option ℕ) × List (Ref (Option ℕ)))
    (h : InvW bounds domain n done st) (b : Affine (Option ℕ)) (hb : b.dom.x0 ≤ b.dom.x1) (d : Hyp)
    (hl : b.label = some n) (hd : bounds[n]? = some d)
    (hv : ∀ x, b.dom.contains x = true → d.bound.dom.contains x = true ∧ d.bound.ev x = b.ev x) :
    ∃ st', compareRefs (fun x y => decide (x < y)) b (st.2.map (Ref.deref st.1)) (some domain) = .ok st' ∧
      InvW bounds domain (n + 1) (done ++ [b]) st' := by
  have hfr : FreshLabel b (pieces st) := by
    intro f hf hc
    obtain ⟨i, d', hi, e1, _⟩ := h.src f hf
    rw [e1, hl] at hc
    cases hc
    omega
  obtain ⟨refs, r1, r2, r3, _⟩ := compareRefs_spec 1 (fun x y => decide (x < y)) (by intro u v; simp)
    b (pieces st) (some domain) (by
      intro f hf
      rcases List.mem_cons.mp hf with rfl | hf
      · exact hb
      · exact h.le f hf) (by intro D hD'; cases hD'; exact hD) (Or.inr hfr)
  refine ⟨(b, refs), r1, ⟨fun p hp => (r2 p hp).1.1, ?_, ?_⟩⟩
  · intro p hp
    obtain ⟨⟨_, x0, hx0⟩, hp2⟩ := r2 p hp
    have key : ∀ x, p.dom.contains x = true → ∃ i d, i < n + 1 ∧ p.label = some i ∧ bounds[i]? = some d ∧
        d.bound.dom.contains x = true ∧ d.bound.ev x = p.ev x := by
      intro x hx
      obtain ⟨g, hg, g1, g2, g3⟩ := hp2 x hx
      rcases List.mem_cons.mp hg with rfl | hg
      · exact ⟨n, d, by omega, g3 ▸ hl, hd, (hv x g1).1, (hv x g1).2.trans g2⟩
      · obtain ⟨i', d', e0, e1, e2, e3⟩ := h.src g hg
        exact ⟨i', d', by omega, g3 ▸ e1, e2, (e3 x g1).1, (e3 x g1).2.trans g2⟩
    obtain ⟨i', d', e0, e1, e2, _⟩ := key x0 hx0
    refine ⟨i', d', e0, e1, e2, fun x hx => ?_⟩
    obtain ⟨i'', d'', _, e1', e2', e3, e4⟩ := key x hx
    rw [e1] at e1'; cases e1'
    rw [e2] at e2'; cases e2'
    exact ⟨e3, e4⟩
  · intro x hx c hc hcx
    have hex : ∃ g ∈ b :: pieces st, g.dom.contains x = true ∧ g.ev x ≤ c.ev x := by
      rcases List.mem_append.mp hc with hc | hc
      · obtain ⟨p, hp, p1, p2⟩ := h.best x hx c hc hcx
        exact ⟨p, List.mem_cons_of_mem _ hp, p1, p2⟩
      · rw [List.mem_singleton] at hc; subst hc
        exact ⟨c, List.mem_cons_self, hcx, le_refl _⟩
    obtain ⟨g, hg, g1, g2⟩ := hex
    obtain ⟨p, hp, p1, p2⟩ := r3 x ((inD_some _ _).mpr hx) ⟨g, hg, g1⟩
    refine ⟨p, hp, p1, ?_⟩
    have := p2 g hg g1
    simp only [one_mul] at this
    exact this.trans g2

/-- The copies of the bounds from position `n` on. -/
def copiesFrom (bounds : List Hyp) (n : ℕ) : List (Affine (Option ℕ)) :=
  (bounds.zipIdx n).map (fun e => { e.1.bound with label := some e.2 })

theorem loopW_spec (bounds : List Hyp) (hb : ∀ h ∈ bounds, h.bound.dom.Constructible) (domain : Interval)
    (hD : domain.x0 ≤ domain.x1) (mid : List Hyp) (n : ℕ) (hmid : ∀ i d, mid[i]? = some d → bounds[n + i]? = some d)
    (done : List (Affine (Option ℕ))) (st : Affine (Option ℕ) × List (Ref (Option ℕ)))
    (h : InvW bounds domain n done st) :
    ∃ st', loop domain st (copiesFrom mid n) = .ok st' ∧
      InvW bounds domain (n + mid.length) (done ++ copiesFrom mid n) st' := by
  induction mid generalizing n done st with
  | nil => exact ⟨st, rfl, by simpa [copiesFrom] using h⟩
  | cons d mid ih =>
    have hd : bounds[n]? = some d := by simpa using hmid 0 d (by simp)
    obtain ⟨st', s1, s2⟩ := stepW_spec bounds domain hD n done st h { d.bound with label := some n }
      ((constructible_iff _).mp (hb d (List.mem_of_getElem? hd))) d rfl hd (fun x hx => ⟨hx, rfl⟩)
    obtain ⟨st'', l1, l2⟩ := ih (n + 1) (fun i e he => by
      have := hmid (i + 1) e (by simpa using he)
      rwa [show n + (i + 1) = n + 1 + i by omega] at this) _ st' s2
    refine ⟨st'', ?_, ?_⟩
    · simp only [copiesFrom, List.zipIdx_cons, List.map_cons]
      unfold loop
      rw [s1]
      exact l1
    · rw [List.append_assoc] at l2
      rw [show n + (d :: mid).length = n + 1 + mid.length by simp; omega]
      simpa [copiesFrom, List.zipIdx_cons] using l2

theorem loop_append (domain : Interval) (st : Affine (Option ℕ) × List (Ref (Option ℕ)))
    (as bs : List (Affine (Option ℕ))) :
    loop domain st (as ++ bs) = (do let st' ← loop domain st as; loop domain st' bs) := by
  induction as generalizing st with
  | nil => rfl
  | cons a as ih =>
    simp only [List.cons_append, loop]
    cases h : compareRefs (fun x y => decide (x < y)) a (st.2.map (Ref.deref st.1)) (some domain) with
    | error e => rfl
    | ok st' => exact ih st'

/-- **C51** (any order; partial: the bounds other than the last one must cover the domain). Then
`compute_best_beta_bounds` returns bounds on disjoint, increasing intervals; together they are exactly the pointwise
minimum over the domain of all given bounds; each returned bound has a nonempty interval as its domain and is attributed
to a given hypothesis that has the same values on its interval. `C51_counterexample` shows that the covering must not
depend on the last bound. -/
theorem C51_any_order_partial (init : List Hyp) (last : Hyp) (domain : Interval) (hne : ∃ x, InDomain (some domain) x)
    (hD : domain.Constructible) (hb : ∀ h ∈ init ++ [last], h.bound.dom.Constructible)
    (hc : ∀ x, InDomain (some domain) x → ∃ v, HasValue (init.map Hyp.bound) x v) :
    ∃ out, computeBest (init ++ [last]) domain = .ok out ∧ Ordered (out.map Best.bound) ∧
      (∀ x v, HasValue (out.map Best.bound) x v ↔ (InDomain (some domain) x ∧
        HasValue ((init ++ [last]).map Hyp.bound) x v ∧
        ∀ w, HasValue ((init ++ [last]).map Hyp.bound) x w → v ≤ w)) ∧
      ∀ o ∈ out, o.bound.dom.Constructible ∧ (∃ x v, HasValue [o.bound] x v) ∧ o.source ∈ init ++ [last] ∧
        ∀ x v, HasValue [o.bound] x v → HasValue [o.source.bound] x v := by
  have hD' := (constructible_iff _).mp hD
  cases init with
  | nil =>
    obtain ⟨x, hx⟩ := hne
    obtain ⟨v, f, hf, _⟩ := hc x hx
    simp at hf
  | cons h0 mid =>
    set bounds := h0 :: mid ++ [last] with hbd
    have hi : InvW bounds domain 1 [{ h0.bound with label := some 0 }] ({ h0.bound with label := some 0 }, [Ref.self]) := by
      have hm : ∀ p ∈ pieces ({ h0.bound with label := some 0 }, [Ref.self]), p = { h0.bound with label := some 0 } := by
        intro p hp; simpa [pieces, Ref.deref] using hp
      have h0m : bounds[0]? = some h0 := by simp [hbd]
      refine ⟨fun p hp => ?_, fun p hp => ?_, fun x hx b hb' hbx => ?_⟩
      · rw [hm p hp]; exact (constructible_iff _).mp (hb h0 (by rw [hbd]; simp))
      · rw [hm p hp]; exact ⟨0, h0, by omega, rfl, h0m, fun x hx => ⟨hx, rfl⟩⟩
      · rw [List.mem_singleton] at hb'
        subst hb'
        exact ⟨_, by simp [pieces, Ref.deref], hbx, le_refl _⟩
    obtain ⟨st1, s1, s2⟩ := loopW_spec bounds hb domain hD' mid 1 (fun i d hi => by
      rw [hbd, show 1 + i = i + 1 by omega]
      simp only [List.cons_append, List.getElem?_cons_succ]
      rw [List.getElem?_append_left (by
        obtain ⟨hlt, _⟩ := List.getElem?_eq_some_iff.mp hi; exact hlt), hi]) _ _ hi
    have hcopies : copies bounds = { h0.bound with label := some 0 } :: (copiesFrom mid 1 ++
        [{ last.bound with label := some (1 + mid.length) }]) := by
      rw [hbd]
      simp only [copies, copiesFrom, List.cons_append, List.zipIdx_cons, List.zipIdx_append, List.map_cons, List.map_append,
        List.zipIdx_nil, List.map_nil, Nat.zero_add]
    -- the state before the last step covers the domain
    have hcov : ∀ x, domain.contains x = true → ∃ p ∈ pieces st1, p.dom.contains x = true := by
      intro x hx
      obtain ⟨v, f, hf, hfx, _⟩ := hc x ((inDomain_iff _ _).mpr ((inD_some _ _).mpr hx))
      obtain ⟨h, hh, rfl⟩ := List.mem_map.mp hf
      have : ∃ b ∈ [{ h0.bound with label := some 0 }] ++ copiesFrom mid 1, b.dom = h.bound.dom := by
        rcases List.mem_cons.mp hh with rfl | hh
        · exact ⟨_, List.mem_append_left _ (List.mem_singleton.mpr rfl), rfl⟩
        · obtain ⟨n, hn⟩ := List.mem_iff_getElem?.mp hh
          refine ⟨{ h.bound with label := some (1 + n) }, List.mem_append_right _ ?_, rfl⟩
          exact List.mem_map.mpr ⟨(h, 1 + n), List.mem_zipIdx_iff_le_and_getElem?_sub.mpr ⟨by omega, by simpa using hn⟩, rfl⟩
      obtain ⟨b, hb1, hb2⟩ := this
      obtain ⟨p, hp, hpx, _⟩ := s2.best x hx b hb1 (by rw [hb2]; exact (contains_iff _ _).mpr hfx)
      exact ⟨p, hp, hpx⟩
    have hinv : Inv0 bounds domain ([{ h0.bound with label := some 0 }] ++ copiesFrom mid 1) st1 := by
      refine ⟨s2.le, fun p hp => ?_, s2.best, hcov⟩
      obtain ⟨i, d, _, r⟩ := s2.src p hp
      exact ⟨i, d, r⟩
    have hlm : bounds[1 + mid.length]? = some last := by
      rw [hbd, show 1 + mid.length = mid.length + 1 by omega]
      simp
    obtain ⟨st2, t1, t2⟩ := step_spec bounds domain hD' _ st1 hinv { last.bound with label := some (1 + mid.length) }
      ((constructible_iff _).mp (hb last (by rw [hbd]; simp))) (1 + mid.length) last rfl hlm (fun x hx => ⟨hx, rfl⟩)
    refine conclude bounds domain hb _ st2 t2 (fun b hb' => by
      rw [hcopies] at hb'
      simpa [or_assoc] using hb') ?_
    have hloop : loop domain ({ h0.bound with label := some 0 }, [Ref.self]) (copiesFrom mid 1 ++
        [{ last.bound with label := some (1 + mid.length) }]) = .ok st2 := by
      rw [loop_append, s1]
      simp only [bind, Except.bind, loop, t1]
    unfold computeBest
    rw [hcopies]
    cases hcf : copiesFrom mid 1 ++ [{ last.bound with label := some (1 + mid.length) }] with
    | nil => simp at hcf
    | cons b bs =>
      rw [hcf] at hloop
      simp only [hloop, bind, Except.bind]

/-- **C51** (two covering bounds) When two of the bounds (at two different positions of the list, or equal ones) cover the
domain, the order of the list does not matter. -/
theorem C51_two_covering_partial (bounds : List Hyp) (g h : Hyp) (hgh : [g, h].Sublist bounds ∨ [h, g].Sublist bounds)
    (domain : Interval) (hne : ∃ x, InDomain (some domain) x)
    (hD : domain.Constructible) (hb : ∀ h ∈ bounds, h.bound.dom.Constructible)
    (hg : ∀ x, InDomain (some domain) x → ∃ v, HasValue [g.bound] x v)
    (hh : ∀ x, InDomain (some domain) x → ∃ v, HasValue [h.bound] x v) :
    ∃ out, computeBest bounds domain = .ok out ∧ Ordered (out.map Best.bound) ∧
      (∀ x v, HasValue (out.map Best.bound) x v ↔ (InDomain (some domain) x ∧
        HasValue (bounds.map Hyp.bound) x v ∧
        ∀ w, HasValue (bounds.map Hyp.bound) x w → v ≤ w)) ∧
      ∀ o ∈ out, o.bound.dom.Constructible ∧ (∃ x v, HasValue [o.bound] x v) ∧ o.source ∈ bounds ∧
        ∀ x v, HasValue [o.bound] x v → HasValue [o.source.bound] x v := by
  -- one of the two is not the last
  have key : ∀ g h : Hyp, [g, h].Sublist bounds → ∃ init last, bounds = init ++ [last] ∧ g ∈ init := by
    intro g h hs
    rcases List.eq_nil_or_concat' bounds with rfl | ⟨init, last, rfl⟩
    · cases hs
    · refine ⟨init, last, rfl, ?_⟩
      rw [List.sublist_append_iff] at hs
      obtain ⟨l1, l2, e, h1, h2⟩ := hs
      have hlen := h2.length_le
      cases l1 with
      | nil =>
        simp only [List.nil_append] at e
        rw [← e] at hlen
        simp at hlen
      | cons a l1 =>
        simp only [List.cons_append, List.cons.injEq] at e
        exact h1.subset (by rw [e.1]; simp)
  have fin : ∀ g : Hyp, (∀ x, InDomain (some domain) x → ∃ v, HasValue [g.bound] x v) →
      (∃ init last, bounds = init ++ [last] ∧ g ∈ init) →
      ∃ init last, bounds = init ++ [last] ∧ ∀ x, InDomain (some domain) x → ∃ v, HasValue (init.map Hyp.bound) x v := by
    rintro g hg ⟨init, last, e, hgi⟩
    refine ⟨init, last, e, fun x hx => ?_⟩
    obtain ⟨v, f, hf, r⟩ := hg x hx
    rw [List.mem_singleton] at hf
    exact ⟨v, f, hf ▸ List.mem_map.mpr ⟨g, hgi, rfl⟩, r⟩
  obtain ⟨init, last, e, hcv⟩ : ∃ init last, bounds = init ++ [last] ∧
      ∀ x, InDomain (some domain) x → ∃ v, HasValue (init.map Hyp.bound) x v := by
    rcases hgh with hs | hs
    · exact fin g hg (key g h hs)
    · exact fin h hh (key h g hs)
  subst e
  exact C51_any_order_partial init last domain hne hD hb hcv

/-- The hypotheses of `C51_any_order_partial` hold although the first bound is defined on `[0, 1/4]` only. -/
example : ∃ out, computeBest
    [⟨0, 1, 0, ⟨0, 1/4, true, true⟩, none⟩, ⟨1, 1/2, 1/6, ⟨0, 1/2, true, true⟩, none⟩,
      ⟨2, 0, 2/5, ⟨1/10, 1/2, true, true⟩, none⟩] ⟨0, 1/2, true, true⟩ = .ok out ∧
    (out.map (fun o => o.source.id)) = [0, 1, 2] := by
  obtain ⟨out, h, _⟩ := C51_any_order_partial [⟨0, 1, 0, ⟨0, 1/4, true, true⟩, none⟩,
    ⟨1, 1/2, 1/6, ⟨0, 1/2, true, true⟩, none⟩] ⟨2, 0, 2/5, ⟨1/10, 1/2, true, true⟩, none⟩
    ⟨0, 1/2, true, true⟩ ⟨0, by intro D hD; cases hD; exact ⟨Or.inr ⟨rfl, rfl⟩, Or.inl (by norm_num)⟩⟩
    (by rw [constructible_iff]; norm_num) (by
      intro h hh
      rw [constructible_iff]
      simp only [List.cons_append, List.nil_append, List.mem_cons, List.not_mem_nil, or_false] at hh
      rcases hh with rfl | rfl | rfl <;> norm_num) (by
      intro x hx
      exact ⟨_, _, List.mem_cons_of_mem _ List.mem_cons_self, hx _ rfl, rfl⟩)
  refine ⟨out, h, ?_⟩
  have key : ((computeBest
    [⟨0, 1, 0, ⟨0, 1/4, true, true⟩, none⟩, ⟨1, 1/2, 1/6, ⟨0, 1/2, true, true⟩, none⟩,
      ⟨2, 0, 2/5, ⟨1/10, 1/2, true, true⟩, none⟩] ⟨0, 1/2, true, true⟩).toOption.map
      (fun out => out.map (fun o => o.source.id))) = some [0, 1, 2] := by decide +kernel
  simp only [List.cons_append, List.nil_append] at h
  rw [h] at key
  simpa [Except.toOption] using key

end Beta
end Expdb
