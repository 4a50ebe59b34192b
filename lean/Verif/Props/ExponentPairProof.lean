import Verif.Props.ExponentPair

/-!
# Properties C32, C33: membership in triangles, proofs of exponent pairs by convexity
-/

namespace Expdb
namespace EP

open Hull

/-! ### Specification -/

/-- `p` is a convex combination of the three points. -/
def InTri (a b c p : ℚ × ℚ) : Prop :=
  ∃ u v w : ℚ, 0 ≤ u ∧ 0 ≤ v ∧ 0 ≤ w ∧ u + v + w = 1 ∧
    p.1 = u * a.1 + v * b.1 + w * c.1 ∧ p.2 = u * a.2 + v * b.2 + w * c.2

/-! ### C32 -/

theorem inTriangle_iff (a b c p : ℚ × ℚ) : inTriangle a b c p = true ↔
    0 ≤ area b c p ∧ area b c p ≤ area a b c ∧ 0 ≤ area c a p ∧ area c a p ≤ area a b c ∧
      0 ≤ area a b p := by
  unfold inTriangle area
  simp only [Bool.and_eq_true, decide_eq_true_eq, and_assoc]
  constructor
  · rintro ⟨h1, h2, h3, h4, h5⟩
    refine ⟨?_, ?_, ?_, ?_, ?_⟩ <;> nlinarith
  · rintro ⟨h1, h2, h3, h4, h5⟩
    refine ⟨?_, ?_, ?_, ?_, ?_⟩ <;> nlinarith

/-- **C32** (partial: for three vertices in strictly counterclockwise order) `in_triangle` is true
exactly for the convex combinations of the vertices. For the other orientation and for collinear
vertices this is false, see the counterexamples. -/
theorem C32_in_triangle_partial (a b c p : ℚ × ℚ) (h : 0 < area a b c) :
    inTriangle a b c p = true ↔ InTri a b c p := by
  rw [inTriangle_iff]
  have hs := area_sum a b c p
  constructor
  · rintro ⟨h1, _, h3, _, h5⟩
    obtain ⟨e1, e2⟩ := area_combo a b c p
    refine ⟨area b c p / area a b c, area c a p / area a b c, area a b p / area a b c,
      div_nonneg h1 h.le, div_nonneg h3 h.le, div_nonneg h5 h.le, ?_, ?_, ?_⟩
    · rw [← add_div, ← add_div, hs, div_self h.ne']
    · rw [div_mul_eq_mul_div, div_mul_eq_mul_div, div_mul_eq_mul_div, ← add_div, ← add_div, eq_div_iff h.ne', mul_comm]
      exact e1
    · rw [div_mul_eq_mul_div, div_mul_eq_mul_div, div_mul_eq_mul_div, ← add_div, ← add_div, eq_div_iff h.ne', mul_comm]
      exact e2
  · rintro ⟨u, v, w, hu, hv, hw, huvw, e1, e2⟩
    have hw' : w = 1 - u - v := by linarith
    have k1 : area b c p = u * area a b c := by
      unfold area; rw [e1, e2, hw']; ring
    have k2 : area c a p = v * area a b c := by
      unfold area; rw [e1, e2, hw']; ring
    have k3 : area a b p = w * area a b c := by
      unfold area; rw [e1, e2, hw']; ring
    have h1 := mul_nonneg hu h.le
    have h2 := mul_nonneg hv h.le
    have h3 := mul_nonneg hw h.le
    rw [← k1] at h1
    rw [← k2] at h2
    rw [← k3] at h3
    exact ⟨h1, by linarith, h2, by linarith, h3⟩

/-- What `in_triangle` computes in the other cases: never true for clockwise vertices; for collinear
vertices true exactly if the point is collinear with each two of them. -/
theorem C32_other_cases (a b c p : ℚ × ℚ) :
    (area a b c < 0 → inTriangle a b c p = false) ∧
    (area a b c = 0 → (inTriangle a b c p = true ↔ area a b p = 0 ∧ area b c p = 0 ∧ area c a p = 0)) := by
  have hs := area_sum a b c p
  constructor
  · intro h
    rw [Bool.eq_false_iff]
    intro ht
    obtain ⟨h1, h2, _⟩ := (inTriangle_iff a b c p).mp ht
    linarith
  · intro h
    rw [inTriangle_iff]
    constructor
    · rintro ⟨h1, h2, h3, h4, h5⟩
      refine ⟨?_, ?_, ?_⟩ <;> linarith
    · rintro ⟨h1, h2, h3⟩
      refine ⟨?_, ?_, ?_, ?_, ?_⟩ <;> linarith

/-- **C32** is false for clockwise vertices: an interior point is reported outside. -/
theorem C32_clockwise_counterexample :
    ∃ a b c p : ℚ × ℚ, InTri a b c p ∧ inTriangle a b c p = false :=
  ⟨(0, 0), (0, 1), (1, 0), (1 / 4, 1 / 4),
    ⟨1 / 2, 1 / 4, 1 / 4, by norm_num, by norm_num, by norm_num, by norm_num, by norm_num, by norm_num⟩,
    by decide +kernel⟩

/-- **C32** is false for collinear vertices: a point of the line outside the segment is reported
inside. -/
theorem C32_collinear_counterexample :
    ∃ a b c p : ℚ × ℚ, ¬ InTri a b c p ∧ inTriangle a b c p = true := by
  refine ⟨(0, 1), (1 / 8, 7 / 8), (1 / 4, 3 / 4), (3 / 8, 5 / 8), ?_, by decide +kernel⟩
  rintro ⟨u, v, w, hu, hv, hw, hs, e1, e2⟩
  simp only at e1 e2
  linarith

/-- C32 applies to a proper triangle. -/
example : 0 < area (0, 1) (1 / 6, 2 / 3) (1 / 2, 1 / 2) ∧
    inTriangle (0, 1) (1 / 6, 2 / 3) (1 / 2, 1 / 2) (1 / 5, 7 / 10) = true := by
  decide +kernel

/-! ### C33 -/

theorem InTri.inConv (a b c p : ℚ × ℚ) (h : InTri a b c p) : InConv [a, b, c] p := by
  obtain ⟨u, v, w, hu, hv, hw, hs, e1, e2⟩ := h
  exact inConv_of_weights a b c p u v w hu hv hw hs e1 e2

theorem mem_pairsOf {α : Type} (l : List α) (q : α × α) (h : q ∈ pairsOf l) : q.1 ∈ l ∧ q.2 ∈ l := by
  induction l with
  | nil => simp [pairsOf] at h
  | cons a l ih =>
    simp only [pairsOf, List.mem_append, List.mem_map] at h
    rcases h with ⟨b, hb, rfl⟩ | h
    · exact ⟨by simp, by simp [hb]⟩
    · exact ⟨by simp [(ih h).1], by simp [(ih h).2]⟩

theorem mem_triples {α : Type} (l : List α) (t : α × α × α) (h : t ∈ triples l) :
    t.1 ∈ l ∧ t.2.1 ∈ l ∧ t.2.2 ∈ l := by
  induction l with
  | nil => simp [triples] at h
  | cons a l ih =>
    simp only [triples, List.mem_append, List.mem_map] at h
    rcases h with ⟨b, hb, rfl⟩ | h
    · have := mem_pairsOf l b hb
      exact ⟨by simp, by simp [this.1], by simp [this.2]⟩
    · have := ih h
      exact ⟨by simp [this.1], by simp [this.2.1], by simp [this.2.2]⟩

theorem searchTri_spec (cx : Ep → ℕ) (p : ℚ × ℚ) : ∀ (ts : List (Ep × Ep × Ep)) (best : Option (Ep × Ep × Ep)),
    (∀ t, searchTri cx p ts best = some t →
      (best = some t ∨ t ∈ ts ∧ inTriangle t.1.key t.2.1.key t.2.2.key p = true) ∧
      (∀ b, best = some b → triComplexity cx t ≤ triComplexity cx b) ∧
      (∀ t' ∈ ts, inTriangle t'.1.key t'.2.1.key t'.2.2.key p = true → triComplexity cx t ≤ triComplexity cx t')) ∧
    (searchTri cx p ts best = none ↔ best = none ∧ ∀ t ∈ ts, inTriangle t.1.key t.2.1.key t.2.2.key p = false) := by
  intro ts
  induction ts with
  | nil =>
    intro best
    simp only [searchTri]
    refine ⟨fun t h => ⟨Or.inl h, fun b hb => ?_, by simp⟩, by simp⟩
    rw [hb] at h; cases h; exact le_refl _
  | cons t ts ih =>
    intro best
    simp only [searchTri]
    by_cases hin : inTriangle t.1.key t.2.1.key t.2.2.key p = true
    · rw [if_pos hin]
      cases best with
      | none =>
        obtain ⟨h1, h2⟩ := ih (some t)
        simp only
        refine ⟨fun r hr => ?_, ?_⟩
        · obtain ⟨a, b, c⟩ := h1 r hr
          refine ⟨Or.inr ?_, by simp, ?_⟩
          · rcases a with a | a
            · cases a; exact ⟨by simp, hin⟩
            · exact ⟨by simp [a.1], a.2⟩
          · intro t' ht' hi
            rcases List.mem_cons.mp ht' with rfl | ht'
            · exact b _ rfl
            · exact c t' ht' hi
        · rw [h2]
          constructor
          · rintro ⟨h, _⟩; cases h
          · rintro ⟨_, h⟩; rw [h t (by simp)] at hin; cases hin
      | some b0 =>
        obtain ⟨h1, h2⟩ := ih (if triComplexity cx t < triComplexity cx b0 then some t else some b0)
        simp only
        refine ⟨fun r hr => ?_, ?_⟩
        · obtain ⟨a, b, c⟩ := h1 r hr
          split at a
          · rename_i hlt
            have hb := b t (by rw [if_pos hlt])
            refine ⟨Or.inr ?_, ?_, ?_⟩
            · rcases a with a | a
              · cases a; exact ⟨by simp, hin⟩
              · exact ⟨by simp [a.1], a.2⟩
            · intro b' hb'; cases hb'; omega
            · intro t' ht' hi
              rcases List.mem_cons.mp ht' with rfl | ht'
              · exact hb
              · exact c t' ht' hi
          · rename_i hlt
            have hb := b b0 (by rw [if_neg hlt])
            refine ⟨?_, ?_, ?_⟩
            · rcases a with a | a
              · exact Or.inl a
              · exact Or.inr ⟨by simp [a.1], a.2⟩
            · intro b' hb'; cases hb'; exact hb
            · intro t' ht' hi
              rcases List.mem_cons.mp ht' with rfl | ht'
              · omega
              · exact c t' ht' hi
        · rw [h2]
          constructor
          · rintro ⟨h, _⟩; split at h <;> cases h
          · rintro ⟨h, _⟩; cases h
    · rw [if_neg hin]
      obtain ⟨h1, h2⟩ := ih best
      refine ⟨fun r hr => ?_, ?_⟩
      · obtain ⟨a, b, c⟩ := h1 r hr
        refine ⟨?_, b, ?_⟩
        · rcases a with a | a
          · exact Or.inl a
          · exact Or.inr ⟨by simp [a.1], a.2⟩
        · intro t' ht' hi
          rcases List.mem_cons.mp ht' with rfl | ht'
          · exact absurd hi hin
          · exact c t' ht' hi
      · rw [h2]
        simp only [List.mem_cons, forall_eq_or_imp]
        simp only [Bool.not_eq_true] at hin
        tauto

/-- The contract of `Polytope.from_V_rep(ps).contains(p)`: exact membership in the convex hull. -/
def InHullSpec (inHull : List (ℚ × ℚ) → ℚ × ℚ → Bool) : Prop :=
  ∀ ps p, inHull ps p = true ↔ InConv ps p

/-- No three of the pairs are collinear. -/
def GeneralPosition (es : List Ep) : Prop :=
  ∀ a b c, [a, b, c].Sublist es → area (a.k, a.l) (b.k, b.l) (c.k, c.l) ≠ 0

theorem pairsOf_iff {α : Type} (l : List α) (a b : α) : (a, b) ∈ pairsOf l ↔ [a, b].Sublist l := by
  induction l with
  | nil => simp [pairsOf]
  | cons x l ih =>
    simp only [pairsOf, List.mem_append, List.mem_map, ih]
    constructor
    · rintro (⟨y, hy, e⟩ | h)
      · cases e
        exact List.Sublist.cons_cons _ (List.singleton_sublist.mpr hy)
      · exact List.Sublist.cons _ h
    · intro h
      cases h with
      | cons _ h => exact Or.inr h
      | cons_cons _ h => exact Or.inl ⟨b, List.singleton_sublist.mp h, rfl⟩

theorem triples_iff {α : Type} (l : List α) (a b c : α) : (a, b, c) ∈ triples l ↔ [a, b, c].Sublist l := by
  induction l with
  | nil => simp [triples]
  | cons x l ih =>
    simp only [triples, List.mem_append, List.mem_map, ih]
    constructor
    · rintro (⟨y, hy, e⟩ | h)
      · cases e
        exact List.Sublist.cons_cons _ ((pairsOf_iff l _ _).mp hy)
      · exact List.Sublist.cons _ h
    · intro h
      cases h with
      | cons _ h => exact Or.inr h
      | cons_cons _ h => exact Or.inl ⟨(b, c), (pairsOf_iff l _ _).mpr h, rfl⟩

theorem convexHull_mem (hull : List (ℚ × ℚ) → Py (List ℕ)) (ephs verts : List Ep)
    (h : convexHull hull ephs = .ok verts) : ∀ e ∈ verts, e ∈ ephs := by
  unfold convexHull at h
  split at h
  · cases h; exact fun e he => he
  · cases hh : hull (ephs.map Ep.key) with
    | error e => rw [hh] at h; cases h
    | ok idx => rw [hh] at h; exact pick_mem ephs _ verts h

/-- What the contract says about `compute_convex_hull`. -/
theorem convexHull_spec (hull : List (ℚ × ℚ) → Py (List ℕ)) (hs : HullSpec hull) (ephs verts : List Ep)
    (h : convexHull hull ephs = .ok verts) :
    (∀ e ∈ verts, e ∈ ephs) ∧ (∀ p ∈ ephs.map Ep.key, InConv (verts.map Ep.key) p) ∧
    (3 ≤ ephs.length → ¬ Flat (ephs.map Ep.key) ∧ Ccw (verts.map Ep.key) ∧ 3 ≤ verts.length) ∧
    (ephs.length < 3 → verts = ephs) := by
  refine ⟨convexHull_mem hull ephs verts h, ?_⟩
  unfold convexHull at h
  split at h
  · rename_i hl
    cases h
    exact ⟨fun p hp => .point _ hp, fun h => by omega, fun _ => rfl⟩
  · rename_i hl
    by_cases hf : Flat (ephs.map Ep.key)
    · obtain ⟨e, he⟩ := hs.flat _ hf
      rw [he] at h; cases h
    · obtain ⟨idx, vs, h1, h2, h3, h4⟩ := hs.ok _ hf
      rw [h1] at h
      obtain ⟨es, h5, h6⟩ := pick_map Ep.key ephs idx vs h2
      have h7 : (Except.ok es : Py (List Ep)) = .ok verts := h5.symm.trans h
      cases h7
      rw [h6]
      refine ⟨h4, fun _ => ⟨hf, h3, ?_⟩, fun h => by omega⟩
      have := three_vertices vs _ h4 hf
      rw [← h6, List.length_map] at this
      exact this

/-- A triple of distinct positions of vertices has positive area. -/
theorem triple_area (verts : List Ep) (h : Ccw (verts.map Ep.key)) (a b c : Ep) (hs : [a, b, c].Sublist verts) :
    0 < area a.key b.key c.key := h _ _ _ (hs.map Ep.key)

/-- **C33** (partial: a deep search is only considered for pairs in general position, see
`C33_collinear_counterexample`) If `construct_proof` returns an existing hypothesis, it is in the set
and has the required pair; if it returns a new one, it has the required pair, all its dependencies are
exponent pairs of the set, and the pair is a convex combination of them; if it returns `None`, the pair
is not a convex combination of the pairs of the set. -/
theorem C33_construct_proof_partial (hull : List (ℚ × ℚ) → Py (List ℕ)) (hs : HullSpec hull)
    (inHull : List (ℚ × ℚ) → ℚ × ℚ → Bool)
    (hin : InHullSpec inHull) (cx : Ep → ℕ) (ephs : List Ep) (k l : ℚ) (reduceDeps deep : Bool)
    (hgen : reduceDeps = true → deep = true → GeneralPosition ephs)
    (r : Proof) (h : constructProof hull inHull cx ephs k l reduceDeps deep = .ok r) :
    match r with
    | .none => ¬ InConv (ephs.map (fun e => (e.k, e.l))) (k, l)
    | .exact e => e ∈ ephs ∧ (e.k, e.l) = (k, l)
    | .convex k' l' deps => (k', l') = (k, l) ∧ (∀ e ∈ deps, e ∈ ephs) ∧
        InConv (deps.map (fun e => (e.k, e.l))) (k, l) := by
  unfold constructProof at h
  split at h
  · rename_i he
    cases h
    subst he
    intro hc
    have : ∀ q : ℚ × ℚ, ¬ InConv [] q := by
      intro q hq
      induction hq with
      | point p hp => simp at hp
      | mix p q t _ _ _ _ ih _ => exact ih
    exact this _ hc
  · split at h
    · rename_i e he
      cases h
      refine ⟨List.mem_of_find?_eq_some he, ?_⟩
      have := List.find?_some he
      simpa [Ep.key] using this
    · cases hv : convexHull hull ephs with
      | error e => rw [hv] at h; cases h
      | ok verts =>
        rw [hv] at h
        obtain ⟨hmem, hall, hccw, hsmall⟩ := convexHull_spec hull hs ephs verts hv
        simp only [bind, Except.bind] at h
        split at h
        · rename_i hi
          cases h
          intro hc
          have : InConv (verts.map Ep.key) (k, l) := hc.trans hall
          rw [(hin _ _).mpr this] at hi
          cases hi
        · rename_i hi
          split at h
          · cases h
            refine ⟨rfl, hmem, ?_⟩
            exact (hin _ _).mp (by simpa using hi : inHull (verts.map Ep.key) (k, l) = true)
          · rename_i hred
            split at h
            · cases h
            · rename_i t ht
              cases h
              obtain ⟨a, _, _⟩ := (searchTri_spec cx (k, l) _ none).1 t ht
              rcases a with a | ⟨a, b⟩
              · cases a
              · have hm := (triples_iff _ t.1 t.2.1 t.2.2).mp a
                have hsub : ∀ e ∈ (if deep then ephs else verts), e ∈ ephs := by
                  intro e he
                  split at he
                  · exact he
                  · exact hmem e he
                refine ⟨rfl, fun e he => hsub e (hm.subset he), ?_⟩
                apply InTri.inConv
                rcases lt_trichotomy (area t.1.key t.2.1.key t.2.2.key) 0 with h0 | h0 | h0
                · rw [(C32_other_cases _ _ _ _).1 h0] at b; cases b
                · exfalso
                  cases deep with
                  | true => exact hgen (by simpa using hred) rfl t.1 t.2.1 t.2.2 hm h0
                  | false =>
                    simp only [Bool.false_eq_true, if_false] at hm
                    by_cases hl : ephs.length < 3
                    · have := hm.length_le
                      rw [hsmall hl] at this
                      simp at this; omega
                    · have := triple_area verts (hccw (by omega)).2.1 t.1 t.2.1 t.2.2 hm
                      linarith
                · exact (C32_in_triangle_partial _ _ _ _ h0).mp b

/-- **C33** (success) With at least three exponent pairs, not all on one line, the search for a triangle
among the vertices of the hull never fails: `construct_proof` with `deep_search=False` raises nothing,
and finds a proof exactly if the pair is a convex combination of the pairs of the set. -/
theorem C33_construct_proof_total (hull : List (ℚ × ℚ) → Py (List ℕ)) (hs : HullSpec hull)
    (inHull : List (ℚ × ℚ) → ℚ × ℚ → Bool)
    (hin : InHullSpec inHull) (cx : Ep → ℕ) (ephs : List Ep) (k l : ℚ) (reduceDeps : Bool)
    (hflat : ¬ Flat (ephs.map (fun e => (e.k, e.l)))) :
    ∃ r, constructProof hull inHull cx ephs k l reduceDeps false = .ok r ∧
      (r = .none ↔ ¬ InConv (ephs.map (fun e => (e.k, e.l))) (k, l)) := by
  have hmk : ephs.map (fun e => (e.k, e.l)) = ephs.map Ep.key := rfl
  rw [hmk] at hflat ⊢
  have hne : ephs ≠ [] := by
    rintro rfl; apply hflat; intro a ha; simp at ha
  have hlen : 3 ≤ ephs.length := by
    have := three_vertices (ephs.map Ep.key) (ephs.map Ep.key) (fun p hp => .point _ hp) hflat
    simpa using this
  have hsucc : ∃ r, constructProof hull inHull cx ephs k l reduceDeps false = .ok r := by
    unfold constructProof
    rw [if_neg hne]
    cases hf : ephs.find? (fun h => h.key = (k, l)) with
    | some e => exact ⟨_, rfl⟩
    | none =>
      obtain ⟨idx, vs, h1, h2, h3, h4⟩ := hs.ok _ hflat
      obtain ⟨es, h5, h6⟩ := pick_map Ep.key ephs idx vs h2
      have hv : convexHull hull ephs = .ok es := by
        unfold convexHull
        rw [if_neg (by omega), h1]; exact h5
      rw [hv]
      obtain ⟨hmem, hall, hccw, _⟩ := convexHull_spec hull hs ephs es hv
      obtain ⟨_, hc, h3v⟩ := hccw hlen
      simp only [bind, Except.bind]
      split
      · exact ⟨_, rfl⟩
      · rename_i hi
        split
        · exact ⟨_, rfl⟩
        · have hx : InConv (es.map Ep.key) (k, l) := (hin _ _).mp (by simpa using hi)
          cases hes : es with
          | nil => rw [hes] at h3v; simp at h3v
          | cons v0 ws =>
            rw [hes] at hc hx h3v
            simp only [List.map_cons] at hc hx
            obtain ⟨p, a, b, q, e1, e2, e3, e4⟩ := hc.fan (by simpa using h3v) (k, l) hx
            -- the triple found by the fan argument
            obtain ⟨p', r', e5, rfl, e6⟩ := List.map_eq_append_iff.mp e1
            obtain ⟨a', r'', rfl, rfl, e8⟩ := List.map_eq_cons_iff.mp e6
            obtain ⟨b', q', rfl, rfl, rfl⟩ := List.map_eq_cons_iff.mp e8
            have hsl : [v0, a', b'].Sublist (v0 :: ws) := by
              rw [e5]
              refine List.Sublist.cons_cons _ (List.Sublist.trans ?_ (List.sublist_append_right p' _))
              exact List.Sublist.cons_cons _ (List.Sublist.cons_cons _ (List.nil_sublist q'))
            have harea : 0 < area v0.key a'.key b'.key := hc _ _ _ (hsl.map Ep.key)
            have hin3 : inTriangle v0.key a'.key b'.key (k, l) = true := by
              rw [inTriangle_iff]
              have hsum := area_sum v0.key a'.key b'.key (k, l)
              have hneg : area b'.key v0.key (k, l) = - area v0.key b'.key (k, l) := by unfold area; ring
              refine ⟨e4, ?_, ?_, ?_, e2⟩ <;> linarith
            have hnn : searchTri cx (k, l) (triples (if false = true then ephs else v0 :: ws)) none ≠ none := by
              intro hn
              have := ((searchTri_spec cx (k, l) _ none).2.mp hn).2 (v0, a', b')
                ((triples_iff _ _ _ _).mpr hsl)
              simp only at this
              rw [hin3] at this; cases this
            cases hst : searchTri cx (k, l) (triples (if false = true then ephs else v0 :: ws)) none with
            | none => exact absurd hst hnn
            | some t => exact ⟨_, rfl⟩
  obtain ⟨r, hr⟩ := hsucc
  refine ⟨r, hr, ?_⟩
  have := C33_construct_proof_partial hull hs inHull hin cx ephs k l reduceDeps false (by simp) r hr
  cases r with
  | none => exact ⟨fun _ => this, fun _ => rfl⟩
  | exact e =>
    simp only [reduceCtorEq, false_iff, not_not]
    obtain ⟨h1, h2⟩ := this
    exact .point _ (List.mem_map.mpr ⟨e, h1, h2⟩)
  | convex k' l' deps =>
    simp only [reduceCtorEq, false_iff, not_not]
    obtain ⟨_, h1, h2⟩ := this
    refine h2.mono (fun q hq => ?_)
    obtain ⟨e, he, rfl⟩ := List.mem_map.mp hq
    exact List.mem_map.mpr ⟨e, h1 e he, rfl⟩

/-- Three collinear pairs and the pair (1/2, 1/2). -/
def collinearSet : List Ep :=
  [.known 0 0 1, .known 1 (1 / 8) (7 / 8), .known 2 (1 / 4) (3 / 4), .known 3 (1 / 2) (1 / 2), .known 4 (1 / 2) 1]

/-- **C33** is false for a deep search: the proof of (3/8, 5/8) rests on the pairs (0,1), (1/8,7/8),
(1/4,3/4), of which it is not a convex combination. Here the hull consists of the vertices 0, 3, 4, and
the membership test is only used for the point in question. -/
theorem C33_collinear_counterexample :
    ∃ (hull : List (ℚ × ℚ) → Py (List ℕ)) (inHull : List (ℚ × ℚ) → ℚ × ℚ → Bool) (r : Proof) (deps : List Ep),
      HullSpec hull ∧ InHullSpec inHull ∧
      constructProof hull inHull (fun _ => 1) collinearSet (3 / 8) (5 / 8) true true = .ok r ∧
      r = .convex (3 / 8) (5 / 8) deps ∧ ¬ InConv (deps.map (fun e => (e.k, e.l))) (3 / 8, 5 / 8) := by
  classical
  obtain ⟨hull, hs⟩ := hullSpec_satisfiable
  let inHull : List (ℚ × ℚ) → ℚ × ℚ → Bool := fun ps p => decide (InConv ps p)
  have hin : InHullSpec inHull := by intro ps p; simp [inHull]
  refine ⟨hull, inHull, .convex (3 / 8) (5 / 8) [.known 0 0 1, .known 1 (1 / 8) (7 / 8), .known 2 (1 / 4) (3 / 4)],
    _, hs, hin, ?_, rfl, ?_⟩
  · have hflat : ¬ Flat (collinearSet.map Ep.key) := by
      intro hf
      have := hf (0, 1) (by decide +kernel) (1 / 2, 1 / 2) (by decide +kernel) (1 / 2, 1) (by decide +kernel)
      revert this; decide +kernel
    obtain ⟨idx, vs, h1, h2, h3, h4⟩ := hs.ok _ hflat
    obtain ⟨es, h5, h6⟩ := pick_map Ep.key collinearSet idx vs h2
    have hv : convexHull hull collinearSet = .ok es := by
      unfold convexHull
      rw [if_neg (by decide), h1]; exact h5
    have hc : inHull (es.map Ep.key) (3 / 8, 5 / 8) = true := by
      rw [hin, h6]
      have c1 : InConv vs (0, 1) := h4 _ (by decide +kernel)
      have c2 : InConv vs (1 / 2, 1 / 2) := h4 _ (by decide +kernel)
      have := InConv.mix _ _ (3 / 4) c1 c2 (by norm_num) (by norm_num)
      have e : ((3 / 8, 5 / 8) : ℚ × ℚ) = ((1 - 3 / 4) * (0 : ℚ) + 3 / 4 * (1 / 2), (1 - 3 / 4) * (1 : ℚ) + 3 / 4 * (1 / 2)) := by
        norm_num
      rw [e]; exact this
    unfold constructProof
    rw [if_neg (by decide)]
    have hf : collinearSet.find? (fun h => h.key = (3 / 8, 5 / 8)) = none := by decide +kernel
    rw [hf, hv]
    simp only [bind, Except.bind, hc]
    have hsr : searchTri (fun _ => 1) (3 / 8, 5 / 8) (triples collinearSet) none =
        some (.known 0 0 1, .known 1 (1 / 8) (7 / 8), .known 2 (1 / 4) (3 / 4)) := by decide +kernel
    simp only [if_true, hsr]
    rfl
  · intro hc
    have := hc.linear (-1) 0 (1 / 4) (by decide +kernel)
    norm_num at this

/-- **C33**: with two exponent pairs only, `construct_proof` raises `TypeError` for every pair strictly
between them instead of returning a proof. -/
theorem C33_two_pairs_counterexample (hull : List (ℚ × ℚ) → Py (List ℕ))
    (inHull : List (ℚ × ℚ) → ℚ × ℚ → Bool) (hin : InHullSpec inHull) (cx : Ep → ℕ) :
    InConv [(0, 1), (1 / 2, 1 / 2)] (1 / 4, 3 / 4) ∧
    constructProof hull inHull cx [.known 0 0 1, .known 1 (1 / 2) (1 / 2)] (1 / 4) (3 / 4) true false
      = .error .typeError := by
  have hc : InConv [((0 : ℚ), (1 : ℚ)), (1 / 2, 1 / 2)] (1 / 4, 3 / 4) := by
    have := InConv.mix (ps := [((0 : ℚ), (1 : ℚ)), (1 / 2, 1 / 2)]) _ _ (1 / 2) (.point (0, 1) (by simp))
      (.point (1 / 2, 1 / 2) (by simp)) (by norm_num) (by norm_num)
    have e : ((1 / 4, 3 / 4) : ℚ × ℚ) = ((1 - 1 / 2) * (0 : ℚ) + 1 / 2 * (1 / 2), (1 - 1 / 2) * (1 : ℚ) + 1 / 2 * (1 / 2)) := by
      norm_num
    rw [e]; exact this
  refine ⟨hc, ?_⟩
  unfold constructProof
  rw [if_neg (by simp)]
  have hf : ([.known 0 0 1, .known 1 (1 / 2) (1 / 2)] : List Ep).find? (fun h => h.key = (1 / 4, 3 / 4)) = none := by
    decide +kernel
  rw [hf]
  have hv : convexHull hull [.known 0 0 1, .known 1 (1 / 2) (1 / 2)] = .ok [.known 0 0 1, .known 1 (1 / 2) (1 / 2)] := by
    unfold convexHull; rw [if_pos (by simp)]
  rw [hv]
  have hi : inHull (List.map Ep.key [.known 0 0 1, .known 1 (1 / 2) (1 / 2)]) (1 / 4, 3 / 4) = true := (hin _ _).mpr hc
  simp only [bind, Except.bind, hi]
  rfl

theorem knownIn_sublist (hs : List Dated) (y y' : ℤ) (h : y ≤ y') : (knownIn hs y).Sublist (knownIn hs y') := by
  unfold knownIn
  refine List.Sublist.map _ ?_
  apply List.monotone_filter_right
  intro d hd
  cases hy : d.year with
  | none => simp
  | some z =>
    simp only [hy, decide_eq_true_eq] at hd
    simp only [decide_eq_true_eq]
    exact le_trans hd (by exact_mod_cast h)

theorem dateLoop_spec (att : List Item → Py Proof) (hs : List Dated) : ∀ (ys : List ℤ) (num : ℕ) (r : Proof),
    ys.Pairwise (· < ·) → (∀ y ∈ ys, (knownIn hs y).length = num → att (knownIn hs y) = .ok .none) →
    dateLoop att hs ys num = .ok r →
    (r ≠ .none → ∃ y ∈ ys, att (knownIn hs y) = .ok r ∧ ∀ y' ∈ ys, y' < y → att (knownIn hs y') = .ok .none) ∧
    (r = .none → ∀ y ∈ ys, att (knownIn hs y) = .ok .none) := by
  intro ys
  induction ys with
  | nil =>
    intro num r _ _ h
    cases h
    exact ⟨fun h => absurd rfl h, fun _ y hy => by simp at hy⟩
  | cons x ys ih =>
    intro num r hp hn h
    rw [List.pairwise_cons] at hp
    unfold dateLoop at h
    have step : ∀ num', att (knownIn hs x) = .ok .none →
        (∀ y ∈ ys, (knownIn hs y).length = num' → att (knownIn hs y) = .ok .none) →
        dateLoop att hs ys num' = .ok r →
        (r ≠ .none → ∃ y ∈ x :: ys, att (knownIn hs y) = .ok r ∧
          ∀ y' ∈ x :: ys, y' < y → att (knownIn hs y') = .ok .none) ∧
        (r = .none → ∀ y ∈ x :: ys, att (knownIn hs y) = .ok .none) := by
      intro num' hx hn' h'
      obtain ⟨h1, h2⟩ := ih num' r hp.2 hn' h'
      constructor
      · intro hr
        obtain ⟨y, hy, e1, e2⟩ := h1 hr
        refine ⟨y, List.mem_cons_of_mem _ hy, e1, ?_⟩
        intro y' hy' hlt
        rcases List.mem_cons.mp hy' with e | e
        · rw [e]; exact hx
        · exact e2 y' e hlt
      · intro hr y hy
        rcases List.mem_cons.mp hy with e | e
        · rw [e]; exact hx
        · exact h2 hr y e
    split at h
    · rename_i hl
      exact step num (hn x List.mem_cons_self hl) (fun y hy => hn y (List.mem_cons_of_mem _ hy)) h
    · cases hx : att (knownIn hs x) with
      | error e => rw [hx] at h; cases h
      | ok v =>
        rw [hx] at h
        simp only [bind, Except.bind] at h
        split at h
        · rename_i hv
          subst hv
          refine step _ hx (fun y hy hlen => ?_) h
          have := (knownIn_sublist hs x y (hp.1 y hy).le).eq_of_length hlen.symm
          rw [← this]; exact hx
        · rename_i hv
          cases h
          refine ⟨fun _ => ⟨x, List.mem_cons_self, hx, ?_⟩, fun h => absurd h hv⟩
          intro y' hy' hlt
          rcases List.mem_cons.mp hy' with e | e
          · rw [e] at hlt; exact absurd hlt (lt_irrefl _)
          · exact absurd (hp.1 y' e) (by omega)

theorem foldl_min_spec (ys : List (WithTop ℤ)) : ∀ y, ys.foldl min y ∈ y :: ys ∧ ∀ z ∈ y :: ys, ys.foldl min y ≤ z := by
  induction ys with
  | nil => intro y; simp
  | cons x ys ih =>
    intro y
    obtain ⟨h1, h2⟩ := ih (min y x)
    simp only [List.foldl_cons]
    constructor
    · rcases List.mem_cons.mp h1 with e | e
      · rw [e]; rcases min_choice y x with c | c <;> rw [c] <;> simp
      · exact List.mem_cons_of_mem _ (List.mem_cons_of_mem _ e)
    · intro z hz
      have h0 := h2 _ List.mem_cons_self
      rcases List.mem_cons.mp hz with e | e
      · rw [e]; exact le_trans h0 (min_le_left _ _)
      · rcases List.mem_cons.mp e with e | e
        · rw [e]; exact le_trans h0 (min_le_right _ _)
        · exact h2 z (List.mem_cons_of_mem _ e)

theorem foldl_max_spec (ys : List (WithTop ℤ)) : ∀ y, ys.foldl max y ∈ y :: ys ∧ ∀ z ∈ y :: ys, z ≤ ys.foldl max y := by
  induction ys with
  | nil => intro y; simp
  | cons x ys ih =>
    intro y
    obtain ⟨h1, h2⟩ := ih (max y x)
    simp only [List.foldl_cons]
    constructor
    · rcases List.mem_cons.mp h1 with e | e
      · rw [e]; rcases max_choice y x with c | c <;> rw [c] <;> simp
      · exact List.mem_cons_of_mem _ (List.mem_cons_of_mem _ e)
    · intro z hz
      have h0 := h2 _ List.mem_cons_self
      rcases List.mem_cons.mp hz with e | e
      · rw [e]; exact le_trans (le_max_left _ _) h0
      · rcases List.mem_cons.mp e with e | e
        · rw [e]; exact le_trans (le_max_right _ _) h0
        · exact h2 z (List.mem_cons_of_mem _ e)

theorem mem_yearRange (a b y : ℤ) : y ∈ yearRange a b ↔ a ≤ y ∧ y ≤ b := by
  unfold yearRange
  simp only [List.mem_map, List.mem_range]
  constructor
  · rintro ⟨i, hi, rfl⟩; omega
  · intro h; exact ⟨(y - a).toNat, by omega, by omega⟩

theorem pairwise_yearRange (a b : ℤ) : (yearRange a b).Pairwise (· < ·) := by
  unfold yearRange
  rw [List.pairwise_map]
  exact List.pairwise_lt_range.imp (fun h => by omega)

/-- **C33** (date) If `find_best_proof` with the date method returns a proof, it is the result for some
year between the first and the last year of the set using only the hypotheses known in that year (or
of unknown date), and for every earlier year of that range nothing could be proved from what was known
then. If it returns `None`, nothing can be proved in any of these years. `att` is what is tried for one
set of hypotheses; it finds nothing for the empty set. -/
theorem C33_date (att : List Item → Py Proof) (hempty : att [] = .ok .none) (hs : List Dated) (r : Proof)
    (h : findBestProofDate att hs = .ok r) :
    ∃ a b : ℤ, (∃ d ∈ hs, d.year = some (a : WithTop ℤ)) ∧ (∃ d ∈ hs, d.year = some (b : WithTop ℤ)) ∧
      (∀ d ∈ hs, ∀ y, d.year = some y → (a : WithTop ℤ) ≤ y ∧ y ≤ (b : WithTop ℤ)) ∧
      (r ≠ .none → ∃ y, a ≤ y ∧ y ≤ b ∧ att (knownIn hs y) = .ok r ∧
        ∀ y', a ≤ y' → y' < y → att (knownIn hs y') = .ok .none) ∧
      (r = .none → ∀ y, a ≤ y → y ≤ b → att (knownIn hs y) = .ok .none) := by
  unfold findBestProofDate at h
  split at h
  · cases h
  · rename_i y ys hys
    split at h
    · rename_i a b ha hb
      obtain ⟨m1, m2⟩ := foldl_min_spec ys y
      obtain ⟨n1, n2⟩ := foldl_max_spec ys y
      have hmem : ∀ z, z ∈ y :: ys ↔ ∃ d ∈ hs, d.year = some z := by
        intro z; rw [← hys]; simp [yearsOf]
      rw [ha] at m1 m2
      rw [hb] at n1 n2
      refine ⟨a, b, (hmem _).mp m1, (hmem _).mp n1, fun d hd z hz => ?_, ?_⟩
      · have := (hmem z).mpr ⟨d, hd, hz⟩
        exact ⟨m2 z this, n2 z this⟩
      · obtain ⟨h1, h2⟩ := dateLoop_spec att hs _ 0 r (pairwise_yearRange a b) (by
          intro y _ hl
          rw [List.length_eq_zero_iff.mp hl]; exact hempty) h
        constructor
        · intro hr
          obtain ⟨y, hy, e1, e2⟩ := h1 hr
          rw [mem_yearRange] at hy
          refine ⟨y, hy.1, hy.2, e1, fun y' g1 g2 => e2 y' ?_ g2⟩
          rw [mem_yearRange]; omega
        · intro hr y g1 g2
          exact h2 hr y ((mem_yearRange a b y).mpr ⟨g1, g2⟩)
    · cases h

/-- What is known in a year: the hypotheses of that year or before, and those of unknown date. -/
theorem C33_date_known (hs : List Dated) (y : ℤ) (i : Item) :
    i ∈ knownIn hs y ↔ ∃ d ∈ hs, d.item = i ∧ ∀ z, d.year = some z → z ≤ (y : WithTop ℤ) := by
  unfold knownIn
  simp only [List.mem_map, List.mem_filter]
  constructor
  · rintro ⟨d, ⟨h1, h2⟩, rfl⟩
    refine ⟨d, h1, rfl, fun z hz => ?_⟩
    simpa [hz] using h2
  · rintro ⟨d, h1, rfl, h2⟩
    refine ⟨d, ⟨h1, ?_⟩, rfl⟩
    cases hy : d.year with
    | none => rfl
    | some z => simpa using h2 z hy

theorem mem_addPairs (old new : List Ep) (e : Ep) : e ∈ addPairs old new ↔ e ∈ old ∨ e ∈ new := by
  unfold addPairs
  induction new generalizing old with
  | nil => simp
  | cons x new ih =>
    rw [List.foldl_cons, ih]
    split
    · rename_i h
      simp only [List.mem_cons]
      constructor
      · rintro (a | a)
        · exact Or.inl a
        · exact Or.inr (Or.inr a)
      · rintro (a | rfl | a)
        · exact Or.inl a
        · exact Or.inl h
        · exact Or.inr a
    · simp only [List.mem_append, List.mem_cons, List.not_mem_nil, or_false]
      tauto

/-- **C33** (members) The search uses exactly the exponent pairs and exactly the transforms of the set. -/
theorem C33_members (his : List Item) : (∀ e, e ∈ pairsIn his ↔ Item.pair e ∈ his) ∧ ∀ t, t ∈ transformsIn his ↔ Item.transform t ∈ his := by
  constructor
  · intro e
    simp only [pairsIn, List.mem_filterMap]
    constructor
    · rintro ⟨h, h1, h2⟩
      cases h with
      | pair f => cases h2; exact h1
      | transform t => cases h2
      | other i => cases h2
    · intro h
      exact ⟨_, h, rfl⟩
  · intro t
    simp only [transformsIn, List.mem_filterMap]
    constructor
    · rintro ⟨h, h1, h2⟩
      cases h with
      | pair f => cases h2
      | transform t => cases h2; exact h1
      | other i => cases h2
    · intro h
      exact ⟨_, h, rfl⟩

/-- Both kinds occur. -/
example (t : Tr) : pairsIn [.other 3, .pair (.known 0 0 1), .transform t] = [.known 0 0 1] ∧ transformsIn [.other 3, .pair (.known 0 0 1), .transform t] = [t] :=
  ⟨rfl, rfl⟩

/-- **C33** (date, what is tried) The proof found for a set of hypotheses rests on exponent pairs among
the known ones, those obtained from the bounds on beta, and those derived from both by the known
transforms. -/
theorem C33_attempt (hull : List (ℚ × ℚ) → Py (List ℕ)) (hs : HullSpec hull)
    (inHull : List (ℚ × ℚ) → ℚ × ℚ → Bool) (hin : InHullSpec inHull) (cx : Ep → ℕ)
    (betaPairs : List Item → Py (List Ep)) (k l : ℚ) (his : List Item) (r : Proof)
    (h : attempt hull inHull cx betaPairs k l his = .ok r) :
    match r with
    | .none => True
    | .exact e => (e.k, e.l) = (k, l) ∧ ∃ b, betaPairs his = .ok b ∧
        Derivable (pairsIn his ++ b) (transformsIn his) e
    | .convex k' l' deps => (k', l') = (k, l) ∧ InConv (deps.map (fun e => (e.k, e.l))) (k, l) ∧
        ∃ b, betaPairs his = .ok b ∧ ∀ e ∈ deps, Derivable (pairsIn his ++ b) (transformsIn his) e := by
  unfold attempt at h
  cases hb : betaPairs his with
  | error e => rw [hb] at h; cases h
  | ok b =>
    rw [hb] at h
    simp only [bind, Except.bind] at h
    cases hc : computeExpPairs hull (addPairs (pairsIn his) b) (transformsIn his) 5 true with
    | error e => rw [hc] at h; cases h
    | ok c =>
      rw [hc] at h
      simp only at h
      have hsub : ∀ e ∈ addPairs (pairsIn his) b, e ∈ pairsIn his ++ b := by
        intro e he; rw [mem_addPairs] at he; simpa using he
      have hder : ∀ e, Derivable (addPairs (pairsIn his) b) (transformsIn his) e →
          Derivable (pairsIn his ++ b) (transformsIn his) e := by
        intro e he
        induction he with
        | input e he => exact .input e (hsub e he)
        | step t ht p _ k l hf ih => exact .step t ht p ih k l hf
      have hall : ∀ e ∈ addPairs (addPairs (pairsIn his) b) c,
          Derivable (pairsIn his ++ b) (transformsIn his) e := by
        intro e he
        rw [mem_addPairs] at he
        rcases he with he | he
        · exact .input e (hsub e he)
        · exact hder e ((C31_sound hull _ _ 5 true c hc).1 e he)
      have := C33_construct_proof_partial hull hs inHull hin cx _ k l true false (by simp) r h
      cases r with
      | none => trivial
      | exact e => exact ⟨this.2, b, rfl, hall e this.1⟩
      | convex k' l' deps => exact ⟨this.1, this.2.2, b, rfl, fun e he => hall e (this.2.1 e he)⟩

/-- What is tried finds nothing for the empty set, so that `C33_date` applies. -/
theorem C33_attempt_empty (hull : List (ℚ × ℚ) → Py (List ℕ)) (inHull : List (ℚ × ℚ) → ℚ × ℚ → Bool)
    (cx : Ep → ℕ) (betaPairs : List Item → Py (List Ep)) (hb : betaPairs [] = .ok []) (k l : ℚ) :
    attempt hull inHull cx betaPairs k l [] = .ok .none := by
  unfold attempt
  rw [hb]
  rfl

theorem Derivable.mono {ps qs : List Ep} {ts : List Tr} (h : ∀ e ∈ ps, Derivable qs ts e) (e : Ep)
    (he : Derivable ps ts e) : Derivable qs ts e := by
  induction he with
  | input e he => exact h e he
  | step t ht p _ k l hf ih => exact .step t ht p ih k l hf

/-- **C33** (deep search) Whatever the position of the pairs, the result of `construct_proof` has the
required pair and depends on pairs of the set only; the pair is a convex combination of them unless they
are three pairs on one line. -/
theorem C33_deep_partial (hull : List (ℚ × ℚ) → Py (List ℕ)) (inHull : List (ℚ × ℚ) → ℚ × ℚ → Bool)
    (cx : Ep → ℕ) (ephs : List Ep) (k l : ℚ) (r : Proof)
    (h : constructProof hull inHull cx ephs k l true true = .ok r) :
    match r with
    | .none => True
    | .exact e => e ∈ ephs ∧ (e.k, e.l) = (k, l)
    | .convex k' l' deps => (k', l') = (k, l) ∧ ∃ a b c, deps = [a, b, c] ∧ a ∈ ephs ∧ b ∈ ephs ∧ c ∈ ephs ∧
        (InConv [(a.k, a.l), (b.k, b.l), (c.k, c.l)] (k, l) ∨ area (a.k, a.l) (b.k, b.l) (c.k, c.l) = 0) := by
  unfold constructProof at h
  split at h
  · cases h; trivial
  · split at h
    · rename_i e he
      cases h
      refine ⟨List.mem_of_find?_eq_some he, ?_⟩
      have := List.find?_some he
      simpa [Ep.key] using this
    · cases hv : convexHull hull ephs with
      | error e => rw [hv] at h; cases h
      | ok verts =>
        rw [hv] at h
        simp only [bind, Except.bind] at h
        split at h
        · cases h; trivial
        · simp only [Bool.true_eq_false, if_false, if_true] at h
          split at h
          · cases h
          · rename_i t ht
            cases h
            obtain ⟨a, _, _⟩ := (searchTri_spec cx (k, l) _ none).1 t ht
            rcases a with a | ⟨a, b⟩
            · cases a
            · have hm := (triples_iff _ t.1 t.2.1 t.2.2).mp a
              refine ⟨rfl, t.1, t.2.1, t.2.2, rfl, hm.subset (by simp), hm.subset (by simp), hm.subset (by simp), ?_⟩
              rcases lt_trichotomy (area t.1.key t.2.1.key t.2.2.key) 0 with h0 | h0 | h0
              · rw [(C32_other_cases _ _ _ _).1 h0] at b; cases b
              · exact Or.inr h0
              · left
                exact InTri.inConv _ _ _ _ ((C32_in_triangle_partial _ _ _ _ h0).mp b)

/-- **C33** (partial: least complexity among the triangles that are listed counterclockwise, see `C33_least_counterexample`; full
statement: among all triangles of candidates that contain the pair) When dependencies are reduced, the three pairs chosen have the
least total complexity among all counterclockwise triples of candidates (the vertices of the hull, or all pairs for a deep search)
whose triangle contains the point. -/
theorem C33_least_partial (hull : List (ℚ × ℚ) → Py (List ℕ)) (inHull : List (ℚ × ℚ) → ℚ × ℚ → Bool)
    (cx : Ep → ℕ) (ephs verts : List Ep) (hv : convexHull hull ephs = .ok verts) (k l k' l' : ℚ) (deep : Bool) (deps : List Ep)
    (h : constructProof hull inHull cx ephs k l true deep = .ok (.convex k' l' deps)) (a b c : Ep)
    (hs : [a, b, c].Sublist (if deep then ephs else verts)) (harea : 0 < area (a.k, a.l) (b.k, b.l) (c.k, c.l))
    (htri : InTri (a.k, a.l) (b.k, b.l) (c.k, c.l) (k, l)) :
    (deps.map cx).sum ≤ cx a + cx b + cx c := by
  unfold constructProof at h
  split at h
  · cases h
  · split at h
    · cases h
    · rw [hv] at h
      simp only [bind, Except.bind] at h
      split at h
      · cases h
      · simp only [Bool.true_eq_false, if_false] at h
        split at h
        · cases h
        · rename_i t ht
          cases h
          obtain ⟨_, _, hmin⟩ := (searchTri_spec cx (k, l) _ none).1 t ht
          have h1 := hmin (a, b, c) ((triples_iff _ a b c).mpr hs) ((C32_in_triangle_partial _ _ _ _ harea).mpr htri)
          simp only [triComplexity] at h1
          simp only [List.map_cons, List.map_nil, List.sum_cons, List.sum_nil]
          omega

/-- Pairs for the counterexample and the example: the second one is expensive. -/
def expensiveSet : List Ep := [.known 0 0 1, .known 1 (1 / 10) (1 / 2), .known 2 (1 / 2) (1 / 2), .known 3 (1 / 6) (2 / 3)]

/-- Its complexities. -/
def expensive (e : Ep) : ℕ := if e = .known 1 (1 / 10) (1 / 2) then 5 else 1

theorem expensive_run (hull : List (ℚ × ℚ) → Py (List ℕ)) (hs : HullSpec hull) (inHull : List (ℚ × ℚ) → ℚ × ℚ → Bool)
    (hin : InHullSpec inHull) : (∃ verts, convexHull hull expensiveSet = .ok verts) ∧
    constructProof hull inHull expensive expensiveSet (1 / 5) (7 / 10) true true =
      .ok (.convex (1 / 5) (7 / 10) [.known 0 0 1, .known 1 (1 / 10) (1 / 2), .known 2 (1 / 2) (1 / 2)]) := by
  have hflat : ¬ Flat (expensiveSet.map Ep.key) := by
    intro hf
    have := hf (0, 1) (by decide +kernel) (1 / 2, 1 / 2) (by decide +kernel) (1 / 10, 1 / 2) (by decide +kernel)
    revert this; decide +kernel
  obtain ⟨idx, vs, h1, h2, h3, h4⟩ := hs.ok _ hflat
  obtain ⟨es, h5, h6⟩ := pick_map Ep.key expensiveSet idx vs h2
  have hv : convexHull hull expensiveSet = .ok es := by
    unfold convexHull
    rw [if_neg (by decide), h1]; exact h5
  have hc : inHull (es.map Ep.key) (1 / 5, 7 / 10) = true := by
    rw [hin, h6]
    have : InConv (expensiveSet.map Ep.key) (1 / 5, 7 / 10) := by
      refine InConv.trans (InTri.inConv (0, 1) (1 / 6, 2 / 3) (1 / 2, 1 / 2) _ ?_) ?_
      · exact (C32_in_triangle_partial _ _ _ _ (by decide +kernel)).mp (by decide +kernel)
      · intro p hp
        refine InConv.point _ ?_
        revert hp p
        decide +kernel
    exact this.trans h4
  refine ⟨⟨es, hv⟩, ?_⟩
  unfold constructProof
  rw [if_neg (by decide)]
  have hf : expensiveSet.find? (fun h => h.key = (1 / 5, 7 / 10)) = none := by decide +kernel
  rw [hf, hv]
  simp only [bind, Except.bind, hc]
  have hsr : searchTri expensive (1 / 5, 7 / 10) (triples expensiveSet) none =
      some (.known 0 0 1, .known 1 (1 / 10) (1 / 2), .known 2 (1 / 2) (1 / 2)) := by decide +kernel
  simp only [if_true, hsr]
  rfl

/-- Finding: in a deep search (exponent_pair.py:333-341) only the triples that happen to be listed counterclockwise are tried, because
`in_triangle` (exponent_pair.py:258-262) never accepts a clockwise one; a cheaper proof can be missed. -/
theorem C33_least_counterexample : ∃ (hull : List (ℚ × ℚ) → Py (List ℕ)) (inHull : List (ℚ × ℚ) → ℚ × ℚ → Bool) (cx : Ep → ℕ)
    (ephs : List Ep) (deps : List Ep) (a b c : Ep), HullSpec hull ∧ InHullSpec inHull ∧
    constructProof hull inHull cx ephs (1 / 5) (7 / 10) true true = .ok (.convex (1 / 5) (7 / 10) deps) ∧
    a ∈ ephs ∧ b ∈ ephs ∧ c ∈ ephs ∧ InTri (a.k, a.l) (b.k, b.l) (c.k, c.l) (1 / 5, 7 / 10) ∧
    cx a + cx b + cx c < (deps.map cx).sum := by
  classical
  obtain ⟨hull, hs⟩ := hullSpec_satisfiable
  let inHull : List (ℚ × ℚ) → ℚ × ℚ → Bool := fun ps p => decide (InConv ps p)
  have hin : InHullSpec inHull := by intro ps p; simp [inHull]
  refine ⟨hull, inHull, expensive, expensiveSet, _, .known 0 0 1, .known 3 (1 / 6) (2 / 3), .known 2 (1 / 2) (1 / 2), hs, hin,
    (expensive_run hull hs inHull hin).2, by decide +kernel, by decide +kernel, by decide +kernel,
    (C32_in_triangle_partial _ _ _ _ (by decide +kernel)).mp (by decide +kernel), by decide +kernel⟩

/-- Non-vacuity: a counterclockwise triple of the candidates whose triangle contains the point. -/
example (hull : List (ℚ × ℚ) → Py (List ℕ)) (hs : HullSpec hull) (inHull : List (ℚ × ℚ) → ℚ × ℚ → Bool)
    (hin : InHullSpec inHull) : (∃ verts, convexHull hull expensiveSet = .ok verts) ∧
    (∃ deps, constructProof hull inHull expensive expensiveSet (1 / 5) (7 / 10) true true = .ok (.convex (1 / 5) (7 / 10) deps)) ∧
    [Ep.known 0 0 1, .known 1 (1 / 10) (1 / 2), .known 2 (1 / 2) (1 / 2)].Sublist expensiveSet ∧
    0 < area (0, 1) (1 / 10, 1 / 2) (1 / 2, 1 / 2) ∧ InTri (0, 1) (1 / 10, 1 / 2) (1 / 2, 1 / 2) (1 / 5, 7 / 10) :=
  ⟨(expensive_run hull hs inHull hin).1, ⟨_, (expensive_run hull hs inHull hin).2⟩, by decide +kernel, by decide +kernel,
    (C32_in_triangle_partial _ _ _ _ (by decide +kernel)).mp (by decide +kernel)⟩

theorem complexityLoop_spec (hull : List (ℚ × ℚ) → Py (List ℕ)) (inHull : List (ℚ × ℚ) → ℚ × ℚ → Bool)
    (cx : Ep → ℕ) (ts : List Tr) (ps : List Ep) (k l : ℚ) (r : Proof) : ∀ (n : ℕ) (ephs : List Ep),
    (∀ e ∈ ephs, Derivable ps ts e) → complexityLoop hull inHull cx ts k l n ephs = .ok r →
    match r with
    | .none => True
    | .exact e => (e.k, e.l) = (k, l) ∧ Derivable ps ts e
    | .convex k' l' deps => (k', l') = (k, l) ∧ ∃ a b c, deps = [a, b, c] ∧
        Derivable ps ts a ∧ Derivable ps ts b ∧ Derivable ps ts c ∧
        (InConv [(a.k, a.l), (b.k, b.l), (c.k, c.l)] (k, l) ∨ area (a.k, a.l) (b.k, b.l) (c.k, c.l) = 0) := by
  intro n
  induction n with
  | zero => intro ephs _ h; cases h; trivial
  | succ n ih =>
    intro ephs he h
    unfold complexityLoop at h
    cases hc : computeExpPairs hull ephs ts 1 false with
    | error e => rw [hc] at h; cases h
    | ok c =>
      rw [hc] at h
      simp only [bind, Except.bind] at h
      have he' : ∀ e ∈ addPairs ephs c, Derivable ps ts e := by
        intro e hm
        rw [mem_addPairs] at hm
        rcases hm with hm | hm
        · exact he e hm
        · exact ((C31_sound hull _ _ 1 false c hc).1 e hm).mono he
      cases hr : constructProof hull inHull cx (addPairs ephs c) k l true true with
      | error e => rw [hr] at h; cases h
      | ok r' =>
        rw [hr] at h
        simp only at h
        split at h
        · exact ih _ he' h
        · cases h
          have := C33_deep_partial hull inHull cx _ k l r hr
          cases r with
          | none => trivial
          | exact e => exact ⟨this.2, he' e this.1⟩
          | convex k' l' deps =>
            obtain ⟨h1, a, b, c, h2, h3, h4, h5, h6⟩ := this
            exact ⟨h1, a, b, c, h2, he' a h3, he' b h4, he' c h5, h6⟩

/-- **C33** (complexity method, partial) The proof found rests on pairs derivable from the pairs of the
set and those coming from its bounds on beta; the pair is a convex combination of the three it rests on,
unless these lie on one line. -/
theorem C33_complexity_partial (hull : List (ℚ × ℚ) → Py (List ℕ)) (inHull : List (ℚ × ℚ) → ℚ × ℚ → Bool)
    (cx : Ep → ℕ) (betaPairs : List Item → Py (List Ep)) (k l : ℚ) (hs : List Item) (r : Proof)
    (h : findBestProofComplexity hull inHull cx betaPairs k l hs = .ok r) :
    ∃ b, (b = [] ∨ betaPairs hs = .ok b) ∧
    match r with
    | .none => True
    | .exact e => (e.k, e.l) = (k, l) ∧ Derivable (pairsIn hs ++ b) (transformsIn hs) e
    | .convex k' l' deps => (k', l') = (k, l) ∧ ∃ x y z, deps = [x, y, z] ∧
        Derivable (pairsIn hs ++ b) (transformsIn hs) x ∧ Derivable (pairsIn hs ++ b) (transformsIn hs) y ∧
        Derivable (pairsIn hs ++ b) (transformsIn hs) z ∧
        (InConv [(x.k, x.l), (y.k, y.l), (z.k, z.l)] (k, l) ∨ area (x.k, x.l) (y.k, y.l) (z.k, z.l) = 0) := by
  unfold findBestProofComplexity at h
  cases h1 : complexityLoop hull inHull cx (transformsIn hs) k l 10 (pairsIn hs) with
  | error e => rw [h1] at h; cases h
  | ok r1 =>
    rw [h1] at h
    simp only [bind, Except.bind] at h
    split at h
    · cases hb : betaPairs hs with
      | error e => rw [hb] at h; cases h
      | ok b =>
        rw [hb] at h
        refine ⟨b, Or.inr rfl, ?_⟩
        have := complexityLoop_spec hull inHull cx _ (pairsIn hs ++ b) k l r 10 _ (by
          intro e he
          rw [mem_addPairs] at he
          exact .input e (by simpa using he)) h
        cases r <;> exact this
    · cases h
      refine ⟨[], Or.inl rfl, ?_⟩
      have := complexityLoop_spec hull inHull cx _ (pairsIn hs ++ []) k l r 10 _ (by
        intro e he
        exact .input e (by simpa using he)) h1
      cases r <;> exact this

theorem constructProof_found (hull : List (ℚ × ℚ) → Py (List ℕ)) (inHull : List (ℚ × ℚ) → ℚ × ℚ → Bool) (cx : Ep → ℕ)
    (ephs : List Ep) (k l : ℚ) (red deep : Bool) (e : Ep) (he : e ∈ ephs) (hk : (e.k, e.l) = (k, l)) :
    ∃ e' ∈ ephs, (e'.k, e'.l) = (k, l) ∧ constructProof hull inHull cx ephs k l red deep = .ok (.exact e') := by
  unfold constructProof
  rw [if_neg (List.ne_nil_of_mem he)]
  cases hf : ephs.find? (fun h => h.key = (k, l)) with
  | none =>
    rw [List.find?_eq_none] at hf
    exact absurd hk (by simpa [Ep.key] using hf e he)
  | some e' =>
    refine ⟨e', List.mem_of_find?_eq_some hf, ?_, rfl⟩
    have := List.find?_some hf
    simpa [Ep.key] using this

theorem complexityLoop_none (hull : List (ℚ × ℚ) → Py (List ℕ)) (inHull : List (ℚ × ℚ) → ℚ × ℚ → Bool)
    (cx : Ep → ℕ) (ts : List Tr) (k l : ℚ) (n : ℕ) (ephs : List Ep)
    (h : complexityLoop hull inHull cx ts k l (n + 1) ephs = .ok .none) : ∀ e ∈ ephs, (e.k, e.l) ≠ (k, l) := by
  intro e he hk
  unfold complexityLoop at h
  cases hc : computeExpPairs hull ephs ts 1 false with
  | error e => rw [hc] at h; cases h
  | ok c =>
    rw [hc] at h
    simp only [bind, Except.bind] at h
    obtain ⟨e', -, -, h2⟩ := constructProof_found hull inHull cx (addPairs ephs c) k l true true e
      ((mem_addPairs ..).mpr (Or.inl he)) hk
    rw [h2] at h
    cases h

/-- **C33** (complexity method) When no proof is found, the bounds on beta were consulted, and the pair is neither one of the set
nor one that they give. -/
theorem C33_complexity_none (hull : List (ℚ × ℚ) → Py (List ℕ)) (inHull : List (ℚ × ℚ) → ℚ × ℚ → Bool)
    (cx : Ep → ℕ) (betaPairs : List Item → Py (List Ep)) (k l : ℚ) (hs : List Item)
    (h : findBestProofComplexity hull inHull cx betaPairs k l hs = .ok .none) :
    ∃ b, betaPairs hs = .ok b ∧ ∀ e, e ∈ pairsIn hs ∨ e ∈ b → (e.k, e.l) ≠ (k, l) := by
  unfold findBestProofComplexity at h
  cases h1 : complexityLoop hull inHull cx (transformsIn hs) k l 10 (pairsIn hs) with
  | error e => rw [h1] at h; cases h
  | ok r1 =>
    rw [h1] at h
    simp only [bind, Except.bind] at h
    split at h
    · cases hb : betaPairs hs with
      | error e => rw [hb] at h; cases h
      | ok b =>
        rw [hb] at h
        exact ⟨b, rfl, fun e he => complexityLoop_none hull inHull cx _ k l 9 _ h e ((mem_addPairs ..).mpr he)⟩
    · rename_i hne
      cases h
      exact absurd rfl hne

/-- Non-vacuity: from the trivial pair alone the pair (1/2, 1/2) is not found. -/
example (hull : List (ℚ × ℚ) → Py (List ℕ)) (inHull : List (ℚ × ℚ) → ℚ × ℚ → Bool)
    (hin : InHullSpec inHull) (cx : Ep → ℕ) :
    findBestProofComplexity hull inHull cx (fun _ => .ok []) (1 / 2) (1 / 2) [.pair (.known 0 0 1)] = .ok .none := by
  have hp : pairsIn [.pair (.known 0 0 1)] = [.known 0 0 1] := rfl
  have ht : transformsIn [.pair (.known 0 0 1)] = [] := rfl
  have hc : computeExpPairs hull [.known 0 0 1] [] 1 false = .ok [.known 0 0 1] := by
    have c : dictOf [Ep.known 0 0 1] = [.known 0 0 1] := by decide +kernel
    have a1 : applyTransforms [] [.known 0 0 1] = .ok [.known 0 0 1] := by decide +kernel
    unfold computeExpPairs
    rw [c]
    simp only [iterateN, iterate, a1, bind, Except.bind]
    rfl
  have ha : addPairs [.known 0 0 1] [.known 0 0 1] = [.known 0 0 1] := by decide +kernel
  have ha' : addPairs [.known 0 0 1] [] = [.known 0 0 1] := rfl
  have hr : constructProof hull inHull cx [.known 0 0 1] (1 / 2) (1 / 2) true true = .ok .none := by
    unfold constructProof
    rw [if_neg (by simp)]
    have hf : ([.known 0 0 1] : List Ep).find? (fun h => h.key = (1 / 2, 1 / 2)) = none := by decide +kernel
    have hv : convexHull hull [.known 0 0 1] = .ok [.known 0 0 1] := rfl
    have hi : inHull (List.map Ep.key [.known 0 0 1]) (1 / 2, 1 / 2) = false := by
      by_contra hne
      have := (hin _ _).mp (by simpa using hne)
      have := this.linear (-1) 0 0 (by decide +kernel)
      norm_num at this
    rw [hf, hv]
    simp only [bind, Except.bind, hi]
    rfl
  have hl : ∀ n, complexityLoop hull inHull cx [] (1 / 2) (1 / 2) n [.known 0 0 1] = .ok .none := by
    intro n
    induction n with
    | zero => rfl
    | succ n ih =>
      unfold complexityLoop
      simp only [hc, bind, Except.bind, ha, hr]
      exact ih
  unfold findBestProofComplexity
  simp only [hp, ht, hl, bind, Except.bind, ha', if_true]

/-- **C33** (complexity method) A pair of the set is found at once, whatever the bounds on beta give (also if their conversion
fails): the proof is one of the set's own pairs or of the first application of the transforms to them. -/
theorem C33_complexity_direct (hull : List (ℚ × ℚ) → Py (List ℕ)) (inHull : List (ℚ × ℚ) → ℚ × ℚ → Bool)
    (cx : Ep → ℕ) (betaPairs : List Item → Py (List Ep)) (k l : ℚ) (hs : List Item) (e : Ep) (he : e ∈ pairsIn hs)
    (hk : (e.k, e.l) = (k, l)) (c : List Ep) (hc : computeExpPairs hull (pairsIn hs) (transformsIn hs) 1 false = .ok c) :
    ∃ e', (e'.k, e'.l) = (k, l) ∧ Derivable (pairsIn hs) (transformsIn hs) e' ∧
      findBestProofComplexity hull inHull cx betaPairs k l hs = .ok (.exact e') := by
  obtain ⟨e', h1, h2, h3⟩ := constructProof_found hull inHull cx (addPairs (pairsIn hs) c) k l true true e
    ((mem_addPairs ..).mpr (Or.inl he)) hk
  refine ⟨e', h2, ?_, ?_⟩
  · rw [mem_addPairs] at h1
    rcases h1 with h1 | h1
    · exact .input e' h1
    · exact (C31_sound hull _ _ 1 false c hc).1 e' h1
  · unfold findBestProofComplexity complexityLoop
    simp only [hc, h3, bind, Except.bind, reduceCtorEq, if_false]
    rfl

/-- Non-vacuity: the pair (0, 1) is found although the conversion of the bounds on beta fails. -/
example (hull : List (ℚ × ℚ) → Py (List ℕ)) (inHull : List (ℚ × ℚ) → ℚ × ℚ → Bool) (cx : Ep → ℕ) :
    ∃ e', findBestProofComplexity hull inHull cx (fun _ => .error .valueError) 0 1 [.pair (.known 0 0 1)] = .ok (.exact e') := by
  have hc : computeExpPairs hull [.known 0 0 1] [] 1 false = .ok [.known 0 0 1] := by
    have c : dictOf [Ep.known 0 0 1] = [.known 0 0 1] := by decide +kernel
    have a1 : applyTransforms [] [.known 0 0 1] = .ok [.known 0 0 1] := by decide +kernel
    unfold computeExpPairs
    rw [c]
    simp only [iterateN, iterate, a1, bind, Except.bind]
    rfl
  obtain ⟨e', -, -, h⟩ := C33_complexity_direct hull inHull cx (fun _ => .error .valueError) 0 1 [.pair (.known 0 0 1)]
    (.known 0 0 1) List.mem_cons_self rfl _ hc
  exact ⟨e', h⟩

/-- **C33** (method `NONE`) A proof found rests on pairs of the set itself. -/
theorem C33_none (hull : List (ℚ × ℚ) → Py (List ℕ)) (hs : HullSpec hull)
    (inHull : List (ℚ × ℚ) → ℚ × ℚ → Bool) (hin : InHullSpec inHull) (cx : Ep → ℕ)
    (betaPairs : List Item → Py (List Ep)) (k l : ℚ) (his : List Item) (r : Proof)
    (h : findBestProofNone hull inHull cx betaPairs k l his = .ok r) :
    match r with
    | .none => ¬ InConv ((pairsIn his).map (fun e => (e.k, e.l))) (k, l)
    | .exact e => e ∈ pairsIn his ∧ (e.k, e.l) = (k, l)
    | .convex k' l' deps => (k', l') = (k, l) ∧ (∀ e ∈ deps, e ∈ pairsIn his) ∧
        InConv (deps.map (fun e => (e.k, e.l))) (k, l) := by
  unfold findBestProofNone at h
  cases hb : betaPairs his with
  | error e => rw [hb] at h; cases h
  | ok b =>
    rw [hb] at h
    simp only [bind, Except.bind] at h
    cases hc : computeExpPairs hull (addPairs (pairsIn his) b) (transformsIn his) 5 true with
    | error e => rw [hc] at h; cases h
    | ok c =>
      rw [hc] at h
      have := C33_construct_proof_partial hull hs inHull hin cx _ k l false false (by simp) r h
      cases r <;> exact this

theorem computeB (hull : List (ℚ × ℚ) → Py (List ℕ)) :
    computeExpPairs hull [.known 0 0 1] [trB] 5 true
      = .ok [.known 0 0 1, .derived 1 (1 / 2) (1 / 2) (.known 0 0 1)] := by
  have a1 : applyTransforms [trB] [.known 0 0 1] = .ok [.known 0 0 1, .derived 1 (1 / 2) (1 / 2) (.known 0 0 1)] := by
    decide +kernel
  have a2 : applyTransforms [trB] [.known 0 0 1, .derived 1 (1 / 2) (1 / 2) (.known 0 0 1)]
      = .ok [.known 0 0 1, .derived 1 (1 / 2) (1 / 2) (.known 0 0 1)] := by
    decide +kernel
  have b1 : iterate hull true [trB] [.known 0 0 1] = .ok [.known 0 0 1, .derived 1 (1 / 2) (1 / 2) (.known 0 0 1)] := by
    unfold iterate; rw [a1]; rfl
  have b2 : iterate hull true [trB] [.known 0 0 1, .derived 1 (1 / 2) (1 / 2) (.known 0 0 1)]
      = .ok [.known 0 0 1, .derived 1 (1 / 2) (1 / 2) (.known 0 0 1)] := by
    unfold iterate; rw [a2]; rfl
  have c : dictOf [Ep.known 0 0 1] = [.known 0 0 1] := by decide +kernel
  unfold computeExpPairs
  rw [c]
  simp only [iterateN, b1, b2, bind, Except.bind]

/-- **C33**: with the method `NONE` the transforms of the set are ignored: from the trivial pair (0, 1)
and the transform B, the pair B(0, 1) = (1/2, 1/2) is not found, while the date method finds it. -/
theorem C33_none_counterexample (hull : List (ℚ × ℚ) → Py (List ℕ)) (inHull : List (ℚ × ℚ) → ℚ × ℚ → Bool)
    (hin : InHullSpec inHull) (cx : Ep → ℕ) :
    findBestProofNone hull inHull cx (fun _ => .ok []) (1 / 2) (1 / 2) [.pair (.known 0 0 1), .transform trB]
      = .ok .none ∧
    ∃ e, attempt hull inHull cx (fun _ => .ok []) (1 / 2) (1 / 2) [.pair (.known 0 0 1), .transform trB]
      = .ok (.exact e) := by
  have hp : pairsIn [.pair (.known 0 0 1), .transform trB] = [.known 0 0 1] := rfl
  have ht : transformsIn [.pair (.known 0 0 1), .transform trB] = [trB] := rfl
  have ha : addPairs [.known 0 0 1] [] = [.known 0 0 1] := rfl
  constructor
  · unfold findBestProofNone
    simp only [bind, Except.bind, hp, ht, ha, computeB]
    unfold constructProof
    rw [if_neg (by simp)]
    have hf : ([.known 0 0 1] : List Ep).find? (fun h => h.key = (1 / 2, 1 / 2)) = none := by decide +kernel
    have hv : convexHull hull [.known 0 0 1] = .ok [.known 0 0 1] := rfl
    have hi : inHull (List.map Ep.key [.known 0 0 1]) (1 / 2, 1 / 2) = false := by
      by_contra hne
      have := (hin _ _).mp (by simpa using hne)
      have := this.linear (-1) 0 0 (by decide +kernel)
      norm_num at this
    rw [hf, hv]
    simp only [bind, Except.bind, hi]
    rfl
  · refine ⟨.derived 1 (1 / 2) (1 / 2) (.known 0 0 1), ?_⟩
    unfold attempt
    simp only [bind, Except.bind, hp, ht, ha, computeB]
    have he : addPairs [.known 0 0 1] [.known 0 0 1, .derived 1 (1 / 2) (1 / 2) (.known 0 0 1)]
      = [.known 0 0 1, .derived 1 (1 / 2) (1 / 2) (.known 0 0 1)] := by decide +kernel
    have hf : ([.known 0 0 1, .derived 1 (1 / 2) (1 / 2) (.known 0 0 1)] : List Ep).find?
        (fun h => h.key = (1 / 2, 1 / 2)) = some (.derived 1 (1 / 2) (1 / 2) (.known 0 0 1)) := by decide +kernel
    rw [he]
    unfold constructProof
    rw [if_neg (by simp), hf]

/-! ### Examples -/

/-- Three pairs of a triangle: (0, 1), (1/2, 1/2) and (1/2, 1). -/
def triangleSet : List Ep := [.known 0 0 1, .known 1 (1 / 2) (1 / 2), .known 2 (1 / 2) 1]

/-- The hypotheses of `C33_construct_proof_total` and `C33_construct_proof_partial`. -/
example : ∃ hull inHull, HullSpec hull ∧ InHullSpec inHull ∧ ¬ Flat (triangleSet.map (fun e => (e.k, e.l))) ∧
    GeneralPosition triangleSet ∧
    ∃ r, constructProof hull inHull (fun _ => 1) triangleSet (1 / 3) (5 / 6) true false = .ok r ∧ r ≠ .none := by
  classical
  obtain ⟨hull, hs⟩ := hullSpec_satisfiable
  have hin : InHullSpec (fun ps p => decide (InConv ps p)) := by intro ps p; simp
  have hflat : ¬ Flat (triangleSet.map (fun e => (e.k, e.l))) := by
    intro hf
    have := hf (0, 1) (by decide +kernel) (1 / 2, 1 / 2) (by decide +kernel) (1 / 2, 1) (by decide +kernel)
    revert this; decide +kernel
  refine ⟨hull, _, hs, hin, hflat, ?_, ?_⟩
  · intro a b c h
    have := h.eq_of_length (by rfl)
    cases this
    decide +kernel
  · obtain ⟨r, h1, h2⟩ := C33_construct_proof_total hull hs _ hin (fun _ => 1) triangleSet (1 / 3) (5 / 6) true hflat
    refine ⟨r, h1, fun h => ?_⟩
    refine h2.mp h ?_
    refine inConv_of_areas (0, 1) (1 / 2, 1 / 2) (1 / 2, 1) _ ?_ ?_ ?_ ?_ <;> decide +kernel

/-- An example of `C33_date`: a pair of 1990 is found in 1990 although a later one would also do. -/
example : findBestProofDate
      (fun hs => .ok (match (pairsIn hs).find? (fun e => e.key = (1 / 2, 1 / 2)) with
        | some e => .exact e | none => .none))
      [⟨some ((2000 : ℤ) : WithTop ℤ), .pair (.known 2 (1 / 2) (1 / 2))⟩,
       ⟨some ((1980 : ℤ) : WithTop ℤ), .pair (.known 0 0 1)⟩,
       ⟨some ((1990 : ℤ) : WithTop ℤ), .pair (.known 1 (1 / 2) (1 / 2))⟩, ⟨none, .other 3⟩]
    = .ok (.exact (.known 1 (1 / 2) (1 / 2))) := by decide +kernel

/-- Examples of `C33_none` and `C33_attempt`: from (0, 1) and the transform B the pair (1/2, 1/2) is found, and it is derivable. -/
example : ∃ (hull : List (ℚ × ℚ) → Py (List ℕ)) (inHull : List (ℚ × ℚ) → ℚ × ℚ → Bool) (e : Ep), HullSpec hull ∧ InHullSpec inHull ∧
    findBestProofNone hull inHull (fun _ => 1) (fun _ => .ok []) (1 / 2) (1 / 2) [.pair (.known 0 0 1), .transform trB] = .ok .none ∧
    attempt hull inHull (fun _ => 1) (fun _ => .ok []) (1 / 2) (1 / 2) [.pair (.known 0 0 1), .transform trB] = .ok (.exact e) ∧
    Derivable [.known 0 0 1] [trB] e := by
  classical
  obtain ⟨hull, hs⟩ := hullSpec_satisfiable
  have hin : InHullSpec (fun ps p => decide (InConv ps p)) := by intro ps p; simp
  obtain ⟨h1, e, h2⟩ := C33_none_counterexample hull _ hin (fun _ => 1)
  obtain ⟨_, b, hb, h3⟩ := C33_attempt hull hs _ hin _ _ _ _ _ _ h2
  cases hb
  exact ⟨hull, _, e, hs, hin, h1, h2, h3⟩

/-- An example of `C33_deep_partial`: a deep search that finds a triangle. -/
example : ∃ (hull : List (ℚ × ℚ) → Py (List ℕ)) (inHull : List (ℚ × ℚ) → ℚ × ℚ → Bool) (deps : List Ep),
    constructProof hull inHull expensive expensiveSet (1 / 5) (7 / 10) true true = .ok (.convex (1 / 5) (7 / 10) deps) := by
  classical
  obtain ⟨hull, hs⟩ := hullSpec_satisfiable
  have hin : InHullSpec (fun ps p => decide (InConv ps p)) := by intro ps p; simp
  exact ⟨hull, _, _, (expensive_run hull hs _ hin).2⟩

end EP
end Expdb
