import Verif.Props.Mu
import Verif.Props.Interval

/-!
# The piecewise bound on mu (C53) and adding a proved bound to the set (C54)
-/

namespace Expdb
namespace EP

open Hull

/-! ### The value is attained -/

/-- **C35** (attained) The bound returned on (0, 1) is itself a convex combination of the available bounds,
so that it is the smallest one. -/
theorem C35_attained (hull : List (ℚ × ℚ) → Py (List ℕ)) (mus : List Mu) (pairs : List Ep)
    (ts : List Tr) (bounds : List Mu) (hb : getBounds hull mus pairs ts = .ok bounds) (sigma : ℚ) (h0 : 0 < sigma)
    (h1 : sigma < 1) (r : Mu) (h : bestMuBound hull mus pairs ts sigma = .ok r) :
    InConv (bounds.map (fun b => (b.sigma, b.mu))) (sigma, r.mu) := by
  obtain ⟨c1, c2⟩ := getBounds_classical hull mus pairs ts bounds hb
  unfold bestMuBound at h
  rw [if_neg (by push Not; exact ⟨h0, h1⟩), hb] at h
  simp only [bind, Except.bind] at h
  cases hv : muHull hull (bounds ++ [.placeholder]) with
  | error x => rw [hv] at h; cases h
  | ok verts =>
    rw [hv] at h
    simp only at h
    let P : Mu → Prop := fun b => InConv (bounds.map (fun b => (b.sigma, b.mu))) (b.sigma, b.mu)
    have hmem : ∀ b ∈ verts, b = .placeholder ∨ P b := by
      intro b hbv
      unfold muHull at hv
      cases hh : hull ((bounds ++ [Mu.placeholder]).map Mu.pt) with
      | error x => rw [hh] at hv; cases hv
      | ok idx =>
        rw [hh] at hv
        have := pick_mem _ _ _ hv b hbv
        rw [List.mem_append, List.mem_singleton] at this
        rcases this with this | this
        · exact Or.inr (.point _ (List.mem_map.mpr ⟨b, this, rfl⟩))
        · exact Or.inl this
    have hmu : (Mu.trivialAt sigma).mu = 1 / 2 - sigma / 2 := by
      simp only [Mu.mu, trivialMuBound]
      rw [if_neg (not_le.mpr h0), if_neg (not_le.mpr h1)]
    have hP0 : P (.trivialAt sigma) := by
      have := InConv.mix (ps := bounds.map (fun b => (b.sigma, b.mu))) _ _ sigma
        (.point _ (List.mem_map.mpr ⟨_, c2, rfl⟩)) (.point _ (List.mem_map.mpr ⟨_, c1, rfl⟩)) h0.le h1.le
      simp only [Mu.sigma, Mu.mu] at this
      show InConv _ (sigma, (Mu.trivialAt sigma).mu)
      rw [hmu]
      convert this using 2 <;> ring
    obtain ⟨a, b, _⟩ := bestLoop_spec P (fun b1 b2 t h1 h2 h3 h4 => .mix _ _ t h1 h2 h3 h4)
      sigma r (cyclic verts) (.trivialAt sigma) (fun e he => by
        obtain ⟨h1, h2⟩ := cyclic_mem verts e he
        exact ⟨hmem _ h1, hmem _ h2⟩) hP0 rfl (by rw [hmu]; linarith) h
    have a' : InConv (bounds.map (fun b => (b.sigma, b.mu))) (r.sigma, r.mu) := a
    rwa [b] at a'

/-! ### C53 -/

theorem funcEq_pt : (Mu.funcEq .classical).pt = (0, 1 / 2) := by
  simp only [Mu.pt, Mu.sigma, Mu.mu]
  norm_num

theorem pieces_mem (s0 s1 : ℚ) : ∀ (es : List (Mu × Mu)) (ps : List (Affine Unit)), pieces s0 s1 es = .ok ps →
    (∀ e ∈ es, ∃ p, edgePiece s0 s1 e = .ok p) ∧
    ∀ p, p ∈ ps ↔ ∃ e ∈ es, edgePiece s0 s1 e = .ok (some p) := by
  intro es
  induction es with
  | nil => intro ps h; cases h; simp
  | cons e es ih =>
    intro ps h
    unfold pieces at h
    cases he : edgePiece s0 s1 e with
    | error x => rw [he] at h; cases h
    | ok q =>
      rw [he] at h
      simp only [bind, Except.bind] at h
      cases hp : pieces s0 s1 es with
      | error x => rw [hp] at h; cases h
      | ok qs =>
        rw [hp] at h
        have h' := Except.ok.inj (show (Except.ok _ : Py (List (Affine Unit))) = .ok ps from h)
        obtain ⟨h1, h2⟩ := ih qs hp
        constructor
        · intro e' he'
          rcases List.mem_cons.mp he' with e1 | e1
          · rw [e1]; exact ⟨q, he⟩
          · exact h1 e' e1
        · intro p
          rw [← h', List.mem_append, h2, Option.mem_toList]
          constructor
          · rintro (hq | ⟨e', he', h⟩)
            · exact ⟨e, List.mem_cons_self, by rw [he, hq]⟩
            · exact ⟨e', List.mem_cons_of_mem _ he', h⟩
          · rintro ⟨e', he', h⟩
            rcases List.mem_cons.mp he' with e1 | e1
            · left; rw [e1, he] at h; exact Except.ok.inj h
            · exact Or.inr ⟨e', e1, h⟩

theorem pieces_total (s0 s1 : ℚ) : ∀ (es : List (Mu × Mu)), (∀ e ∈ es, ∃ p, edgePiece s0 s1 e = .ok p) →
    ∃ ps, pieces s0 s1 es = .ok ps := by
  intro es
  induction es with
  | nil => intro _; exact ⟨[], rfl⟩
  | cons e es ih =>
    intro h
    obtain ⟨q, hq⟩ := h e List.mem_cons_self
    obtain ⟨qs, hqs⟩ := ih (fun e' he' => h e' (List.mem_cons_of_mem _ he'))
    refine ⟨q.toList ++ qs, ?_⟩
    unfold pieces
    rw [hq, hqs]
    rfl

/-- The piece of one edge. -/
theorem edgePiece_spec (s0 s1 : ℚ) (e : Mu × Mu) (p : Affine Unit) (h : edgePiece s0 s1 e = .ok (some p)) :
    e.1.sigma < e.2.sigma ∧ (∀ x, p.dom.contains x = true ↔ s0 ≤ x ∧ x < s1 ∧ e.1.sigma ≤ x ∧ x < e.2.sigma) ∧
    ∀ x, p.ev x = lineAt e.1.pt e.2.pt x := by
  unfold edgePiece at h
  split at h
  · cases h
  · simp only [bind, Except.bind] at h
    cases hi : Interval.make (max s0 e.1.sigma) (min s1 e.2.sigma) true false with
    | error x => rw [hi] at h; cases h
    | ok I =>
      rw [hi] at h
      simp only at h
      have hI : I = ⟨max s0 e.1.sigma, min s1 e.2.sigma, true, false⟩ := by
        unfold Interval.make at hi
        split at hi
        · cases hi
        · cases hi; rfl
      split at h
      · rename_i hc
        cases h
        refine ⟨hc.1, ?_, ?_⟩
        · intro x
          rw [hI]
          simp only [Interval.contains, if_true, Bool.false_eq_true, if_false, Bool.and_eq_true, decide_eq_true_eq]
          constructor
          · rintro ⟨h1, h2⟩
            have h1' : max s0 e.1.sigma ≤ x := by linarith
            have h2' : x < min s1 e.2.sigma := by linarith
            rw [max_le_iff] at h1'
            rw [lt_min_iff] at h2'
            exact ⟨h1'.1, h2'.1, h1'.2, h2'.2⟩
          · rintro ⟨a, b, c, d⟩
            have h1' : max s0 e.1.sigma ≤ x := max_le a c
            have h2' : x < min s1 e.2.sigma := lt_min b d
            constructor <;> linarith
        · intro x
          have : e.2.sigma - e.1.sigma ≠ 0 := by linarith [hc.1]
          simp only [Affine.ev, lineAt, Mu.pt]
          field_simp
          ring
      · cases h

/-- A rightward edge over part of the interval gives a piece. -/
theorem edgePiece_some (s0 s1 : ℚ) (e : Mu × Mu) (x : ℚ) (h1 : s0 ≤ x) (h2 : x < s1) (h3 : e.1.sigma ≤ x)
    (h4 : x < e.2.sigma) : ∃ p, edgePiece s0 s1 e = .ok (some p) := by
  unfold edgePiece
  rw [if_neg (by push Not; constructor <;> linarith)]
  have hlt : max s0 e.1.sigma < min s1 e.2.sigma := lt_of_le_of_lt (max_le h1 h3) (lt_min h2 h4)
  have hm : Interval.make (max s0 e.1.sigma) (min s1 e.2.sigma) true false
      = .ok ⟨max s0 e.1.sigma, min s1 e.2.sigma, true, false⟩ := by
    unfold Interval.make
    rw [if_neg (by linarith)]
  rw [hm]
  simp only [bind, Except.bind]
  rw [if_pos]
  · exact ⟨_, rfl⟩
  · refine ⟨lt_of_le_of_lt h3 h4, ?_⟩
    have hl : Interval.length ⟨max s0 e.1.sigma, min s1 e.2.sigma, true, false⟩ ≠ 0 := by
      unfold Interval.length
      simp only
      linarith
    unfold Interval.isEmpty
    rw [if_neg hl]

/-- A leftward edge within the interval makes the constructor of `Interval` raise. -/
theorem edgePiece_error (s0 s1 : ℚ) (e : Mu × Mu) (h1 : s0 ≤ e.2.sigma) (h2 : e.1.sigma ≤ s1)
    (h3 : e.2.sigma < e.1.sigma) : edgePiece s0 s1 e = .error .valueError := by
  unfold edgePiece
  rw [if_neg (by push Not; exact ⟨h1, h2⟩)]
  have hm : Interval.make (max s0 e.1.sigma) (min s1 e.2.sigma) true false = .error .valueError := by
    unfold Interval.make
    rw [if_pos]
    have := le_max_right s0 e.1.sigma
    have := min_le_right s1 e.2.sigma
    linarith
  rw [hm]
  rfl

/-- Every other edge is fine. -/
theorem edgePiece_ok (s0 s1 : ℚ) (h01 : s0 ≤ s1) (e : Mu × Mu)
    (h : e.1.sigma ≤ e.2.sigma ∨ e.2.sigma < s0 ∨ s1 < e.1.sigma) : ∃ p, edgePiece s0 s1 e = .ok p := by
  unfold edgePiece
  split
  · exact ⟨_, rfl⟩
  · rename_i hc
    push Not at hc
    have hle : e.1.sigma ≤ e.2.sigma := by
      rcases h with h | h | h
      · exact h
      · exact absurd h (not_lt.mpr hc.1)
      · exact absurd h (not_lt.mpr hc.2)
    have : max s0 e.1.sigma ≤ min s1 e.2.sigma := max_le (le_min h01 hc.1) (le_min hc.2 hle)
    have hm : Interval.make (max s0 e.1.sigma) (min s1 e.2.sigma) true false
        = .ok ⟨max s0 e.1.sigma, min s1 e.2.sigma, true, false⟩ := by
      unfold Interval.make
      rw [if_neg (by linarith)]
    rw [hm]
    simp only [bind, Except.bind]
    split <;> exact ⟨_, rfl⟩

theorem piecewise_unfold (hull : List (ℚ × ℚ) → Py (List ℕ)) (hs : HullSpec hull) (mus : List Mu) (pairs : List Ep)
    (ts : List Tr) (bounds : List Mu) (hb : getBounds hull mus pairs ts = .ok bounds) (s0 s1 : ℚ)
    (hf : ¬ Flat (bounds.map Mu.pt)) :
    ∃ verts, bestMuBoundPiecewise hull mus pairs ts s0 s1 = pieces s0 s1 (cyclic verts) ∧ (∀ b ∈ verts, b ∈ bounds) ∧
      Ccw (verts.map Mu.pt) ∧ ∀ p ∈ bounds.map Mu.pt, InConv (verts.map Mu.pt) p := by
  obtain ⟨verts, h1, h2, h3, h4⟩ := muHull_spec hull hs bounds hf
  refine ⟨verts, ?_, h2, h3, h4⟩
  unfold bestMuBoundPiecewise
  rw [hb]
  simp only [bind, Except.bind, h1]

theorem piecewise_flat (hull : List (ℚ × ℚ) → Py (List ℕ)) (hs : HullSpec hull) (mus : List Mu) (pairs : List Ep)
    (ts : List Tr) (bounds : List Mu) (hb : getBounds hull mus pairs ts = .ok bounds) (s0 s1 : ℚ)
    (hf : Flat (bounds.map Mu.pt)) : ∃ e, bestMuBoundPiecewise hull mus pairs ts s0 s1 = .error e := by
  obtain ⟨e, he⟩ := hs.flat _ hf
  refine ⟨e, ?_⟩
  unfold bestMuBoundPiecewise muHull
  rw [hb]
  simp only [bind, Except.bind, he]

/-- **C53** (partial: given that the function returns, see `C53_unit_counterexample`) For a subinterval of
[0, 1], the pieces returned cover the half-open interval, lie inside it, and have at each point the value of
`best_mu_bound`, the smallest convex combination of the available bounds. -/
theorem C53_pieces_partial (hull : List (ℚ × ℚ) → Py (List ℕ)) (hs : HullSpec hull) (mus : List Mu) (pairs : List Ep)
    (ts : List Tr) (bounds : List Mu) (hb : getBounds hull mus pairs ts = .ok bounds) (s0 s1 : ℚ) (h0 : 0 ≤ s0)
    (h1 : s1 ≤ 1) (ps : List (Affine Unit)) (h : bestMuBoundPiecewise hull mus pairs ts s0 s1 = .ok ps) :
    (∀ x, s0 ≤ x → x < s1 → ∃ p ∈ ps, p.dom.contains x = true) ∧
    (∀ p ∈ ps, ∀ x, p.dom.contains x = true → (s0 ≤ x ∧ x < s1) ∧
      InConv (bounds.map (fun b => (b.sigma, b.mu))) (x, p.ev x) ∧
      (∀ m, InConv (bounds.map (fun b => (b.sigma, b.mu))) (x, m) → p.ev x ≤ m) ∧
      (0 < x → ∃ r, bestMuBound hull mus pairs ts x = .ok r ∧ r.mu = p.ev x)) := by
  obtain ⟨c1, c2⟩ := getBounds_classical hull mus pairs ts bounds hb
  have hf : ¬ Flat (bounds.map Mu.pt) := by
    intro hf
    obtain ⟨e, he⟩ := piecewise_flat hull hs mus pairs ts bounds hb s0 s1 hf
    rw [he] at h; cases h
  obtain ⟨verts, e1, hmem, hccw, hall⟩ := piecewise_unfold hull hs mus pairs ts bounds hb s0 s1 hf
  rw [e1] at h
  obtain ⟨_, hp⟩ := pieces_mem s0 s1 _ ps h
  have hm1 : InConv (verts.map Mu.pt) (1, 0) := hall _ (List.mem_map.mpr ⟨_, c1, rfl⟩)
  have hm0 : InConv (verts.map Mu.pt) (0, 1 / 2) :=
    hall _ (by rw [← funcEq_pt]; exact List.mem_map.mpr ⟨_, c2, rfl⟩)
  constructor
  · intro x hx0 hx1
    obtain ⟨b, hb', hb''⟩ := exists_right hm1 x (by simp only; linarith)
    have : ∃ a ∈ verts.map Mu.pt, a.1 ≤ x := by
      by_contra hc
      push Not at hc
      have hne : verts.map Mu.pt ≠ [] := by rintro hc; rw [hc] at hb'; simp at hb'
      -- all vertices are to the right of x ≥ 0, but (0, 1/2) is a combination
      have := hm0.linear_pos 1 0 (-x) (fun q hq => by have := hc q hq; linarith)
      simp only at this
      linarith
    obtain ⟨a, ha, ha'⟩ := this
    obtain ⟨e', he', p1, p2⟩ := cyclic_cross (fun v : ℚ × ℚ => v.1 ≤ x) (verts.map Mu.pt) a b ha hb' ha'
      (not_le.mpr hb'')
    rw [not_le] at p2
    rw [cyclic_map] at he'
    obtain ⟨e, he, rfl⟩ := List.mem_map.mp he'
    obtain ⟨p, hep⟩ := edgePiece_some s0 s1 e x hx0 hx1 p1 p2
    refine ⟨p, (hp p).mpr ⟨e, he, hep⟩, ?_⟩
    exact ((edgePiece_spec s0 s1 e p hep).2.1 x).mpr ⟨hx0, hx1, p1, p2⟩
  · intro p hpm x hx
    obtain ⟨e, he, hep⟩ := (hp p).mp hpm
    obtain ⟨g1, g2, g3⟩ := edgePiece_spec s0 s1 e p hep
    obtain ⟨a1, a2, a3, a4⟩ := (g2 x).mp hx
    have he' : (e.1.pt, e.2.pt) ∈ cyclic (verts.map Mu.pt) := by
      rw [cyclic_map]; exact List.mem_map.mpr ⟨e, he, rfl⟩
    have hopt : ∀ m, InConv (bounds.map (fun b => (b.sigma, b.mu))) (x, m) → p.ev x ≤ m := by
      intro m hm
      rw [g3]
      exact Ccw.above hccw _ he' g1 (x, m) (hm.trans hall)
    have hat : InConv (bounds.map (fun b => (b.sigma, b.mu))) (x, p.ev x) := by
      obtain ⟨m1, m2⟩ := cyclic_mem verts e he
      have hpos : 0 < e.2.sigma - e.1.sigma := by linarith
      have := InConv.mix (ps := bounds.map (fun b => (b.sigma, b.mu))) _ _ ((x - e.1.sigma) / (e.2.sigma - e.1.sigma))
        (.point (e.1.sigma, e.1.mu) (List.mem_map.mpr ⟨_, hmem _ m1, rfl⟩))
        (.point (e.2.sigma, e.2.mu) (List.mem_map.mpr ⟨_, hmem _ m2, rfl⟩))
        (div_nonneg (by linarith) hpos.le) (by rw [div_le_one hpos]; linarith)
      rw [g3]
      unfold lineAt
      simp only [Mu.pt]
      convert this using 2
      · have : e.2.sigma - e.1.sigma ≠ 0 := hpos.ne'
        simp only
        field_simp
        ring
      · simp only
        ring
    refine ⟨⟨a1, a2⟩, hat, hopt, ?_⟩
    intro hx0
    obtain ⟨r, hr, hle⟩ := C35_optimal hull hs mus pairs ts bounds hb x hx0 (by linarith)
    refine ⟨r, hr, le_antisymm (hle _ hat) (hopt _ ?_)⟩
    exact C35_attained hull mus pairs ts bounds hb x hx0 (by linarith) r hr

/-- **C53** is false for the whole of [0, 1] (and therefore for every interval that contains it, for which
the function calls itself with [0, 1]): if no bound of the set is outside [0, 1], an exception is raised. -/
theorem C53_unit_counterexample (hull : List (ℚ × ℚ) → Py (List ℕ)) (hs : HullSpec hull) (mus : List Mu)
    (pairs : List Ep) (ts : List Tr) (bounds : List Mu) (hb : getBounds hull mus pairs ts = .ok bounds)
    (hin : ∀ b ∈ bounds, 0 ≤ b.sigma ∧ b.sigma ≤ 1) :
    ∃ e, bestMuBoundPiecewise hull mus pairs ts 0 1 = .error e := by
  obtain ⟨c1, c2⟩ := getBounds_classical hull mus pairs ts bounds hb
  by_cases hf : Flat (bounds.map Mu.pt)
  · exact piecewise_flat hull hs mus pairs ts bounds hb 0 1 hf
  · obtain ⟨verts, e1, hmem, hccw, hall⟩ := piecewise_unfold hull hs mus pairs ts bounds hb 0 1 hf
    rw [e1]
    have hm1 : InConv (verts.map Mu.pt) (1, 0) := hall _ (List.mem_map.mpr ⟨_, c1, rfl⟩)
    have hm0 : InConv (verts.map Mu.pt) (0, 1 / 2) :=
    hall _ (by rw [← funcEq_pt]; exact List.mem_map.mpr ⟨_, c2, rfl⟩)
    obtain ⟨a, ha, ha'⟩ := exists_left hm0 (1 / 2) (by norm_num)
    obtain ⟨b, hb', hb''⟩ := exists_right hm1 (1 / 2) (by norm_num)
    obtain ⟨e', he', p1, p2⟩ := cyclic_cross (fun v : ℚ × ℚ => 1 / 2 ≤ v.1) (verts.map Mu.pt) b a hb' ha hb''.le
      (not_le.mpr ha')
    rw [not_le] at p2
    rw [cyclic_map] at he'
    obtain ⟨e, he, rfl⟩ := List.mem_map.mp he'
    obtain ⟨m1, m2⟩ := cyclic_mem verts e he
    have herr := edgePiece_error 0 1 e (hin _ (hmem _ m2)).1 (hin _ (hmem _ m1)).2 (lt_of_lt_of_le p2 p1)
    cases hp : pieces 0 1 (cyclic verts) with
    | error x => exact ⟨x, rfl⟩
    | ok ps =>
      obtain ⟨h1, _⟩ := pieces_mem 0 1 _ ps hp
      obtain ⟨q, hq⟩ := h1 e he
      rw [herr] at hq; cases hq

/-- An extreme point that is a convex combination of a list belongs to the list. -/
theorem mem_of_extreme {vs : List (ℚ × ℚ)} {p : ℚ × ℚ} (h : InConv vs p) (x y z : ℚ)
    (hle : ∀ v ∈ vs, 0 ≤ x * v.1 + y * v.2 + z) (heq : ∀ v ∈ vs, x * v.1 + y * v.2 + z = 0 → v = p)
    (hp : x * p.1 + y * p.2 + z = 0) : p ∈ vs := by
  by_contra hc
  have hlt : ∀ v ∈ vs, 0 < x * v.1 + y * v.2 + z := by
    intro v hv
    refine lt_of_le_of_ne (hle v hv) (fun h0 => hc ?_)
    rw [← heq v hv h0.symm]; exact hv
  have := h.linear_pos x y z hlt
  linarith

/-- **C53** (success) If the available bounds are inside [0, 1] and not worse than the trivial bound, and not
all trivial, then the function returns for every interval inside [0, 1] other than [0, 1] itself. -/
theorem C53_success (hull : List (ℚ × ℚ) → Py (List ℕ)) (hs : HullSpec hull) (mus : List Mu) (pairs : List Ep)
    (ts : List Tr) (bounds : List Mu) (hb : getBounds hull mus pairs ts = .ok bounds)
    (hin : ∀ b ∈ bounds, 0 ≤ b.sigma ∧ b.sigma ≤ 1 ∧ b.mu ≤ 1 / 2 - b.sigma / 2)
    (hex : ∃ b ∈ bounds, b.mu < 1 / 2 - b.sigma / 2)
    (s0 s1 : ℚ) (h01 : s0 ≤ s1) (hne : 0 < s0 ∨ s1 < 1) :
    ∃ ps, bestMuBoundPiecewise hull mus pairs ts s0 s1 = .ok ps := by
  obtain ⟨c1, c2⟩ := getBounds_classical hull mus pairs ts bounds hb
  have hm1 : ((1 : ℚ), (0 : ℚ)) ∈ bounds.map Mu.pt := List.mem_map.mpr ⟨_, c1, rfl⟩
  have hm0 : ((0 : ℚ), (1 / 2 : ℚ)) ∈ bounds.map Mu.pt := by
    refine List.mem_map.mpr ⟨_, c2, ?_⟩
    simp only [Mu.pt, Mu.sigma, Mu.mu]
    norm_num
  have hf : ¬ Flat (bounds.map Mu.pt) := by
    intro hf
    obtain ⟨b, hb1, hb2⟩ := hex
    have := hf _ hm0 _ hm1 _ (List.mem_map.mpr ⟨b, hb1, rfl⟩)
    unfold area at this
    simp only [Mu.pt] at this
    linarith
  obtain ⟨verts, e1, hmem, hccw, hall⟩ := piecewise_unfold hull hs mus pairs ts bounds hb s0 s1 hf
  rw [e1]
  have hvs : ∀ v ∈ verts.map Mu.pt, 0 ≤ v.1 ∧ v.1 ≤ 1 ∧ v.2 ≤ 1 / 2 - v.1 / 2 := by
    intro v hv
    obtain ⟨b, hb1, rfl⟩ := List.mem_map.mp hv
    exact hin b (hmem b hb1)
  have v1 : ((1 : ℚ), (0 : ℚ)) ∈ verts.map Mu.pt := by
    refine mem_of_extreme (hall _ hm1) (-2) (-1) 2 ?_ ?_ (by norm_num)
    · intro v hv
      obtain ⟨a, b, c⟩ := hvs v hv
      linarith
    · intro v hv h0
      obtain ⟨a, b, c⟩ := hvs v hv
      have : v.1 = 1 := by linarith
      ext
      · exact this
      · simp only; linarith
  have v0 : ((0 : ℚ), (1 / 2 : ℚ)) ∈ verts.map Mu.pt := by
    refine mem_of_extreme (hall _ hm0) (1) (-1) (1 / 2) ?_ ?_ (by norm_num)
    · intro v hv
      obtain ⟨a, b, c⟩ := hvs v hv
      linarith
    · intro v hv h0
      obtain ⟨a, b, c⟩ := hvs v hv
      have : v.1 = 0 := by linarith
      ext
      · exact this
      · simp only; linarith
  apply pieces_total
  intro e he
  apply edgePiece_ok s0 s1 h01
  by_contra hc
  push Not at hc
  obtain ⟨h1, h2, h3⟩ := hc
  have he' : (e.1.pt, e.2.pt) ∈ cyclic (verts.map Mu.pt) := by
    rw [cyclic_map]; exact List.mem_map.mpr ⟨e, he, rfl⟩
  obtain ⟨m1, m2⟩ := cyclic_mem _ _ he'
  obtain ⟨p1, p2, p3⟩ := hvs _ m1
  obtain ⟨q1, q2, q3⟩ := hvs _ m2
  have a1 := hccw.cyclic_edge _ he' _ v1
  have a0 := hccw.cyclic_edge _ he' _ v0
  unfold area at a1 a0
  simp only [Mu.pt] at p1 p2 p3 q1 q2 q3 a1 a0
  -- e.1 and e.2 are on the trivial line
  have key : ∀ (x1 y1 x2 y2 : ℚ), 0 ≤ x1 → x1 ≤ 1 → y1 ≤ 1 / 2 - x1 / 2 → 0 ≤ x2 → x2 ≤ 1 → y2 ≤ 1 / 2 - x2 / 2 →
      x2 < x1 → 0 ≤ (x2 - x1) * (0 - y1) - (y2 - y1) * (1 - x1) → 0 ≤ (x2 - x1) * (1 / 2 - y1) - (y2 - y1) * (0 - x1) →
      y1 = 1 / 2 - x1 / 2 ∧ y2 = 1 / 2 - x2 / 2 := by
    intro x1 y1 x2 y2 _ _ _ _ _ _ _ h1 h0
    obtain ⟨d1, hd1⟩ : ∃ d, d = 1 / 2 - x1 / 2 - y1 := ⟨_, rfl⟩
    obtain ⟨d2, hd2⟩ : ∃ d, d = 1 / 2 - x2 / 2 - y2 := ⟨_, rfl⟩
    have hd1' : 0 ≤ d1 := by linarith
    have hd2' : 0 ≤ d2 := by linarith
    have e1 : (x2 - x1) * (0 - y1) - (y2 - y1) * (1 - x1) = (x2 - 1) * d1 + (1 - x1) * d2 := by
      rw [hd1, hd2]; ring
    have e0 : (x2 - x1) * (1 / 2 - y1) - (y2 - y1) * (0 - x1) = x2 * d1 - x1 * d2 := by
      rw [hd1, hd2]; ring
    rw [e1] at h1
    rw [e0] at h0
    -- x1 times the first plus (1 - x1) times the second
    have s1 := mul_nonneg (by linarith : 0 ≤ x1) h1
    have s2 := mul_nonneg (by linarith : 0 ≤ 1 - x1) h0
    have s3 : x1 * ((x2 - 1) * d1 + (1 - x1) * d2) + (1 - x1) * (x2 * d1 - x1 * d2) = (x2 - x1) * d1 := by ring
    have z1 : d1 = 0 := by nlinarith
    rw [z1] at h0
    have z2 : d2 = 0 := by nlinarith
    exact ⟨by linarith, by linarith⟩
  obtain ⟨t1, t2⟩ := key _ _ _ _ p1 p2 p3 q1 q2 q3 h1 a1 a0
  -- a third vertex on that line is impossible
  rcases hne with hne | hne
  · have n1 : ((0 : ℚ), (1 / 2 : ℚ)) ≠ e.1.pt := by
      intro hc
      have := congrArg Prod.fst hc
      simp only [Mu.pt] at this
      linarith
    have n2 : ((0 : ℚ), (1 / 2 : ℚ)) ≠ e.2.pt := by
      intro hc
      have := congrArg Prod.fst hc
      simp only [Mu.pt] at this
      linarith
    have := hccw.cyclic_edge_pos _ he' _ v0 n1 n2
    unfold area at this
    simp only [Mu.pt] at this
    rw [t1, t2] at this
    ring_nf at this
    exact lt_irrefl _ this
  · have n1 : ((1 : ℚ), (0 : ℚ)) ≠ e.1.pt := by
      intro hc
      have := congrArg Prod.fst hc
      simp only [Mu.pt] at this
      linarith
    have n2 : ((1 : ℚ), (0 : ℚ)) ≠ e.2.pt := by
      intro hc
      have := congrArg Prod.fst hc
      simp only [Mu.pt] at this
      linarith
    have := hccw.cyclic_edge_pos _ he' _ v1 n1 n2
    unfold area at this
    simp only [Mu.pt] at this
    rw [t1, t2] at this
    ring_nf at this
    exact lt_irrefl _ this

/-! ### C54 -/

/-- A line below all points that touches their convex hull at a given place. -/
theorem exists_support (ps : List (ℚ × ℚ)) (s : ℚ) (hl : ∃ p ∈ ps, p.1 < s) (hr : ∃ p ∈ ps, s < p.1) :
    ∃ c d : ℚ, (∀ p ∈ ps, c + d * p.1 ≤ p.2) ∧ InConv ps (s, c + d * s) := by
  obtain ⟨pl, hpl, hls⟩ := hl
  obtain ⟨pr, hpr, hrs⟩ := hr
  obtain ⟨vs, hsub, hccw, hall⟩ := exists_hull ps (List.ne_nil_of_mem hpl)
  obtain ⟨a, ha, ha'⟩ := exists_left (hall _ hpl) s hls
  obtain ⟨b, hb, hb'⟩ := exists_right (hall _ hpr) s hrs
  obtain ⟨e, he, p1, p2⟩ := cyclic_cross (fun v : ℚ × ℚ => v.1 ≤ s) vs a b ha hb ha'.le (not_le.mpr hb')
  rw [not_le] at p2
  have hlt : e.1.1 < e.2.1 := lt_of_le_of_lt p1 p2
  have hpos : 0 < e.2.1 - e.1.1 := by linarith
  have hline : ∀ x, lineAt e.1 e.2 x
      = (e.1.2 - e.1.1 * ((e.2.2 - e.1.2) / (e.2.1 - e.1.1))) + ((e.2.2 - e.1.2) / (e.2.1 - e.1.1)) * x := by
    intro x
    unfold lineAt
    have := hpos.ne'
    field_simp
    ring
  refine ⟨e.1.2 - e.1.1 * ((e.2.2 - e.1.2) / (e.2.1 - e.1.1)), (e.2.2 - e.1.2) / (e.2.1 - e.1.1), ?_, ?_⟩
  · intro p hp
    rw [← hline]
    exact Ccw.above hccw e he hlt p (hall p hp)
  · obtain ⟨m1, m2⟩ := cyclic_mem vs e he
    have := InConv.mix _ _ ((s - e.1.1) / (e.2.1 - e.1.1)) (.point _ (hsub _ m1)) (.point _ (hsub _ m2))
      (div_nonneg (by linarith) hpos.le) (by rw [div_le_one hpos]; linarith)
    rw [← hline]
    unfold lineAt
    convert this using 2
    · have := hpos.ne'
      field_simp
      ring
    · ring

/-- If a line is below all points, and the points to the right of 1/2 come with their images under the
functional equation, then the line is below the image of every convex combination to the right of 1/2. -/
theorem support_funcEq (ps : List (ℚ × ℚ)) (hfe : ∀ p ∈ ps, 1 / 2 < p.1 → (1 - p.1, p.2 + p.1 - 1 / 2) ∈ ps)
    (c d : ℚ) (hcd : ∀ p ∈ ps, c + d * p.1 ≤ p.2) (q : ℚ × ℚ) (hq : InConv ps q) (hq1 : 1 / 2 < q.1) :
    c + d * (1 - q.1) ≤ q.2 + q.1 - 1 / 2 := by
  rcases le_or_gt 0 (d + 1 / 2) with hd | hd
  · have h1 := hq.linear (-d) 1 (-c) (fun p hp => by have := hcd p hp; linarith)
    have h2 := mul_nonneg (by linarith : 0 ≤ 2 * q.1 - 1) hd
    linarith
  · have h1 := hq.linear (d + 1) 1 (-c - d - 1 / 2) (fun p hp => by
      rcases lt_or_ge (1 / 2) p.1 with h | h
      · have := hcd _ (hfe p hp h)
        simp only at this
        linarith
      · have := hcd p hp
        have h2 := mul_nonneg (by linarith : 0 ≤ 1 - 2 * p.1) (by linarith : 0 ≤ -(d + 1 / 2))
        linarith)
    linarith

theorem getBounds_add (hull : List (ℚ × ℚ) → Py (List ℕ)) (mus : List Mu) (pairs : List Ep) (ts : List Tr)
    (bounds : List Mu) (hb : getBounds hull mus pairs ts = .ok bounds) (r : Mu) :
    ∃ bounds', getBounds hull (mus ++ [r]) pairs ts = .ok bounds' ∧
      ∀ b, b ∈ bounds' ↔ b ∈ bounds ∨ b = r ∨ (2 * r.sigma > 1 ∧ b = .funcEq r) := by
  obtain ⟨es, h1, h2⟩ := getBounds_eq hull mus pairs ts bounds hb
  have : ∃ bounds', getBounds hull (mus ++ [r]) pairs ts = .ok bounds' := by
    unfold getBounds
    rw [h1]
    exact ⟨_, rfl⟩
  obtain ⟨bounds', hb'⟩ := this
  refine ⟨bounds', hb', fun b => ?_⟩
  obtain ⟨es', h1', h2'⟩ := getBounds_eq hull (mus ++ [r]) pairs ts bounds' hb'
  rw [h1] at h1'
  cases h1'
  rw [h2', h2]
  have hm : ∀ b, b ∈ mus ++ [r] ++ [Mu.classical] ++ es.map .fromPair ↔ b ∈ mus ++ [Mu.classical] ++ es.map .fromPair ∨ b = r := by
    intro b
    simp only [List.mem_append, List.mem_singleton]
    tauto
  constructor
  · rintro (h | ⟨b', h, hs, rfl⟩)
    · rcases (hm b).mp h with h | h
      · exact Or.inl (Or.inl h)
      · exact Or.inr (Or.inl h)
    · rcases (hm b').mp h with h | rfl
      · exact Or.inl (Or.inr ⟨b', h, hs, rfl⟩)
      · exact Or.inr (Or.inr ⟨hs, rfl⟩)
  · rintro ((h | ⟨b', h, hs, rfl⟩) | h | ⟨hs, rfl⟩)
    · exact Or.inl ((hm b).mpr (Or.inl h))
    · exact Or.inr ⟨b', (hm b').mpr (Or.inl h), hs, rfl⟩
    · exact Or.inl ((hm b).mpr (Or.inr h))
    · exact Or.inr ⟨r, (hm r).mpr (Or.inr rfl), hs, rfl⟩

theorem getBounds_funcEq (hull : List (ℚ × ℚ) → Py (List ℕ)) (mus : List Mu) (pairs : List Ep) (ts : List Tr)
    (bounds : List Mu) (hb : getBounds hull mus pairs ts = .ok bounds) (p : ℚ × ℚ)
    (hp : p ∈ bounds.map (fun b => (b.sigma, b.mu))) (h : 1 / 2 < p.1) :
    (1 - p.1, p.2 + p.1 - 1 / 2) ∈ bounds.map (fun b => (b.sigma, b.mu)) := by
  obtain ⟨es, _, h2⟩ := C35_available hull mus pairs ts bounds hb
  rw [h2] at hp ⊢
  obtain ⟨q, hq, rfl | ⟨hq1, rfl⟩⟩ := hp
  · exact ⟨p, hq, Or.inr ⟨h, rfl⟩⟩
  · simp only at h
    exfalso
    linarith

/-- **C54** A bound proved by `prove_mu_bound` and added to the set (without invalidation of the cached
hull) changes no value of `best_mu_bound`. For a bound at a place outside (0, 1) it is assumed that no available
bound contradicts mu(sigma) ≥ max(0, 1/2 − sigma). -/
theorem C54_no_change_partial (hull : List (ℚ × ℚ) → Py (List ℕ)) (hs : HullSpec hull) (mus : List Mu) (pairs : List Ep)
    (ts : List Tr) (bounds : List Mu) (hb : getBounds hull mus pairs ts = .ok bounds) (sigma mu : ℚ) (r : Mu)
    (mus' : List Mu) (h : proveMuBound hull mus pairs ts sigma mu = .ok (some r, mus'))
    (htrue : sigma ≤ 0 ∨ 1 ≤ sigma → ∀ b ∈ bounds, 0 ≤ b.mu ∧ 1 / 2 - b.sigma ≤ b.mu) (s : ℚ) :
    ∃ r1 r2, bestMuBound hull mus pairs ts s = .ok r1 ∧ bestMuBound hull mus' pairs ts s = .ok r2 ∧ r2.mu = r1.mu := by
  obtain ⟨hr, rfl⟩ : bestMuBound hull mus pairs ts sigma = .ok r ∧ mus' = mus ++ [r] := by
    unfold proveMuBound at h
    cases hx : bestMuBound hull mus pairs ts sigma with
    | error e => rw [hx] at h; cases h
    | ok b =>
      rw [hx] at h
      simp only [bind, Except.bind] at h
      split at h
      · cases h; exact ⟨rfl, rfl⟩
      · cases h
  by_cases hs01 : s ≤ 0 ∨ s ≥ 1
  · refine ⟨.trivialAt s, .trivialAt s, ?_, ?_, rfl⟩ <;> unfold bestMuBound <;> rw [if_pos hs01]
  push Not at hs01
  obtain ⟨s0, s1⟩ := hs01
  obtain ⟨bounds', hb', hmem'⟩ := getBounds_add hull mus pairs ts bounds hb r
  obtain ⟨r1, hr1, o1⟩ := C35_optimal hull hs mus pairs ts bounds hb s s0 s1
  obtain ⟨r2, hr2, o2⟩ := C35_optimal hull hs (mus ++ [r]) pairs ts bounds' hb' s s0 s1
  have a1 := C35_attained hull mus pairs ts bounds hb s s0 s1 r1 hr1
  have a2 := C35_attained hull (mus ++ [r]) pairs ts bounds' hb' s s0 s1 r2 hr2
  refine ⟨r1, r2, hr1, hr2, le_antisymm ?_ ?_⟩
  · apply o2
    refine a1.mono (fun q hq => ?_)
    obtain ⟨b, hb1, rfl⟩ := List.mem_map.mp hq
    exact List.mem_map.mpr ⟨b, (hmem' b).mpr (Or.inl hb1), rfl⟩
  · obtain ⟨c1, c2⟩ := getBounds_classical hull mus pairs ts bounds hb
    have m1 : ((1 : ℚ), (0 : ℚ)) ∈ bounds.map (fun b => (b.sigma, b.mu)) := List.mem_map.mpr ⟨_, c1, rfl⟩
    have m0 : ((0 : ℚ), (1 / 2 : ℚ)) ∈ bounds.map (fun b => (b.sigma, b.mu)) := by
      rw [← funcEq_pt]; exact List.mem_map.mpr ⟨_, c2, rfl⟩
    obtain ⟨c, d, hcd, hat⟩ := exists_support _ s ⟨_, m0, s0⟩ ⟨_, m1, s1⟩
    refine le_trans (o1 _ hat) ?_
    -- it remains to see that the new points are above the line
    have hnew : c + d * r.sigma ≤ r.mu ∧ (2 * r.sigma > 1 → c + d * (1 - r.sigma) ≤ r.mu + r.sigma - 1 / 2) := by
      by_cases hsg : sigma ≤ 0 ∨ sigma ≥ 1
      · have hrt : r = .trivialAt sigma := by
          unfold bestMuBound at hr
          rw [if_pos hsg] at hr
          cases hr; rfl
        have ht : ∀ p ∈ bounds.map (fun b => (b.sigma, b.mu)), 0 ≤ p.2 ∧ 1 / 2 - p.1 ≤ p.2 := by
          intro p hp
          obtain ⟨b, hb1, rfl⟩ := List.mem_map.mp hp
          exact htrue hsg b hb1
        have k1 := hcd _ m1
        have k0 := hcd _ m0
        have t1 := hat.linear 0 1 0 (fun p hp => by have := (ht p hp).1; linarith)
        have t0 := hat.linear 1 1 (-1 / 2) (fun p hp => by have := (ht p hp).2; linarith)
        simp only at k1 k0 t1 t0
        -- the slope is between -1 and 0
        have d0 : d ≤ 0 := by
          by_contra hd
          push Not at hd
          have := mul_pos hd (by linarith : 0 < 1 - s)
          linarith
        have d1 : 0 ≤ d + 1 := by
          by_contra hd
          push Not at hd
          have := mul_pos_of_neg_of_neg hd (by linarith : -s < 0)
          linarith
        have right : ∀ x, 1 ≤ x → c + d * x ≤ 0 := by
          intro x hx
          have := mul_nonneg (by linarith : 0 ≤ -d) (by linarith : 0 ≤ x - 1)
          linarith
        have left : ∀ x, x ≤ 0 → c + d * x ≤ 1 / 2 - x := by
          intro x hx
          have := mul_nonneg d1 (by linarith : 0 ≤ -x)
          linarith
        rw [hrt]
        simp only [Mu.sigma, Mu.mu, trivialMuBound]
        rcases hsg with hsg | hsg
        · rw [if_pos hsg]
          exact ⟨left _ hsg, fun h => by linarith⟩
        · rw [if_neg (by linarith), if_pos hsg]
          refine ⟨right _ hsg, fun _ => ?_⟩
          have := left (1 - sigma) (by linarith)
          linarith
      · push Not at hsg
        have ar := C35_attained hull mus pairs ts bounds hb sigma hsg.1 hsg.2 r hr
        have hrs : r.sigma = sigma := (C34_derivation hull mus pairs ts sigma r hr).1
        rw [hrs]
        constructor
        · have := ar.linear (-d) 1 (-c) (fun p hp => by have := hcd p hp; linarith)
          simp only at this
          linarith
        · intro h2
          exact support_funcEq _ (fun p hp => getBounds_funcEq hull mus pairs ts bounds hb p hp) c d hcd (sigma, r.mu) ar
            (by simp only; linarith)
    have := a2.linear (-d) 1 (-c) (fun p hp => by
      obtain ⟨b, hb1, rfl⟩ := List.mem_map.mp hp
      rcases (hmem' b).mp hb1 with hb1 | rfl | ⟨h2, rfl⟩
      · have := hcd _ (List.mem_map.mpr ⟨b, hb1, rfl⟩)
        simp only at this ⊢
        linarith
      · have := hnew.1
        simp only
        linarith
      · have := hnew.2 h2
        simp only [Mu.sigma, Mu.mu]
        linarith)
    simp only at this
    linarith

/-- **C54** `prove_mu_bound` fails exactly if the best bound is too large, and then leaves the set alone; if it
succeeds then the returned bound is at the requested place, is not larger than requested, is derivable from the
set, and is what was added. -/
theorem C54_proves (hull : List (ℚ × ℚ) → Py (List ℕ)) (hs : HullSpec hull) (mus : List Mu) (pairs : List Ep)
    (ts : List Tr) (bounds : List Mu) (hb : getBounds hull mus pairs ts = .ok bounds) (sigma mu : ℚ) (h0 : 0 < sigma)
    (h1 : sigma < 1) :
    (∃ r, proveMuBound hull mus pairs ts sigma mu = .ok (some r, mus ++ [r]) ∧ r.sigma = sigma ∧ r.mu ≤ mu ∧
      MuDerivable mus pairs ts r ∧ InConv (bounds.map (fun b => (b.sigma, b.mu))) (sigma, r.mu)) ∨
    (proveMuBound hull mus pairs ts sigma mu = .ok (none, mus) ∧
      ∀ m, InConv (bounds.map (fun b => (b.sigma, b.mu))) (sigma, m) → mu < m) := by
  obtain ⟨r, hr, ho⟩ := C35_optimal hull hs mus pairs ts bounds hb sigma h0 h1
  unfold proveMuBound
  rw [hr]
  simp only [bind, Except.bind]
  by_cases hle : r.mu ≤ mu
  · left
    rw [if_pos hle]
    obtain ⟨e1, _, e2⟩ := C34_derivation hull mus pairs ts sigma r hr
    exact ⟨r, rfl, e1, hle, e2, C35_attained hull mus pairs ts bounds hb sigma h0 h1 r hr⟩
  · right
    rw [if_neg hle]
    exact ⟨rfl, fun m hm => lt_of_lt_of_le (not_le.mp hle) (ho m hm)⟩

/-- **C54** without the assumption on the available bounds is false: with the (impossible) bound mu(1/4) ≤ 0, adding the
trivial bound at -1 lowers the value at 1/8. -/
theorem C54_outside_counterexample (hull : List (ℚ × ℚ) → Py (List ℕ)) (hs : HullSpec hull) :
    ∃ mus sigma mu r mus', proveMuBound hull mus [] [] sigma mu = .ok (some r, mus') ∧
      ∃ r1 r2, bestMuBound hull mus [] [] (1 / 8) = .ok r1 ∧ bestMuBound hull mus' [] [] (1 / 8) = .ok r2 ∧
        r2.mu < r1.mu := by
  obtain ⟨mus, hm⟩ : ∃ m, m = [Mu.known 0 (1 / 4) 0] := ⟨_, rfl⟩
  have hb : ∃ bounds, getBounds hull mus [] [] = .ok bounds := ⟨_, rfl⟩
  obtain ⟨bounds, hb⟩ := hb
  refine ⟨mus, -1, 2, .trivialAt (-1), mus ++ [.trivialAt (-1)], ?_, ?_⟩
  · unfold proveMuBound bestMuBound
    rw [if_pos (by norm_num)]
    simp only [bind, Except.bind]
    rw [if_pos]
    · rfl
    · simp only [Mu.mu, trivialMuBound]; norm_num
  · obtain ⟨bounds', hb', hmem'⟩ := getBounds_add hull mus [] [] bounds hb (.trivialAt (-1))
    obtain ⟨r1, hr1, o1⟩ := C35_optimal hull hs mus [] [] bounds hb (1 / 8) (by norm_num) (by norm_num)
    obtain ⟨r2, hr2, o2⟩ := C35_optimal hull hs _ [] [] bounds' hb' (1 / 8) (by norm_num) (by norm_num)
    have a1 := C35_attained hull mus [] [] bounds hb (1 / 8) (by norm_num) (by norm_num) r1 hr1
    refine ⟨r1, r2, hr1, hr2, ?_⟩
    obtain ⟨es, he, hav⟩ := C35_available hull mus [] [] bounds hb
    have hes : es = [] := by
      have : computeExpPairs hull [] [] 5 true = .ok [] := rfl
      rw [this] at he
      cases he; rfl
    have l1 := a1.linear 2 1 (-1 / 2) (fun p hp => by
      rw [hav] at hp
      obtain ⟨q, hq, hpq⟩ := hp
      have : q = (1 / 4, 0) ∨ q = (1, 0) := by
        rcases hq with ⟨b, hb, rfl⟩ | h | ⟨e, he, _⟩
        · rw [hm, List.mem_singleton] at hb
          rw [hb]; exact Or.inl rfl
        · exact Or.inr h
        · rw [hes] at he; simp at he
      rcases this with rfl | rfl <;> rcases hpq with rfl | ⟨h, rfl⟩ <;> norm_num at * )
    have l2 := o2 (3 / 20) (by
      have g1 : ((1 / 4 : ℚ), (0 : ℚ)) ∈ bounds'.map (fun b => (b.sigma, b.mu)) := by
        refine List.mem_map.mpr ⟨.known 0 (1 / 4) 0, (hmem' _).mpr (Or.inl ?_), rfl⟩
        obtain ⟨_, _, h2⟩ := getBounds_eq hull mus [] [] bounds hb
        rw [h2]
        left
        simp [hm]
      have g2 : ((-1 : ℚ), (3 / 2 : ℚ)) ∈ bounds'.map (fun b => (b.sigma, b.mu)) := by
        refine List.mem_map.mpr ⟨.trivialAt (-1), (hmem' _).mpr (Or.inr (Or.inl rfl)), ?_⟩
        simp only [Mu.sigma, Mu.mu, trivialMuBound]
        norm_num
      have := InConv.mix _ _ (9 / 10) (.point _ g2) (.point _ g1) (by norm_num) (by norm_num)
      norm_num at this
      norm_num
      exact this)
    simp only at l1
    linarith

/-! ### Examples -/

theorem muSet_points (hull : List (ℚ × ℚ) → Py (List ℕ)) (bounds : List Mu) (hb : getBounds hull muSet [] [] = .ok bounds)
    (b : Mu) (hbm : b ∈ bounds) : 0 ≤ b.sigma ∧ b.sigma ≤ 1 ∧ b.mu ≤ 1 / 2 - b.sigma / 2 ∧ 0 ≤ b.mu ∧
      1 / 2 - b.sigma ≤ b.mu := by
  obtain ⟨es, he, h2⟩ := getBounds_eq hull muSet [] [] bounds hb
  have hes : es = [] := by
    have : computeExpPairs hull [] [] 5 true = .ok [] := rfl
    rw [this] at he
    cases he; rfl
  have key : ∀ b ∈ muSet ++ [.classical] ++ es.map .fromPair,
      b = .known 0 (1 / 2) (1 / 6) ∨ b = .known 1 (3 / 4) (1 / 12) ∨ b = .classical := by
    intro b hb
    rw [hes] at hb
    simpa [muSet, or_assoc] using hb
  rw [h2] at hbm
  rcases hbm with h | ⟨b', h, h', rfl⟩
  · rcases key b h with rfl | rfl | rfl <;> simp only [Mu.sigma, Mu.mu] <;> norm_num
  · rcases key b' h with rfl | rfl | rfl <;> simp only [Mu.sigma, Mu.mu] at h' ⊢ <;>
      first | (exfalso; norm_num at h'; done) | norm_num

/-- The hypotheses of the C53 and C54 theorems: the piecewise bound on [1/4, 3/4] is computed. -/
example : ∃ hull, HullSpec hull ∧ ∃ bounds, getBounds hull muSet [] [] = .ok bounds ∧
    (∃ ps, bestMuBoundPiecewise hull muSet [] [] (1 / 4) (3 / 4) = .ok ps) ∧
    (∀ b ∈ bounds, 0 ≤ b.mu ∧ 1 / 2 - b.sigma ≤ b.mu) ∧
    ∃ r, proveMuBound hull muSet [] [] (3 / 5) (3 / 20) = .ok (some r, muSet ++ [r]) := by
  obtain ⟨hull, hs⟩ := hullSpec_satisfiable
  obtain ⟨bounds, hb⟩ := getBounds_muSet hull
  have m1 : Mu.known 0 (1 / 2) (1 / 6) ∈ bounds := by
    obtain ⟨es, _, h2⟩ := getBounds_eq hull muSet [] [] bounds hb
    rw [h2]; left; simp [muSet]
  have m2 : Mu.known 1 (3 / 4) (1 / 12) ∈ bounds := by
    obtain ⟨es, _, h2⟩ := getBounds_eq hull muSet [] [] bounds hb
    rw [h2]; left; simp [muSet]
  refine ⟨hull, hs, bounds, hb, ?_, ?_, ?_⟩
  · refine C53_success hull hs muSet [] [] bounds hb (fun b hbm => ?_) ⟨_, m1, ?_⟩ _ _ (by norm_num) (Or.inl (by norm_num))
    · obtain ⟨a, b, c, _⟩ := muSet_points hull bounds hb b hbm
      exact ⟨a, b, c⟩
    · simp only [Mu.sigma, Mu.mu]; norm_num
  · intro b hbm
    exact (muSet_points hull bounds hb b hbm).2.2.2
  · rcases C54_proves hull hs muSet [] [] bounds hb (3 / 5) (3 / 20) (by norm_num) (by norm_num) with ⟨r, h, _⟩ | ⟨_, h⟩
    · exact ⟨r, h⟩
    · exfalso
      have := InConv.mix (ps := bounds.map (fun b => (b.sigma, b.mu))) _ _ (2 / 5) (.point _ (List.mem_map.mpr ⟨_, m1, rfl⟩))
        (.point _ (List.mem_map.mpr ⟨_, m2, rfl⟩)) (by norm_num) (by norm_num)
      simp only [Mu.sigma, Mu.mu] at this
      norm_num at this
      have := h (2 / 15) (by norm_num; exact this)
      norm_num at this

end EP
end Expdb
