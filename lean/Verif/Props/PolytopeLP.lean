import Verif.Lemmas.Geometry
import Verif.Props.PolytopeOps

/-!
# Properties C14, C15, C16, C18: emptiness, subset, cover and difference of polytopes
-/

namespace Expdb
namespace Mat

/-- Feasible points of a matrix. -/
def Feasible (m : Mat) (x : Pt) : Prop := x.length + 1 = m.cols ∧ m.Holds x

/-- Contract of `cdd.LinProg(mat).solve()`: OPTIMAL means that the reported point is feasible,
attains the reported value, and is best; any other status means that there is no feasible point
or that the objective is unbounded. -/
structure LPSpec (lp : LPSolver) : Prop where
  max_opt : ∀ (m : Mat) (obj : Row) (x : Pt) (v : ℚ), m.WF → obj.cs.length + 1 = m.cols →
    lp true m obj = .optimal x v →
    m.Feasible x ∧ v = obj.c0 + dot obj.cs x ∧ ∀ y, m.Feasible y → obj.c0 + dot obj.cs y ≤ v
  max_other : ∀ (m : Mat) (obj : Row) (w : ℚ), m.WF → obj.cs.length + 1 = m.cols →
    lp true m obj = .other w →
    (∀ x, ¬ m.Feasible x) ∨ ∀ B, ∃ y, m.Feasible y ∧ B < obj.c0 + dot obj.cs y
  min_opt : ∀ (m : Mat) (obj : Row) (x : Pt) (v : ℚ), m.WF → obj.cs.length + 1 = m.cols →
    lp false m obj = .optimal x v →
    m.Feasible x ∧ v = obj.c0 + dot obj.cs x ∧ ∀ y, m.Feasible y → v ≤ obj.c0 + dot obj.cs y
  min_other : ∀ (m : Mat) (obj : Row) (w : ℚ), m.WF → obj.cs.length + 1 = m.cols →
    lp false m obj = .other w →
    (∀ x, ¬ m.Feasible x) ∨ ∀ B, ∃ y, m.Feasible y ∧ obj.c0 + dot obj.cs y < B

theorem feasible_iff (m : Mat) (x : Pt) : m.Feasible x ↔ m.Contains x := by
  constructor
  · rintro ⟨h1, h2⟩; exact (contains_iff_holds m x h1).mpr h2
  · intro h
    have := contains_imp m x h
    exact ⟨this, (contains_iff_holds m x this).mp h⟩

/-! ### C14 emptiness -/

/-- **C14 (closed)** `is_empty(include_boundary=True)` is `True` exactly when no point is
contained. -/
theorem C14_isEmptyIncl_iff (lp : LPSolver) (hlp : LPSpec lp) (m : Mat) (hwf : m.WF)
    (hc : 1 ≤ m.cols) : isEmptyIncl lp m = true ↔ ∀ x, ¬ m.Contains x := by
  unfold isEmptyIncl
  have hobj : (List.replicate (m.cols - 1) (0:ℚ)).length + 1 = m.cols := by
    rw [List.length_replicate]; omega
  split
  · rename_i x v h
    have := (hlp.max_opt m _ x v hwf hobj h).1
    simp only [Bool.false_eq_true, false_iff, not_forall, not_not]
    exact ⟨x, (feasible_iff m x).mp this⟩
  · rename_i w h
    simp only [true_iff]
    rcases hlp.max_other m _ w hwf hobj h with h1 | h1
    · exact fun x hx => h1 x ((feasible_iff m x).mpr hx)
    · obtain ⟨y, _, hy⟩ := h1 1
      rw [dot_replicate] at hy
      norm_num at hy

theorem dot_append_singleton (a x : List ℚ) (c e : ℚ) (h : a.length = x.length) :
    dot (a ++ [c]) (x ++ [e]) = dot a x + c * e := by
  rw [dot_append a [c] x [e] h]; simp

/-- **C14 (open)** `is_empty(include_boundary=False)` is `True` exactly when no point satisfies every constraint strictly
(`Strict`: no equality constraints, every inequality strict). -/
theorem C14_isEmptyExcl_strict (lp : LPSolver) (hlp : LPSpec lp) (m : Mat) (hwf : m.WF)
    (hc : 1 ≤ m.cols) :
    isEmptyExcl lp m = true ↔ ∀ x, x.length + 1 = m.cols → ¬ m.Strict x := by
  unfold isEmptyExcl
  by_cases hlin : (m.asList true).length > 0
  · rw [if_pos hlin]
    simp only [true_iff]
    intro x _ hs
    obtain ⟨r, hr⟩ := List.exists_mem_of_length_pos hlin
    rw [mem_asList] at hr
    have := (hs r hr.1).1
    rw [hr.2] at this; cases this
  · rw [if_neg hlin]
    have hno : ∀ r ∈ m.rows, r.lin = false := by
      intro r hr
      cases h : r.lin with
      | false => rfl
      | true =>
        exact absurd (List.length_pos_of_mem ((mem_asList m true r).mpr ⟨hr, h⟩)) hlin
    have hwfE : m.epsMat.WF := by
      intro r hr
      simp only [epsMat, List.mem_append, List.mem_map, mem_asList, List.mem_cons,
        List.not_mem_nil, or_false] at hr ⊢
      rcases hr with ⟨s, ⟨hs, _⟩, rfl⟩ | rfl | rfl
      · have := hwf s hs; simp; omega
      · simp; omega
      · simp; omega
    have hobj : (List.replicate (m.cols - 1) (0:ℚ) ++ [1]).length + 1 = m.epsMat.cols := by
      simp [epsMat]; omega
    -- feasible points of the extended program
    have hfeas : ∀ (x : Pt) (e : ℚ), x.length + 1 = m.cols →
        (m.epsMat.Feasible (x ++ [e]) ↔ (∀ r ∈ m.rows, e ≤ r.c0 + dot r.cs x) ∧ 0 ≤ e ∧ e ≤ 1) := by
      intro x e hx
      unfold Feasible
      have hlen : (x ++ [e]).length + 1 = m.epsMat.cols := by simp [epsMat]; omega
      rw [and_iff_right hlen]
      unfold Holds
      simp only [epsMat, List.mem_append, List.mem_map, mem_asList, List.mem_cons,
        List.not_mem_nil, or_false]
      constructor
      · intro h
        refine ⟨fun r hr => ?_, ?_, ?_⟩
        · have := (h ⟨false, r.c0, r.cs ++ [-1]⟩ (Or.inl ⟨r, ⟨hr, hno r hr⟩, rfl⟩)).2 rfl
          simp only at this
          rw [dot_append_singleton _ _ _ _ (by have := hwf r hr; omega)] at this
          linarith
        · have := (h _ (Or.inr (Or.inl rfl))).2 rfl
          simp only at this
          rw [dot_append_singleton _ _ _ _ (by simp; omega), dot_replicate] at this
          linarith
        · have := (h _ (Or.inr (Or.inr rfl))).2 rfl
          simp only at this
          rw [dot_append_singleton _ _ _ _ (by simp; omega), dot_replicate] at this
          linarith
      · rintro ⟨h1, h2, h3⟩ r hr
        rcases hr with ⟨s, ⟨hs, _⟩, rfl⟩ | rfl | rfl
        · refine ⟨fun h => by simp at h, fun _ => ?_⟩
          simp only
          rw [dot_append_singleton _ _ _ _ (by have := hwf s hs; omega)]
          have := h1 s hs; linarith
        · refine ⟨fun h => by simp at h, fun _ => ?_⟩
          simp only
          rw [dot_append_singleton _ _ _ _ (by simp; omega), dot_replicate]; linarith
        · refine ⟨fun h => by simp at h, fun _ => ?_⟩
          simp only
          rw [dot_append_singleton _ _ _ _ (by simp; omega), dot_replicate]; linarith
    have hsplit : ∀ y : Pt, m.epsMat.Feasible y → ∃ x e, y = x ++ [e] ∧ x.length + 1 = m.cols := by
      intro y hy
      have h1 : y.length = m.cols := by have := hy.1; simp [epsMat] at this; omega
      have hne : y ≠ [] := by intro h; subst h; simp at h1; omega
      refine ⟨y.dropLast, y.getLast hne, (List.dropLast_append_getLast hne).symm, ?_⟩
      rw [List.length_dropLast]; omega
    have hval : ∀ (x : Pt) (e : ℚ), x.length + 1 = m.cols →
        (0:ℚ) + dot (List.replicate (m.cols - 1) 0 ++ [1]) (x ++ [e]) = e := by
      intro x e hx
      rw [dot_append_singleton _ _ _ _ (by simp; omega), dot_replicate]; ring
    -- a strict point gives a feasible point with positive last coordinate
    have hstrict : ∀ x, x.length + 1 = m.cols → m.Strict x →
        ∃ e, 0 < e ∧ m.epsMat.Feasible (x ++ [e]) := by
      intro x hx hs
      have : ∀ rows : List Row, (∀ r ∈ rows, 0 < r.c0 + dot r.cs x) →
          ∃ e, 0 < e ∧ e ≤ 1 ∧ ∀ r ∈ rows, e ≤ r.c0 + dot r.cs x := by
        intro rows hrows
        induction rows with
        | nil => exact ⟨1, by norm_num, le_refl _, fun r hr => by simp at hr⟩
        | cons r rows ih =>
          obtain ⟨e, h1, h2, h3⟩ := ih (fun s hs => hrows s (by simp [hs]))
          refine ⟨min e (r.c0 + dot r.cs x), lt_min h1 (hrows r (by simp)),
            le_trans (min_le_left _ _) h2, fun s hs => ?_⟩
          rcases List.mem_cons.mp hs with rfl | hs
          · exact min_le_right _ _
          · exact le_trans (min_le_left _ _) (h3 s hs)
      obtain ⟨e, h1, h2, h3⟩ := this m.rows (fun r hr => (hs r hr).2)
      exact ⟨e, h1, (hfeas x e hx).mpr ⟨h3, h1.le, h2⟩⟩
    split
    · rename_i w h
      simp only [true_iff]
      intro x hx hs
      obtain ⟨e, _, he⟩ := hstrict x hx hs
      rcases hlp.max_other _ _ w hwfE hobj h with h1 | h1
      · exact h1 _ he
      · obtain ⟨y, hy, hb⟩ := h1 1
        obtain ⟨x', e', rfl, hx'⟩ := hsplit y hy
        simp only at hb
        rw [hval x' e' hx'] at hb
        have := ((hfeas x' e' hx').mp hy).2.2
        linarith
    · rename_i y v h
      obtain ⟨hy, hv, hbest⟩ := hlp.max_opt _ _ y v hwfE hobj h
      obtain ⟨x, e, rfl, hx⟩ := hsplit y hy
      simp only at hv hbest
      rw [hval x e hx] at hv
      rw [decide_eq_true_iff, List.getLast?_concat]
      simp only [Option.some.injEq]
      have hfx := (hfeas x e hx).mp hy
      constructor
      · intro h0 z hz hs
        obtain ⟨e', h1, h2⟩ := hstrict z hz hs
        have := hbest _ h2
        rw [hval z e' hz] at this
        linarith
      · intro h1
        by_contra hne
        refine h1 x hx (fun r hr => ⟨hno r hr, ?_⟩)
        have h2 := hfx.1 r hr
        have h3 : 0 < e := lt_of_le_of_ne hfx.2.1 (Ne.symm hne)
        linarith

/-- **C14 (interior)** For a polytope without identically-zero rows,
`is_empty(include_boundary=False)` is `True` exactly when it has no interior point. -/
theorem C14_isEmptyExcl_iff (lp : LPSolver) (hlp : LPSpec lp) (m : Mat) (hwf : m.WF)
    (hnz : m.NoZero) (hc : 1 ≤ m.cols) :
    isEmptyExcl lp m = true ↔ ∀ x, x.length + 1 = m.cols → ¬ m.Interior x := by
  rw [C14_isEmptyExcl_strict lp hlp m hwf hc]
  exact forall₂_congr (fun x hx => not_congr (interior_iff_strict hwf hnz x hx).symm)

/-- The two emptiness tests are related as expected: no points at all implies no interior. -/
theorem C14_incl_imp_excl (lp : LPSolver) (hlp : LPSpec lp) (m : Mat) (hwf : m.WF)
    (hc : 1 ≤ m.cols) (h : isEmptyIncl lp m = true) : isEmptyExcl lp m = true := by
  rw [C14_isEmptyIncl_iff lp hlp m hwf hc] at h
  rw [C14_isEmptyExcl_strict lp hlp m hwf hc]
  intro x hx hs
  exact h x ((contains_iff_holds m x hx).mpr hs.holds)

/-- Finding: an identically-zero row (which `substitute` produces) makes the open test answer
`True` for a set with interior: the unit square cut at `x = 0` is the segment `0 ≤ y ≤ 1`, which
contains an interval around `1/2`, but the test says it has no interior. -/
theorem C14_zero_row_counterexample (lp : LPSolver) (hlp : LPSpec lp) :
    ∃ sq m, rect [(0, 1), (0, 1)] = .ok sq ∧ sq.substitute [(0, 0)] = .ok m ∧
      isEmptyExcl lp m = true ∧ m.Interior [1/2] := by
  refine ⟨_, _, rfl, rfl, ?_, ?_⟩
  · rw [C14_isEmptyExcl_strict lp hlp _ (by unfold WF; decide +kernel) (by decide +kernel)]
    intro x _ hs
    have := (hs ⟨false, 0, [0]⟩ (by decide +kernel)).2
    rw [dot_zero _ (by simp)] at this
    norm_num at this
  · refine ⟨1/4, by norm_num, fun y hy => ?_⟩
    cases hy with
    | cons h1 h2 =>
      cases h2
      rename_i b
      rw [abs_lt] at h1
      intro r hr
      have hrows : r ∈ [Row.mk false 0 [0], ⟨false, 1, [0]⟩, ⟨false, 0, [1]⟩, ⟨false, 1, [-1]⟩] := by
        have e : (match (rect [(0, 1), (0, 1)]) with
          | .ok sq => (match sq.substitute [(0, 0)] with | .ok m => m.rows | _ => [])
          | _ => []) =
          [Row.mk false 0 [0], ⟨false, 1, [0]⟩, ⟨false, 0, [1]⟩, ⟨false, 1, [-1]⟩] := by
          decide +kernel
        rw [← e]; exact hr
      unfold Row.Holds
      simp only [List.mem_cons, List.not_mem_nil, or_false] at hrows
      rcases hrows with rfl | rfl | rfl | rfl <;> simp <;> linarith

/-! ### C15 subset -/

/-- The objective given by a row is bounded below on `p`. -/
def BoundedBelow (p : Mat) (ab : Row) : Prop :=
  ∃ B, ∀ x, p.Feasible x → B ≤ ab.c0 + dot ab.cs x

theorem mem_asIneqs (q : Mat) (r : Row) : r ∈ q.asIneqs ↔
    (r ∈ q.rows ∧ r.lin = false) ∨ (∃ s ∈ q.rows, s.lin = true ∧ r = s.asIneq) ∨
      ∃ s ∈ q.rows, s.lin = true ∧ r = s.negIneq := by
  unfold asIneqs
  simp only [List.mem_append, List.mem_map, mem_asList]
  constructor
  · rintro ((h | ⟨s, ⟨h1, h2⟩, rfl⟩) | ⟨s, ⟨h1, h2⟩, rfl⟩)
    · exact Or.inl h
    · exact Or.inr (Or.inl ⟨s, h1, h2, rfl⟩)
    · exact Or.inr (Or.inr ⟨s, h1, h2, rfl⟩)
  · rintro (h | ⟨s, h1, h2, rfl⟩ | ⟨s, h1, h2, rfl⟩)
    · exact Or.inl (Or.inl h)
    · exact Or.inl (Or.inr ⟨s, ⟨h1, h2⟩, rfl⟩)
    · exact Or.inr ⟨s, ⟨h1, h2⟩, rfl⟩

theorem holds_iff_asIneqs (q : Mat) (x : Pt) :
    q.Holds x ↔ ∀ r ∈ q.asIneqs, 0 ≤ r.c0 + dot r.cs x := by
  constructor
  · intro h r hr
    rcases (mem_asIneqs q r).mp hr with ⟨h1, h2⟩ | ⟨s, h1, h2, rfl⟩ | ⟨s, h1, h2, rfl⟩
    · exact (h r h1).2 h2
    · have := (h s h1).1 h2
      exact (Row.asIneq_holds s x).mpr this.ge |>.2 rfl
    · have := (h s h1).1 h2
      exact (Row.negIneq_holds s x).mpr this.le |>.2 rfl
  · intro h r hr
    cases hl : r.lin with
    | false =>
      exact ⟨fun h' => absurd (hl.symm.trans h') (by simp),
        fun _ => h r ((mem_asIneqs q r).mpr (Or.inl ⟨hr, hl⟩))⟩
    | true =>
      have h1 := h _ ((mem_asIneqs q _).mpr (Or.inr (Or.inl ⟨r, hr, hl, rfl⟩)))
      have h2 := h _ ((mem_asIneqs q _).mpr (Or.inr (Or.inr ⟨r, hr, hl, rfl⟩)))
      simp only [Row.asIneq] at h1
      simp only [Row.negIneq, dot_neg] at h2
      exact ⟨fun _ => by linarith, fun h' => absurd (hl.symm.trans h') (by simp)⟩

theorem asIneqs_length (q : Mat) (hwf : q.WF) (r : Row) (hr : r ∈ q.asIneqs) :
    r.cs.length + 1 = q.cols := by
  rcases (mem_asIneqs q r).mp hr with ⟨h1, _⟩ | ⟨s, h1, _, rfl⟩ | ⟨s, h1, _, rfl⟩
  · exact hwf r h1
  · exact hwf s h1
  · simp only [Row.negIneq, List.length_map]; exact hwf s h1

/-- **C15** If `P` is non-empty and bounded (in the directions of the constraints of `Q`), then
`P.is_subset_of(Q)` is `True` exactly when every point of `P` is in `Q`. Missing: empty `P` and `P` on which a constraint of
`Q` is unbounded below, where the code reads the objective value of a program without an optimum and the answer depends on
the solver (`C15_empty_counterexample`). -/
theorem C15_isSubsetOf_partial (lp : LPSolver) (hlp : LPSpec lp) (p q : Mat) (hp : p.WF) (hq : q.WF)
    (hcols : p.cols = q.cols) (hne : ∃ x, p.Contains x)
    (hbd : ∀ ab ∈ q.asIneqs, p.BoundedBelow ab) :
    isSubsetOf lp p q = true ↔ ∀ x, p.Contains x → q.Contains x := by
  obtain ⟨x0, hx0⟩ := hne
  rw [← feasible_iff] at hx0
  have hrow : ∀ ab ∈ q.asIneqs, ((!decide ((lp false p ab).objValue < 0)) = true ↔
      ∀ x, p.Feasible x → 0 ≤ ab.c0 + dot ab.cs x) := by
    intro ab hab
    have hlen : ab.cs.length + 1 = p.cols := by rw [hcols]; exact asIneqs_length q hq ab hab
    cases hres : lp false p ab with
    | optimal x v =>
      obtain ⟨h1, h2, h3⟩ := hlp.min_opt p ab x v hp hlen hres
      simp only [LPResult.objValue, Bool.not_eq_true']
      constructor
      · intro hv y hy
        have := of_decide_eq_false hv
        linarith [h3 y hy]
      · intro h
        refine decide_eq_false ?_
        rw [h2, not_lt]; exact h x h1
    | other w =>
      exfalso
      rcases hlp.min_other p ab w hp hlen hres with h | h
      · exact h x0 hx0
      · obtain ⟨B, hB⟩ := hbd ab hab
        obtain ⟨y, hy, hlt⟩ := h B
        linarith [hB y hy]
  unfold isSubsetOf
  rw [List.all_eq_true]
  constructor
  · intro h x hx
    rw [← feasible_iff] at hx ⊢
    refine ⟨by rw [← hcols]; exact hx.1, (holds_iff_asIneqs q x).mpr (fun r hr => ?_)⟩
    exact (hrow r hr).mp (h r hr) x hx
  · intro h r hr
    refine (hrow r hr).mpr (fun x hx => ?_)
    have := (feasible_iff q x).mpr (h x ((feasible_iff p x).mp hx))
    exact (holds_iff_asIneqs q x).mp this.2 r hr

/-- Non-vacuity of C15: the square `[0,1]²` meets the hypotheses with `Q` a half plane. -/
example : ∃ p q, rect [(0, 1), (0, 1)] = .ok p ∧ q = Mat.mk 3 [⟨false, 3, [-1, -1]⟩] ∧
    p.WF ∧ q.WF ∧ p.cols = q.cols ∧ p.Contains [0, 0] ∧ ∀ ab ∈ q.asIneqs, p.BoundedBelow ab := by
  refine ⟨_, _, rfl, rfl, by unfold WF; decide +kernel, by unfold WF; decide +kernel, rfl,
    by unfold Contains; decide +kernel, ?_⟩
  intro ab hab
  have : ab = ⟨false, 3, [-1, -1]⟩ := by
    have e : asIneqs (Mat.mk 3 [⟨false, 3, [-1, -1]⟩]) = [⟨false, 3, [-1, -1]⟩] := by decide +kernel
    rw [e] at hab; simpa using hab
  subst this
  refine ⟨0, fun x hx => ?_⟩
  have h1 := (hx.2 ⟨false, 1, [-1, 0]⟩ (by decide +kernel)).2 rfl
  have h2 := (hx.2 ⟨false, 1, [0, -1]⟩ (by decide +kernel)).2 rfl
  match x, hx.1 with
  | [a, b], _ => simp at h1 h2 ⊢; linarith

/-! ### C16 cover -/

theorem mem_coverCons (q : Mat) (r : Row) : r ∈ q.coverCons ↔ r ∈ q.asIneqs := by
  rw [mem_asIneqs]
  unfold coverCons
  simp only [List.mem_append, List.mem_flatMap, mem_asList, List.mem_cons, List.not_mem_nil,
    or_false]
  constructor
  · rintro (h | ⟨s, ⟨h1, h2⟩, h | h⟩)
    · exact Or.inl h
    · exact Or.inr (Or.inl ⟨s, h1, h2, h⟩)
    · exact Or.inr (Or.inr ⟨s, h1, h2, h⟩)
  · rintro (h | ⟨s, h1, h2, h⟩ | ⟨s, h1, h2, h⟩)
    · exact Or.inl h
    · exact Or.inr ⟨s, ⟨h1, h2⟩, Or.inl h⟩
    · exact Or.inr ⟨s, ⟨h1, h2⟩, Or.inr h⟩

theorem isCoveredBy_iff_strict (lp : LPSolver) (hlp : LPSpec lp) (polys : List Mat) (n : Nat)
    (hn : 1 ≤ n) (hqs : ∀ q ∈ polys, q.WF ∧ q.cols = n) :
    ∀ (p : Mat), p.WF → p.cols = n →
      (polys ≠ [] ∨ ∃ x, x.length + 1 = n ∧ p.Strict x) →
      (isCoveredBy (isEmptyExcl lp) p polys = true ↔
        ∀ x, x.length + 1 = n → p.Strict x → ∃ q ∈ polys, q.Holds x) := by
  induction polys with
  | nil =>
    intro p hp hpn hor
    simp only [ne_eq, not_true_eq_false, false_or] at hor
    obtain ⟨x, hx, hs⟩ := hor
    simp only [isCoveredBy, Bool.false_eq_true, false_iff]
    intro h
    obtain ⟨q, hq, _⟩ := h x hx hs
    simp at hq
  | cons q rest ih =>
    intro p hp hpn _
    have hq := hqs q (by simp)
    simp only [isCoveredBy, List.all_eq_true]
    have hstep : ∀ con ∈ q.coverCons,
        ((if (!isEmptyExcl lp ⟨p.cols, p.rows ++ [con.negIneq]⟩) = true then
            if (!isCoveredBy (isEmptyExcl lp) ⟨p.cols, p.rows ++ [con.negIneq]⟩ rest) = true then
              false else true
          else true) = true ↔
        ∀ x, x.length + 1 = n → p.Strict x → con.c0 + dot con.cs x < 0 → ∃ r ∈ rest, r.Holds x) := by
      intro con hcon
      have hlen : con.cs.length + 1 = n := by
        rw [← hq.2]; exact asIneqs_length q hq.1 con ((mem_coverCons q con).mp hcon)
      set P : Mat := ⟨p.cols, p.rows ++ [con.negIneq]⟩ with hP
      have hPwf : P.WF := by
        intro r hr
        simp only [hP, List.mem_append, List.mem_singleton] at hr ⊢
        rcases hr with hr | rfl
        · exact hp r hr
        · simp only [Row.negIneq, List.length_map]; omega
      have hPs : ∀ x, P.Strict x ↔ p.Strict x ∧ con.c0 + dot con.cs x < 0 := by
        intro x
        rw [hP, strict_append]
        simp only [List.mem_singleton, forall_eq, Row.negIneq_strict]
      have hPn : P.cols = n := hpn
      cases hE : isEmptyExcl lp P with
      | true =>
        simp only [Bool.not_true, Bool.false_eq_true, if_false, true_iff]
        rw [C14_isEmptyExcl_strict lp hlp P hPwf (by rw [hPn]; exact hn)] at hE
        intro x hx hs hneg
        exact absurd ((hPs x).mpr ⟨hs, hneg⟩) (hE x (by rw [hPn]; exact hx))
      | false =>
        have hex : ∃ x, x.length + 1 = n ∧ P.Strict x := by
          by_contra hcon'
          push Not at hcon'
          have := (C14_isEmptyExcl_strict lp hlp P hPwf (by rw [hPn]; exact hn)).mpr
            (fun x hx => hcon' x (by rw [← hPn]; exact hx))
          rw [hE] at this; cases this
        have := ih (fun r hr => hqs r (by simp [hr])) P hPwf hPn (Or.inr hex)
        simp only [Bool.not_false, if_true]
        have e : (if (!isCoveredBy (isEmptyExcl lp) P rest) = true then false else true) =
            isCoveredBy (isEmptyExcl lp) P rest := by
          cases isCoveredBy (isEmptyExcl lp) P rest <;> rfl
        rw [e, this]
        constructor
        · intro h x hx hs hneg; exact h x hx ((hPs x).mpr ⟨hs, hneg⟩)
        · intro h x hx hs; exact h x hx ((hPs x).mp hs).1 ((hPs x).mp hs).2
    rw [forall₂_congr hstep]
    constructor
    · intro h x hx hs
      by_cases hqx : q.Holds x
      · exact ⟨q, by simp, hqx⟩
      · rw [holds_iff_asIneqs] at hqx
        push Not at hqx
        obtain ⟨con, hcon, hneg⟩ := hqx
        obtain ⟨r, hr, hrx⟩ := h con ((mem_coverCons q con).mpr hcon) x hx hs hneg
        exact ⟨r, by simp [hr], hrx⟩
    · intro h con hcon x hx hs hneg
      obtain ⟨r, hr, hrx⟩ := h x hx hs
      rcases List.mem_cons.mp hr with rfl | hr
      · have := (holds_iff_asIneqs r x).mp hrx con ((mem_coverCons r con).mp hcon)
        linarith
      · exact ⟨r, hr, hrx⟩

/-- **C16** For a polytope `P` with an interior point, `P.is_covered_by(polys)` is `True` exactly
when every point of `P` (boundary included) is in one of the polytopes. -/
theorem C16_isCoveredBy_iff (lp : LPSolver) (hlp : LPSpec lp) (p : Mat) (polys : List Mat)
    (hp : p.WF) (hnz : p.NoZero) (hqs : ∀ q ∈ polys, q.WF ∧ q.cols = p.cols)
    (s : Pt) (hs1 : s.length + 1 = p.cols) (hs : p.Interior s) :
    isCoveredBy (isEmptyExcl lp) p polys = true ↔
      ∀ x, p.Contains x → ∃ q ∈ polys, q.Contains x := by
  have hss := hs.strict hp hnz hs1
  rw [isCoveredBy_iff_strict lp hlp polys p.cols (by omega) hqs p hp rfl (Or.inr ⟨s, hs1, hss⟩)]
  constructor
  · intro h x hx
    have hxl := contains_imp p x hx
    have hxh := (contains_iff_holds p x hxl).mp hx
    have := union_closed polys x (fun ε hε => by
      obtain ⟨y, h1, h2⟩ := strict_dense (by omega : s.length = x.length) hss hxh hε
      exact ⟨y, h1, h y (by rw [h1.length]; exact hxl) h2⟩)
    obtain ⟨q, hq, hqx⟩ := this
    exact ⟨q, hq, (contains_iff_holds q x (by rw [(hqs q hq).2]; exact hxl)).mpr hqx⟩
  · intro h x hx hstr
    obtain ⟨q, hq, hqx⟩ := h x ((contains_iff_holds p x hx).mpr hstr.holds)
    exact ⟨q, hq, (contains_iff_holds q x (by rw [(hqs q hq).2]; exact hx)).mp hqx⟩

/-- Non-vacuity of C16: `[0,2]` has the interior point `1` (and is covered by `[0,1]`, `[1,2]`). -/
example : ∃ p, rect [(0, 2)] = .ok p ∧ p.WF ∧ p.NoZero ∧ p.Interior [1] := by
  refine ⟨_, rfl, by unfold WF; decide +kernel, by unfold NoZero; decide +kernel, ?_⟩
  refine Strict.interior ?_
  unfold Strict Row.Strict
  decide +kernel

/-- Finding: for a polytope with an equality row the test is always `True` as soon as the list is
non-empty, even if no point is covered: `{5}` is "covered" by `[0,1]`. -/
theorem C16_lower_dim_counterexample (lp : LPSolver) :
    ∃ q, rect [(0, 1)] = .ok q ∧
      isCoveredBy (isEmptyExcl lp) ⟨2, [⟨true, -5, [1]⟩]⟩ [q] = true ∧
      (Mat.mk 2 [⟨true, -5, [1]⟩]).Contains [5] ∧ ¬ q.Contains [5] := by
  refine ⟨_, rfl, ?_, by unfold Contains; decide +kernel, by unfold Contains; decide +kernel⟩
  have hE : ∀ rs, isEmptyExcl lp ⟨2, [⟨true, -5, [1]⟩] ++ rs⟩ = true := by
    intro rs; unfold isEmptyExcl asList; simp
  simp only [isCoveredBy, hE, Bool.not_true, Bool.false_eq_true, if_false, List.all_eq_true,
    implies_true]

/-- Finding: with an empty list the answer is `False` even for an empty polytope. -/
theorem C16_nil (emptyExcl : Mat → Bool) (p : Mat) : isCoveredBy emptyExcl p [] = false := rfl

/-! ### C18 difference -/

/-- Contract of `canonicalize`: no identically-zero rows appear. -/
def CanonNoZero (canon : Mat → Mat) : Prop := ∀ m : Mat, m.WF → m.NoZero → (canon m).NoZero

theorem interior_congr {m m' : Mat} (n : Nat) (h : ∀ x : Pt, x.length + 1 = n → (m.Holds x ↔ m'.Holds x))
    (x : Pt) (hx : x.length + 1 = n) : m.Interior x ↔ m'.Interior x := by
  unfold Interior
  constructor
  · rintro ⟨ε, h1, h2⟩
    exact ⟨ε, h1, fun y hy => (h y (by rw [hy.length]; exact hx)).mp (h2 y hy)⟩
  · rintro ⟨ε, h1, h2⟩
    exact ⟨ε, h1, fun y hy => (h y (by rw [hy.length]; exact hx)).mpr (h2 y hy)⟩

theorem negIneq_isZero (r : Row) : r.negIneq.isZero = r.isZero := by
  rw [Bool.eq_iff_iff, Row.isZero_iff, Row.isZero_iff]
  simp only [Row.negIneq, List.mem_map, forall_exists_index, and_imp, forall_apply_eq_imp_iff₂,
    neg_eq_zero]

section SetMinus

variable (canon : Mat → Mat) (hc : CanonSpec canon) (hcz : CanonNoZero canon)
  (lp : LPSolver) (hlp : LPSpec lp) (n : Nat) (hn : 1 ≤ n)

private theorem part_holds (hc : CanonSpec canon) (simp : Bool) (A1 : Mat) (hA1 : A1.WF) (hA1n : A1.cols = n)
    (x : Pt) (hx : x.length + 1 = n) :
    (if simp then canon A1 else A1).Holds x ↔ A1.Holds x := by
  cases simp
  · exact Iff.rfl
  · exact (hc A1 hA1).2.2 x (by rw [hA1n]; exact hx)

private theorem addRow_wf (A : Mat) (hA : A.WF) (hAn : A.cols = n) (r : Row)
    (hr : r.cs.length + 1 = n) : WF ⟨A.cols, A.rows ++ [r]⟩ := by
  intro s hs
  simp only [List.mem_append, List.mem_singleton] at hs ⊢
  rcases hs with hs | rfl
  · exact hA s hs
  · omega

private theorem addRow_nz (A : Mat) (hA : A.NoZero) (r : Row) (hr : r.isZero = false) :
    NoZero ⟨A.cols, A.rows ++ [r]⟩ := by
  intro s hs
  simp only [List.mem_append, List.mem_singleton] at hs
  rcases hs with hs | rfl
  · exact hA s hs
  · exact hr

private theorem negIneq_len (r : Row) : r.negIneq.cs.length = r.cs.length := by
  simp [Row.negIneq]

include hc in
/-- every part lies in `A` and outside the interior of `B` -/
private theorem loop_sound (emptyExcl : Mat → Bool) (simp : Bool) (rs : List Row)
    (hrs : ∀ r ∈ rs, r.lin = false ∧ r.cs.length + 1 = n) :
    ∀ (A : Mat), A.WF → A.cols = n → ∀ part ∈ setMinusLoop canon emptyExcl simp A rs,
      part.WF ∧ part.cols = n ∧ ∀ x, x.length + 1 = n → part.Holds x →
        A.Holds x ∧ ∃ r ∈ rs, r.c0 + dot r.cs x ≤ 0 := by
  induction rs with
  | nil => intro A _ _ part hp; simp [setMinusLoop] at hp
  | cons r rest ih =>
    intro A hA hAn part hp
    have hr := hrs r (by simp)
    have hwf1 := addRow_wf n A hA hAn r.negIneq (by rw [negIneq_len]; exact hr.2)
    have hhead : ∀ part, part = (if simp then canon ⟨A.cols, A.rows ++ [r.negIneq]⟩
          else ⟨A.cols, A.rows ++ [r.negIneq]⟩) →
        part.WF ∧ part.cols = n ∧ ∀ x, x.length + 1 = n → part.Holds x →
        A.Holds x ∧ ∃ r' ∈ r :: rest, r'.c0 + dot r'.cs x ≤ 0 := by
      rintro part rfl
      refine ⟨?_, ?_, fun x hx hpx => ?_⟩
      · cases simp
        · exact hwf1
        · exact (hc _ hwf1).2.1
      · cases simp
        · exact hAn
        · exact (hc _ hwf1).1.trans hAn
      · rw [part_holds canon n hc simp _ hwf1 hAn x hx] at hpx
        rw [holds_append] at hpx
        refine ⟨hpx.1, r, by simp, ?_⟩
        have := hpx.2 r.negIneq (by simp)
        exact (Row.negIneq_holds r x).mp this
    have htail : ∀ part, part ∈ setMinusLoop canon emptyExcl simp
          (if rest.length > 0 then ⟨A.cols, A.rows ++ [r]⟩ else A) rest →
        part.WF ∧ part.cols = n ∧ ∀ x, x.length + 1 = n → part.Holds x →
        A.Holds x ∧ ∃ r' ∈ r :: rest, r'.c0 + dot r'.cs x ≤ 0 := by
      intro part hpt
      have hA' : WF (if rest.length > 0 then ⟨A.cols, A.rows ++ [r]⟩ else A) := by
        split
        · exact addRow_wf n A hA hAn r hr.2
        · exact hA
      have hAn' : (if rest.length > 0 then (⟨A.cols, A.rows ++ [r]⟩ : Mat) else A).cols = n := by
        split <;> exact hAn
      obtain ⟨h1, h2, h3⟩ := ih (fun s hs => hrs s (by simp [hs])) _ hA' hAn' part hpt
      refine ⟨h1, h2, fun x hx hpx => ?_⟩
      obtain ⟨h4, s, hs, h5⟩ := h3 x hx hpx
      refine ⟨?_, s, by simp [hs], h5⟩
      split at h4
      · exact ((holds_append A [r] x).mp h4).1
      · exact h4
    simp only [setMinusLoop, hr.1, Bool.false_eq_true, if_false] at hp
    cases simp
    · simp only [Bool.false_eq_true, if_false, List.mem_cons] at hp
      rcases hp with hp | hp
      · exact hhead part (by simpa using hp)
      · exact htail part hp
    · simp only [if_true] at hp
      split at hp
      · rcases List.mem_cons.mp hp with hp | hp
        · exact hhead part (by simpa using hp)
        · exact htail part hp
      · exact htail part hp

include hc hcz hlp hn in
/-- generic points of `A ∖ B` are in a part -/
private theorem loop_complete (simp : Bool) (rs : List Row)
    (hrs : ∀ r ∈ rs, r.lin = false ∧ r.cs.length + 1 = n ∧ r.isZero = false) :
    ∀ (A : Mat), A.WF → A.NoZero → A.cols = n → ∀ y, y.length + 1 = n → A.Strict y →
      (∀ r ∈ rs, r.c0 + dot r.cs y ≠ 0) → (∃ r ∈ rs, r.c0 + dot r.cs y < 0) →
      ∃ part ∈ setMinusLoop canon (isEmptyExcl lp) simp A rs, part.Holds y := by
  induction rs with
  | nil => intro A _ _ _ y _ _ _ h; obtain ⟨r, hr, _⟩ := h; simp at hr
  | cons r rest ih =>
    intro A hA hAz hAn y hy hs hne hex
    have hr := hrs r (by simp)
    have hwf1 := addRow_wf n A hA hAn r.negIneq (by rw [negIneq_len]; exact hr.2.1)
    have hnz1 := addRow_nz A hAz r.negIneq (by rw [negIneq_isZero]; exact hr.2.2)
    by_cases hneg : r.c0 + dot r.cs y < 0
    · -- the head part
      have hs1 : Strict ⟨A.cols, A.rows ++ [r.negIneq]⟩ y := by
        rw [strict_append]
        exact ⟨hs, by simpa [Row.negIneq_strict] using hneg⟩
      cases simp
      · refine ⟨⟨A.cols, A.rows ++ [r.negIneq]⟩, ?_, hs1.holds⟩
        simp [setMinusLoop, hr.1]
      · obtain ⟨hcc, hcw, hch⟩ := hc _ hwf1
        have hint : (canon ⟨A.cols, A.rows ++ [r.negIneq]⟩).Interior y := by
          rw [interior_congr n (fun x hx => hch x (by simp only; omega)) y hy]
          exact hs1.interior
        have hstr := hint.strict hcw (hcz _ hwf1 hnz1) (by rw [hcc]; simp only; omega)
        have hE : isEmptyExcl lp (canon ⟨A.cols, A.rows ++ [r.negIneq]⟩) = false := by
          rw [Bool.eq_false_iff]
          intro hE
          rw [C14_isEmptyExcl_strict lp hlp _ hcw (by rw [hcc]; simp only; omega)] at hE
          exact hE y (by rw [hcc]; simp only; omega) hstr
        refine ⟨canon ⟨A.cols, A.rows ++ [r.negIneq]⟩, ?_, hstr.holds⟩
        simp [setMinusLoop, hr.1, hE]
    · have hpos : 0 < r.c0 + dot r.cs y :=
        lt_of_le_of_ne (not_lt.mp hneg) (Ne.symm (hne r (by simp)))
      obtain ⟨s, hsm, hsn⟩ := hex
      have hsr : s ∈ rest := by
        rcases List.mem_cons.mp hsm with rfl | h
        · exact absurd hsn hneg
        · exact h
      have hlen : rest.length > 0 := List.length_pos_of_mem hsr
      obtain ⟨part, hp1, hp2⟩ := ih (fun s hs => hrs s (by simp [hs])) ⟨A.cols, A.rows ++ [r]⟩
        (addRow_wf n A hA hAn r hr.2.1) (addRow_nz A hAz r hr.2.2) hAn y hy
        (by
          rw [strict_append]
          refine ⟨hs, fun r' hr' => ?_⟩
          simp only [List.mem_singleton] at hr'
          subst hr'
          exact ⟨hr.1, hpos⟩)
        (fun s hs => hne s (by simp [hs])) ⟨s, hsr, hsn⟩
      refine ⟨part, ?_, hp2⟩
      simp only [setMinusLoop, hr.1, Bool.false_eq_true, if_false, hlen, if_true]
      cases simp
      · simp [hp1]
      · simp only [if_true]
        split
        · simp [hp1]
        · exact hp1

include hc in
/-- different parts have no common interior point -/
private theorem loop_disjoint (emptyExcl : Mat → Bool) (simp : Bool) (rs : List Row)
    (hrs : ∀ r ∈ rs, r.lin = false ∧ r.cs.length + 1 = n ∧ r.isZero = false) :
    ∀ (A : Mat), A.WF → A.cols = n →
      (setMinusLoop canon emptyExcl simp A rs).Pairwise
        (fun p q => ∀ x, x.length + 1 = n → ¬ (p.Interior x ∧ q.Interior x)) := by
  induction rs with
  | nil => intro A _ _; simp [setMinusLoop]
  | cons r rest ih =>
    intro A hA hAn
    have hr := hrs r (by simp)
    have hwf1 := addRow_wf n A hA hAn r.negIneq (by rw [negIneq_len]; exact hr.2.1)
    have hA' : WF (if rest.length > 0 then ⟨A.cols, A.rows ++ [r]⟩ else A) := by
      split
      · exact addRow_wf n A hA hAn r hr.2.1
      · exact hA
    have hAn' : (if rest.length > 0 then (⟨A.cols, A.rows ++ [r]⟩ : Mat) else A).cols = n := by
      split <;> exact hAn
    have hrest := fun s (hs : s ∈ rest) => hrs s (by simp [hs])
    have htail := ih hrest _ hA' hAn'
    have hcross : ∀ q ∈ setMinusLoop canon emptyExcl simp
          (if rest.length > 0 then ⟨A.cols, A.rows ++ [r]⟩ else A) rest,
        ∀ x, x.length + 1 = n →
        ¬ ((if simp then canon ⟨A.cols, A.rows ++ [r.negIneq]⟩
          else ⟨A.cols, A.rows ++ [r.negIneq]⟩).Interior x ∧ q.Interior x) := by
      rintro q hq x hx ⟨⟨ε, he, h1⟩, ⟨δ, hd, h2⟩⟩
      have hrl : rest.length > 0 := by
        cases rest with
        | nil => simp [setMinusLoop] at hq
        | cons _ _ => simp
      rw [if_pos hrl] at hq
      have hqs := (loop_sound canon hc n emptyExcl simp rest
        (fun s hs => ⟨(hrest s hs).1, (hrest s hs).2.1⟩) ⟨A.cols, A.rows ++ [r]⟩
        (addRow_wf n A hA hAn r hr.2.1) hAn q hq).2.2
      obtain ⟨y, hy1, hy2⟩ := exists_generic [r] x (by
        intro g hg; simp only [List.mem_singleton] at hg; subst hg
        exact ⟨hr.2.2, by omega⟩) (lt_min he hd)
      have hyl : y.length + 1 = n := by rw [hy1.length]; exact hx
      have e1 := h1 y (hy1.mono (min_le_left _ _))
      have e2 := h2 y (hy1.mono (min_le_right _ _))
      rw [part_holds canon n hc simp _ hwf1 hAn y hyl, holds_append] at e1
      have e3 := (Row.negIneq_holds r y).mp (e1.2 r.negIneq (by simp))
      have e4 := ((holds_append A [r] y).mp (hqs y hyl e2).1).2 r (by simp)
      have e5 := e4.2 hr.1
      exact hy2 r (by simp) (le_antisymm e3 e5)
    simp only [setMinusLoop, hr.1, Bool.false_eq_true, if_false]
    cases simp
    · simp only [Bool.false_eq_true, if_false]
      refine List.pairwise_cons.mpr ⟨fun q hq x hx => ?_, htail⟩
      have := hcross q hq x hx
      simpa using this
    · simp only [if_true]
      split
      · refine List.pairwise_cons.mpr ⟨fun q hq x hx => ?_, htail⟩
        have := hcross q hq x hx
        simpa using this
      · exact htail

end SetMinus

/-- **C18** For `A` with an interior point and `B` given by inequalities only, the parts returned
by `A.set_minus(B)` lie in `A`, contain no interior point of `B`, have pairwise no common interior
point, and together contain every point of `A` that is not in `B`. Missing: `B` with equality constraints, for which it is
false (`C18_equality_counterexample`), and `A` without interior points. -/
theorem C18_setMinus_partial (canon : Mat → Mat) (hc : CanonSpec canon) (hcz : CanonNoZero canon)
    (lp : LPSolver) (hlp : LPSpec lp) (simp : Bool) (A B : Mat) (hA : A.WF) (hB : B.WF)
    (hAz : A.NoZero) (hBz : B.NoZero) (hBl : B.NoLin) (hcols : A.cols = B.cols)
    (s : Pt) (hs1 : s.length + 1 = A.cols) (hs : A.Interior s) :
    (∀ x, A.Contains x → ¬ B.Contains x →
      ∃ part ∈ setMinus canon (isEmptyExcl lp) simp A B, part.Contains x) ∧
    (∀ part ∈ setMinus canon (isEmptyExcl lp) simp A B, ∀ x, part.Contains x →
      A.Contains x ∧ ¬ B.Interior x) ∧
    (setMinus canon (isEmptyExcl lp) simp A B).Pairwise
      (fun p q => ∀ x, x.length + 1 = A.cols → ¬ (p.Interior x ∧ q.Interior x)) := by
  have hrs : ∀ r ∈ B.rows, r.lin = false ∧ r.cs.length + 1 = A.cols ∧ r.isZero = false :=
    fun r hr => ⟨hBl r hr, by rw [hcols]; exact hB r hr, hBz r hr⟩
  have hsound := loop_sound canon hc A.cols (isEmptyExcl lp) simp B.rows
    (fun r hr => ⟨(hrs r hr).1, (hrs r hr).2.1⟩) A hA rfl
  refine ⟨fun x hx hxB => ?_, fun part hp x hx => ?_, ?_⟩
  · have hxl := contains_imp A x hx
    have hxh := (contains_iff_holds A x hxl).mp hx
    rw [contains_iff_holds B x (by rw [← hcols]; exact hxl)] at hxB
    have hss := hs.strict hA hAz hs1
    have hneg : ∃ r ∈ B.rows, r.c0 + dot r.cs x < 0 := by
      unfold Holds at hxB
      push Not at hxB
      obtain ⟨r, hr, h⟩ := hxB
      refine ⟨r, hr, ?_⟩
      by_contra hcon
      exact h ⟨fun h' => absurd ((hBl r hr).symm.trans h') (by simp), fun _ => not_lt.mp hcon⟩
    obtain ⟨r0, hr0, hneg⟩ := hneg
    obtain ⟨ε0, he0, hnear0⟩ := neg_near _ _ _ hneg
    obtain ⟨part, hp, hpx⟩ := union_closed (setMinus canon (isEmptyExcl lp) simp A B) x (by
      intro ε hε
      have hε2 : 0 < min ε ε0 / 2 := by have := lt_min hε he0; linarith
      obtain ⟨y, hy1, hy2⟩ := strict_dense (by omega : s.length = x.length) hss hxh hε2
      obtain ⟨δ, hd, hint⟩ := hy2.interior
      obtain ⟨z, hz1, hz2⟩ := exists_generic (B.rows ++ A.rows) y (by
        intro g hg
        rcases List.mem_append.mp hg with hg | hg
        · exact ⟨hBz g hg, by have := (hrs g hg).2.1; have := hy1.length; omega⟩
        · exact ⟨hAz g hg, by have := hA g hg; have := hy1.length; omega⟩) (lt_min hε2 hd)
      have hzl : z.length + 1 = A.cols := by rw [hz1.length, hy1.length]; exact hxl
      have hzh := hint z (hz1.mono (min_le_right _ _))
      have hznear : Near (min ε ε0) x z := (hy1.trans hz1).mono (by
        have := min_le_left (min ε ε0 / 2) δ; linarith)
      have hzs : A.Strict z := by
        intro r hr
        have hl := (hss r hr).1
        exact ⟨hl, lt_of_le_of_ne ((hzh r hr).2 hl)
          (Ne.symm (hz2 r (List.mem_append_right _ hr)))⟩
      obtain ⟨part, hp1, hp2⟩ := loop_complete canon hc hcz lp hlp A.cols (by omega) simp B.rows
        hrs A hA hAz rfl z hzl hzs (fun r hr => hz2 r (List.mem_append_left _ hr))
        ⟨r0, hr0, hnear0 z (hznear.mono (min_le_right _ _))⟩
      exact ⟨z, hznear.mono (min_le_left _ _), part, hp1, hp2⟩)
    refine ⟨part, hp, (contains_iff_holds part x ?_).mpr hpx⟩
    rw [(hsound part hp).2.1]; exact hxl
  · obtain ⟨h1, h2, h3⟩ := hsound part hp
    have hxl := contains_imp part x hx
    rw [contains_iff_holds part x hxl] at hx
    rw [h2] at hxl
    obtain ⟨h4, r, hr, h5⟩ := h3 x hxl hx
    refine ⟨(contains_iff_holds A x hxl).mpr h4, fun hint => ?_⟩
    have := (hint.strict hB hBz (by rw [← hcols]; exact hxl) r hr).2
    linarith
  · exact loop_disjoint canon hc A.cols (isEmptyExcl lp) simp B.rows hrs A hA rfl

/-- Non-vacuity of C18: `[0,3] ∖ [1,2]` without the simplification has the two expected parts. -/
example : ∃ A B, rect [(0, 3)] = .ok A ∧ rect [(1, 2)] = .ok B ∧ A.NoZero ∧ B.NoZero ∧ B.NoLin ∧
    A.Interior [1] ∧
    setMinus id (fun _ => false) false A B =
      [⟨2, [⟨false, 0, [1]⟩, ⟨false, 3, [-1]⟩, ⟨false, 1, [-1]⟩]⟩,
       ⟨2, [⟨false, 0, [1]⟩, ⟨false, 3, [-1]⟩, ⟨false, -1, [1]⟩, ⟨false, -2, [1]⟩]⟩] := by
  refine ⟨_, _, rfl, rfl, ?_, ?_, ?_, ?_, ?_⟩
  · unfold NoZero; decide +kernel
  · unfold NoZero; decide +kernel
  · unfold NoLin; decide +kernel
  · refine Strict.interior ?_
    unfold Strict Row.Strict
    decide +kernel
  · decide +kernel

/-- Finding: equality rows of `B` are skipped, so removing a line (an equality-only `B`) from a
square returns nothing although almost all points of the square are not on the line. -/
theorem C18_equality_counterexample (canon : Mat → Mat) (emptyExcl : Mat → Bool) (simp : Bool) :
    ∃ A, rect [(0, 1), (0, 1)] = .ok A ∧
      setMinus canon emptyExcl simp A ⟨3, [⟨true, 0, [1, -1]⟩]⟩ = [] ∧
      A.Contains [0, 1] ∧ ¬ (Mat.mk 3 [⟨true, 0, [1, -1]⟩]).Contains [0, 1] := by
  refine ⟨_, rfl, ?_, by unfold Contains; decide +kernel, by unfold Contains; decide +kernel⟩
  simp [setMinus, setMinusLoop]

end Mat
end Expdb
