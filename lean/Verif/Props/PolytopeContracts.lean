import Verif.Props.PolytopeLP

/-!
# Linear programs over ℚ attain their optimum (Fourier–Motzkin elimination)

The linear program solver is an external library and enters the theorems as a parameter with the
contract `Mat.LPSpec`.  Here it is proved that the contract can be met.
-/

namespace Expdb
namespace FM

/-- An inequality `0 ≤ c + a · x`. -/
structure Ineq where
  c : ℚ
  a : List ℚ

/-- The inequality holds at `x`. -/
def Ineq.Ok (r : Ineq) (x : List ℚ) : Prop := 0 ≤ r.c + dot r.a x

theorem between (L U : List ℚ) (h : ∀ l ∈ L, ∀ u ∈ U, l ≤ u) :
    ∃ t, (∀ l ∈ L, l ≤ t) ∧ ∀ u ∈ U, t ≤ u := by
  induction L with
  | nil =>
    induction U with
    | nil => exact ⟨0, by simp, by simp⟩
    | cons u U ih =>
      obtain ⟨t, _, ht⟩ := ih (by simp)
      refine ⟨min t u, by simp, fun v hv => ?_⟩
      rcases List.mem_cons.mp hv with rfl | hv
      · exact min_le_right _ _
      · exact (min_le_left _ _).trans (ht v hv)
  | cons l L ih =>
    obtain ⟨t, h1, h2⟩ := ih (fun a ha u hu => h a (by simp [ha]) u hu)
    refine ⟨max t l, fun a ha => ?_, fun u hu => max_le (h2 u hu) (h l (by simp) u hu)⟩
    rcases List.mem_cons.mp ha with rfl | ha
    · exact le_max_right _ _
    · exact (h1 a ha).trans (le_max_left _ _)

/-- leading coefficient -/
def Ineq.hd (r : Ineq) : ℚ := r.a.headD 0

/-- positive combination of a row with positive and one with negative leading coefficient that
eliminates the first variable -/
def comb (p q : Ineq) : Ineq :=
  ⟨-q.hd * p.c + p.hd * q.c,
    List.zipWith (· + ·) (p.a.tail.map (fun t => -q.hd * t)) (q.a.tail.map (fun t => p.hd * t))⟩

/-- eliminate the first variable -/
def elim (rs : List Ineq) : List Ineq :=
  (rs.filter (fun r => r.hd = 0)).map (fun r => ⟨r.c, r.a.tail⟩) ++
  (rs.filter (fun r => 0 < r.hd)).flatMap (fun p => (rs.filter (fun r => r.hd < 0)).map (comb p))

theorem dot_map_mul (a x : List ℚ) (t : ℚ) : dot (a.map (fun c => t * c)) x = t * dot a x := by
  induction a generalizing x with
  | nil => simp
  | cons c a ih => cases x with
    | nil => simp
    | cons u x => simp [ih]; ring

theorem dot_add_left' (a b x : List ℚ) (h : a.length = b.length) :
    dot (List.zipWith (· + ·) a b) x = dot a x + dot b x := by
  induction a generalizing b x with
  | nil => cases b <;> simp at h ⊢
  | cons c a ih => cases b with
    | nil => simp at h
    | cons d b => cases x with
      | nil => simp
      | cons u x => simp at h; simp [ih b x h]; ring

theorem dot_cons_eq (r : Ineq) (t : ℚ) (x : List ℚ) (h : r.a ≠ []) :
    dot r.a (t :: x) = r.hd * t + dot r.a.tail x := by
  unfold Ineq.hd
  cases hr : r.a with
  | nil => exact absurd hr h
  | cons a l => simp

theorem elim_length (n : Nat) (rs : List Ineq) (h : ∀ r ∈ rs, r.a.length = n + 1) :
    ∀ r ∈ elim rs, r.a.length = n := by
  intro r hr
  unfold elim at hr
  rw [List.mem_append, List.mem_map, List.mem_flatMap] at hr
  rcases hr with ⟨s, hs, rfl⟩ | ⟨p, hp, hr⟩
  · have := h s (List.mem_filter.mp hs).1
    simp [this]
  · obtain ⟨q, hq, rfl⟩ := List.mem_map.mp hr
    have h1 := h p (List.mem_filter.mp hp).1
    have h2 := h q (List.mem_filter.mp hq).1
    simp [comb, h1, h2]

theorem elim_iff (n : Nat) (rs : List Ineq) (h : ∀ r ∈ rs, r.a.length = n + 1) (x : List ℚ) :
    (∀ r ∈ elim rs, r.Ok x) ↔ ∃ t, ∀ r ∈ rs, r.Ok (t :: x) := by
  have hne : ∀ r ∈ rs, r.a ≠ [] := fun r hr he => by have := h r hr; rw [he] at this; simp at this
  have hcomb : ∀ p ∈ rs, ∀ q ∈ rs, (comb p q).c + dot (comb p q).a x =
      -q.hd * (p.c + dot p.a.tail x) + p.hd * (q.c + dot q.a.tail x) := by
    intro p hp q hq
    unfold comb
    simp only
    rw [dot_add_left' _ _ _ (by simp [h p hp, h q hq]), dot_map_mul, dot_map_mul]; ring
  constructor
  · intro he
    obtain ⟨t, h1, h2⟩ := between
      ((rs.filter (fun r => 0 < r.hd)).map (fun r => -(r.c + dot r.a.tail x) / r.hd))
      ((rs.filter (fun r => r.hd < 0)).map (fun r => (r.c + dot r.a.tail x) / (-r.hd))) (by
        intro l hl u hu
        obtain ⟨p, hp, rfl⟩ := List.mem_map.mp hl
        obtain ⟨q, hq, rfl⟩ := List.mem_map.mp hu
        have hmem : comb p q ∈ elim rs := by
          unfold elim
          rw [List.mem_append, List.mem_flatMap]
          exact Or.inr ⟨p, hp, List.mem_map.mpr ⟨q, hq, rfl⟩⟩
        have := he _ hmem
        rw [List.mem_filter] at hp hq
        have hp2 : 0 < p.hd := by simpa using hp.2
        have hq2 : q.hd < 0 := by simpa using hq.2
        unfold Ineq.Ok at this
        rw [hcomb p hp.1 q hq.1] at this
        rw [div_le_div_iff₀ hp2 (by linarith)]
        linarith)
    refine ⟨t, fun r hr => ?_⟩
    unfold Ineq.Ok
    rw [dot_cons_eq r t x (hne r hr)]
    rcases lt_trichotomy r.hd 0 with hlt | heq | hgt
    · have := h2 _ (List.mem_map.mpr ⟨r, List.mem_filter.mpr ⟨hr, by simpa using hlt⟩, rfl⟩)
      rw [le_div_iff₀ (by linarith)] at this
      linarith
    · have hmem : (⟨r.c, r.a.tail⟩ : Ineq) ∈ elim rs := by
        unfold elim
        rw [List.mem_append, List.mem_map]
        exact Or.inl ⟨r, List.mem_filter.mpr ⟨hr, by simpa using heq⟩, rfl⟩
      have := he _ hmem
      unfold Ineq.Ok at this
      rw [heq]; simp only at this; linarith
    · have := h1 _ (List.mem_map.mpr ⟨r, List.mem_filter.mpr ⟨hr, by simpa using hgt⟩, rfl⟩)
      rw [div_le_iff₀ hgt] at this
      linarith
  · rintro ⟨t, ht⟩ r hr
    have hval : ∀ r ∈ rs, 0 ≤ r.c + (r.hd * t + dot r.a.tail x) := by
      intro r hr
      have := ht r hr
      unfold Ineq.Ok at this
      rwa [dot_cons_eq r t x (hne r hr)] at this
    unfold elim at hr
    rw [List.mem_append, List.mem_map, List.mem_flatMap] at hr
    rcases hr with ⟨s, hs, rfl⟩ | ⟨p, hp, hr⟩
    · rw [List.mem_filter] at hs
      have h0 : s.hd = 0 := by simpa using hs.2
      have := hval s hs.1
      rw [h0] at this
      unfold Ineq.Ok; simp only; linarith
    · obtain ⟨q, hq, rfl⟩ := List.mem_map.mp hr
      rw [List.mem_filter] at hp hq
      have hp2 : 0 < p.hd := by simpa using hp.2
      have hq2 : q.hd < 0 := by simpa using hq.2
      unfold Ineq.Ok
      rw [hcomb p hp.1 q hq.1]
      have e1 := hval p hp.1
      have e2 := hval q hq.1
      have := mul_nonneg (by linarith : 0 ≤ -q.hd) e1
      have := mul_nonneg hp2.le e2
      nlinarith

/-- Projection to the remaining variables after eliminating the first `k`. -/
theorem project (k n : Nat) (rs : List Ineq) (h : ∀ r ∈ rs, r.a.length = k + n) :
    ∃ rs' : List Ineq, (∀ r ∈ rs', r.a.length = n) ∧
      ∀ x, (∀ r ∈ rs', r.Ok x) ↔ ∃ ys : List ℚ, ys.length = k ∧ ∀ r ∈ rs, r.Ok (ys ++ x) := by
  induction k generalizing rs with
  | zero =>
    refine ⟨rs, by simpa using h, fun x => ?_⟩
    constructor
    · intro hx; exact ⟨[], rfl, by simpa using hx⟩
    · rintro ⟨ys, hy, hx⟩
      rw [List.length_eq_zero_iff] at hy; subst hy; simpa using hx
  | succ k ih =>
    have h' : ∀ r ∈ rs, r.a.length = (k + n) + 1 := fun r hr => by rw [h r hr]; omega
    obtain ⟨rs', h1, h2⟩ := ih (elim rs) (elim_length (k + n) rs h')
    refine ⟨rs', h1, fun x => ?_⟩
    rw [h2]
    constructor
    · rintro ⟨ys, hy, hx⟩
      obtain ⟨t, ht⟩ := (elim_iff (k + n) rs h' (ys ++ x)).mp hx
      exact ⟨t :: ys, by simp [hy], ht⟩
    · rintro ⟨ys, hy, hx⟩
      cases ys with
      | nil => simp at hy
      | cons t ys => exact ⟨ys, by simpa using hy, (elim_iff (k + n) rs h' (ys ++ x)).mpr ⟨t, hx⟩⟩

/-- A one-dimensional system that is feasible and bounded above has a greatest solution. -/
theorem max_one (rs : List Ineq) (h : ∀ r ∈ rs, r.a.length = 1) (v0 : ℚ)
    (h0 : ∀ r ∈ rs, r.Ok [v0]) :
    (∃ v, (∀ r ∈ rs, r.Ok [v]) ∧ ∀ w, (∀ r ∈ rs, r.Ok [w]) → w ≤ v) ∨
      ∀ B, ∃ v, (∀ r ∈ rs, r.Ok [v]) ∧ B < v := by
  have hval : ∀ r ∈ rs, ∀ v, r.c + dot r.a [v] = r.c + r.hd * v := by
    intro r hr v
    rw [dot_cons_eq r v [] (by intro he; have := h r hr; rw [he] at this; simp at this)]
    cases r.a.tail <;> simp
  by_cases hneg : ∃ r ∈ rs, r.hd < 0
  · left
    obtain ⟨q, hq, hmin⟩ : ∃ q ∈ rs.filter (fun r => r.hd < 0),
        ∀ r ∈ rs.filter (fun r => r.hd < 0), q.c / (-q.hd) ≤ r.c / (-r.hd) := by
      have : ∀ L : List Ineq, L ≠ [] → ∃ q ∈ L, ∀ r ∈ L, q.c / (-q.hd) ≤ r.c / (-r.hd) := by
        intro L
        induction L with
        | nil => intro h; exact absurd rfl h
        | cons a L ih =>
          intro _
          by_cases hL : L = []
          · subst hL; exact ⟨a, by simp, by simp⟩
          · obtain ⟨q, hq, hm⟩ := ih hL
            rcases le_total (a.c / (-a.hd)) (q.c / (-q.hd)) with hle | hle
            · refine ⟨a, by simp, fun r hr => ?_⟩
              rcases List.mem_cons.mp hr with rfl | hr
              · exact le_refl _
              · exact hle.trans (hm r hr)
            · refine ⟨q, by simp [hq], fun r hr => ?_⟩
              rcases List.mem_cons.mp hr with rfl | hr
              · exact hle
              · exact hm r hr
      apply this
      obtain ⟨r, hr, hlt⟩ := hneg
      exact List.ne_nil_of_mem (List.mem_filter.mpr ⟨hr, by simpa using hlt⟩)
    rw [List.mem_filter] at hq
    have hq2 : q.hd < 0 := by simpa using hq.2
    have hub : ∀ w, (∀ r ∈ rs, r.Ok [w]) → w ≤ q.c / (-q.hd) := by
      intro w hw
      have := hw q hq.1
      unfold Ineq.Ok at this
      rw [hval q hq.1] at this
      rw [le_div_iff₀ (by linarith)]; linarith
    refine ⟨q.c / (-q.hd), fun r hr => ?_, hub⟩
    have hv0 := h0 r hr
    unfold Ineq.Ok at hv0 ⊢
    rw [hval r hr] at hv0 ⊢
    have hle := hub v0 h0
    by_cases hlt : r.hd < 0
    · have := hmin r (List.mem_filter.mpr ⟨hr, by simpa using hlt⟩)
      rw [le_div_iff₀ (by linarith)] at this
      linarith
    · push Not at hlt
      nlinarith
  · right
    push Not at hneg
    intro B
    refine ⟨max v0 (B + 1), fun r hr => ?_, lt_of_lt_of_le (by linarith) (le_max_right _ _)⟩
    have hv0 := h0 r hr
    unfold Ineq.Ok at hv0 ⊢
    rw [hval r hr] at hv0 ⊢
    have := hneg r hr
    have := le_max_left v0 (B + 1)
    nlinarith

end FM

namespace Mat

open FM in
/-- A linear program has no feasible point, or is unbounded, or attains its maximum. -/
theorem lp_trichotomy (m : Mat) (hm : m.WF) (obj : Row) (ho : obj.cs.length + 1 = m.cols) :
    (∀ x, ¬ m.Feasible x) ∨ (∀ B, ∃ y, m.Feasible y ∧ B < obj.c0 + dot obj.cs y) ∨
      ∃ x, m.Feasible x ∧ ∀ y, m.Feasible y → obj.c0 + dot obj.cs y ≤ obj.c0 + dot obj.cs x := by
  by_cases hf : ∀ x, ¬ m.Feasible x
  · exact Or.inl hf
  right
  push Not at hf
  obtain ⟨x0, hx0⟩ := hf
  set d := m.cols - 1 with hd
  have hdc : d + 1 = m.cols := by have := hx0.1; omega
  -- variables `ys ++ [v]`; rows of `m` and `v = obj(ys)`
  set rs : List Ineq := m.asIneqs.map (fun r => (⟨r.c0, r.cs ++ [0]⟩ : Ineq)) ++
    [⟨obj.c0, obj.cs ++ [-1]⟩, ⟨-obj.c0, obj.cs.map (fun c => -1 * c) ++ [1]⟩] with hrs
  have hl : ∀ r ∈ rs, r.a.length = d + 1 := by
    intro r hr
    rw [hrs] at hr
    simp only [List.mem_append, List.mem_map, List.mem_cons, List.not_mem_nil, or_false] at hr
    rcases hr with ⟨s, hs, rfl⟩ | rfl | rfl
    · have := asIneqs_length m hm s hs; simp; omega
    · simp; omega
    · simp; omega
  have hok : ∀ (ys : Pt) (v : ℚ), ys.length = d →
      ((∀ r ∈ rs, r.Ok (ys ++ [v])) ↔ m.Feasible ys ∧ v = obj.c0 + dot obj.cs ys) := by
    intro ys v hy
    have hyl : ys.length + 1 = m.cols := by omega
    unfold Feasible
    rw [and_iff_right hyl, holds_iff_asIneqs]
    rw [hrs]
    simp only [List.mem_append, List.mem_map, List.mem_cons, List.not_mem_nil, or_false]
    constructor
    · intro h
      refine ⟨fun r hr => ?_, ?_⟩
      · have := h _ (Or.inl ⟨r, hr, rfl⟩)
        unfold Ineq.Ok at this
        simp only at this
        rw [dot_append_singleton _ _ _ _ (by have := asIneqs_length m hm r hr; omega)] at this
        linarith
      · have h1 := h _ (Or.inr (Or.inl rfl))
        have h2 := h _ (Or.inr (Or.inr rfl))
        unfold Ineq.Ok at h1 h2
        simp only at h1 h2
        rw [dot_append_singleton _ _ _ _ (by omega)] at h1
        rw [dot_append_singleton _ _ _ _ (by simp; omega), dot_map_mul] at h2
        linarith
    · rintro ⟨h1, h2⟩ r hr
      unfold Ineq.Ok
      rcases hr with ⟨s, hs, rfl⟩ | rfl | rfl
      · simp only
        rw [dot_append_singleton _ _ _ _ (by have := asIneqs_length m hm s hs; omega)]
        have := h1 s hs; linarith
      · simp only
        rw [dot_append_singleton _ _ _ _ (by omega)]; linarith
      · simp only
        rw [dot_append_singleton _ _ _ _ (by simp; omega), dot_map_mul]; linarith
  obtain ⟨rs', h1, h2⟩ := FM.project d 1 rs hl
  have hv : ∀ v, (∀ r ∈ rs', r.Ok [v]) ↔ ∃ ys, m.Feasible ys ∧ v = obj.c0 + dot obj.cs ys := by
    intro v
    rw [h2]
    constructor
    · rintro ⟨ys, hy, h⟩; exact ⟨ys, (hok ys v hy).mp h⟩
    · rintro ⟨ys, hy, h⟩
      have : ys.length = d := by have := hy.1; omega
      exact ⟨ys, this, (hok ys v this).mpr ⟨hy, h⟩⟩
  rcases FM.max_one rs' h1 _ ((hv _).mpr ⟨x0, hx0, rfl⟩) with ⟨v, hv1, hv2⟩ | hunb
  · right
    obtain ⟨x, hx, rfl⟩ := (hv v).mp hv1
    exact ⟨x, hx, fun y hy => hv2 _ ((hv _).mpr ⟨y, hy, rfl⟩)⟩
  · left
    intro B
    obtain ⟨v, h3, h4⟩ := hunb B
    obtain ⟨y, hy, rfl⟩ := (hv v).mp h3
    exact ⟨y, hy, h4⟩

/-- The contract of the linear program solver can be met, whatever number is reported when the
program has no optimum. -/
theorem lpSpec_satisfiable (w : ℚ) : ∃ lp : LPSolver, LPSpec lp ∧
    ∀ b m obj, (∃ x v, lp b m obj = .optimal x v) ∨ lp b m obj = .other w := by
  classical
  let best : Mat → Row → Pt → Prop := fun m obj x =>
    m.Feasible x ∧ ∀ y, m.Feasible y → obj.c0 + dot obj.cs y ≤ obj.c0 + dot obj.cs x
  let neg : Row → Row := fun obj => ⟨obj.lin, -obj.c0, obj.cs.map (fun c => -1 * c)⟩
  have hneg : ∀ obj : Row, ∀ x, (neg obj).c0 + dot (neg obj).cs x = -(obj.c0 + dot obj.cs x) := by
    intro obj x
    simp only [neg, FM.dot_map_mul]; ring
  let solve : Bool → Row → Row := fun b obj => if b then obj else neg obj
  let lp : LPSolver := fun b m obj =>
    if h : ∃ x, best m (solve b obj) x then .optimal h.choose (obj.c0 + dot obj.cs h.choose)
    else .other w
  refine ⟨lp, ⟨?_, ?_, ?_, ?_⟩, ?_⟩
  · intro m obj x v _ _ h
    simp only [lp] at h
    split at h
    · rename_i hex
      simp only [LPResult.optimal.injEq] at h
      obtain ⟨rfl, rfl⟩ := h
      exact ⟨hex.choose_spec.1, rfl, hex.choose_spec.2⟩
    · cases h
  · intro m obj _ hm ho h
    simp only [lp] at h
    split at h
    · cases h
    · rename_i hex
      rcases lp_trichotomy m hm obj ho with h1 | h1 | ⟨x, h1, h2⟩
      · exact Or.inl h1
      · exact Or.inr h1
      · exact absurd ⟨x, h1, h2⟩ hex
  · intro m obj x v _ _ h
    simp only [lp] at h
    split at h
    · rename_i hex
      simp only [LPResult.optimal.injEq] at h
      obtain ⟨rfl, rfl⟩ := h
      refine ⟨hex.choose_spec.1, rfl, fun y hy => ?_⟩
      have h1 : (neg obj).c0 + dot (neg obj).cs y ≤ (neg obj).c0 + dot (neg obj).cs hex.choose :=
        hex.choose_spec.2 y hy
      rw [hneg, hneg] at h1
      linarith
    · cases h
  · intro m obj _ hm ho h
    simp only [lp] at h
    split at h
    · cases h
    · rename_i hex
      rcases lp_trichotomy m hm (neg obj) (by simp [neg, ho]) with h1 | h1 | ⟨x, h1, h2⟩
      · exact Or.inl h1
      · right
        intro B
        obtain ⟨y, hy, hlt⟩ := h1 (-B)
        rw [hneg] at hlt
        exact ⟨y, hy, by linarith⟩
      · exact absurd ⟨x, h1, h2⟩ hex
  · intro b m obj
    simp only [lp]
    split
    · exact Or.inl ⟨_, _, rfl⟩
    · exact Or.inr rfl

/-- Finding (why C15 assumes a non-empty first polytope): when the first polytope is empty the
code reads `obj_value` of a program without optimum; with a solver reporting `-1` there the empty
set is declared not to be a subset. -/
theorem C15_empty_counterexample : ∃ lp : LPSolver, LPSpec lp ∧ ∃ p q : Mat, p.WF ∧ q.WF ∧
    p.cols = q.cols ∧ (∀ x, ¬ p.Contains x) ∧ isSubsetOf lp p q = false := by
  obtain ⟨lp, h1, h2⟩ := lpSpec_satisfiable (-1)
  have hemp : ∀ x, ¬ (Mat.mk 2 [⟨false, -1, [1]⟩, ⟨false, 0, [-1]⟩]).Contains x := by
    intro x hx
    have hl := contains_imp _ _ hx
    rw [contains_iff_holds _ _ hl] at hx
    match x, hl with
    | [c], _ =>
      have h1 := (hx ⟨false, -1, [1]⟩ (by simp)).2 rfl
      have h2 := (hx ⟨false, 0, [-1]⟩ (by simp)).2 rfl
      simp at h1 h2
      linarith
  refine ⟨lp, h1, ⟨2, [⟨false, -1, [1]⟩, ⟨false, 0, [-1]⟩]⟩, ⟨2, [⟨false, 0, [1]⟩]⟩,
    by unfold WF; decide +kernel, by unfold WF; decide +kernel, rfl, hemp, ?_⟩
  have hw : (⟨2, [⟨false, -1, [1]⟩, ⟨false, 0, [-1]⟩]⟩ : Mat).WF := by unfold WF; decide +kernel
  rcases h2 false ⟨2, [⟨false, -1, [1]⟩, ⟨false, 0, [-1]⟩]⟩ ⟨false, 0, [1]⟩ with ⟨x, v, h⟩ | h
  · have := (h1.min_opt _ _ _ _ hw rfl h).1
    exact absurd ((feasible_iff _ _).mp this) (hemp x)
  · have e : (⟨2, [⟨false, 0, [1]⟩]⟩ : Mat).asIneqs = [⟨false, 0, [1]⟩] := by decide +kernel
    unfold isSubsetOf
    rw [e]
    simp only [List.all_cons, List.all_nil, Bool.and_true, h, LPResult.objValue]
    decide +kernel

end Mat
end Expdb
