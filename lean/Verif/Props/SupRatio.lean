import Verif.Model.SupRatio
import Verif.Props.Rational
import Verif.Props.RegionDisjoint
import Verif.Props.PolytopeMinkowski
import Mathlib.Order.CountableDenseLinearOrder

/-!
# Property C41: the supremum of `rho / tau`
-/

namespace Expdb
namespace SupRatio

open Rational

/-- Contract of `Polytope.get_edges` for polytopes in dimension 3 (`cdd` adjacency): the ends of an edge are points of the polytope;
and on a slice `sigma = s` which is not the last one, a linear function of the other two coordinates is never larger than at
suitable points of edges that leave the slice to the right. (The slice of a polytope is the convex hull of its points on edges;
from a vertex that is not last some edge leads to the right.) -/
structure EdgesSpec (edges : Mat → List (Pt × Pt)) (p : Mat) : Prop where
  ends : ∀ e ∈ edges p, p.Contains e.1 ∧ p.Contains e.2
  slice : ∀ s t r, p.Contains [s, t, r] → (∃ s' t' r', p.Contains [s', t', r'] ∧ s < s') → ∀ a b : ℚ,
    ∃ s1 t1 r1 s2 t2 r2 l, ([s1, t1, r1], [s2, t2, r2]) ∈ edges p ∧ min s1 s2 ≤ s ∧ s < max s1 s2 ∧
      0 ≤ l ∧ l ≤ 1 ∧ s = s1 + l * (s2 - s1) ∧
      a * t + b * r ≤ a * (t1 + l * (t2 - t1)) + b * (r1 + l * (r2 - r1))

/-! ### Functions along an edge -/

theorem alongEdge_eval (s1 u1 s2 u2 : ℚ) (x : ℝ) :
    (alongEdge s1 u1 s2 u2 : RF ℝ).num.eval x =
      (((u1 - u2) / (s1 - s2) : ℚ) : ℝ) * x + (((s1 * u2 - s2 * u1) / (s1 - s2) : ℚ) : ℝ) ∧
    (alongEdge s1 u1 s2 u2 : RF ℝ).den.eval x = 1 := by
  unfold alongEdge RF.make
  simp [polyExpr, polyLoop, Expr.eval]
  ring

theorem alongEdge_at (s1 u1 s2 u2 l : ℚ) (h : s1 ≠ s2) :
    (alongEdge s1 u1 s2 u2 : RF ℝ).num.eval ((s1 + l * (s2 - s1) : ℚ) : ℝ) = ((u1 + l * (u2 - u1) : ℚ) : ℝ) := by
  rw [(alongEdge_eval s1 u1 s2 u2 _).1]
  have h0 : s1 - s2 ≠ 0 := sub_ne_zero.mpr h
  rw [← Rat.cast_mul, ← Rat.cast_add]
  congr 1
  field_simp
  ring

theorem alongEdge_pos (s1 u1 s2 u2 : ℚ) (h1 : 0 < u1) (h2 : 0 < u2) (h : s1 ≠ s2) (x : ℝ)
    (hx1 : ((min s1 s2 : ℚ) : ℝ) ≤ x) (hx2 : x ≤ ((max s1 s2 : ℚ) : ℝ)) : 0 < (alongEdge s1 u1 s2 u2 : RF ℝ).num.eval x := by
  rw [(alongEdge_eval s1 u1 s2 u2 _).1]
  have c1 : (0 : ℝ) < u1 := by exact_mod_cast h1
  have c2 : (0 : ℝ) < u2 := by exact_mod_cast h2
  push_cast
  rw [show ((u1 : ℝ) - u2) / (s1 - s2) * x + (s1 * u2 - s2 * u1) / (s1 - s2) =
    (u1 * (x - s2) + u2 * (s1 - x)) / (s1 - s2) by ring]
  rcases lt_or_gt_of_ne h with h | h
  · rw [min_eq_left h.le] at hx1
    rw [max_eq_right h.le] at hx2
    have c : (s1 : ℝ) < s2 := by exact_mod_cast h
    apply div_pos_of_neg_of_neg _ (by linarith)
    rcases hx1.lt_or_eq with k | k
    · have e1 := mul_nonneg c1.le (sub_nonneg.mpr hx2)
      have e2 := mul_pos c2 (sub_pos.mpr k)
      nlinarith
    · have e1 := mul_pos c1 (sub_pos.mpr c)
      rw [← k]
      nlinarith
  · rw [min_eq_right h.le] at hx1
    rw [max_eq_left h.le] at hx2
    have c : (s2 : ℝ) < s1 := by exact_mod_cast h
    apply div_pos _ (by linarith)
    rcases hx2.lt_or_eq with k | k
    · have e1 := mul_nonneg c1.le (sub_nonneg.mpr hx1)
      have e2 := mul_pos c2 (sub_pos.mpr k)
      nlinarith
    · have e1 := mul_pos c1 (sub_pos.mpr c)
      rw [k]
      nlinarith

theorem quotient_at (s1 t1 r1 s2 t2 r2 l : ℚ) (h : s1 ≠ s2) :
    (quotient (alongEdge s1 r1 s2 r2) (alongEdge s1 t1 s2 t2) : RF ℝ).at ((s1 + l * (s2 - s1) : ℚ) : ℝ) =
      (((r1 + l * (r2 - r1)) / (t1 + l * (t2 - t1)) : ℚ) : ℝ) := by
  unfold quotient RF.at
  simp only [Expr.eval]
  rw [(alongEdge_eval s1 t1 s2 t2 _).2, (alongEdge_eval s1 r1 s2 r2 _).2, alongEdge_at _ _ _ _ _ h, alongEdge_at _ _ _ _ _ h]
  push_cast
  rw [mul_one, one_mul]

theorem quotient_def (s1 t1 r1 s2 t2 r2 : ℚ) (h1 : 0 < t1) (h2 : 0 < t2) (h : s1 ≠ s2) :
    ArgOk (quotient (alongEdge s1 r1 s2 r2) (alongEdge s1 t1 s2 t2), Ival.half ((min s1 s2 : ℚ) : ℝ) ((max s1 s2 : ℚ) : ℝ)) := by
  intro x hx1 hx2
  unfold RF.Def quotient
  simp only [Expr.eval]
  rw [(alongEdge_eval s1 r1 s2 r2 _).2, one_mul]
  exact (alongEdge_pos s1 t1 s2 t2 h1 h2 h x hx1 hx2.le).ne'

/-! ### The loop -/

/-- The function of an edge. -/
def EdgeOf (e : Pt × Pt) (f : RF ℝ × Ival ℝ) : Prop :=
  ∃ s1 t1 r1 s2 t2 r2, e = ([s1, t1, r1], [s2, t2, r2]) ∧ s1 ≠ s2 ∧
    f = (quotient (alongEdge s1 r1 s2 r2) (alongEdge s1 t1 s2 t2), Ival.half ((min s1 s2 : ℚ) : ℝ) ((max s1 s2 : ℚ) : ℝ))

theorem append3 {a b c d : Pt} (h : a.length = 3) (h' : c.length = 3) (e : a ++ b = c ++ d) : a = c ∧ b = d :=
  List.append_inj e (by rw [h, h'])

/-- All edges are used, up to the direction. -/
theorem edgeLoop_spec (es : List (Pt × Pt)) (hes : ∀ e ∈ es, e.1.length = 3 ∧ e.2.length = 3) (visited : List Pt) :
    ∃ fs, (edgeLoop visited es : Py (List (RF ℝ × Ival ℝ))) = .ok fs ∧ (∀ f ∈ fs, ∃ e ∈ es, EdgeOf e f) ∧
      ∀ s1 t1 r1 s2 t2 r2, ([s1, t1, r1], [s2, t2, r2]) ∈ es → s1 ≠ s2 →
        [s1, t1, r1] ++ [s2, t2, r2] ∉ visited → [s2, t2, r2] ++ [s1, t1, r1] ∉ visited →
        (∃ f ∈ fs, EdgeOf ([s1, t1, r1], [s2, t2, r2]) f) ∨ ∃ f ∈ fs, EdgeOf ([s2, t2, r2], [s1, t1, r1]) f := by
  induction es generalizing visited with
  | nil => exact ⟨[], by rw [edgeLoop], by simp, by simp⟩
  | cons e es ih =>
    obtain ⟨v1, v2⟩ := e
    obtain ⟨l1, l2⟩ := hes (v1, v2) (by simp)
    have hes' : ∀ e ∈ es, e.1.length = 3 ∧ e.2.length = 3 := fun e he => hes e (by simp [he])
    by_cases hv : v1 ++ v2 ∈ visited ∨ v2 ++ v1 ∈ visited
    · obtain ⟨fs, h1, h2, h3⟩ := ih hes' visited
      refine ⟨fs, by rw [edgeLoop, if_pos hv]; exact h1, fun f hf => ?_, ?_⟩
      · obtain ⟨e, he, k⟩ := h2 f hf
        exact ⟨e, by simp [he], k⟩
      · intro s1 t1 r1 s2 t2 r2 hm hne n1 n2
        rcases List.mem_cons.mp hm with he | hm
        · obtain ⟨rfl, rfl⟩ := Prod.mk.inj he
          exact absurd hv (by rw [not_or]; exact ⟨n1, n2⟩)
        · exact h3 _ _ _ _ _ _ hm hne n1 n2
    · obtain ⟨fs, h1, h2, h3⟩ := ih hes' ((v1 ++ v2) :: visited)
      match v1, v2, l1, l2 with
      | [s1, t1, r1], [s2, t2, r2], _, _ =>
        obtain ⟨o, ho, hof, hof'⟩ : ∃ o, (edgeFn [s1, t1, r1] [s2, t2, r2] : Py (Option (RF ℝ × Ival ℝ))) = .ok o ∧
            (∀ f, o = some f → EdgeOf ([s1, t1, r1], [s2, t2, r2]) f) ∧ (s1 ≠ s2 → ∃ f, o = some f) := by
          rw [edgeFn]
          split
          · rename_i h; exact ⟨none, rfl, by simp, fun h' => absurd h h'⟩
          · rename_i h
            refine ⟨_, rfl, fun f hf => ?_, fun _ => ⟨_, rfl⟩⟩
            have := Option.some.inj hf
            exact ⟨s1, t1, r1, s2, t2, r2, rfl, h, this.symm⟩
        refine ⟨o.toList ++ fs, by rw [edgeLoop, if_neg hv, ho]; simp only; rw [h1], ?_, ?_⟩
        · intro f hf
          rw [List.mem_append, Option.mem_toList] at hf
          rcases hf with hf | hf
          · exact ⟨_, List.mem_cons_self, hof f hf⟩
          · obtain ⟨e, he, k⟩ := h2 f hf
            exact ⟨e, by simp [he], k⟩
        · intro a1 b1 c1 a2 b2 c2 hm hne n1 n2
          have lift : ∀ e, (∃ f ∈ fs, EdgeOf e f) → ∃ f ∈ o.toList ++ fs, EdgeOf e f := by
            rintro e ⟨f, hf, k⟩
            exact ⟨f, by simp [hf], k⟩
          rcases List.mem_cons.mp hm with he | hm
          · left
            rw [Prod.mk.injEq, List.cons.injEq, List.cons.injEq, List.cons.injEq, List.cons.injEq, List.cons.injEq, List.cons.injEq] at he
            obtain ⟨⟨rfl, rfl, rfl, _⟩, rfl, rfl, rfl, _⟩ := he
            obtain ⟨f, hf⟩ := hof' hne
            exact ⟨f, by simp [hf], hof f hf⟩
          · by_cases e1 : [a1, b1, c1] ++ [a2, b2, c2] = [s1, t1, r1] ++ [s2, t2, r2]
            · obtain ⟨e2, e3⟩ := append3 rfl rfl e1
              left
              rw [e2, e3]
              simp only [List.cons.injEq, and_true] at e2 e3
              obtain ⟨f, hf⟩ := hof' (by rw [← e2.1, ← e3.1]; exact hne)
              exact ⟨f, by simp [hf], hof f hf⟩
            · by_cases e4 : [a2, b2, c2] ++ [a1, b1, c1] = [s1, t1, r1] ++ [s2, t2, r2]
              · obtain ⟨e2, e3⟩ := append3 rfl rfl e4
                right
                rw [e2, e3]
                simp only [List.cons.injEq, and_true] at e2 e3
                obtain ⟨f, hf⟩ := hof' (by rw [← e2.1, ← e3.1]; exact hne.symm)
                exact ⟨f, by simp [hf], hof f hf⟩
              · rcases h3 _ _ _ _ _ _ hm hne (by simp only [List.mem_cons, not_or]; exact ⟨e1, n1⟩)
                  (by simp only [List.mem_cons, not_or]; exact ⟨e4, n2⟩) with h | h
                · exact .inl (lift _ h)
                · exact .inr (lift _ h)

theorem contains_seg (m : Mat) (y z : Pt) (l : ℚ) (h0 : 0 ≤ l) (h1 : l ≤ 1) (hy : m.Contains y) (hz : m.Contains z) :
    m.Contains (seg y l z) := by
  have ly := Mat.contains_length hy
  have lz := Mat.contains_length hz
  have e : y.length = z.length := by omega
  rw [Mat.contains_iff_holds m _ ly] at hy
  rw [Mat.contains_iff_holds m _ lz] at hz
  rw [Mat.contains_iff_holds m _ (by rw [seg_length _ _ _ e]; exact lz)]
  intro r hr
  obtain ⟨a1, a2⟩ := hy r hr
  obtain ⟨b1, b2⟩ := hz r hr
  unfold Row.Holds
  rw [dot_seg _ _ _ _ e]
  constructor
  · intro h
    have := a1 h
    have := b1 h
    linear_combination (1 - l) * (a1 h) + l * (b1 h)
  · intro h
    have := mul_nonneg (sub_nonneg.mpr h1) (a2 h)
    have := mul_nonneg h0 (b2 h)
    linarith

/-- The ratios `rho / tau` at the points of the polytopes with the given `sigma`, where only polytopes are considered that reach
further to the right. -/
def Ratios (polys : List Mat) (s : ℚ) : Set ℝ :=
  {v | ∃ p ∈ polys, ∃ t r, p.Contains [s, t, r] ∧ (∃ s' t' r', p.Contains [s', t', r'] ∧ s < s') ∧ v = ((r / t : ℚ) : ℝ)}

/-- **C41** (part) For polytopes on which `tau > 0`, the computation returns a list of pieces that cover the interval without overlap,
and at each `sigma` of the interval the value is the maximum of `rho / tau` over all points of the polytopes with that `sigma`
(`-1000000` if there are none or all are smaller). Missing, and false (`C41_right_end_counterexample`): points of a polytope at
its largest value of `sigma`. -/
theorem C41_sup_partial (edges : Mat → List (Pt × Pt)) (solve : RF ℝ → RF ℝ → List ℝ) (hs : SolveSpec solve)
    (isZero : Expr ℝ → Bool) (hz : ZeroSpec isZero) (polys : List Mat) (D : Ival ℝ) (hD : D.x0 < D.x1)
    (hp : ∀ p ∈ polys, EdgesSpec edges p ∧ p.cols = 4 ∧ ∀ s t r, p.Contains [s, t, r] → 0 < t) :
    ∃ out, supRhoOnTau edges solve isZero polys D = .ok out ∧ ∀ s : ℚ, D.x0 ≤ s → (s : ℝ) < D.x1 →
      ∃ q ∈ out, q.dom.x0 ≤ s ∧ s < q.dom.x1 ∧ (∀ q' ∈ out, q'.dom.x0 ≤ s → s < q'.dom.x1 → q' = q) ∧
        IsGreatest ({-1000000} ∪ Ratios polys s) (q.fn.at s) := by
  have shape : ∀ p ∈ polys, ∀ v, p.Contains v → ∃ a b c, v = [a, b, c] := by
    intro p hp' v hv
    have := Mat.contains_length hv
    rw [(hp p hp').2.1] at this
    match v, this with
    | [a, b, c], _ => exact ⟨a, b, c, rfl⟩
  obtain ⟨fs, h1, h2, h3⟩ := edgeLoop_spec (polys.flatMap edges) (by
    intro e he
    obtain ⟨p, hp', he⟩ := List.mem_flatMap.mp he
    obtain ⟨k1, k2⟩ := (hp p hp').1.ends e he
    obtain ⟨_, _, _, e1⟩ := shape p hp' _ k1
    obtain ⟨_, _, _, e2⟩ := shape p hp' _ k2
    rw [e1, e2]
    exact ⟨rfl, rfl⟩) []
  have hfs : ∀ f ∈ fs, ArgOk f := by
    intro f hf
    obtain ⟨e, he, s1, t1, r1, s2, t2, r2, rfl, hne, rfl⟩ := h2 f hf
    obtain ⟨p, hp', he⟩ := List.mem_flatMap.mp he
    obtain ⟨k1, k2⟩ := (hp p hp').1.ends _ he
    exact quotient_def _ _ _ _ _ _ ((hp p hp').2.2 _ _ _ k1) ((hp p hp').2.2 _ _ _ k2) hne
  refine ⟨rfMax solve isZero fs D true, by unfold supRhoOnTau; rw [h1], fun s hs1 hs2 => ?_⟩
  obtain ⟨q, g1, g2, g3, g4, g5⟩ := C08_max_value_partial solve hs isZero hz fs hfs D hD true (by simp) s hs1 hs2
  refine ⟨q, g1, g2, g3, g4, ?_, ?_⟩
  · rcases g5.1 with h | ⟨f, hf, f1, f2, h⟩
    · left; exact h
    · right
      obtain ⟨e, he, s1, t1, r1, s2, t2, r2, rfl, hne, rfl⟩ := h2 f hf
      obtain ⟨p, hp', he⟩ := List.mem_flatMap.mp he
      obtain ⟨k1, k2⟩ := (hp p hp').1.ends _ he
      simp only [Ival.half, Rat.cast_le, Rat.cast_lt] at f1 f2
      have hd : s2 - s1 ≠ 0 := sub_ne_zero.mpr hne.symm
      obtain ⟨l, hl⟩ : ∃ l, l = (s - s1) / (s2 - s1) := ⟨_, rfl⟩
      have hsl : s = s1 + l * (s2 - s1) := by rw [hl]; field_simp; ring
      have hl01 : 0 ≤ l ∧ l ≤ 1 := by
        rcases lt_or_gt_of_ne hne with k | k
        · rw [min_eq_left k.le] at f1
          rw [max_eq_right k.le] at f2
          rw [hl]
          exact ⟨div_nonneg (by linarith) (by linarith), (div_le_one (by linarith)).mpr (by linarith)⟩
        · rw [min_eq_right k.le] at f1
          rw [max_eq_left k.le] at f2
          rw [hl]
          exact ⟨div_nonneg_of_nonpos (by linarith) (by linarith), (div_le_one_of_neg (by linarith)).mpr (by linarith)⟩
      refine ⟨p, hp', t1 + l * (t2 - t1), r1 + l * (r2 - r1), ?_, ?_, ?_⟩
      · have := contains_seg p _ _ l hl01.1 hl01.2 k1 k2
        simp only [seg, List.zipWith_cons_cons, List.zipWith_nil_left] at this
        rw [← hsl] at this
        exact this
      · rcases lt_or_gt_of_ne hne with k | k
        · rw [max_eq_right k.le] at f2
          exact ⟨_, _, _, k2, f2⟩
        · rw [max_eq_left k.le] at f2
          exact ⟨_, _, _, k1, f2⟩
      · rw [h]
        simp only
        rw [hsl, quotient_at _ _ _ _ _ _ _ hne]
  · rintro v (hv | ⟨p, hp', t, r, hc, hr, rfl⟩)
    · rw [Set.mem_singleton_iff] at hv
      subst hv
      exact g5.2 (.inl rfl)
    · have ht := (hp p hp').2.2 _ _ _ hc
      obtain ⟨s1, t1, r1, s2, t2, r2, l, he, l1, l2, l3, l4, l5, l6⟩ := (hp p hp').1.slice s t r hc hr (-(r / t)) 1
      obtain ⟨k1, k2⟩ := (hp p hp').1.ends _ he
      have p1 := (hp p hp').2.2 _ _ _ k1
      have p2 := (hp p hp').2.2 _ _ _ k2
      have hne : s1 ≠ s2 := by
        rintro rfl
        rw [min_self] at l1
        rw [max_self] at l2
        linarith
      have ht' : 0 < t1 + l * (t2 - t1) := by
        rcases l4.lt_or_eq with k | k
        · have := mul_pos (sub_pos.mpr k) p1
          have := mul_nonneg l3 p2.le
          linarith
        · rw [k]; linarith
      have hle : r / t ≤ (r1 + l * (r2 - r1)) / (t1 + l * (t2 - t1)) := by
        rw [le_div_iff₀ ht']
        have : -(r / t) * t + 1 * r = 0 := by field_simp; ring
        rw [this] at l6
        linarith
      have cast : ((r / t : ℚ) : ℝ) ≤ (((r1 + l * (r2 - r1)) / (t1 + l * (t2 - t1)) : ℚ) : ℝ) := by exact_mod_cast hle
      refine cast.trans (g5.2 (.inr ?_))
      rcases h3 s1 t1 r1 s2 t2 r2 (List.mem_flatMap.mpr ⟨p, hp', he⟩) hne (by simp) (by simp) with ⟨f, hf, h⟩ | ⟨f, hf, h⟩
      · obtain ⟨a1, b1, c1, a2, b2, c2, e, hne', rfl⟩ := h
        rw [Prod.mk.injEq, List.cons.injEq, List.cons.injEq, List.cons.injEq, List.cons.injEq, List.cons.injEq, List.cons.injEq] at e
        obtain ⟨⟨rfl, rfl, rfl, _⟩, rfl, rfl, rfl, _⟩ := e
        refine ⟨_, hf, ?_, ?_, ?_⟩
        · simp only [Ival.half]; exact_mod_cast l1
        · simp only [Ival.half]; exact_mod_cast l2
        · simp only
          rw [l5, quotient_at _ _ _ _ _ _ _ hne']
      · obtain ⟨a1, b1, c1, a2, b2, c2, e, hne', rfl⟩ := h
        rw [Prod.mk.injEq, List.cons.injEq, List.cons.injEq, List.cons.injEq, List.cons.injEq, List.cons.injEq, List.cons.injEq] at e
        obtain ⟨⟨rfl, rfl, rfl, _⟩, rfl, rfl, rfl, _⟩ := e
        refine ⟨_, hf, ?_, ?_, ?_⟩
        · simp only [Ival.half]; rw [min_comm]; exact_mod_cast l1
        · simp only [Ival.half]; rw [max_comm]; exact_mod_cast l2
        · simp only
          rw [show s = s2 + (1 - l) * (s1 - s2) by rw [l5]; ring, quotient_at _ _ _ _ _ _ _ hne']
          congr 2 <;> ring

/-! ### The contract can be met -/

theorem between (A B : List ℚ) (h : ∀ a ∈ A, ∀ b ∈ B, a < b) : ∃ m, (∀ a ∈ A, a < m) ∧ ∀ b ∈ B, m < b := by
  obtain ⟨m, h1, h2⟩ := Order.exists_between_finsets A.toFinset B.toFinset (by simpa using h)
  exact ⟨m, by simpa using h1, by simpa using h2⟩

/-- All pairs of vertices of a bounded polytope meet the contract of the edges. -/
theorem edgesSpec_of_verts (verts : Mat → List Pt) (p : Mat) (hv : Mat.VertsSpec verts p) (hc : p.cols = 4) :
    EdgesSpec (fun p => (verts p).flatMap (fun v => (verts p).map (fun w => (v, w)))) p := by
  obtain ⟨h1, h2⟩ := hv
  rw [hc] at h2
  have hl : ∀ v ∈ verts p, v.length = 3 := fun v hv => by have := h1 v hv; omega
  have mem : ∀ v ∈ verts p, p.Contains v := fun v hv => (h2 v).mpr (Mat.hull_mem _ _ hl v hv)
  refine ⟨fun e he => ?_, ?_⟩
  · obtain ⟨v, hv, he⟩ := List.mem_flatMap.mp he
    obtain ⟨w, hw, rfl⟩ := List.mem_map.mp he
    exact ⟨mem v hv, mem w hw⟩
  · rintro s t r hx ⟨s', t', r', hy, hlt⟩ a b
    by_contra hcon
    have key : ∀ v0 v1 v2 w0 w1 w2, [v0, v1, v2] ∈ verts p → [w0, w1, w2] ∈ verts p → v0 ≤ s → s < w0 →
        (w0 - s) * (a * v1 + b * v2 - (a * t + b * r)) + (s - v0) * (a * w1 + b * w2 - (a * t + b * r)) < 0 := by
      intro v0 v1 v2 w0 w1 w2 hv hw k1 k2
      by_contra hge
      push Not at hge
      have hd : 0 < w0 - v0 := by linarith
      refine hcon ⟨v0, v1, v2, w0, w1, w2, (s - v0) / (w0 - v0), ?_, ?_, ?_, ?_, ?_, ?_, ?_⟩
      · exact List.mem_flatMap.mpr ⟨_, hv, List.mem_map.mpr ⟨_, hw, rfl⟩⟩
      · rw [min_eq_left (by linarith)]; exact k1
      · rw [max_eq_right (by linarith)]; exact k2
      · exact div_nonneg (by linarith) hd.le
      · rw [div_le_one hd]; linarith
      · field_simp; ring
      · have e : a * (v1 + (s - v0) / (w0 - v0) * (w1 - v1)) + b * (v2 + (s - v0) / (w0 - v0) * (w2 - v2)) - (a * t + b * r) =
            ((w0 - s) * (a * v1 + b * v2 - (a * t + b * r)) + (s - v0) * (a * w1 + b * w2 - (a * t + b * r))) / (w0 - v0) := by
          field_simp
          ring
        have := div_nonneg hge hd.le
        rw [← e] at this
        linarith
    obtain ⟨w, hw, hws⟩ : ∃ w ∈ verts p, s < w.headD 0 := by
      by_contra hno
      push Not at hno
      have := Mat.hull_nonpos 3 (-s) [1, 0, 0] (verts p) hl (by
        intro v hv
        have hv3 := hl v hv
        match v, hv3 with
        | [c0, c1, c2], _ =>
          have := hno _ hv
          simp only [List.headD_cons] at this
          simp [dot]
          linarith) _ ((h2 _).mp hy)
      simp [dot] at this
      linarith
    have hw3 := hl w hw
    match w, hw3 with
    | [w0, w1, w2], _ =>
      simp only [List.headD_cons] at hws
      let g : Pt → ℚ := fun v => a * v.getD 1 0 + b * v.getD 2 0 - (a * t + b * r)
      obtain ⟨m, m1, m2⟩ := between (((verts p).filter (fun v => decide (v.headD 0 < s))).map (fun v => g v / (s - v.headD 0)))
        (((verts p).filter (fun v => decide (s < v.headD 0))).map (fun v => g v / (s - v.headD 0))) (by
          intro α hα β hβ
          obtain ⟨v, hv, rfl⟩ := List.mem_map.mp hα
          obtain ⟨u, hu, rfl⟩ := List.mem_map.mp hβ
          rw [List.mem_filter] at hv hu
          have hv3 := hl v hv.1
          have hu3 := hl u hu.1
          match v, u, hv3, hu3 with
          | [v0, v1, v2], [u0, u1, u2], _, _ =>
            have k1 := of_decide_eq_true hv.2
            have k2 := of_decide_eq_true hu.2
            simp only [List.headD_cons] at k1 k2 ⊢
            have := key _ _ _ _ _ _ hv.1 hu.1 k1.le k2
            simp only [g, List.getD_cons_succ, List.getD_cons_zero]
            rw [div_lt_iff₀ (by linarith), ← neg_sub u0 s, div_neg, neg_mul, lt_neg, div_mul_eq_mul_div, div_lt_iff₀ (by linarith)]
            nlinarith)
      have hpos := Mat.hull_pos 3 (m * s + (a * t + b * r)) [-m, -a, -b] (verts p) hl (by
        intro v hv
        have hv3 := hl v hv
        match v, hv3 with
        | [v0, v1, v2], _ =>
          simp only [dot]
          rcases lt_trichotomy v0 s with k | k | k
          · have := m1 _ (List.mem_map.mpr ⟨_, List.mem_filter.mpr ⟨hv, decide_eq_true (by simpa using k)⟩, rfl⟩)
            simp only [g, List.headD_cons, List.getD_cons_succ, List.getD_cons_zero] at this
            rw [div_lt_iff₀ (by linarith)] at this
            nlinarith
          · have := key _ _ _ _ _ _ hv hw k.le hws
            rw [k, sub_self, zero_mul, add_zero] at this
            have := (mul_neg_iff.mp this).resolve_right (by intro h; linarith [h.1])
            rw [k]
            nlinarith [this.2]
          · have := m2 _ (List.mem_map.mpr ⟨_, List.mem_filter.mpr ⟨hv, decide_eq_true (by simpa using k)⟩, rfl⟩)
            simp only [g, List.headD_cons, List.getD_cons_succ, List.getD_cons_zero] at this
            rw [← neg_sub v0 s, div_neg, lt_neg, div_lt_iff₀ (by linarith)] at this
            nlinarith) _ ((h2 _).mp hx)
      simp only [dot] at hpos
      linarith

/-- There is a function that meets the contract of the edges for all bounded polytopes in dimension 3. -/
theorem edgesSpec_satisfiable : ∃ edges : Mat → List (Pt × Pt), ∀ p : Mat, p.cols = 4 → p.Bounded → EdgesSpec edges p := by
  obtain ⟨verts, hv⟩ := Mat.vertsSpec_satisfiable
  exact ⟨_, fun p hc hb => edgesSpec_of_verts verts p (hv p (by omega) hb) hc⟩

/-! ### Examples and findings -/

/-- The box `[a, b] × [c, d] × [e, f]`. -/
def box3 (a b c d e f : ℚ) : Mat :=
  ⟨4, [⟨false, -a, [1, 0, 0]⟩, ⟨false, b, [-1, 0, 0]⟩, ⟨false, -c, [0, 1, 0]⟩, ⟨false, d, [0, -1, 0]⟩, ⟨false, -e, [0, 0, 1]⟩,
    ⟨false, f, [0, 0, -1]⟩]⟩

theorem box3_contains (a b c d e f : ℚ) (x : Pt) :
    (box3 a b c d e f).Contains x ↔ ∃ s t r, x = [s, t, r] ∧ a ≤ s ∧ s ≤ b ∧ c ≤ t ∧ t ≤ d ∧ e ≤ r ∧ r ≤ f := by
  constructor
  · intro h
    have hl := Mat.contains_length h
    rw [Mat.contains_iff_holds _ _ hl] at h
    simp only [box3] at hl
    match x, hl with
    | [s, t, r], _ =>
      have h1 := (h ⟨false, -a, [1, 0, 0]⟩ (by simp [box3])).2 rfl
      have h2 := (h ⟨false, b, [-1, 0, 0]⟩ (by simp [box3])).2 rfl
      have h3 := (h ⟨false, -c, [0, 1, 0]⟩ (by simp [box3])).2 rfl
      have h4 := (h ⟨false, d, [0, -1, 0]⟩ (by simp [box3])).2 rfl
      have h5 := (h ⟨false, -e, [0, 0, 1]⟩ (by simp [box3])).2 rfl
      have h6 := (h ⟨false, f, [0, 0, -1]⟩ (by simp [box3])).2 rfl
      simp only [dot] at h1 h2 h3 h4 h5 h6
      exact ⟨s, t, r, rfl, by linarith, by linarith, by linarith, by linarith, by linarith, by linarith⟩
  · rintro ⟨s, t, r, rfl, h1, h2, h3, h4, h5, h6⟩
    rw [Mat.contains_iff_holds _ _ (by simp [box3])]
    intro w hw
    simp only [box3, List.mem_cons, List.not_mem_nil, or_false] at hw
    rcases hw with rfl | rfl | rfl | rfl | rfl | rfl <;> exact ⟨fun h => by simp at h, fun _ => by simp only [dot]; linarith⟩

theorem box3_point (a b c d e f s t r : ℚ) :
    (box3 a b c d e f).Contains [s, t, r] ↔ a ≤ s ∧ s ≤ b ∧ c ≤ t ∧ t ≤ d ∧ e ≤ r ∧ r ≤ f := by
  rw [box3_contains]
  constructor
  · rintro ⟨s', t', r', h, k⟩
    simp only [List.cons.injEq, and_true] at h
    obtain ⟨rfl, rfl, rfl⟩ := h
    exact k
  · exact fun k => ⟨s, t, r, rfl, k⟩

/-- The hypotheses of `C41_sup_partial` can be met, for any bounded polytopes in `tau > 0`. -/
theorem C41_satisfiable : ∃ (edges : Mat → List (Pt × Pt)) (solve : RF ℝ → RF ℝ → List ℝ) (isZero : Expr ℝ → Bool),
    SolveSpec solve ∧ ZeroSpec isZero ∧ ∀ p : Mat, p.cols = 4 → p.Bounded → EdgesSpec edges p := by
  obtain ⟨edges, h1⟩ := edgesSpec_satisfiable
  obtain ⟨⟨solve, h2⟩, isZero, h3⟩ := solveSpec_satisfiable
  exact ⟨edges, solve, isZero, h2, h3, h1⟩

theorem box3_bounded (a b c d e f : ℚ) : (box3 a b c d e f).Bounded := by
  refine ⟨max (max (max |a| |b|) (max |c| |d|)) (max |e| |f|), fun x hx y hy => ?_⟩
  obtain ⟨s, t, r, rfl, h1, h2, h3, h4, h5, h6⟩ := (box3_contains a b c d e f x).mp hx
  have bd : ∀ u v w : ℚ, u ≤ w → w ≤ v → |w| ≤ max |u| |v| := fun u v w k1 k2 => abs_le_max_abs_abs k1 k2
  simp only [List.mem_cons, List.not_mem_nil, or_false] at hy
  rcases hy with rfl | rfl | rfl
  · exact (bd a b _ h1 h2).trans (le_max_of_le_left (le_max_left _ _))
  · exact (bd c d _ h3 h4).trans (le_max_of_le_left (le_max_right _ _))
  · exact (bd e f _ h5 h6).trans (le_max_right _ _)

/-- On the box `[1/2, 3/4] × [1, 2] × [0, 2]` the supremum at `5/8` is 2. -/
example (edges : Mat → List (Pt × Pt)) (solve : RF ℝ → RF ℝ → List ℝ) (hs : SolveSpec solve) (isZero : Expr ℝ → Bool)
    (hz : ZeroSpec isZero) (he : EdgesSpec edges (box3 (1 / 2) (3 / 4) 1 2 0 2)) :
    ∃ out, supRhoOnTau edges solve isZero [box3 (1 / 2) (3 / 4) 1 2 0 2] (Ival.half (1 / 2) (3 / 4)) = .ok out ∧
      ∃ q ∈ out, q.fn.at ((5 / 8 : ℚ) : ℝ) = 2 := by
  obtain ⟨out, h1, h2⟩ := C41_sup_partial edges solve hs isZero hz [box3 (1 / 2) (3 / 4) 1 2 0 2] (Ival.half (1 / 2) (3 / 4))
    (by norm_num [Ival.half]) (by
      intro p hp
      rw [List.mem_singleton] at hp
      subst hp
      refine ⟨he, rfl, fun s t r h => ?_⟩
      rw [box3_point] at h
      linarith [h.2.2.1])
  refine ⟨out, h1, ?_⟩
  obtain ⟨q, hq, _, _, _, h3, h4⟩ := h2 (5 / 8) (by norm_num [Ival.half]) (by norm_num [Ival.half])
  refine ⟨q, hq, le_antisymm ?_ ?_⟩
  · rcases h3 with h3 | ⟨p, hp, t, r, hc, _, h3⟩
    · rw [h3]; norm_num
    · rw [List.mem_singleton] at hp
      subst hp
      rw [box3_point] at hc
      rw [h3]
      have : r / t ≤ 2 := by rw [div_le_iff₀ (by linarith [hc.2.2.1])]; linarith [hc.2.2.1, hc.2.2.2.2.2]
      exact_mod_cast this
  · have := h4 (.inr ⟨_, List.mem_singleton_self _, 1, 2, by rw [box3_point]; norm_num, ⟨3 / 4, 1, 1, by rw [box3_point]; norm_num, by norm_num⟩, rfl⟩)
    rw [show ((2 / 1 : ℚ) : ℝ) = 2 by norm_num] at this
    exact this

/-- **Finding** (zero_density_estimate.py:293, zero_density_energy_estimate.py:312) The intervals of the edges do not contain their
right ends. At the common value `sigma = 3/4` of `[1/2, 3/4] × [1, 2] × [0, 2]` and `[3/4, 1] × [1, 2] × [0, 1]` the result is at
most 1, although `rho / tau = 2` at the point `(3/4, 1, 2)`. -/
theorem C41_right_end_counterexample (edges : Mat → List (Pt × Pt)) (solve : RF ℝ → RF ℝ → List ℝ) (hs : SolveSpec solve)
    (isZero : Expr ℝ → Bool) (hz : ZeroSpec isZero) (he1 : EdgesSpec edges (box3 (1 / 2) (3 / 4) 1 2 0 2))
    (he2 : EdgesSpec edges (box3 (3 / 4) 1 1 2 0 1)) :
    (box3 (1 / 2) (3 / 4) 1 2 0 2).Contains [3 / 4, 1, 2] ∧
    ∃ out, supRhoOnTau edges solve isZero [box3 (1 / 2) (3 / 4) 1 2 0 2, box3 (3 / 4) 1 1 2 0 1] (Ival.half (1 / 2) 1) = .ok out ∧
      ∃ q ∈ out, q.dom.x0 ≤ ((3 / 4 : ℚ) : ℝ) ∧ ((3 / 4 : ℚ) : ℝ) < q.dom.x1 ∧ q.fn.at ((3 / 4 : ℚ) : ℝ) ≤ 1 := by
  refine ⟨by rw [box3_point]; norm_num, ?_⟩
  obtain ⟨out, h1, h2⟩ := C41_sup_partial edges solve hs isZero hz [box3 (1 / 2) (3 / 4) 1 2 0 2, box3 (3 / 4) 1 1 2 0 1]
    (Ival.half (1 / 2) 1) (by norm_num [Ival.half]) (by
      intro p hp
      simp only [List.mem_cons, List.not_mem_nil, or_false] at hp
      rcases hp with rfl | rfl
      · refine ⟨he1, rfl, fun s t r h => ?_⟩
        rw [box3_point] at h
        linarith [h.2.2.1]
      · refine ⟨he2, rfl, fun s t r h => ?_⟩
        rw [box3_point] at h
        linarith [h.2.2.1])
  refine ⟨out, h1, ?_⟩
  obtain ⟨q, hq, k1, k2, _, h3, _⟩ := h2 (3 / 4) (by norm_num [Ival.half]) (by norm_num [Ival.half])
  refine ⟨q, hq, k1, k2, ?_⟩
  rcases h3 with h3 | ⟨p, hp, t, r, hc, ⟨s', t', r', hc', hlt⟩, h3⟩
  · rw [h3]; norm_num
  · simp only [List.mem_cons, List.not_mem_nil, or_false] at hp
    rcases hp with rfl | rfl
    · rw [box3_point] at hc'
      linarith [hc'.2.1]
    · rw [box3_point] at hc
      rw [h3]
      have : r / t ≤ 1 := by rw [div_le_iff₀ (by linarith [hc.2.2.1])]; linarith [hc.2.2.1, hc.2.2.2.2.2]
      exact_mod_cast this

/-! ### Regions -/

variable {L : Type}

theorem childPolys_map (ms : List Mat) (ls : List (Option L)) (h : ls.length = ms.length) :
    childPolys (List.zipWith (fun m l => (.polytope m l : Region L)) ms ls) = .ok ms := by
  induction ms generalizing ls with
  | nil => cases ls <;> rfl
  | cons m ms ih =>
    cases ls with
    | nil => simp at h
    | cons l ls =>
      rw [List.zipWith_cons_cons, childPolys, childPoly, ih ls (by simpa using h)]
      rfl

/-- **C41** (regions, part) The same for a region which is a union or disjoint union of polytopes. -/
theorem C41_region_partial (edges : Mat → List (Pt × Pt)) (solve : RF ℝ → RF ℝ → List ℝ) (hs : SolveSpec solve)
    (isZero : Expr ℝ → Bool) (hz : ZeroSpec isZero) (ms : List Mat) (ls : List (Option L)) (hlen : ls.length = ms.length)
    (region : Region L) (hr : region = .union (List.zipWith (fun m l => .polytope m l) ms ls) ∨
      region = .disjoint (List.zipWith (fun m l => .polytope m l) ms ls)) (D : Ival ℝ) (hD : D.x0 < D.x1)
    (hp : ∀ p ∈ ms, EdgesSpec edges p ∧ p.cols = 4 ∧ ∀ s t r, p.Contains [s, t, r] → 0 < t) :
    ∃ out, supLVOnTau edges solve isZero region D = .ok out ∧ ∀ s : ℚ, D.x0 ≤ s → (s : ℝ) < D.x1 →
      ∃ q ∈ out, q.dom.x0 ≤ s ∧ s < q.dom.x1 ∧ (∀ q' ∈ out, q'.dom.x0 ≤ s → s < q'.dom.x1 → q' = q) ∧
        IsGreatest ({-1000000} ∪ Ratios ms s) (q.fn.at s) := by
  obtain ⟨out, h1, h2⟩ := C41_sup_partial edges solve hs isZero hz ms D hD hp
  refine ⟨out, ?_, h2⟩
  unfold supLVOnTau
  rcases hr with rfl | rfl <;> rw [regionPolys, childPolys_map ms ls hlen] <;> exact h1

/-- **Finding** (zero_density_energy_estimate.py:281) A region that is a single polytope — as `Region.project` returns it when only one
projection is not empty — is rejected with `TypeError`: a `Polytope` cannot be iterated. -/
theorem C41_single_counterexample (edges : Mat → List (Pt × Pt)) (solve : RF ℝ → RF ℝ → List ℝ) (isZero : Expr ℝ → Bool)
    (m : Mat) (l : Option L) (D : Ival ℝ) : supLVOnTau edges solve isZero (.polytope m l : Region L) D = .error .typeError := by
  rfl

end SupRatio
end Expdb
