import Verif.Model.Constraint
import Verif.Props.Affine2
import Verif.Props.PolytopeMinkowski

/-!
# C99: constraints, equality of polytopes, and the check of piecewise functions
-/

namespace Expdb
open Mat

namespace Constraint

theorem sameCoefs_iff : ∀ {a b : List ℚ}, a.length = b.length → (sameCoefs a b = true ↔ a = b)
  | [], [], _ => by simp [sameCoefs]
  | [], _ :: _, h => by simp at h
  | _ :: _, [], h => by simp at h
  | x :: a, y :: b, h => by
    simp only [sameCoefs, Bool.and_eq_true, decide_eq_true_eq, List.cons.injEq]
    rw [sameCoefs_iff (by simpa using h)]

/-- **C99** (equality of constraints) Two constraints are equal if and only if they have the same coefficients and the same type, and if and
only if the tuples that are hashed are equal: equal constraints have equal hashes, whatever the hash function for tuples is. -/
theorem C99_constraint_eq (c d : Constraint) : (c.eq d = true ↔ c = d) ∧ (c.hashKey = d.hashKey ↔ c = d) ∧
    ∀ hash : List ℚ → ℤ, c.eq d = true → hash c.hashKey = hash d.hashKey := by
  have h1 : c.eq d = true ↔ c = d := by
    unfold Constraint.eq
    split
    · rename_i h
      refine ⟨fun h' => Bool.noConfusion h', fun e => ?_⟩
      subst e
      rcases h with h | h <;> exact absurd rfl h
    · rename_i h
      push Not at h
      rw [sameCoefs_iff h.1]
      constructor
      · intro e
        cases c; cases d
        simp only at e h
        rw [e, h.2]
      · rintro rfl; rfl
  refine ⟨h1, ⟨fun e => ?_, fun e => by rw [e]⟩, fun hash e => by rw [h1.mp e]⟩
  unfold hashKey at e
  have e1 := List.append_inj' e rfl
  have e2 : c.type.num = d.type.num := by simpa using e1.2
  cases c with
  | mk a t => cases d with
    | mk b u =>
      simp only at e1 e2
      rw [e1.1]
      congr 1
      cases t <;> cases u <;> first | rfl | (simp [IneqType.num] at e2)

/-- Constraints that differ in the type only. -/
example : (⟨[1, -1], .ge⟩ : Constraint).eq ⟨[1, -1], .gt⟩ = false ∧ (⟨[1, -1], .ge⟩ : Constraint).eq ⟨[1, -1], .ge⟩ = true := by
  decide +kernel

/-- **C99** (points of a constraint) For a point of the right dimension `satisfies` says whether `c0 + c·x` is non-negative, positive or
zero; for any other point it raises `ValueError`. -/
theorem C99_satisfies (c0 : ℚ) (cs : List ℚ) (x : Pt) :
    (x.length = cs.length → ∀ t : IneqType, ∃ b, (⟨c0 :: cs, t⟩ : Constraint).satisfies x = .ok b ∧
      (b = true ↔ match t with | .ge => 0 ≤ c0 + dot cs x | .gt => 0 < c0 + dot cs x | .eq => c0 + dot cs x = 0)) ∧
    (x.length ≠ cs.length → ∀ t, (⟨c0 :: cs, t⟩ : Constraint).satisfies x = .error .valueError) := by
  constructor
  · intro h t
    unfold satisfies
    simp only [ne_eq, h, not_true_eq_false, if_false]
    refine ⟨_, rfl, ?_⟩
    rw [add_comm c0]
    cases t <;> simp
  · intro h t
    unfold satisfies
    simp only [ne_eq, h, not_false_eq_true, if_true]

example : (⟨[1, -1, 2], .gt⟩ : Constraint).satisfies [3, 1] = .ok false ∧ (⟨[1, -1, 2], .ge⟩ : Constraint).satisfies [3, 1] = .ok true ∧
    (⟨[1, -1, 2], .eq⟩ : Constraint).satisfies [3] = .error .valueError := by
  decide +kernel

end Constraint

/-- **C99** (where two functions agree) The hyperplane returned by `Affine2.intersection` contains a point exactly if the two functions have the
same value there; functions of different dimension raise `ValueError`. -/
theorem C99_intersection (f g : Affine2) (x : Pt) (hx : x.length = f.cs.length) :
    (f.cs.length = g.cs.length → ∃ h b u v, f.intersection g = .ok h ∧ h.satisfies x = .ok b ∧ f.at x = .ok u ∧ g.at x = .ok v ∧ (b = true ↔ u = v)) ∧
    (f.cs.length ≠ g.cs.length → f.intersection g = .error .valueError) := by
  constructor
  · intro h
    unfold Affine2.intersection
    simp only [ne_eq, h, not_true_eq_false, if_false]
    obtain ⟨b, h1, h2⟩ := (Constraint.C99_satisfies (f.c0 - g.c0) (List.zipWith (· - ·) f.cs g.cs) x).1 (by simp [h, hx]) .eq
    refine ⟨_, b, f.ev x, g.ev x, rfl, h1, ?_, ?_, ?_⟩
    · unfold Affine2.at; rw [if_neg (by simp [hx])]
    · unfold Affine2.at; rw [if_neg (by simp [hx, h])]
    · rw [h2]
      have := Affine2.diff_val h x
      unfold Affine2.diff at this
      simp only at this ⊢
      rw [this, sub_eq_zero]
  · intro h
    unfold Affine2.intersection
    rw [if_pos (by simpa using h)]

example : (match (⟨1, [2, 0], ⟨3, []⟩, none⟩ : Affine2).intersection ⟨0, [1, 1], ⟨3, []⟩, none⟩ with
    | .ok h => decide (h.satisfies [2, 3] = .ok true) && decide (h.satisfies [2, 2] = .ok false) | .error _ => false) = true := by
  decide +kernel

namespace Mat

/-- **C99** (constraints of a polytope) The constraints which `get_constraints` returns are as many as the rows, and a point of the right
dimension is in the polytope exactly if it satisfies all of them. -/
theorem C99_getConstraints (m : Mat) (hwf : m.WF) (x : Pt) (hx : x.length + 1 = m.cols) :
    m.getConstraints.length = m.rows.length ∧ (∀ c ∈ m.getConstraints, ∃ b, c.satisfies x = .ok b) ∧
    (m.contains x = .ok true ↔ ∀ c ∈ m.getConstraints, c.satisfies x = .ok true) := by
  have key : ∀ r ∈ m.rows, ∃ b, (⟨r.c0 :: r.cs, if r.lin then .eq else .ge⟩ : Constraint).satisfies x = .ok b ∧ (b = true ↔ r.Holds x) := by
    intro r hr
    have hl : x.length = r.cs.length := by have := hwf r hr; omega
    obtain ⟨b, h1, h2⟩ := (Constraint.C99_satisfies r.c0 r.cs x).1 hl (if r.lin then .eq else .ge)
    refine ⟨b, h1, h2.trans ?_⟩
    unfold Row.Holds
    cases r.lin <;> simp
  have hmem : ∀ c, c ∈ m.getConstraints ↔ ∃ r ∈ m.rows, c = ⟨r.c0 :: r.cs, if r.lin then .eq else .ge⟩ := by
    intro c
    unfold getConstraints
    rw [List.mem_append, List.mem_map, List.mem_map]
    constructor
    · rintro (⟨r, h1, rfl⟩ | ⟨r, h1, rfl⟩)
      · obtain ⟨h1, h2⟩ := (mem_asList _ _ _).mp h1
        exact ⟨r, h1, by simp [h2]⟩
      · obtain ⟨h1, h2⟩ := (mem_asList _ _ _).mp h1
        exact ⟨r, h1, by simp [h2]⟩
    · rintro ⟨r, h1, rfl⟩
      cases h2 : r.lin with
      | false => exact Or.inl ⟨r, (mem_asList _ _ _).mpr ⟨h1, h2⟩, by simp⟩
      | true => exact Or.inr ⟨r, (mem_asList _ _ _).mpr ⟨h1, h2⟩, by simp⟩
  refine ⟨?_, ?_, ?_⟩
  · unfold getConstraints asList
    rw [List.length_append, List.length_map, List.length_map]
    induction m.rows with
    | nil => rfl
    | cons r rs ih =>
      simp only [List.filter_cons, List.length_cons]
      cases r.lin <;> simp at ih ⊢ <;> omega
  · intro c hc
    obtain ⟨r, hr, rfl⟩ := (hmem c).mp hc
    obtain ⟨b, h1, -⟩ := key r hr
    exact ⟨b, h1⟩
  · rw [show m.contains x = .ok true ↔ m.Holds x from contains_iff_holds m x hx]
    constructor
    · intro h c hc
      obtain ⟨r, hr, rfl⟩ := (hmem c).mp hc
      obtain ⟨b, h1, h2⟩ := key r hr
      rw [h1, h2.mpr (h r hr)]
    · intro h r hr
      obtain ⟨b, h1, h2⟩ := key r hr
      have := h _ ((hmem _).mpr ⟨r, hr, rfl⟩)
      rw [h1] at this
      exact h2.mp (by simpa using this)

/-- A segment: one equality and two inequalities. -/
example : (⟨3, [⟨true, 0, [1, -1]⟩, ⟨false, 0, [1, 0]⟩, ⟨false, 1, [-1, 0]⟩]⟩ : Mat).getConstraints =
    [⟨[0, 1, 0], .ge⟩, ⟨[1, -1, 0], .ge⟩, ⟨[0, 1, -1], .eq⟩] := by
  decide +kernel

/-! ### Equality of polytopes -/

/-- Contract of the generators which cdd reports, as far as the vertices are concerned: the rows with first entry 1 are exactly the vertices. It
is assumed for polytopes without lines only. -/
def GensSpec (gens : Mat → List Generator) (m : Mat) : Prop := ∀ v, v ∈ verticesOf (gens m) ↔ m.IsVertex v

/-- The contract can be met for all polytopes at once. -/
theorem gensSpec_satisfiable : ∃ gens : Mat → List Generator, ∀ m, GensSpec gens m := by
  choose verts hverts using finite_vertices
  refine ⟨fun m => (verts m).map (fun v => (1, v)), fun m v => ?_⟩
  rw [← hverts m v]
  unfold verticesOf
  rw [List.filter_eq_self.mpr (by simp), List.map_map]
  simp

/-- A vertex is a point of the set which is not the middle of two others: this depends on the set of points only. -/
theorem isVertex_iff (m : Mat) (v : Pt) : m.IsVertex v ↔ m.Contains v ∧ ∀ d : Pt, d.length = v.length → ∀ t : ℚ, 0 < t →
    m.Contains (mv v t d) → m.Contains (mv v (-t) d) → ∀ c ∈ d, c = 0 := by
  constructor
  · rintro ⟨h1, h2⟩
    refine ⟨(feasible_iff m v).mp h1, fun d hd t ht ha hb => h2 d hd (fun r hr h0 => ?_)⟩
    have ha := ((feasible_iff _ _).mpr ha).2 r hr
    have hb := ((feasible_iff _ _).mpr hb).2 r hr
    unfold Row.Holds at ha hb
    rw [dot_mv _ _ _ _ hd] at ha hb
    cases hl : r.lin with
    | true =>
      have := ha.1 hl
      have e : t * dot r.cs d = 0 := by linarith
      rcases mul_eq_zero.mp e with e | e
      · exact absurd e ht.ne'
      · exact e
    | false =>
      have a1 := ha.2 hl
      have b1 := hb.2 hl
      have e1 : 0 ≤ t * dot r.cs d := by linarith
      have e2 : t * dot r.cs d ≤ 0 := by linarith
      have e : t * dot r.cs d = 0 := le_antisymm e2 e1
      rcases mul_eq_zero.mp e with e | e
      · exact absurd e ht.ne'
      · exact e
  · rintro ⟨h1, h2⟩
    have hf := (feasible_iff m v).mpr h1
    refine ⟨hf, fun d hd horth => ?_⟩
    have key : ∀ rows : List Row, (∀ r ∈ rows, r ∈ m.rows) → ∃ t : ℚ, 0 < t ∧ ∀ r ∈ rows, r.lin = false →
        0 ≤ r.c0 + dot r.cs v + t * dot r.cs d ∧ 0 ≤ r.c0 + dot r.cs v - t * dot r.cs d := by
      intro rows
      induction rows with
      | nil => exact fun _ => ⟨1, one_pos, by simp⟩
      | cons r rows ih =>
        intro hsub
        obtain ⟨t, ht, hall⟩ := ih (fun s hs => hsub s (by simp [hs]))
        have hr := hsub r (by simp)
        by_cases hl : r.lin = false
        · have hge := (hf.2 r hr).2 hl
          rcases hge.lt_or_eq with hgt | h0
          · refine ⟨min t ((r.c0 + dot r.cs v) / (|dot r.cs d| + 1)), lt_min ht (div_pos hgt (by positivity)), fun s hs hsl => ?_⟩
            have hm1 : min t ((r.c0 + dot r.cs v) / (|dot r.cs d| + 1)) ≤ t := min_le_left _ _
            have hm2 : min t ((r.c0 + dot r.cs v) / (|dot r.cs d| + 1)) ≤ (r.c0 + dot r.cs v) / (|dot r.cs d| + 1) := min_le_right _ _
            have hm0 : 0 < min t ((r.c0 + dot r.cs v) / (|dot r.cs d| + 1)) := lt_min ht (div_pos hgt (by positivity))
            generalize min t ((r.c0 + dot r.cs v) / (|dot r.cs d| + 1)) = u at hm0 hm1 hm2 ⊢
            rcases List.mem_cons.mp hs with rfl | hs
            · rw [le_div_iff₀ (by positivity)] at hm2
              have e1 := neg_abs_le (dot s.cs d)
              have e2 := le_abs_self (dot s.cs d)
              constructor <;> nlinarith
            · obtain ⟨a1, a2⟩ := hall s hs hsl
              have hsv := (hf.2 s (hsub s (by simp [hs]))).2 hsl
              have e : ∀ q : ℚ, 0 ≤ s.c0 + dot s.cs v + t * q → 0 ≤ s.c0 + dot s.cs v + u * q := by
                intro q hq
                by_cases hq0 : 0 ≤ q
                · nlinarith [mul_nonneg hm0.le hq0]
                · push Not at hq0
                  nlinarith
              refine ⟨e _ a1, ?_⟩
              have := e (-dot s.cs d) (by linarith)
              linarith
          · refine ⟨t, ht, fun s hs hsl => ?_⟩
            rcases List.mem_cons.mp hs with rfl | hs
            · rw [horth s hr h0.symm, ← h0]; simp
            · exact hall s hs hsl
        · refine ⟨t, ht, fun s hs hsl => ?_⟩
          rcases List.mem_cons.mp hs with rfl | hs
          · exact absurd hsl hl
          · exact hall s hs hsl
    obtain ⟨t, ht, hall⟩ := key m.rows (fun r hr => hr)
    have hfeas : ∀ u : ℚ, (u = t ∨ u = -t) → m.Contains (mv v u d) := by
      intro u hu
      refine (feasible_iff _ _).mp ⟨by rw [mv_length _ _ _ hd]; exact hf.1, fun r hr => ⟨fun hl => ?_, fun hl => ?_⟩⟩
      · rw [dot_mv _ _ _ _ hd, horth r hr ((hf.2 r hr).1 hl)]
        have := (hf.2 r hr).1 hl
        linarith
      · rw [dot_mv _ _ _ _ hd]
        obtain ⟨a1, a2⟩ := hall r hr hl
        rcases hu with rfl | rfl
        · linarith
        · linarith
    exact h2 d hd t ht (hfeas t (Or.inl rfl)) (hfeas (-t) (Or.inr rfl))

theorem eq_iff (gens : Mat → List Generator) (p q : Mat) (hp : GensSpec gens p) (hq : GensSpec gens q) :
    eq gens p q = true ↔ ∀ v, p.IsVertex v ↔ q.IsVertex v := by
  unfold eq
  rw [Bool.and_eq_true, List.all_eq_true, List.all_eq_true]
  simp only [decide_eq_true_eq]
  constructor
  · rintro ⟨h1, h2⟩ v
    exact ⟨fun h => (hq v).mp (h1 v ((hp v).mpr h)), fun h => (hp v).mp (h2 v ((hq v).mpr h))⟩
  · intro h
    exact ⟨fun v hv => (hq v).mpr ((h v).mp ((hp v).mp hv)), fun v hv => (hp v).mpr ((h v).mpr ((hq v).mp hv))⟩

/-- **C99** (equality of polytopes) Two bounded polytopes, of any dimensions, are equal in the sense of `==` if and only if they contain the
same points, although the comparison is of the vertices only. -/
theorem C99_equal_partial (gens : Mat → List Generator) (p q : Mat) (hp : GensSpec gens p) (hq : GensSpec gens q) (hp1 : 1 ≤ p.cols)
    (hq1 : 1 ≤ q.cols) (hbp : p.Bounded) (hbq : q.Bounded) : eq gens p q = true ↔ ∀ x, p.Contains x ↔ q.Contains x := by
  rw [eq_iff gens p q hp hq]
  constructor
  · have dir : ∀ p q : Mat, 1 ≤ p.cols → p.Bounded → 1 ≤ q.cols → (∀ v, p.IsVertex v ↔ q.IsVertex v) → ∀ x, p.Contains x → q.Contains x := by
      intro p q hp1 hbp hq1 h x hx
      obtain ⟨vs, hvs⟩ := finite_vertices p
      have hl : ∀ v ∈ vs, v.length = p.cols - 1 := fun v hv => by have := ((hvs v).mp hv).1.1; omega
      have hin := feasible_inHull p hbp vs hl (fun v hv => (hvs v).mpr hv) _ x (le_refl _) ((feasible_iff p x).mpr hx)
      have hne : vs ≠ [] := by
        rintro rfl
        obtain ⟨ws, a1, -, a3, -⟩ := hin
        rw [List.length_nil, List.length_eq_zero_iff] at a1
        subst a1
        simp at a3
      obtain ⟨v, hv⟩ := List.exists_mem_of_ne_nil vs hne
      have hc : p.cols = q.cols := by
        have a := ((hvs v).mp hv).1.1
        have b := ((h v).mp ((hvs v).mp hv)).1.1
        omega
      have hxl : x.length + 1 = q.cols := by rw [← hc]; exact ((feasible_iff p x).mpr hx).1
      rw [contains_iff_holds q x hxl]
      intro r hr
      have hv : ∀ v ∈ vs, r.Holds v := fun v hv => ((h v).mp ((hvs v).mp hv)).1.2 r hr
      refine ⟨fun hlin => ?_, fun hlin => ?_⟩
      · apply le_antisymm
        · exact hull_nonpos _ _ _ _ hl (fun v hv' => ((hv v hv').1 hlin).le) x hin
        · exact hull_nonneg _ _ _ _ hl (fun v hv' => ((hv v hv').1 hlin).ge) x hin
      · exact hull_nonneg _ _ _ _ hl (fun v hv' => (hv v hv').2 hlin) x hin
    exact fun h x => ⟨dir p q hp1 hbp hq1 h x, dir q p hq1 hbq hp1 (fun v => (h v).symm) x⟩
  · intro h v
    rw [isVertex_iff, isVertex_iff]
    simp only [h]

/-- The contract and the bounds hold for two descriptions of the same interval, one with a superfluous row. -/
example : ∃ gens : Mat → List Generator, GensSpec gens (ivl 0 1) ∧ GensSpec gens ⟨2, [⟨false, 0, [2]⟩, ⟨false, 1, [-1]⟩, ⟨false, 5, [-1]⟩]⟩ ∧
    (ivl 0 1).Bounded := by
  obtain ⟨gens, h⟩ := gensSpec_satisfiable
  refine ⟨gens, h _, h _, 1, fun x hx c hc => ?_⟩
  obtain ⟨a, rfl, h1, h2⟩ := (ivl_contains 0 1 x).mp hx
  simp only [List.mem_cons, List.not_mem_nil, or_false] at hc
  subst hc
  rw [abs_le]
  constructor <;> linarith

/-- **C99 (counterexample).** `Polytope.__eq__` (polytope.py:167-175) compares the vertices but not the rays: the half lines `x ≥ 0` and `x ≤ 0`
are reported to be equal, although they have only one point in common. -/
theorem C99_equal_counterexample (gens : Mat → List Generator) (hg : ∀ m, GensSpec gens m) :
    ∃ p q, ofConstraints [⟨false, 0, [1]⟩] = .ok p ∧ ofConstraints [⟨false, 0, [-1]⟩] = .ok q ∧ eq gens p q = true ∧
      ∀ x, p.Contains x ∧ q.Contains x ↔ x = [0] := by
  refine ⟨⟨2, [⟨false, 0, [1]⟩]⟩, ⟨2, [⟨false, 0, [-1]⟩]⟩, by decide +kernel, by decide +kernel, ?_, ?_⟩
  · rw [eq_iff gens _ _ (hg _) (hg _)]
    have key : ∀ s : ℚ, s ≠ 0 → ∀ v, (⟨2, [⟨false, 0, [s]⟩]⟩ : Mat).IsVertex v ↔ v = [0] := by
      intro s hs v
      constructor
      · rintro ⟨⟨h1, h2⟩, h3⟩
        match v, h1 with
        | [a], _ =>
          by_contra hne
          have ha : a ≠ 0 := fun h => hne (by rw [h])
          have := h3 [1] rfl (fun r hr h0 => by
            simp only [List.mem_singleton] at hr
            subst hr
            simp only [dot_cons, dot_nil_left, add_zero, zero_add] at h0
            rcases mul_eq_zero.mp h0 with h0 | h0
            · exact absurd h0 hs
            · exact absurd h0 ha) 1 (by simp)
          exact absurd this one_ne_zero
      · rintro rfl
        refine ⟨⟨rfl, fun r hr => ?_⟩, fun d hd h => ?_⟩
        · simp only [List.mem_singleton] at hr
          subst hr
          unfold Row.Holds
          simp
        · have h0 := h ⟨false, 0, [s]⟩ (by simp) (by simp)
          match d, hd with
          | [a], _ =>
            simp only [dot_cons, dot_nil_left, add_zero] at h0
            intro c hc
            simp only [List.mem_singleton] at hc
            subst hc
            rcases mul_eq_zero.mp h0 with h0 | h0
            · exact absurd h0 hs
            · exact h0
    intro v
    rw [key 1 one_ne_zero v, key (-1) (by norm_num) v]
  · intro x
    rw [← feasible_iff, ← feasible_iff]
    constructor
    · rintro ⟨⟨h1, h2⟩, -, h3⟩
      match x, h1 with
      | [a], _ =>
        have e1 := (h2 ⟨false, 0, [1]⟩ (by simp)).2 rfl
        have e2 := (h3 ⟨false, 0, [-1]⟩ (by simp)).2 rfl
        simp only [dot_cons, dot_nil_left, add_zero, zero_add] at e1 e2
        rw [show a = 0 by linarith]
    · rintro rfl
      refine ⟨⟨rfl, fun r hr => ?_⟩, rfl, fun r hr => ?_⟩ <;>
      · simp only [List.mem_singleton] at hr
        subst hr
        unfold Row.Holds
        simp

/-- The contract assumed can be met. -/
example : ∃ gens : Mat → List Generator, ∀ m, GensSpec gens m := gensSpec_satisfiable

end Mat

/-! ### The check of piecewise functions -/

namespace Piecewise

theorem checkWith_spec {eng : Engine} (heng : EngineSpec eng) {n : ℕ} (hn : 1 ≤ n) {p : Affine2} (hp : BddPoly n p.dom) :
    ∀ qs : List Affine2, (∀ q ∈ qs, BddPoly n q.dom) → ∃ b, checkWith eng.canon eng.lp p qs = .ok b ∧
      (b = true ↔ ∀ q ∈ qs, ¬∃ x, x.length + 1 = n ∧ p.dom.Interior x ∧ q.dom.Interior x)
  | [], _ => ⟨true, rfl, by simp⟩
  | q :: qs, h => by
    have hq := h q (by simp)
    obtain ⟨b, h1, h2⟩ := checkWith_spec heng hn hp qs (fun r hr => h r (by simp [hr]))
    obtain ⟨m, h3, h4, h5⟩ := intersect_poly heng hp hq.wf hq.cols hq.noZero
    have hint : (∃ s, s.length + 1 = n ∧ m.Interior s) ↔ ∃ x, x.length + 1 = n ∧ p.dom.Interior x ∧ q.dom.Interior x := by
      constructor
      · rintro ⟨s, hs, ε, he, hI⟩
        have hsub : ∀ y, Near ε s y → p.dom.Holds y ∧ q.dom.Holds y := by
          intro y hy
          have hl : y.length + 1 = n := by have := hy.length; omega
          have := (h5 y).mp ((contains_iff_holds m y (by rw [h4.cols]; exact hl)).mpr (hI y hy))
          exact ⟨(contains_iff_holds _ y (by rw [hp.cols]; exact hl)).mp this.1, (contains_iff_holds _ y (by rw [hq.cols]; exact hl)).mp this.2⟩
        exact ⟨s, hs, ⟨ε, he, fun y hy => (hsub y hy).1⟩, ⟨ε, he, fun y hy => (hsub y hy).2⟩⟩
      · rintro ⟨x, hx, hxp, hxq⟩
        exact ⟨x, hx, interior_inter n hp.cols hq.cols h4.cols h5 hx hxp hxq⟩
    have he := h4.empty_iff heng hn
    unfold checkWith
    simp only [bind, Except.bind, h3, h1, pure, Except.pure]
    cases hb : isEmptyExcl eng.lp m with
    | false =>
      refine ⟨false, rfl, ?_⟩
      constructor
      · intro h; cases h
      · intro h
        exact absurd (hint.mp (he.mp hb)) (h q (by simp))
    | true =>
      refine ⟨b, rfl, ?_⟩
      rw [h2]
      simp only [List.mem_cons, forall_eq_or_imp]
      refine (and_iff_right ?_).symm
      rw [← hint, ← he, hb]
      simp

theorem checkOverlap_spec {eng : Engine} (heng : EngineSpec eng) {n : ℕ} (hn : 1 ≤ n) :
    ∀ (ps prev : List Affine2), (∀ q ∈ prev ++ ps, BddPoly n q.dom) → ∃ b, checkOverlap eng.canon eng.lp prev ps = .ok b ∧
      (b = true ↔ (∀ p ∈ ps, ∀ q ∈ prev, ¬∃ x, x.length + 1 = n ∧ p.dom.Interior x ∧ q.dom.Interior x) ∧
        ps.Pairwise (fun q p => ¬∃ x, x.length + 1 = n ∧ p.dom.Interior x ∧ q.dom.Interior x))
  | [], prev, _ => ⟨true, rfl, by simp⟩
  | p :: ps, prev, h => by
    obtain ⟨b, h1, h2⟩ := checkWith_spec heng hn (h p (by simp)) prev (fun q hq => h q (by simp [hq]))
    obtain ⟨c, h3, h4⟩ := checkOverlap_spec heng hn ps (prev ++ [p]) (fun q hq => h q (by simpa using hq))
    unfold checkOverlap
    simp only [bind, Except.bind, h1, pure, Except.pure]
    cases hb : b with
    | false =>
      rw [hb] at h2
      refine ⟨false, by simp, ?_⟩
      constructor
      · intro h; cases h
      · intro hh
        exact h2.mpr (fun q hq => hh.1 p (by simp) q hq)
    | true =>
      rw [hb] at h2
      refine ⟨c, by simp [h3], ?_⟩
      rw [h4, List.pairwise_cons]
      simp only [List.mem_append, List.mem_cons, List.not_mem_nil, or_false]
      constructor
      · rintro ⟨a1, a2⟩
        refine ⟨?_, fun r hr => a1 r hr p (Or.inr rfl), a2⟩
        rintro r (rfl | hr) q hq
        · exact h2.mp rfl q hq
        · exact a1 r hr q (Or.inl hq)
      · rintro ⟨a1, a2, a3⟩
        refine ⟨?_, a3⟩
        rintro r hr q (hq | rfl)
        · exact a1 r (Or.inr hr) q hq
        · exact a2 r hr

theorem at_isSome {n : ℕ} : ∀ (ps : List Affine2), (∀ p ∈ ps, Affine2.Ok n p) → ∀ x : Pt, x.length + 1 = n →
    ∃ v, Piecewise.at ps x = .ok v ∧ (v.isSome ↔ ∃ p ∈ ps, p.dom.Contains x)
  | [], _, x, _ => ⟨none, rfl, by simp⟩
  | p :: ps, h, x, hx => by
    obtain ⟨v, h1, h2⟩ := at_isSome ps (fun q hq => h q (by simp [hq])) x hx
    have hp := h p (by simp)
    obtain ⟨b, hb, -⟩ := contains_eq p.dom x (by rw [hp.dom.cols]; exact hx)
    unfold Piecewise.at
    simp only [bind, Except.bind, hb, pure, Except.pure]
    cases b with
    | false =>
      refine ⟨v, by simp [h1], ?_⟩
      rw [h2]
      simp [Mat.Contains, hb]
    | true =>
      have : p.at x = .ok (p.ev x) := by
        unfold Affine2.at
        rw [if_neg]
        have := hp.len
        omega
      refine ⟨some (p.ev x), by simp [this], ?_⟩
      simp [Mat.Contains, hb]

theorem checkAt_spec {n : ℕ} {ps : List Affine2} (h : ∀ p ∈ ps, Affine2.Ok n p) : ∀ xs : List Pt, (∀ x ∈ xs, x.length + 1 = n) →
    ∃ b, checkAt ps xs = .ok b ∧ (b = true ↔ ∀ x ∈ xs, ∃ p ∈ ps, p.dom.Contains x)
  | [], _ => ⟨true, rfl, by simp⟩
  | x :: xs, hx => by
    obtain ⟨b, h1, h2⟩ := checkAt_spec h xs (fun y hy => hx y (by simp [hy]))
    obtain ⟨v, h3, h4⟩ := at_isSome ps h x (hx x (by simp))
    unfold checkAt
    simp only [bind, Except.bind, h3, pure, Except.pure, h1]
    cases v with
    | none =>
      refine ⟨false, by simp, ?_⟩
      simp only [Option.isSome_none, Bool.false_eq_true, false_iff] at h4
      simp only [List.mem_cons, forall_eq_or_imp, Bool.false_eq_true, false_iff]
      exact fun hh => h4 hh.1
    | some w =>
      refine ⟨b, by simp, ?_⟩
      simp only [List.mem_cons, forall_eq_or_imp]
      rw [h2]
      refine (and_iff_right ?_).symm
      exact h4.mp rfl

theorem mem_samples {xlim ylim : ℚ × ℚ} {x : Pt} : x ∈ samples xlim ylim ↔ ∃ i j, i < 100 ∧ j < 100 ∧ x = [sample xlim i, sample ylim j] := by
  unfold samples
  simp only [List.mem_flatMap, List.mem_map, List.mem_range]
  constructor
  · rintro ⟨i, hi, j, hj, rfl⟩; exact ⟨i, j, hi, hj, rfl⟩
  · rintro ⟨i, j, hi, hj, rfl⟩; exact ⟨i, hi, j, hj, rfl⟩

/-- **C99** (what `check` decides) For functions of two variables on bounded polytopes `check` returns without an error, and its answer is
"true" exactly if no two domains have a common interior point and the function is defined at the 10000 points of the grid. In particular a
function that is defined on the whole rectangle and has no overlaps passes. The full claim, that a function which passes is defined everywhere
on the rectangle, fails (see the counterexample). -/
theorem C99_check_partial (eng : Engine) (heng : EngineSpec eng) (ps : List Affine2) (h : ∀ p ∈ ps, Affine2.Ok 3 p) (xlim ylim : ℚ × ℚ) :
    ∃ b, check eng.canon eng.lp ps xlim ylim = .ok b ∧
      (b = true ↔ ps.Pairwise (fun q p => ¬∃ x, x.length = 2 ∧ p.dom.Interior x ∧ q.dom.Interior x) ∧
        ∀ i j : ℕ, i < 100 → j < 100 → ∃ p ∈ ps, p.dom.Contains [xlim.1 + (xlim.2 - xlim.1) * i / 100, ylim.1 + (ylim.2 - ylim.1) * j / 100]) := by
  obtain ⟨b, h1, h2⟩ := checkOverlap_spec heng (n := 3) (by norm_num) ps [] (fun q hq => (h q (by simpa using hq)).dom)
  obtain ⟨c, h3, h4⟩ := checkAt_spec h (samples xlim ylim) (fun x hx => by obtain ⟨i, j, -, -, rfl⟩ := mem_samples.mp hx; rfl)
  have h4' : c = true ↔ ∀ i j : ℕ, i < 100 → j < 100 → ∃ p ∈ ps, p.dom.Contains [xlim.1 + (xlim.2 - xlim.1) * i / 100, ylim.1 + (ylim.2 - ylim.1) * j / 100] := by
    rw [h4]
    constructor
    · intro hh i j hi hj; exact hh _ (mem_samples.mpr ⟨i, j, hi, hj, rfl⟩)
    · intro hh x hx
      obtain ⟨i, j, hi, hj, rfl⟩ := mem_samples.mp hx
      exact hh i j hi hj
  have e : ∀ x : Pt, x.length + 1 = 3 ↔ x.length = 2 := fun x => by omega
  simp only [e] at h2
  unfold check
  simp only [bind, Except.bind, h1, pure, Except.pure]
  cases hb : b with
  | false =>
    rw [hb] at h2
    refine ⟨false, by simp, ?_⟩
    constructor
    · intro h; cases h
    · rintro ⟨a1, -⟩; exact h2.mpr ⟨by simp, a1⟩
  | true =>
    rw [hb] at h2
    refine ⟨c, by simp [h3], ?_⟩
    rw [h4']
    exact (and_iff_right (h2.mp rfl).2).symm

/-- The constant function 1 on the square with the given upper end. -/
def squareOf (u : ℚ) : Affine2 := ⟨1, [0, 0], ⟨3, [⟨false, 0, [1, 0]⟩, ⟨false, u, [-1, 0]⟩, ⟨false, 0, [0, 1]⟩, ⟨false, u, [0, -1]⟩]⟩, none⟩

theorem squareOf_contains (u : ℚ) (x : Pt) : (squareOf u).dom.Contains x ↔ ∃ a b, x = [a, b] ∧ 0 ≤ a ∧ a ≤ u ∧ 0 ≤ b ∧ b ≤ u := by
  rw [← feasible_iff]
  constructor
  · rintro ⟨h1, h2⟩
    match x, h1 with
    | [a, b], _ =>
      have e1 := (h2 ⟨false, 0, [1, 0]⟩ (by simp [squareOf])).2 rfl
      have e2 := (h2 ⟨false, u, [-1, 0]⟩ (by simp [squareOf])).2 rfl
      have e3 := (h2 ⟨false, 0, [0, 1]⟩ (by simp [squareOf])).2 rfl
      have e4 := (h2 ⟨false, u, [0, -1]⟩ (by simp [squareOf])).2 rfl
      simp only [dot_cons, dot_nil_left] at e1 e2 e3 e4
      exact ⟨a, b, rfl, by linarith, by linarith, by linarith, by linarith⟩
  · rintro ⟨a, b, rfl, h1, h2, h3, h4⟩
    refine ⟨rfl, fun r hr => ?_⟩
    simp only [squareOf, List.mem_cons, List.not_mem_nil, or_false] at hr
    rcases hr with rfl | rfl | rfl | rfl <;>
    · refine ⟨fun h => (by cases h), fun _ => ?_⟩
      simp only [dot_cons, dot_nil_left]
      linarith

theorem squareOf_ok (u : ℚ) : Affine2.Ok 3 (squareOf u) := by
  refine ⟨⟨?_, rfl, ?_, |u|, fun x hx c hc => ?_⟩, rfl⟩
  · intro r hr
    simp only [squareOf, List.mem_cons, List.not_mem_nil, or_false] at hr
    rcases hr with rfl | rfl | rfl | rfl <;> rfl
  · intro r hr
    simp only [squareOf, List.mem_cons, List.not_mem_nil, or_false] at hr
    rw [← Bool.not_eq_true, Row.isZero_iff]
    rcases hr with rfl | rfl | rfl | rfl <;> simp
  · obtain ⟨a, b, rfl, h1, h2, h3, h4⟩ := (squareOf_contains u x).mp hx
    have := le_abs_self u
    simp only [List.mem_cons, List.not_mem_nil, or_false] at hc
    rcases hc with rfl | rfl <;> · rw [abs_le]; constructor <;> linarith

/-- The theorem applies to two squares that overlap, for every engine that satisfies the contracts: `check` returns "false". -/
example (eng : Engine) (heng : EngineSpec eng) : check eng.canon eng.lp [squareOf 1, squareOf 2] (0, 1) (0, 1) = .ok false := by
  obtain ⟨b, h1, h2⟩ := C99_check_partial eng heng [squareOf 1, squareOf 2] (fun p hp => by
    simp only [List.mem_cons, List.not_mem_nil, or_false] at hp
    rcases hp with rfl | rfl <;> exact squareOf_ok _) (0, 1) (0, 1)
  cases b with
  | false => exact h1
  | true =>
    exfalso
    have h3 := (List.pairwise_cons.mp (h2.mp rfl).1).1 (squareOf 2) (by simp)
    refine h3 ⟨[1 / 2, 1 / 2], rfl, Strict.interior ?_, Strict.interior ?_⟩ <;>
    · intro r hr
      simp only [squareOf, List.mem_cons, List.not_mem_nil, or_false] at hr
      rcases hr with rfl | rfl | rfl | rfl <;> exact ⟨rfl, by norm_num⟩

/-- **C99 (counterexample).** `Piecewise.check` (functions.py:459-481) is to check that the function is defined everywhere, but its grid
does not contain the upper ends of the ranges: a function that is defined only up to 99 hundredths of the range passes, although it is
undefined at every point with a larger first coordinate. -/
theorem C99_check_counterexample (eng : Engine) (heng : EngineSpec eng) :
    check eng.canon eng.lp [squareOf (99 / 100)] (0, 1) (0, 1) = .ok true ∧
      ∀ x y : ℚ, 99 / 100 < x → x ≤ 1 → Piecewise.at [squareOf (99 / 100)] [x, y] = .ok none := by
  have hok : ∀ p ∈ [squareOf (99 / 100)], Affine2.Ok 3 p := by
    intro p hp
    rw [List.mem_singleton] at hp
    rw [hp]; exact squareOf_ok _
  constructor
  · obtain ⟨b, h1, h2⟩ := C99_check_partial eng heng [squareOf (99 / 100)] hok (0, 1) (0, 1)
    rw [h1, h2.mpr ⟨by simp, fun i j hi hj => ⟨_, List.mem_singleton_self _, (squareOf_contains _ _).mpr ⟨_, _, rfl, ?_, ?_, ?_, ?_⟩⟩⟩]
    · positivity
    · have : (i : ℚ) ≤ 99 := by exact_mod_cast Nat.le_of_lt_succ hi
      norm_num; linarith
    · positivity
    · have : (j : ℚ) ≤ 99 := by exact_mod_cast Nat.le_of_lt_succ hj
      norm_num; linarith
  · intro x y hx _
    obtain ⟨v, h1, h2⟩ := at_isSome [squareOf (99 / 100)] hok [x, y] rfl
    cases v with
    | none => exact h1
    | some w =>
      exfalso
      obtain ⟨p, hp, hc⟩ := h2.mp rfl
      rw [List.mem_singleton] at hp
      subst hp
      obtain ⟨a, b, e, -, h3, -⟩ := (squareOf_contains _ _).mp hc
      simp only [List.cons.injEq, and_true] at e
      rw [e.1] at hx
      linarith

end Piecewise
end Expdb
