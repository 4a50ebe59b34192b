import Verif.Props.PolytopeHull

/-!
# Property C17: `try_union`
-/

namespace Expdb
namespace Mat

theorem mem_product {α : Type} (ls : List (List α)) (comb : List α) :
    comb ∈ product ls ↔ List.Forall₂ (fun a l => a ∈ l) comb ls := by
  induction ls generalizing comb with
  | nil =>
    simp only [product, List.mem_singleton]
    constructor
    · rintro rfl; exact .nil
    · intro h; cases h; rfl
  | cons l ls ih =>
    simp only [product, List.mem_flatMap, List.mem_map]
    constructor
    · rintro ⟨a, ha, t, ht, rfl⟩; exact .cons ha ((ih t).mp ht)
    · intro h
      cases h with
      | cons h1 h2 => exact ⟨_, h1, _, (ih _).mpr h2, rfl⟩

theorem anyM_ok {α : Type} (f : α → Py Bool) (g : α → Bool) (L : List α)
    (h : ∀ a ∈ L, f a = .ok (g a)) : L.anyM f = .ok (L.any g) := by
  induction L with
  | nil => rfl
  | cons a L ih =>
    rw [List.anyM, h a (by simp)]
    simp only [bind, Except.bind, List.any_cons]
    cases g a with
    | true => rfl
    | false =>
      simp only [Bool.false_or]
      exact ih (fun b hb => h b (by simp [hb]))

section

variable (canon : Mat → Mat) (lp : LPSolver) (verts : Mat → List Pt) (polys : List Mat) (n : Nat)

/-- The hypotheses of C17: bounded polytopes given by inequalities (no zero rows) in the same
dimension `d = n - 1 ≥ 1`. -/
structure UnionHyp : Prop where
  wf : ∀ p ∈ polys, p.WF
  cols : ∀ p ∈ polys, p.cols = n
  noLin : ∀ p ∈ polys, p.NoLin
  noZero : ∀ p ∈ polys, p.NoZero
  vert : ∀ p ∈ polys, VertsSpec verts p
  dim : 2 ≤ n

variable {verts polys n}

theorem noLin_holds {p : Mat} (h : p.NoLin) (x : Pt) :
    p.Holds x ↔ ∀ r ∈ p.rows, 0 ≤ r.c0 + dot r.cs x := by
  constructor
  · intro hp r hr; exact (hp r hr).2 (h r hr)
  · intro hp r hr
    exact ⟨fun h' => absurd ((h r hr).symm.trans h') (by simp), fun _ => hp r hr⟩

/-- The set of envelope rows before removing duplicates. -/
def envSet (verts : Mat → List Pt) (polys : List Mat) : List Row :=
  polys.zipIdx.flatMap (fun t => envRows verts polys t.2 t.1)

theorem rowIsEnv_iff (H : UnionHyp verts polys n) (i : Nat) (r : Row) (hl : r.lin = false) :
    rowIsEnv verts polys i r = true ↔
      ∀ j p, polys[j]? = some p → j ≠ i → ∀ x, p.Contains x → 0 ≤ r.c0 + dot r.cs x := by
  unfold rowIsEnv
  rw [List.all_eq_true]
  constructor
  · intro h j p hj hne x hx
    have hp : p ∈ polys := List.mem_of_getElem? hj
    have := h (p, j) ((List.mk_mem_zipIdx_iff_getElem?).mpr hj)
    simp only [Bool.or_eq_true, beq_iff_eq, hne, false_or, List.all_eq_true] at this
    have hv := H.vert p hp
    have hlen : ∀ v ∈ verts p, v.length = p.cols - 1 := fun v hv' => by have := hv.1 v hv'; omega
    refine hull_nonneg _ _ _ _ hlen (fun v hv' => ?_) x ((hv.2 x).mp hx)
    exact ((Row.satisfies_iff r v).mp (this v hv')).2 hl
  · rintro h ⟨p, j⟩ ht
    rw [List.mk_mem_zipIdx_iff_getElem?] at ht
    have hp : p ∈ polys := List.mem_of_getElem? ht
    simp only [Bool.or_eq_true, beq_iff_eq, List.all_eq_true]
    by_cases hji : j = i
    · exact Or.inl hji
    · right
      intro v hv'
      have hv := H.vert p hp
      have hlen : ∀ v ∈ verts p, v.length = p.cols - 1 := fun v hv' => by have := hv.1 v hv'; omega
      rw [Row.satisfies_iff]
      exact ⟨fun h' => absurd (hl.symm.trans h') (by simp),
        fun _ => h j p ht hji v ((hv.2 v).mpr (hull_mem _ _ hlen v hv'))⟩

theorem mem_envSet (H : UnionHyp verts polys n) (r : Row) :
    r ∈ envSet verts polys ↔ ∃ i p, polys[i]? = some p ∧ r ∈ p.rows ∧
      rowIsEnv verts polys i r = true := by
  unfold envSet
  rw [List.mem_flatMap]
  constructor
  · rintro ⟨⟨p, i⟩, ht, hr⟩
    rw [List.mk_mem_zipIdx_iff_getElem?] at ht
    have hp : p ∈ polys := List.mem_of_getElem? ht
    unfold envRows at hr
    rw [List.mem_flatMap] at hr
    obtain ⟨s, hs, hr⟩ := hr
    rw [List.mem_filter] at hs
    have hsl := H.noLin p hp s hs.1
    rw [hsl] at hr
    simp only [Bool.false_eq_true, if_false, List.mem_singleton] at hr
    have : r = s := by
      rw [hr]; unfold Row.asIneq; cases s; simp only at hsl; rw [hsl]
    subst this
    exact ⟨i, p, ht, hs.1, hs.2⟩
  · rintro ⟨i, p, ht, hr, he⟩
    refine ⟨(p, i), List.mk_mem_zipIdx_iff_getElem?.mpr ht, ?_⟩
    have hp : p ∈ polys := List.mem_of_getElem? ht
    have hl := H.noLin p hp r hr
    unfold envRows
    rw [List.mem_flatMap]
    refine ⟨r, List.mem_filter.mpr ⟨hr, he⟩, ?_⟩
    rw [hl]
    simp only [Bool.false_eq_true, if_false, List.mem_singleton]
    unfold Row.asIneq; cases r; simp only at hl; rw [hl]

theorem mem_negRows (H : UnionHyp verts polys n) (i : Nat) (p : Mat) (hp : p ∈ polys) (c : Row) :
    c ∈ negRows verts polys i p ↔ ∃ r ∈ p.rows, rowIsEnv verts polys i r = false ∧ c = r.negIneq := by
  unfold negRows
  rw [List.mem_flatMap]
  constructor
  · rintro ⟨r, hr, hc⟩
    rw [List.mem_filter] at hr
    rw [H.noLin p hp r hr.1] at hc
    simp only [Bool.false_eq_true, if_false, List.mem_singleton] at hc
    exact ⟨r, hr.1, by simpa using hr.2, hc⟩
  · rintro ⟨r, hr, he, rfl⟩
    refine ⟨r, List.mem_filter.mpr ⟨hr, by simp [he]⟩, ?_⟩
    rw [H.noLin p hp r hr]; simp

/-- Every point of the union satisfies the envelope. -/
theorem union_sub_env (H : UnionHyp verts polys n) (x : Pt) (hx : ∃ p ∈ polys, p.Contains x) :
    ∀ r ∈ envSet verts polys, r.Holds x := by
  intro r hr
  obtain ⟨i, p, hi, hrp, he⟩ := (mem_envSet H r).mp hr
  have hp : p ∈ polys := List.mem_of_getElem? hi
  have hl := H.noLin p hp r hrp
  refine ⟨fun h' => absurd (hl.symm.trans h') (by simp), fun _ => ?_⟩
  obtain ⟨q, hq, hqx⟩ := hx
  obtain ⟨j, hj⟩ := List.mem_iff_getElem?.mp hq
  by_cases hji : j = i
  · subst hji
    rw [hi] at hj
    cases hj
    have hlen := contains_imp _ _ hqx
    exact (noLin_holds (H.noLin p hp) x).mp ((contains_iff_holds p x hlen).mp hqx) r hrp
  · exact (rowIsEnv_iff H i r hl).mp he j q hj hji x hqx

theorem envSet_row (H : UnionHyp verts polys n) (r : Row) (hr : r ∈ envSet verts polys) :
    r.lin = false ∧ r.isZero = false ∧ r.cs.length + 1 = n := by
  obtain ⟨i, p, hi, hrp, _⟩ := (mem_envSet H r).mp hr
  have hp : p ∈ polys := List.mem_of_getElem? hi
  exact ⟨H.noLin p hp r hrp, H.noZero p hp r hrp, by rw [← H.cols p hp]; exact H.wf p hp r hrp⟩

/-- The envelope as a matrix. -/
def envMat (verts : Mat → List Pt) (polys : List Mat) (n : Nat) : Mat := ⟨n, envSet verts polys⟩

theorem envMat_wf (H : UnionHyp verts polys n) : (envMat verts polys n).WF :=
  fun r hr => (envSet_row H r hr).2.2

theorem envMat_noZero (H : UnionHyp verts polys n) : (envMat verts polys n).NoZero :=
  fun r hr => (envSet_row H r hr).2.1

/-- A point interior to one of the polytopes is strict for the envelope. -/
theorem env_strict (H : UnionHyp verts polys n) (p : Mat) (hp : p ∈ polys) (s : Pt)
    (hs1 : s.length + 1 = n) (hs : p.Interior s) : (envMat verts polys n).Strict s := by
  refine Interior.strict (envMat_wf H) (envMat_noZero H) hs1 ?_
  obtain ⟨ε, h1, h2⟩ := hs
  refine ⟨ε, h1, fun y hy => ?_⟩
  refine union_sub_env H y ⟨p, hp, ?_⟩
  rw [contains_iff_holds p y (by rw [H.cols p hp, hy.length]; exact hs1)]
  exact h2 y hy

/-- choice of one row from each list -/
theorem exists_comb (L : List Mat) (k : Nat) (f : Nat → Mat → List Row) (x : Pt)
    (h : ∀ i p, L[i]? = some p → ∃ c ∈ f (i + k) p, c.Strict x) :
    ∃ comb, List.Forall₂ (fun a l => a ∈ l) comb ((L.zipIdx k).map (fun t => f t.2 t.1)) ∧
      ∀ c ∈ comb, c.Strict x := by
  induction L generalizing k with
  | nil => exact ⟨[], .nil, by simp⟩
  | cons p L ih =>
    obtain ⟨c, hc1, hc2⟩ := h 0 p (by simp)
    obtain ⟨comb, h1, h2⟩ := ih (k + 1) (fun i q hq => by
      have := h (i + 1) q (by simpa using hq)
      rw [show i + 1 + k = i + (k + 1) by omega] at this
      exact this)
    refine ⟨c :: comb, ?_, ?_⟩
    · rw [List.zipIdx_cons, List.map_cons]
      exact .cons (by simpa using hc1) h1
    · intro d hd
      rcases List.mem_cons.mp hd with rfl | hd
      · exact hc2
      · exact h2 d hd

theorem forall₂_mem_left {α β : Type} {R : α → β → Prop} {l : List α} {l' : List β}
    (h : List.Forall₂ R l l') : ∀ a ∈ l, ∃ b ∈ l', R a b := by
  induction h with
  | nil => intro a ha; simp at ha
  | cons h1 _ ih =>
    intro a ha
    rcases List.mem_cons.mp ha with rfl | ha
    · exact ⟨_, by simp, h1⟩
    · obtain ⟨b, hb, hr⟩ := ih a ha; exact ⟨b, by simp [hb], hr⟩

theorem forall₂_mem_right {α β : Type} {R : α → β → Prop} {l : List α} {l' : List β}
    (h : List.Forall₂ R l l') : ∀ b ∈ l', ∃ a ∈ l, R a b := by
  induction h with
  | nil => intro a ha; simp at ha
  | cons h1 _ ih =>
    intro a ha
    rcases List.mem_cons.mp ha with rfl | ha
    · exact ⟨_, by simp, h1⟩
    · obtain ⟨b, hb, hr⟩ := ih a ha; exact ⟨b, by simp [hb], hr⟩

/-- The list of negated constraints, one list per polytope. -/
def negLists (verts : Mat → List Pt) (polys : List Mat) : List (List Row) :=
  polys.zipIdx.map (fun t => negRows verts polys t.2 t.1)

theorem comb_row (H : UnionHyp verts polys n) (comb : List Row)
    (hc : comb ∈ product (negLists verts polys)) (c : Row) (hcm : c ∈ comb) :
    c.lin = false ∧ c.isZero = false ∧ c.cs.length + 1 = n := by
  rw [mem_product] at hc
  obtain ⟨l, hl, hcl⟩ := forall₂_mem_left hc c hcm
  unfold negLists at hl
  obtain ⟨⟨p, i⟩, ht, rfl⟩ := List.mem_map.mp hl
  rw [List.mk_mem_zipIdx_iff_getElem?] at ht
  have hp : p ∈ polys := List.mem_of_getElem? ht
  obtain ⟨r, hr, _, rfl⟩ := (mem_negRows H i p hp c).mp hcl
  refine ⟨rfl, by rw [negIneq_isZero]; exact H.noZero p hp r hr, ?_⟩
  simp only [Row.negIneq, List.length_map]
  rw [← H.cols p hp]; exact H.wf p hp r hr

/-- The set `A ∩ B` test of the loop (polytope.py:306-312) in terms of strict points. -/
theorem loop_test (hlp : LPSpec lp) (H : UnionHyp verts polys n) (hne : polys ≠ [])
    (comb : List Row) (hc : comb ∈ product (negLists verts polys)) :
    ∃ b, (do
        let p ← ofConstraints ((envSet verts polys).dedup ++ comb)
        pure (!isEmptyExcl lp p) : Py Bool) = .ok b ∧
      (b = true ↔ ∃ x, x.length + 1 = n ∧ (∀ r ∈ envSet verts polys, r.Strict x) ∧
        ∀ c ∈ comb, c.Strict x) := by
  have hrow : ∀ r ∈ (envSet verts polys).dedup ++ comb,
      r.lin = false ∧ r.isZero = false ∧ r.cs.length + 1 = n := by
    intro r hr
    rcases List.mem_append.mp hr with hr | hr
    · exact envSet_row H r (List.mem_dedup.mp hr)
    · exact comb_row H comb hc r hr
  have hcne : comb ≠ [] := by
    rw [mem_product] at hc
    intro h
    subst h
    cases hc' : negLists verts polys with
    | nil =>
      unfold negLists at hc'
      simp at hc'
      exact hne hc'
    | cons a l => rw [hc'] at hc; cases hc
  have hfil : ((envSet verts polys).dedup ++ comb).filter (fun r => !r.isZero) =
      (envSet verts polys).dedup ++ comb := by
    rw [List.filter_eq_self]
    intro r hr; rw [(hrow r hr).2.1]; rfl
  have hd := H.dim
  have hof : ofConstraints ((envSet verts polys).dedup ++ comb) =
      .ok ⟨n, (envSet verts polys).dedup ++ comb⟩ := by
    unfold ofConstraints
    rw [hfil, ofRows_ok _ (n - 1) (by simp [hcne]) (fun r hr => by have := (hrow r hr).2.2; omega)]
    rw [show n - 1 + 1 = n by omega]
  rw [hof]
  refine ⟨_, rfl, ?_⟩
  have hE := C14_isEmptyExcl_strict lp hlp ⟨n, (envSet verts polys).dedup ++ comb⟩
    (fun r hr => (hrow r hr).2.2) (by simp only; omega)
  rw [Bool.not_eq_true', Bool.eq_false_iff, Ne, hE]
  push Not
  apply exists_congr
  intro x
  apply and_congr Iff.rfl
  unfold Strict
  simp only [List.mem_append, List.mem_dedup]
  constructor
  · intro h; exact ⟨fun r hr => h r (Or.inl hr), fun r hr => h r (Or.inr hr)⟩
  · rintro ⟨h1, h2⟩ r (hr | hr)
    · exact h1 r hr
    · exact h2 r hr

/-- Outcome of the loop over combinations. -/
theorem core_eq (hlp : LPSpec lp) (H : UnionHyp verts polys n) (hne : polys ≠ []) :
    ∃ bad, tryUnionCore canon lp verts polys =
        (if bad then .ok none else (do
          let m ← ofConstraints (envSet verts polys).dedup
          return some (canon m))) ∧
      (bad = true ↔ ∃ comb ∈ product (negLists verts polys), ∃ x, x.length + 1 = n ∧
        (∀ r ∈ envSet verts polys, r.Strict x) ∧ ∀ c ∈ comb, c.Strict x) := by
  classical
  have hex : ∀ comb, ∃ b, comb ∈ product (negLists verts polys) → ((do
        let p ← ofConstraints ((envSet verts polys).dedup ++ comb)
        pure (!isEmptyExcl lp p) : Py Bool) = .ok b ∧
      (b = true ↔ ∃ x, x.length + 1 = n ∧ (∀ r ∈ envSet verts polys, r.Strict x) ∧
        ∀ c ∈ comb, c.Strict x)) := by
    intro comb
    by_cases hc : comb ∈ product (negLists verts polys)
    · obtain ⟨b, hb⟩ := loop_test lp hlp H hne comb hc
      exact ⟨b, fun _ => hb⟩
    · exact ⟨false, fun h => absurd h hc⟩
  choose g hg using hex
  refine ⟨(product (negLists verts polys)).any g, ?_, ?_⟩
  · have := anyM_ok (fun comb => (do
        let p ← ofConstraints ((envSet verts polys).dedup ++ comb)
        pure (!isEmptyExcl lp p) : Py Bool)) g (product (negLists verts polys))
      (fun comb hc => (hg comb hc).1)
    unfold tryUnionCore
    simp only
    change (do
      let bad ← (product (negLists verts polys)).anyM (fun comb => (do
        let p ← ofConstraints ((envSet verts polys).dedup ++ comb)
        pure (!isEmptyExcl lp p) : Py Bool))
      if bad = true then return none
      else do
        let m ← ofConstraints (envSet verts polys).dedup
        return some (canon m)) = _
    rw [this]
    rfl
  · rw [List.any_eq_true]
    constructor
    · rintro ⟨comb, hc, hb⟩; exact ⟨comb, hc, (hg comb hc).2.mp hb⟩
    · rintro ⟨comb, hc, hb⟩; exact ⟨comb, hc, (hg comb hc).2.mpr hb⟩

/-- If no combination is strictly feasible then the envelope is the union. -/
theorem env_sub_union (H : UnionHyp verts polys n) (p : Mat) (hp : p ∈ polys) (s : Pt)
    (hs1 : s.length + 1 = n) (hs : p.Interior s)
    (hgood : ¬ ∃ comb ∈ product (negLists verts polys), ∃ x, x.length + 1 = n ∧
        (∀ r ∈ envSet verts polys, r.Strict x) ∧ ∀ c ∈ comb, c.Strict x)
    (x : Pt) (hx1 : x.length + 1 = n) (hx : ∀ r ∈ envSet verts polys, r.Holds x) :
    ∃ q ∈ polys, q.Contains x := by
  by_contra hcon
  push Not at hcon
  apply hgood
  obtain ⟨comb, h1, h2⟩ := exists_comb polys 0 (fun i p => negRows verts polys i p) x (by
    intro i q hq
    have hqm : q ∈ polys := List.mem_of_getElem? hq
    have hnot := hcon q hqm
    rw [contains_iff_holds q x (by rw [H.cols q hqm]; exact hx1),
      noLin_holds (H.noLin q hqm)] at hnot
    push Not at hnot
    obtain ⟨r, hr, hlt⟩ := hnot
    refine ⟨r.negIneq, (mem_negRows H _ q hqm _).mpr ⟨r, hr, ?_, rfl⟩,
      (Row.negIneq_strict r x).mpr hlt⟩
    rw [Bool.eq_false_iff]
    intro he
    have := (hx r ((mem_envSet H r).mpr ⟨i, q, hq, hr, by simpa using he⟩)).2 (H.noLin q hqm r hr)
    linarith)
  refine ⟨comb, (mem_product _ _).mpr h1, ?_⟩
  obtain ⟨ε, he, hnear⟩ := near_all (fun (c : Row) y => c.Strict y) x comb (fun c hc => by
    obtain ⟨ε, h3, h4⟩ := pos_near _ _ _ (h2 c hc).2
    exact ⟨ε, h3, fun y hy => ⟨(h2 c hc).1, h4 y hy⟩⟩)
  obtain ⟨y, hy1, hy2⟩ := strict_dense (m := envMat verts polys n) (by omega : s.length = x.length)
    (env_strict H p hp s hs1 hs) hx he
  exact ⟨y, by rw [hy1.length]; exact hx1, hy2, hnear y hy1⟩

/-- The union of bounded polytopes is not everything, so the envelope has a row. -/
theorem exists_outside (H : UnionHyp verts polys n) :
    ∃ x : Pt, x.length + 1 = n ∧ ∀ p ∈ polys, ¬ p.Contains x := by
  obtain ⟨B, hB⟩ : ∃ B : ℚ, ∀ p ∈ polys, ∀ v ∈ verts p, v.getD 0 0 < B := by
    have : ∀ L : List Pt, ∃ B : ℚ, ∀ v ∈ L, v.getD 0 0 < B := by
      intro L
      induction L with
      | nil => exact ⟨0, by simp⟩
      | cons u L ih =>
        obtain ⟨B, hB⟩ := ih
        refine ⟨max B (u.getD 0 0 + 1), fun v hv => ?_⟩
        rcases List.mem_cons.mp hv with rfl | hv
        · exact lt_of_lt_of_le (by linarith) (le_max_right _ _)
        · exact lt_of_lt_of_le (hB v hv) (le_max_left _ _)
    obtain ⟨B, hB⟩ := this (polys.flatMap verts)
    exact ⟨B, fun p hp v hv => hB v (List.mem_flatMap.mpr ⟨p, hp, hv⟩)⟩
  have hd := H.dim
  refine ⟨(List.replicate (n - 1) 0).set 0 B, by simp; omega, fun p hp hx => ?_⟩
  have hv := H.vert p hp
  have hlen : ∀ v ∈ verts p, v.length = p.cols - 1 := fun v hv' => by have := hv.1 v hv'; omega
  have hpos := hull_pos (p.cols - 1) B ((List.replicate (n - 1) 0).set 0 (-1)) (verts p) hlen
    (fun v hv' => by
      rw [dot_unit _ _ _ _ (by omega) (by rw [hlen v hv', H.cols p hp])]
      have := hB p hp v hv'; linarith) _ ((hv.2 _).mp hx)
  rw [dot_unit _ _ _ _ (by omega) (by simp)] at hpos
  have : ((List.replicate (n - 1) (0:ℚ)).set 0 B).getD 0 0 = B := by
    rw [List.getD_eq_getElem?_getD, List.getElem?_set_self (by simp; omega)]; rfl
  rw [this] at hpos
  linarith

/-- A combination that is strictly feasible together with the envelope yields a point of the
envelope outside the union. -/
theorem bad_outside (H : UnionHyp verts polys n) (comb : List Row)
    (hc : comb ∈ product (negLists verts polys)) (x : Pt) (hx1 : x.length + 1 = n)
    (hcx : ∀ c ∈ comb, c.Strict x) : ∀ p ∈ polys, ¬ p.Contains x := by
  intro p hp hpx
  rw [mem_product] at hc
  obtain ⟨i, hi⟩ := List.mem_iff_getElem?.mp hp
  obtain ⟨c, hcm, hcl⟩ := forall₂_mem_right hc (negRows verts polys i p)
    (List.mem_map.mpr ⟨(p, i), List.mk_mem_zipIdx_iff_getElem?.mpr hi, rfl⟩)
  obtain ⟨r, hr, _, rfl⟩ := (mem_negRows H i p hp c).mp hcl
  have h1 := (Row.negIneq_strict r x).mp (hcx _ hcm)
  rw [contains_iff_holds p x (by rw [H.cols p hp]; exact hx1)] at hpx
  have := (noLin_holds (H.noLin p hp) x).mp hpx r hr
  linarith

/-- The functional `r(x) · v - v(x) · r`, which vanishes at `x`. -/
def mixRow (x : Pt) (r v : Row) : Row :=
  ⟨false, (r.c0 + dot r.cs x) * v.c0 - (v.c0 + dot v.cs x) * r.c0,
    List.zipWith (· - ·) (v.cs.map (fun c => (r.c0 + dot r.cs x) * c))
      (r.cs.map (fun c => (v.c0 + dot v.cs x) * c))⟩

theorem dot_smul_left (a x : List ℚ) (t : ℚ) : dot (a.map (fun c => t * c)) x = t * dot a x := by
  induction a generalizing x with
  | nil => simp
  | cons c a ih => cases x with
    | nil => simp
    | cons u x => simp [ih]; ring

theorem mixRow_val (x y : Pt) (r v : Row) (h : r.cs.length = v.cs.length) :
    (mixRow x r v).c0 + dot (mixRow x r v).cs y =
      (r.c0 + dot r.cs x) * (v.c0 + dot v.cs y) - (v.c0 + dot v.cs x) * (r.c0 + dot r.cs y) := by
  unfold mixRow
  simp only
  rw [dot_sub_left _ _ _ (by simp [h]), dot_smul_left, dot_smul_left]
  ring

/-- Key step of completeness: if the union equals the point set of some system of inequalities,
then the envelope is contained in the union. -/
theorem convex_env_sub (H : UnionHyp verts polys n) (p : Mat) (hp : p ∈ polys) (s : Pt)
    (hs1 : s.length + 1 = n) (hs : p.Interior s) (V : Mat) (hV : V.WF) (hVc : V.cols = n)
    (hVl : V.NoLin) (hVU : ∀ y, V.Contains y ↔ ∃ q ∈ polys, q.Contains y)
    (x : Pt) (hx1 : x.length + 1 = n) (hx : ∀ r ∈ envSet verts polys, r.Strict x) :
    V.Contains x := by
  by_contra hxV
  have hVh : ∀ y : Pt, y.length + 1 = n → (V.Contains y ↔ V.Holds y) :=
    fun y hy => contains_iff_holds V y (by rw [hVc]; exact hy)
  rw [hVh x hx1] at hxV
  -- generic interior point
  obtain ⟨ε, hε, hint⟩ := hs
  set allRows := polys.flatMap (fun q => q.rows) with hall
  set gs := (allRows.flatMap (fun r => V.rows.map (fun v => mixRow x r v))).filter
    (fun g => !g.isZero) with hgs
  have hrl : ∀ r ∈ allRows, r.cs.length + 1 = n := by
    intro r hr
    obtain ⟨q, hq, hrq⟩ := List.mem_flatMap.mp hr
    rw [← H.cols q hq]; exact H.wf q hq r hrq
  have hvl : ∀ v ∈ V.rows, v.cs.length + 1 = n := fun v hv => by rw [← hVc]; exact hV v hv
  obtain ⟨s', hs', hgen⟩ := exists_generic gs s (by
    intro g hg
    rw [hgs, List.mem_filter] at hg
    refine ⟨by simpa using hg.2, ?_⟩
    obtain ⟨r, hr, hg⟩ := List.mem_flatMap.mp hg.1
    obtain ⟨v, hv, rfl⟩ := List.mem_map.mp hg
    have := hrl r hr
    have := hvl v hv
    simp only [mixRow, List.length_zipWith, List.length_map]
    omega) hε
  have hs'1 : s'.length + 1 = n := by rw [hs'.length]; exact hs1
  have hs'p : p.Contains s' := by
    rw [contains_iff_holds p s' (by rw [H.cols p hp]; exact hs'1)]
    exact hint s' hs'
  have hs'V : V.Holds s' := (hVh s' hs'1).mp ((hVU s').mpr ⟨p, hp, hs'p⟩)
  -- leave `V` towards `x`
  obtain ⟨t, ht0, ht1, hz, v, hv, hvz, hvx⟩ := exit_point V.rows hVl s' x (by omega) hs'V hxV
  set z := seg s' t x with hzdef
  have hz1 : z.length + 1 = n := by rw [hzdef, seg_length _ _ _ (by omega)]; exact hx1
  obtain ⟨q, hq, hqz⟩ := (hVU z).mp ((hVh z hz1).mpr hz)
  have hqz' : q.Holds z := (contains_iff_holds q z (by rw [H.cols q hq]; exact hz1)).mp hqz
  have hqx : ¬ q.Holds x := by
    intro h
    apply hxV
    rw [← hVh x hx1, hVU]
    exact ⟨q, hq, (contains_iff_holds q x (by rw [H.cols q hq]; exact hx1)).mpr h⟩
  obtain ⟨t', ht'0, ht'1, hz', r, hr, hrz, hrx⟩ := exit_point q.rows (H.noLin q hq) z x (by omega)
    hqz' hqx
  -- the exit point of `q` is `z`
  have hz'V : V.Holds (seg z t' x) := by
    have hl : (seg z t' x).length + 1 = n := by rw [seg_length _ _ _ (by omega)]; exact hx1
    rw [← hVh _ hl, hVU]
    exact ⟨q, hq, (contains_iff_holds q _ (by rw [H.cols q hq]; exact hl)).mpr hz'⟩
  have ht'z : t' = 0 := by
    have h1 := (noLin_holds hVl _).mp hz'V v hv
    rw [dot_seg _ _ _ _ (by omega)] at h1
    have h2 : v.c0 + (dot v.cs z + t' * (dot v.cs x - dot v.cs z)) =
        (v.c0 + dot v.cs z) * (1 - t') + t' * (v.c0 + dot v.cs x) := by ring
    rw [h2, hvz, zero_mul, zero_add] at h1
    by_contra hne
    have : 0 < t' := lt_of_le_of_ne ht'0 (Ne.symm hne)
    nlinarith
  rw [ht'z, seg_zero _ _ (by omega)] at hrz
  -- the mixed functional vanishes at `z` and `x`, hence at `s'`
  have hrall : r ∈ allRows := List.mem_flatMap.mpr ⟨q, hq, hr⟩
  have hlen : r.cs.length = v.cs.length := by have := hrl r hrall; have := hvl v hv; omega
  have hgz : (mixRow x r v).c0 + dot (mixRow x r v).cs z = 0 := by
    rw [mixRow_val x z r v hlen, hvz, hrz]; ring
  have hgx : (mixRow x r v).c0 + dot (mixRow x r v).cs x = 0 := by
    rw [mixRow_val x x r v hlen]; ring
  have hgs' : (mixRow x r v).c0 + dot (mixRow x r v).cs s' = 0 := by
    rw [hzdef, dot_seg _ _ _ _ (by omega)] at hgz
    set G := mixRow x r v
    have h1 : (1 - t) * (G.c0 + dot G.cs s') = 0 := by
      have : G.c0 + (dot G.cs s' + t * (dot G.cs x - dot G.cs s')) =
        (1 - t) * (G.c0 + dot G.cs s') + t * (G.c0 + dot G.cs x) := by ring
      rw [this, hgx] at hgz; linarith
    rcases mul_eq_zero.mp h1 with h2 | h2
    · linarith
    · exact h2
  have hzero : (mixRow x r v).isZero = true := by
    by_contra hne
    refine hgen (mixRow x r v) ?_ hgs'
    rw [hgs, List.mem_filter]
    refine ⟨List.mem_flatMap.mpr ⟨r, hrall, List.mem_map.mpr ⟨v, hv, rfl⟩⟩, ?_⟩
    simpa using hne
  -- so `r` is valid on the union
  have hvalid : ∀ y, (∃ q ∈ polys, q.Contains y) → 0 ≤ r.c0 + dot r.cs y := by
    intro y hy
    obtain ⟨q', hq', hq'y⟩ := hy
    have hy1 : y.length + 1 = n := by rw [← H.cols q' hq']; exact contains_imp _ _ hq'y
    have hVy := (noLin_holds hVl _).mp ((hVh y hy1).mp ((hVU y).mpr ⟨q', hq', hq'y⟩)) v hv
    have h0 := mixRow_val x y r v hlen
    rw [(Row.isZero_iff _).mp hzero |>.1, dot_zero _ ((Row.isZero_iff _).mp hzero).2] at h0
    nlinarith
  obtain ⟨i, hi⟩ := List.mem_iff_getElem?.mp hq
  have hl := H.noLin q hq r hr
  have henv : r ∈ envSet verts polys :=
    (mem_envSet H r).mpr ⟨i, q, hi, hr, (rowIsEnv_iff H i r hl).mpr
      (fun j p' hj _ y hy => hvalid y ⟨p', List.mem_of_getElem? hj, hy⟩)⟩
  have := (hx r henv).2
  linarith

end

/-- the core: sound and complete -/
theorem core_spec (canon : Mat → Mat) (hc : CanonSpec canon) (lp : LPSolver) (hlp : LPSpec lp)
    (verts : Mat → List Pt) (polys : List Mat) (n : Nat) (H : UnionHyp verts polys n)
    (p : Mat) (hp : p ∈ polys) (s : Pt) (hs1 : s.length + 1 = n) (hs : p.Interior s) :
    ∃ res, tryUnionCore canon lp verts polys = .ok res ∧
      (∀ U, res = some U → U.cols = n ∧ (∀ x, U.Contains x ↔ ∃ q ∈ polys, q.Contains x) ∧
        U.WF ∧ (CanonNoZero canon → U.NoZero)) ∧
      ((∃ V : Mat, V.WF ∧ V.cols = n ∧ ∀ y, V.Contains y ↔ ∃ q ∈ polys, q.Contains y) →
        res ≠ none) := by
  have hd := H.dim
  have hne : polys ≠ [] := List.ne_nil_of_mem hp
  obtain ⟨bad, h1, h2⟩ := core_eq canon lp hlp H hne
  rw [h1]
  cases hb : bad with
  | true =>
    refine ⟨none, rfl, fun U hU => (by cases hU), ?_⟩
    rintro ⟨V, hV, hVc, hVU⟩ _
    rw [hb] at h2
    obtain ⟨comb, hcm, x, hx1, hxe, hxc⟩ := h2.mp rfl
    -- replace `V` by inequalities
    have hWl : (Mat.mk n V.asIneqs).NoLin := by
      intro r hr
      rcases (mem_asIneqs V r).mp hr with ⟨_, h⟩ | ⟨_, _, _, rfl⟩ | ⟨_, _, _, rfl⟩
      · exact h
      · rfl
      · rfl
    have hW : ∀ y, (Mat.mk n V.asIneqs).Contains y ↔ ∃ q ∈ polys, q.Contains y := by
      intro y
      rw [← hVU]
      by_cases hy : y.length + 1 = n
      · rw [contains_iff_holds _ _ (by simpa using hy), contains_iff_holds V y (by rw [hVc]; exact hy),
          noLin_holds hWl, holds_iff_asIneqs V]
      · constructor
        · intro h; exact absurd (contains_imp _ _ h) (by simpa using hy)
        · intro h; exact absurd (contains_imp _ _ h) (by rw [hVc]; exact hy)
    have := convex_env_sub H p hp s hs1 hs (Mat.mk n V.asIneqs)
      (fun r hr => by simp only at hr ⊢; rw [← hVc]; exact asIneqs_length V hV r hr) rfl hWl hW x hx1 hxe
    obtain ⟨q, hq, hqx⟩ := (hW x).mp this
    exact bad_outside H comb hcm x hx1 hxc q hq hqx
  | false =>
    rw [hb] at h2
    have hgood : ¬ ∃ comb ∈ product (negLists verts polys), ∃ x, x.length + 1 = n ∧
        (∀ r ∈ envSet verts polys, r.Strict x) ∧ ∀ c ∈ comb, c.Strict x := by
      intro h; exact absurd (h2.mpr h) (by simp)
    have henv := fun x hx1 hx => env_sub_union H p hp s hs1 hs hgood x hx1 hx
    have hene : envSet verts polys ≠ [] := by
      intro h0
      obtain ⟨x, hx1, hx⟩ := exists_outside H
      obtain ⟨q, hq, hqx⟩ := henv x hx1 (by rw [h0]; simp)
      exact hx q hq hqx
    have hmem : ∀ r ∈ (envSet verts polys).dedup,
        r.lin = false ∧ r.isZero = false ∧ r.cs.length + 1 = n :=
      fun r hr => envSet_row H r (List.mem_dedup.mp hr)
    have hdne : (envSet verts polys).dedup ≠ [] := by
      obtain ⟨r, hr⟩ := List.exists_mem_of_ne_nil _ hene
      exact List.ne_nil_of_mem (List.mem_dedup.mpr hr)
    have hof : ofConstraints (envSet verts polys).dedup = .ok ⟨n, (envSet verts polys).dedup⟩ := by
      unfold ofConstraints
      have : (envSet verts polys).dedup.filter (fun r => !r.isZero) = (envSet verts polys).dedup := by
        rw [List.filter_eq_self]
        intro r hr; rw [(hmem r hr).2.1]; rfl
      rw [this, ofRows_ok _ (n - 1) hdne (fun r hr => by have := (hmem r hr).2.2; omega)]
      rw [show n - 1 + 1 = n by omega]
    rw [hof]
    obtain ⟨hc1, hc2, hc3⟩ := hc ⟨n, (envSet verts polys).dedup⟩ (fun r hr => (hmem r hr).2.2)
    refine ⟨some (canon ⟨n, (envSet verts polys).dedup⟩), rfl, ?_, fun _ h => by cases h⟩
    intro U hU
    cases hU
    refine ⟨hc1, fun x => ?_, hc2, fun hz => hz _ (fun r hr => (hmem r hr).2.2)
      (fun r hr => (hmem r hr).2.1)⟩
    by_cases hx1 : x.length + 1 = n
    · rw [contains_iff_holds _ _ (by rw [hc1]; exact hx1), hc3 x hx1]
      constructor
      · intro h; exact henv x hx1 (fun r hr => h r (List.mem_dedup.mpr hr))
      · intro h r hr; exact union_sub_env H x h r (List.mem_dedup.mp hr)
    · constructor
      · intro h
        have h' := contains_imp _ _ h
        rw [hc1] at h'
        exact absurd h' hx1
      · rintro ⟨q, hq, h⟩; exact absurd (by rw [contains_imp _ _ h, H.cols q hq]) hx1

/-- **C17** For two or more bounded polytopes given by inequalities, one of which has an interior
point: whenever `try_union` returns a polytope, it is exactly the union; and it does return one
whenever the union is a polytope (all polytopes being non-empty). Missing: polytopes without interior points, for which it is
false (`C17_lower_dim_counterexample`). -/
theorem C17_tryUnion_partial (canon : Mat → Mat) (hc : CanonSpec canon) (lp : LPSolver)
    (hlp : LPSpec lp) (verts : Mat → List Pt) (polys : List Mat) (n : Nat)
    (H : UnionHyp verts polys n) (hnon : ∀ q ∈ polys, ∃ x, q.Contains x)
    (p : Mat) (hp : p ∈ polys) (s : Pt) (hs1 : s.length + 1 = n) (hs : p.Interior s) :
    ∃ res, tryUnion canon lp verts polys = .ok res ∧
      (∀ U, res = some U → U.cols = n ∧ (∀ x, U.Contains x ↔ ∃ q ∈ polys, q.Contains x) ∧
        U.WF ∧ (CanonNoZero canon → U.NoZero)) ∧
      ((∃ V : Mat, V.WF ∧ V.cols = n ∧ ∀ y, V.Contains y ↔ ∃ q ∈ polys, q.Contains y) →
        res ≠ none) := by
  match polys, H, hnon, hp with
  | [q], H, _, hp =>
    refine ⟨some q, rfl, ?_, fun _ h => by cases h⟩
    rintro U hU
    cases hU
    exact ⟨H.cols q (by simp), fun x => by simp, H.wf q (by simp), fun _ => H.noZero q (by simp)⟩
  | [q1, q2], H, hnon, hp =>
    unfold tryUnion
    simp only
    obtain ⟨m, hm, hmwf, hmn, hmx⟩ := C10_intersection_exact canon hc false [q1, q2] (by simp) n
      (fun q hq => ⟨H.wf q hq, H.cols q hq⟩)
    rw [hm]
    simp only [bind, Except.bind]
    have hd := H.dim
    cases hE : isEmptyIncl lp m with
    | false =>
      simp only [Bool.false_eq_true, if_false]
      exact core_spec canon hc lp hlp verts [q1, q2] n H p hp s hs1 hs
    | true =>
      refine ⟨none, rfl, fun U hU => (by cases hU), ?_⟩
      rintro ⟨V, hV, hVc, hVU⟩ _
      rw [C14_isEmptyIncl_iff lp hlp m hmwf (by omega)] at hE
      -- the segment between a point of each leaves the first inside the second
      obtain ⟨a, ha⟩ := hnon q1 (by simp)
      obtain ⟨b, hb⟩ := hnon q2 (by simp)
      have ha1 : a.length + 1 = n := by rw [← H.cols q1 (by simp)]; exact contains_imp _ _ ha
      have hb1 : b.length + 1 = n := by rw [← H.cols q2 (by simp)]; exact contains_imp _ _ hb
      have hcon : ∀ (q : Mat), q ∈ [q1, q2] → ∀ y : Pt, y.length + 1 = n → (q.Contains y ↔ q.Holds y) :=
        fun q hq y hy => contains_iff_holds q y (by rw [H.cols q hq]; exact hy)
      have hnb : ¬ q1.Contains b := by
        intro h
        exact hE b ((hmx b).mpr (by
          intro q hq
          simp only [List.mem_cons, List.not_mem_nil, or_false] at hq
          rcases hq with rfl | rfl
          · exact h
          · exact hb))
      have hVh : ∀ y : Pt, y.length + 1 = n → (V.Contains y ↔ V.Holds y) :=
        fun y hy => contains_iff_holds V y (by rw [hVc]; exact hy)
      obtain ⟨t, ht0, ht1, hz, r, hr, hrz, hrb⟩ := exit_point q1.rows (H.noLin q1 (by simp)) a b
        (by omega) ((hcon q1 (by simp) a ha1).mp ha)
        (fun h => hnb ((hcon q1 (by simp) b hb1).mpr h))
      set z := seg a t b with hzd
      have hz1 : z.length + 1 = n := by rw [hzd, seg_length _ _ _ (by omega)]; exact hb1
      have hzq1 : q1.Contains z := (hcon q1 (by simp) z hz1).mpr hz
      have hzV := (hVh z hz1).mp ((hVU z).mpr ⟨q1, by simp, hzq1⟩)
      have hbV := (hVh b hb1).mp ((hVU b).mpr ⟨q2, by simp, hb⟩)
      have hzq2 : ∃ q ∈ [q2], q.Holds z := union_closed [q2] z (by
        intro ε hε
        obtain ⟨δ, hδ, hnear⟩ := seg_near z b (by omega) hε
        set u := min δ 1 / 2 with hu
        have hu0 : 0 < u := by have := lt_min hδ (by norm_num : (0:ℚ) < 1); rw [hu]; linarith
        have hu1 : u ≤ 1 := by have := min_le_right δ 1; rw [hu]; linarith
        have huδ : u < δ := by
          have := min_le_left δ 1; have := lt_min hδ (by norm_num : (0:ℚ) < 1); rw [hu]; linarith
        have hl : (seg z u b).length + 1 = n := by rw [seg_length _ _ _ (by omega)]; exact hb1
        refine ⟨seg z u b, hnear u hu0.le huδ, q2, by simp, ?_⟩
        have hmV : V.Holds (seg z u b) := by
          intro r' hr'
          have e1 := hzV r' hr'
          have e2 := hbV r' hr'
          refine ⟨fun h => ?_, fun h => ?_⟩
          · have e3 := e1.1 h; have e4 := e2.1 h
            rw [dot_seg _ _ _ _ (by omega)]
            have : r'.c0 + (dot r'.cs z + u * (dot r'.cs b - dot r'.cs z)) =
              (1 - u) * (r'.c0 + dot r'.cs z) + u * (r'.c0 + dot r'.cs b) := by ring
            rw [this, e3, e4]; ring
          · have e3 := e1.2 h; have e4 := e2.2 h
            rw [dot_seg _ _ _ _ (by omega)]
            have : r'.c0 + (dot r'.cs z + u * (dot r'.cs b - dot r'.cs z)) =
              (1 - u) * (r'.c0 + dot r'.cs z) + u * (r'.c0 + dot r'.cs b) := by ring
            rw [this]
            have := mul_nonneg (by linarith : 0 ≤ 1 - u) e3
            have := mul_nonneg hu0.le e4
            linarith
        obtain ⟨q, hq, hqm⟩ := (hVU _).mp ((hVh _ hl).mpr hmV)
        simp only [List.mem_cons, List.not_mem_nil, or_false] at hq
        rcases hq with rfl | rfl
        · exfalso
          have := (noLin_holds (H.noLin q (by simp)) _).mp ((hcon q (by simp) _ hl).mp hqm) r hr
          rw [dot_seg _ _ _ _ (by omega)] at this
          have e : r.c0 + (dot r.cs z + u * (dot r.cs b - dot r.cs z)) =
            (1 - u) * (r.c0 + dot r.cs z) + u * (r.c0 + dot r.cs b) := by ring
          rw [e, hrz] at this
          nlinarith
        · exact (hcon q (by simp) _ hl).mp hqm)
      obtain ⟨q, hq, hqz⟩ := hzq2
      simp only [List.mem_singleton] at hq
      subst hq
      refine hE z ((hmx z).mpr (fun q' hq' => ?_))
      simp only [List.mem_cons, List.not_mem_nil, or_false] at hq'
      rcases hq' with rfl | rfl
      · exact hzq1
      · exact (hcon q' (by simp) z hz1).mpr hqz
  | q1 :: q2 :: q3 :: rest, H, _, hp =>
    exact core_spec canon hc lp hlp verts (q1 :: q2 :: q3 :: rest) n H p hp s hs1 hs

/-- Non-vacuity of C17: the intervals `[0,2]` and `[1,3]` meet all hypotheses. -/
example : UnionHyp (fun p => if p = ivl 0 2 then [[0], [2]] else [[1], [3]]) [ivl 0 2, ivl 1 3] 2 ∧
    (∀ q ∈ [ivl 0 2, ivl 1 3], ∃ x, q.Contains x) ∧ (ivl 0 2).Interior [1] := by
  have hne : ivl 1 3 ≠ ivl 0 2 := by decide +kernel
  refine ⟨⟨?_, ?_, ?_, ?_, ?_, by norm_num⟩, ?_, ?_⟩
  · unfold WF; decide +kernel
  · decide +kernel
  · unfold NoLin; decide +kernel
  · unfold NoZero; decide +kernel
  · intro p hp
    simp only [List.mem_cons, List.not_mem_nil, or_false] at hp
    rcases hp with rfl | rfl
    · exact ivl_vertsSpec 0 2 (by norm_num) _ (by simp)
    · exact ivl_vertsSpec 1 3 (by norm_num) _ (by simp [hne])
  · intro q hq
    simp only [List.mem_cons, List.not_mem_nil, or_false] at hq
    rcases hq with rfl | rfl
    · exact ⟨[1], by unfold Contains; decide +kernel⟩
    · exact ⟨[1], by unfold Contains; decide +kernel⟩
  · refine Strict.interior ?_
    unfold Strict Row.Strict
    decide +kernel

/-- The segment `[a, b] × {0}` of the plane. -/
def hseg (a b : ℚ) : Mat := ⟨3, [⟨false, -a, [1, 0]⟩, ⟨false, b, [-1, 0]⟩, ⟨true, 0, [0, 1]⟩]⟩

/-- Finding (why C17 needs an interior point): for polytopes sharing an equality the envelope
contains a constraint and its negation, every strict test fails, and the convex hull is returned
although it is not the union: `[0,1] ∪ [2,3] ∪ [4,5]` on the line `y = 0` "equals" `[0,5]`. -/
theorem C17_lower_dim_counterexample (canon : Mat → Mat) (hc : CanonSpec canon) (lp : LPSolver)
    (hlp : LPSpec lp) (verts : Mat → List Pt) (h1 : verts (hseg 0 1) = [[0, 0], [1, 0]])
    (h2 : verts (hseg 2 3) = [[2, 0], [3, 0]]) (h3 : verts (hseg 4 5) = [[4, 0], [5, 0]]) :
    ∃ U, tryUnion canon lp verts [hseg 0 1, hseg 2 3, hseg 4 5] = .ok (some U) ∧
      U.Contains [3 / 2, 0] ∧
      ∀ q ∈ [hseg 0 1, hseg 2 3, hseg 4 5], ¬ q.Contains [3 / 2, 0] := by
  set polys := [hseg 0 1, hseg 2 3, hseg 4 5] with hp
  have hidx : polys.zipIdx = [(hseg 0 1, 0), (hseg 2 3, 1), (hseg 4 5, 2)] := rfl
  set V : Nat → List Pt := fun i => [[[0, 0], [1, 0]], [[2, 0], [3, 0]], [[4, 0], [5, 0]]].getD i []
    with hV
  have hRow : ∀ i r, rowIsEnv verts polys i r =
      [0, 1, 2].all (fun j => j == i || (V j).all (fun v => r.satisfies v)) := by
    intro i r
    unfold rowIsEnv
    rw [hidx]
    simp only [List.all_cons, List.all_nil, h1, h2, h3, hV]
    rfl
  have henv : (polys.zipIdx.flatMap (fun t => envRows verts polys t.2 t.1)).dedup =
      [⟨false, 0, [1, 0]⟩, ⟨false, 5, [-1, 0]⟩, ⟨false, 0, [0, 1]⟩, ⟨false, 0, [0, -1]⟩] := by
    rw [hidx]
    unfold envRows
    simp only [hRow, funext (hRow _)]
    decide +kernel
  have hneg : polys.zipIdx.map (fun t => negRows verts polys t.2 t.1) =
      [[⟨false, -1, [1, 0]⟩], [⟨false, 2, [-1, 0]⟩, ⟨false, -3, [1, 0]⟩], [⟨false, 4, [-1, 0]⟩]] := by
    rw [hidx]
    unfold negRows
    simp only [hRow]
    decide +kernel
  have hE : ∀ c, c ∈ product [[(⟨false, -1, [1, 0]⟩ : Row)], [⟨false, 2, [-1, 0]⟩,
      ⟨false, -3, [1, 0]⟩], [⟨false, 4, [-1, 0]⟩]] → (do
        let p ← ofConstraints ([⟨false, 0, [1, 0]⟩, ⟨false, 5, [-1, 0]⟩, ⟨false, 0, [0, 1]⟩,
          ⟨false, 0, [0, -1]⟩] ++ c)
        pure (!isEmptyExcl lp p) : Py Bool) = .ok ((fun _ => false) c) := by
    intro c hcm
    have hfil : ∃ m : Mat, ofConstraints ([⟨false, 0, [1, 0]⟩, ⟨false, 5, [-1, 0]⟩, ⟨false, 0, [0, 1]⟩,
          ⟨false, 0, [0, -1]⟩] ++ c) = .ok m ∧ m.WF ∧ 1 ≤ m.cols ∧ ⟨false, 0, [0, 1]⟩ ∈ m.rows ∧
          ⟨false, 0, [0, -1]⟩ ∈ m.rows := by
      simp only [product, List.flatMap_cons, List.flatMap_nil, List.map_cons, List.map_nil,
        List.append_nil, List.cons_append, List.nil_append, List.mem_cons, List.not_mem_nil,
        or_false] at hcm
      rcases hcm with rfl | rfl
      · exact ⟨_, rfl, by unfold WF; decide +kernel, by decide +kernel, by decide +kernel,
          by decide +kernel⟩
      · exact ⟨_, rfl, by unfold WF; decide +kernel, by decide +kernel, by decide +kernel,
          by decide +kernel⟩
    obtain ⟨m, hm, hwf, hcols, hr1, hr2⟩ := hfil
    rw [hm]
    have : isEmptyExcl lp m = true := by
      rw [C14_isEmptyExcl_strict lp hlp m hwf hcols]
      intro x hx hs
      have a1 := (hs _ hr1).2
      have a2 := (hs _ hr2).2
      cases x with
      | nil => simp at a1
      | cons u x => cases x with
        | nil => simp at a1
        | cons w x => simp at a1 a2; linarith
    simp only [bind, Except.bind, this]; rfl
  obtain ⟨hc1, _, hc3⟩ := hc ⟨3, [⟨false, 0, [1, 0]⟩, ⟨false, 5, [-1, 0]⟩, ⟨false, 0, [0, 1]⟩,
    ⟨false, 0, [0, -1]⟩]⟩ (by unfold WF; decide +kernel)
  refine ⟨canon ⟨3, [⟨false, 0, [1, 0]⟩, ⟨false, 5, [-1, 0]⟩, ⟨false, 0, [0, 1]⟩,
    ⟨false, 0, [0, -1]⟩]⟩, ?_, ?_, ?_⟩
  · change tryUnionCore canon lp verts polys = _
    unfold tryUnionCore
    simp only
    rw [henv, hneg, anyM_ok _ (fun _ => false) _ hE]
    rfl
  · rw [contains_iff_holds _ _ (by rw [hc1]; rfl), hc3 _ rfl]
    unfold Holds Row.Holds; decide +kernel
  · unfold Contains; decide +kernel

end Mat
end Expdb
