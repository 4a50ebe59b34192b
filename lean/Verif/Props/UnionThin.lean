import Verif.Props.RegionDisjoint

/-!
# `try_union` when some of the polytopes have no interior point (C17)

`C17_tryUnion_partial` needs polytopes given by inequalities.  Here the polytopes may also be lower-dimensional (with or
without equality rows), or empty.  Such polytopes are called thin.  The union computed by the code is then still right up
to thin sets: it has an interior point exactly if one of the inputs has, and then it is exactly the union of those inputs
that have interior points.
-/

namespace Expdb
namespace Mat

/-- `m` has an interior point. -/
def HasInner (n : Nat) (m : Mat) : Prop := ∃ s : Pt, s.length + 1 = n ∧ m.Interior s

/-- `x` belongs to `m` and `m` has an interior point. -/
def SMem (n : Nat) (m : Mat) (x : Pt) : Prop := HasInner n m ∧ m.Contains x

/-- Well-formed matrices in dimension `n - 1` without zero rows. -/
structure Base (n : Nat) (m : Mat) : Prop where
  wf : m.WF
  cols : m.cols = n
  noZero : m.NoZero

theorem FullDim.base {n : Nat} {m : Mat} (h : FullDim n m) : Base n m := ⟨h.wf, h.cols, h.noZero⟩

theorem FullDim.hasInner {n : Nat} {m : Mat} (h : FullDim n m) : HasInner n m := h.inner

theorem Base.fullDim {n : Nat} {m : Mat} (h : Base n m) (hi : HasInner n m) (hb : m.Bounded) : FullDim n m :=
  ⟨h.wf, h.cols, h.noZero, hb, hi⟩

namespace Thin

variable {canon : Mat → Mat} {lp : LPSolver} {verts : Mat → List Pt} {polys : List Mat} {n : Nat}

theorem mem_envSet (r : Row) :
    r ∈ envSet verts polys ↔ ∃ i p, polys[i]? = some p ∧ ∃ s ∈ p.rows, rowIsEnv verts polys i s = true ∧
      (r = s.asIneq ∨ s.lin = true ∧ r = s.negIneq) := by
  unfold envSet
  rw [List.mem_flatMap]
  constructor
  · rintro ⟨⟨p, i⟩, ht, hr⟩
    rw [List.mk_mem_zipIdx_iff_getElem?] at ht
    unfold envRows at hr
    rw [List.mem_flatMap] at hr
    obtain ⟨s, hs, hr⟩ := hr
    rw [List.mem_filter] at hs
    refine ⟨i, p, ht, s, hs.1, hs.2, ?_⟩
    by_cases hl : s.lin = true
    · rw [if_pos hl] at hr
      simp only [List.mem_cons, List.not_mem_nil, or_false] at hr
      rcases hr with rfl | rfl
      · exact Or.inl rfl
      · exact Or.inr ⟨hl, rfl⟩
    · rw [if_neg hl, List.mem_singleton] at hr
      exact Or.inl hr
  · rintro ⟨i, p, ht, s, hs, he, hr⟩
    refine ⟨(p, i), List.mk_mem_zipIdx_iff_getElem?.mpr ht, ?_⟩
    unfold envRows
    rw [List.mem_flatMap]
    refine ⟨s, List.mem_filter.mpr ⟨hs, he⟩, ?_⟩
    rcases hr with rfl | ⟨hl, rfl⟩
    · by_cases hl : s.lin = true
      · rw [if_pos hl]; simp
      · rw [if_neg hl]; simp
    · rw [if_pos hl]; simp

theorem mem_negRows (i : Nat) (p : Mat) (c : Row) :
    c ∈ negRows verts polys i p ↔ ∃ r ∈ p.rows, rowIsEnv verts polys i r = false ∧
      (c = r.negIneq ∨ r.lin = true ∧ c = r.asIneq) := by
  unfold negRows
  rw [List.mem_flatMap]
  constructor
  · rintro ⟨r, hr, hc⟩
    rw [List.mem_filter] at hr
    refine ⟨r, hr.1, by simpa using hr.2, ?_⟩
    by_cases hl : r.lin = true
    · rw [if_pos hl] at hc
      simp only [List.mem_cons, List.not_mem_nil, or_false] at hc
      rcases hc with rfl | rfl
      · exact Or.inl rfl
      · exact Or.inr ⟨hl, rfl⟩
    · rw [if_neg hl, List.mem_singleton] at hc
      exact Or.inl hc
  · rintro ⟨r, hr, he, hc⟩
    refine ⟨r, List.mem_filter.mpr ⟨hr, by simp [he]⟩, ?_⟩
    rcases hc with rfl | ⟨hl, rfl⟩
    · by_cases hl : r.lin = true
      · rw [if_pos hl]; simp
      · rw [if_neg hl]; simp
    · rw [if_pos hl]; simp

theorem asIneq_isZero (r : Row) : r.asIneq.isZero = r.isZero := by
  rw [Bool.eq_iff_iff, Row.isZero_iff, Row.isZero_iff]
  simp only [Row.asIneq]

theorem asIneq_val (r : Row) (x : Pt) : r.asIneq.c0 + dot r.asIneq.cs x = r.c0 + dot r.cs x := rfl

theorem negIneq_val (r : Row) (x : Pt) : r.negIneq.c0 + dot r.negIneq.cs x = -(r.c0 + dot r.cs x) := by
  unfold Row.negIneq
  simp only [dot_neg]
  ring

theorem envSet_row (hb : ∀ p ∈ polys, Base n p) (r : Row) (hr : r ∈ envSet verts polys) :
    r.lin = false ∧ r.isZero = false ∧ r.cs.length + 1 = n := by
  obtain ⟨i, p, hi, s, hs, _, h⟩ := (mem_envSet r).mp hr
  have hp : p ∈ polys := List.mem_of_getElem? hi
  have hl : s.cs.length + 1 = n := by rw [← (hb p hp).cols]; exact (hb p hp).wf s hs
  rcases h with rfl | ⟨_, rfl⟩
  · exact ⟨rfl, by rw [asIneq_isZero]; exact (hb p hp).noZero s hs, hl⟩
  · exact ⟨rfl, by rw [negIneq_isZero]; exact (hb p hp).noZero s hs, by
      simp only [Row.negIneq, List.length_map]; exact hl⟩

theorem comb_row (hb : ∀ p ∈ polys, Base n p) (comb : List Row)
    (hc : comb ∈ product (negLists verts polys)) (c : Row) (hcm : c ∈ comb) :
    c.lin = false ∧ c.isZero = false ∧ c.cs.length + 1 = n := by
  rw [mem_product] at hc
  obtain ⟨l, hl, hcl⟩ := forall₂_mem_left hc c hcm
  unfold negLists at hl
  obtain ⟨⟨p, i⟩, ht, rfl⟩ := List.mem_map.mp hl
  rw [List.mk_mem_zipIdx_iff_getElem?] at ht
  have hp : p ∈ polys := List.mem_of_getElem? ht
  obtain ⟨r, hr, _, h⟩ := (mem_negRows i p c).mp hcl
  have hl : r.cs.length + 1 = n := by rw [← (hb p hp).cols]; exact (hb p hp).wf r hr
  rcases h with rfl | ⟨_, rfl⟩
  · exact ⟨rfl, by rw [negIneq_isZero]; exact (hb p hp).noZero r hr, by
      simp only [Row.negIneq, List.length_map]; exact hl⟩
  · exact ⟨rfl, by rw [asIneq_isZero]; exact (hb p hp).noZero r hr, hl⟩

/-- `Polytope(rows)` for proper rows. -/
theorem ofConstraints_ok (hd : 2 ≤ n) (rows : List Row) (hne : rows ≠ [])
    (hrow : ∀ r ∈ rows, r.lin = false ∧ r.isZero = false ∧ r.cs.length + 1 = n) :
    ofConstraints rows = .ok ⟨n, rows⟩ := by
  have hfil : rows.filter (fun r => !r.isZero) = rows := by
    rw [List.filter_eq_self]
    intro r hr; rw [(hrow r hr).2.1]; rfl
  unfold ofConstraints
  rw [hfil, ofRows_ok _ (n - 1) hne (fun r hr => by have := (hrow r hr).2.2; omega)]
  rw [show n - 1 + 1 = n by omega]

/-- The test of one combination (polytope.py:306-312) in terms of strict points. -/
theorem loop_test (hlp : LPSpec lp) (hd : 2 ≤ n) (hb : ∀ p ∈ polys, Base n p) (hne : polys ≠ [])
    (comb : List Row) (hc : comb ∈ product (negLists verts polys)) :
    ∃ b, (do
        let p ← ofConstraints ((envSet verts polys).dedup ++ comb)
        pure (!isEmptyExcl lp p) : Py Bool) = .ok b ∧
      (b = true ↔ ∃ x, x.length + 1 = n ∧ (∀ r ∈ envSet verts polys, r.Strict x) ∧
        ∀ c ∈ comb, c.Strict x) := by
  have hrow : ∀ r ∈ (envSet verts polys).dedup ++ comb,
      r.lin = false ∧ r.isZero = false ∧ r.cs.length + 1 = n := by
    intro r hr
    rcases List.mem_append.mp hr with hr | hr
    · exact envSet_row hb r (List.mem_dedup.mp hr)
    · exact comb_row hb comb hc r hr
  have hcne : comb ≠ [] := by
    rw [mem_product] at hc
    intro h
    subst h
    cases hc' : negLists verts polys with
    | nil =>
      unfold negLists at hc'
      simp at hc'
      exact hne hc'
    | cons a l => rw [hc'] at hc; cases hc
  rw [ofConstraints_ok hd _ (by simp [hcne]) hrow]
  refine ⟨_, rfl, ?_⟩
  have hE := C14_isEmptyExcl_strict lp hlp ⟨n, (envSet verts polys).dedup ++ comb⟩
    (fun r hr => (hrow r hr).2.2) (by simp only; omega)
  rw [Bool.not_eq_true', Bool.eq_false_iff, Ne, hE]
  push Not
  apply exists_congr
  intro x
  apply and_congr Iff.rfl
  unfold Strict
  simp only [List.mem_append, List.mem_dedup]
  constructor
  · intro h; exact ⟨fun r hr => h r (Or.inl hr), fun r hr => h r (Or.inr hr)⟩
  · rintro ⟨h1, h2⟩ r (hr | hr)
    · exact h1 r hr
    · exact h2 r hr

/-- Outcome of the loop over combinations. -/
theorem core_eq (hlp : LPSpec lp) (hd : 2 ≤ n) (hb : ∀ p ∈ polys, Base n p) (hne : polys ≠ []) :
    ∃ bad, tryUnionCore canon lp verts polys =
        (if bad then .ok none else (do
          let m ← ofConstraints (envSet verts polys).dedup
          return some (canon m))) ∧
      (bad = true ↔ ∃ comb ∈ product (negLists verts polys), ∃ x, x.length + 1 = n ∧
        (∀ r ∈ envSet verts polys, r.Strict x) ∧ ∀ c ∈ comb, c.Strict x) := by
  classical
  have hex : ∀ comb, ∃ b, comb ∈ product (negLists verts polys) → ((do
        let p ← ofConstraints ((envSet verts polys).dedup ++ comb)
        pure (!isEmptyExcl lp p) : Py Bool) = .ok b ∧
      (b = true ↔ ∃ x, x.length + 1 = n ∧ (∀ r ∈ envSet verts polys, r.Strict x) ∧
        ∀ c ∈ comb, c.Strict x)) := by
    intro comb
    by_cases hc : comb ∈ product (negLists verts polys)
    · obtain ⟨b, hb⟩ := loop_test (lp := lp) hlp hd hb hne comb hc
      exact ⟨b, fun _ => hb⟩
    · exact ⟨false, fun h => absurd h hc⟩
  choose g hg using hex
  refine ⟨(product (negLists verts polys)).any g, ?_, ?_⟩
  · have := anyM_ok (fun comb => (do
        let p ← ofConstraints ((envSet verts polys).dedup ++ comb)
        pure (!isEmptyExcl lp p) : Py Bool)) g (product (negLists verts polys))
      (fun comb hc => (hg comb hc).1)
    unfold tryUnionCore
    simp only
    change (do
      let bad ← (product (negLists verts polys)).anyM (fun comb => (do
        let p ← ofConstraints ((envSet verts polys).dedup ++ comb)
        pure (!isEmptyExcl lp p) : Py Bool))
      if bad = true then return none
      else do
        let m ← ofConstraints (envSet verts polys).dedup
        return some (canon m)) = _
    rw [this]
    rfl
  · rw [List.any_eq_true]
    constructor
    · rintro ⟨comb, hc, hb⟩; exact ⟨comb, hc, (hg comb hc).2.mp hb⟩
    · rintro ⟨comb, hc, hb⟩; exact ⟨comb, hc, (hg comb hc).2.mpr hb⟩

/-- A bounded input lies in the envelope. -/
theorem sub_env (q : Mat) (hq : q ∈ polys) (hv : VertsSpec verts q) (x : Pt) (hx : q.Contains x) :
    ∀ r ∈ envSet verts polys, r.Holds x := by
  intro r hr
  obtain ⟨i, p, hi, s, hs, he, h⟩ := (mem_envSet r).mp hr
  have hsx : s.Holds x := by
    obtain ⟨j, hj⟩ := List.mem_iff_getElem?.mp hq
    by_cases hji : j = i
    · subst hji
      rw [hi] at hj
      cases hj
      exact (contains_iff_holds q x (contains_imp _ _ hx)).mp hx s hs
    · have hlen : ∀ v ∈ verts q, v.length = q.cols - 1 := fun v hv' => by have := hv.1 v hv'; omega
      unfold rowIsEnv at he
      rw [List.all_eq_true] at he
      have := he (q, j) ((List.mk_mem_zipIdx_iff_getElem?).mpr hj)
      simp only [Bool.or_eq_true, beq_iff_eq, hji, false_or, List.all_eq_true] at this
      have hval : ∀ v ∈ verts q, s.Holds v := fun v hv' => (Row.satisfies_iff s v).mp (this v hv')
      have hx' := (hv.2 x).mp hx
      refine ⟨fun hl => ?_, fun hl => hull_nonneg _ _ _ _ hlen (fun v hv' => (hval v hv').2 hl) x hx'⟩
      have h1 := hull_nonneg _ s.c0 s.cs _ hlen (fun v hv' => ((hval v hv').1 hl).ge) x hx'
      have h2 := hull_nonneg _ (-s.c0) (s.cs.map (fun c => -c)) _ hlen (fun v hv' => by
        rw [dot_neg]; have := (hval v hv').1 hl; linarith) x hx'
      rw [dot_neg] at h2
      linarith
  rcases h with rfl | ⟨hl, rfl⟩
  · rw [Row.asIneq_holds]
    by_cases hl : s.lin = true
    · exact (hsx.1 hl).ge
    · exact hsx.2 (by simpa using hl)
  · rw [Row.negIneq_holds]; exact (hsx.1 hl).le

/-- `y` is on none of the bounding hyperplanes of the polytopes. -/
def Off (polys : List Mat) (y : Pt) : Prop := ∀ p ∈ polys, ∀ r ∈ p.rows, r.c0 + dot r.cs y ≠ 0

theorem off_near (hb : ∀ p ∈ polys, Base n p) (x : Pt) (hx : x.length + 1 = n) {ε : ℚ} (hε : 0 < ε) :
    ∃ y, Near ε x y ∧ Off polys y := by
  obtain ⟨y, h1, h2⟩ := exists_generic (polys.flatMap (·.rows)) x (by
    intro g hg
    obtain ⟨m, hm, hg⟩ := List.mem_flatMap.mp hg
    have := (hb m hm).wf g hg
    have := (hb m hm).cols
    exact ⟨(hb m hm).noZero g hg, by omega⟩) hε
  exact ⟨y, h1, fun m hm r hr => h2 r (List.mem_flatMap.mpr ⟨m, hm, hr⟩)⟩

/-- A point off the hyperplanes that belongs to a polytope is interior to it. -/
theorem off_interior {p : Mat} {y : Pt} (ho : ∀ r ∈ p.rows, r.c0 + dot r.cs y ≠ 0) (h : p.Holds y) :
    p.Interior y := by
  refine Strict.interior (fun r hr => ?_)
  have hne := ho r hr
  have hh := h r hr
  have hl : r.lin = false := by
    by_contra hl
    exact hne (hh.1 (by simpa using hl))
  exact ⟨hl, lt_of_le_of_ne (hh.2 hl) (Ne.symm hne)⟩

/-- If no combination is strictly feasible, points of the envelope off the hyperplanes are interior
points of inputs. -/
theorem env_off
    (hgood : ¬ ∃ comb ∈ product (negLists verts polys), ∃ x, x.length + 1 = n ∧
        (∀ r ∈ envSet verts polys, r.Strict x) ∧ ∀ c ∈ comb, c.Strict x)
    (y : Pt) (hy1 : y.length + 1 = n) (ho : Off polys y) (hy : ∀ r ∈ envSet verts polys, r.Holds y) :
    ∃ q ∈ polys, q.Interior y := by
  by_contra hcon
  push Not at hcon
  apply hgood
  obtain ⟨comb, h1, h2⟩ := exists_comb polys 0 (fun i p => negRows verts polys i p) y (by
    intro i q hq
    have hqm : q ∈ polys := List.mem_of_getElem? hq
    have hnot : ¬ q.Holds y := fun h => hcon q hqm (off_interior (ho q hqm) h)
    unfold Mat.Holds at hnot
    push Not at hnot
    obtain ⟨r, hr, hnr⟩ := hnot
    have hne := ho q hqm r hr
    have henv : rowIsEnv verts polys i r = false := by
      rw [Bool.eq_false_iff]
      intro he
      apply hnr
      have e1 := hy r.asIneq ((mem_envSet _).mpr ⟨i, q, hq, r, hr, he, Or.inl rfl⟩)
      rw [Row.asIneq_holds] at e1
      refine ⟨fun hl => ?_, fun _ => e1⟩
      have e2 := hy r.negIneq ((mem_envSet _).mpr ⟨i, q, hq, r, hr, he, Or.inr ⟨hl, rfl⟩⟩)
      rw [Row.negIneq_holds] at e2
      linarith
    rcases lt_or_gt_of_ne hne with hlt | hgt
    · exact ⟨r.negIneq, (mem_negRows _ q _).mpr ⟨r, hr, henv, Or.inl rfl⟩, (Row.negIneq_strict r y).mpr hlt⟩
    · have hl : r.lin = true := by
        by_contra hl
        exact hnr ⟨fun h => absurd h hl, fun _ => hgt.le⟩
      exact ⟨r.asIneq, (mem_negRows _ q _).mpr ⟨r, hr, henv, Or.inr ⟨hl, rfl⟩⟩, rfl, hgt⟩)
  refine ⟨comb, (mem_product _ _).mpr h1, y, hy1, ?_, h2⟩
  intro r hr
  obtain ⟨i, p, hi, s, hs, _, h⟩ := (mem_envSet r).mp hr
  have hne := ho p (List.mem_of_getElem? hi) s hs
  have hh := hy r hr
  rcases h with rfl | ⟨_, rfl⟩
  · rw [Row.asIneq_holds] at hh
    exact ⟨rfl, lt_of_le_of_ne hh (Ne.symm hne)⟩
  · rw [Row.negIneq_holds] at hh
    exact (Row.negIneq_strict s y).mpr (lt_of_le_of_ne hh hne)

/-- There is a point off all hyperplanes that is interior to none of the polytopes. -/
theorem exists_outside (hd : 2 ≤ n) (hb : ∀ p ∈ polys, Base n p)
    (hbd : ∀ p ∈ polys, HasInner n p → p.Bounded) :
    ∃ y : Pt, y.length + 1 = n ∧ Off polys y ∧ ∀ p ∈ polys, ¬ p.Interior y := by
  obtain ⟨B, hB⟩ : ∃ B : ℚ, ∀ p ∈ polys, HasInner n p → ∀ x, p.Contains x → ∀ c ∈ x, |c| ≤ B := by
    clear hb
    induction polys with
    | nil => exact ⟨0, by simp⟩
    | cons p ps ih =>
      obtain ⟨B, hB⟩ := ih (fun q hq => hbd q (by simp [hq]))
      by_cases hi : HasInner n p
      · obtain ⟨B', hB'⟩ := hbd p (by simp) hi
        refine ⟨max B B', fun q hq hqi x hx c hc => ?_⟩
        rcases List.mem_cons.mp hq with rfl | hq
        · exact (hB' x hx c hc).trans (le_max_right _ _)
        · exact (hB q hq hqi x hx c hc).trans (le_max_left _ _)
      · refine ⟨B, fun q hq hqi x hx c hc => ?_⟩
        rcases List.mem_cons.mp hq with rfl | hq
        · exact absurd hqi hi
        · exact hB q hq hqi x hx c hc
  obtain ⟨y, hy1, hy2⟩ := off_near hb (List.replicate (n - 1) (B + 1)) (by simp; omega)
    (show (0:ℚ) < 1 by norm_num)
  have hl : y.length + 1 = n := by rw [hy1.length]; simp; omega
  refine ⟨y, hl, hy2, fun p hp hi => ?_⟩
  have hc : p.Contains y := (contains_iff_holds p y (by rw [(hb p hp).cols]; exact hl)).mpr hi.holds
  cases y with
  | nil => simp at hl; omega
  | cons c y =>
    have h1 := hB p hp ⟨_, hl, hi⟩ _ hc c (by simp)
    obtain ⟨k, hk⟩ : ∃ k, n - 1 = k + 1 := ⟨n - 2, by omega⟩
    rw [hk, List.replicate_succ] at hy1
    cases hy1 with
    | cons h2 _ =>
      have := (abs_lt.mp h2).1
      have := (abs_le.mp h1).2
      linarith

/-- The core of `try_union`. -/
theorem core_spec (hc : CanonSpec canon) (hcz : CanonNoZero canon) (hlp : LPSpec lp) (hd : 2 ≤ n)
    (hb : ∀ p ∈ polys, Base n p) (hne : polys ≠ [])
    (hbd : ∀ p ∈ polys, HasInner n p → p.Bounded)
    (hv : ∀ p ∈ polys, HasInner n p → VertsSpec verts p) :
    ∃ res, tryUnionCore canon lp verts polys = .ok res ∧
      ∀ U, res = some U → Base n U ∧ ∀ x, SMem n U x ↔ ∃ q ∈ polys, SMem n q x := by
  obtain ⟨bad, h1, h2⟩ := core_eq (canon := canon) (verts := verts) hlp hd hb hne
  rw [h1]
  cases hbad : bad with
  | true => exact ⟨none, rfl, fun U hU => by cases hU⟩
  | false =>
    rw [hbad] at h2
    have hgood : ¬ ∃ comb ∈ product (negLists verts polys), ∃ x, x.length + 1 = n ∧
        (∀ r ∈ envSet verts polys, r.Strict x) ∧ ∀ c ∈ comb, c.Strict x := by
      intro h; exact absurd (h2.mpr h) (by simp)
    have hene : envSet verts polys ≠ [] := by
      intro h0
      obtain ⟨y, hy1, hy2, hy3⟩ := exists_outside hd hb hbd
      obtain ⟨q, hq, hqy⟩ := env_off hgood y hy1 hy2 (by rw [h0]; simp)
      exact hy3 q hq hqy
    have hmem : ∀ r ∈ (envSet verts polys).dedup,
        r.lin = false ∧ r.isZero = false ∧ r.cs.length + 1 = n :=
      fun r hr => envSet_row hb r (List.mem_dedup.mp hr)
    have hdne : (envSet verts polys).dedup ≠ [] := by
      obtain ⟨r, hr⟩ := List.exists_mem_of_ne_nil _ hene
      exact List.ne_nil_of_mem (List.mem_dedup.mpr hr)
    have hof := ofConstraints_ok hd _ hdne hmem
    rw [hof]
    obtain ⟨hc1, hc2, hc3⟩ := hc ⟨n, (envSet verts polys).dedup⟩ (fun r hr => (hmem r hr).2.2)
    refine ⟨some (canon ⟨n, (envSet verts polys).dedup⟩), rfl, ?_⟩
    intro U hU
    cases hU
    set U := canon ⟨n, (envSet verts polys).dedup⟩ with hUdef
    have hc1 : U.cols = n := hc1
    have hbase : Base n U := ⟨hc2, hc1, hcz _ (fun r hr => (hmem r hr).2.2) (fun r hr => (hmem r hr).2.1)⟩
    have hUh : ∀ x : Pt, x.length + 1 = n → (U.Holds x ↔ ∀ r ∈ envSet verts polys, r.Holds x) := by
      intro x hx
      rw [hc3 x hx]
      constructor
      · intro h r hr; exact h r (List.mem_dedup.mpr hr)
      · intro h r hr; exact h r (List.mem_dedup.mp hr)
    have hqU : ∀ q ∈ polys, HasInner n q → ∀ x, q.Contains x → U.Contains x := by
      intro q hq hi x hx
      have hl : x.length + 1 = n := by rw [← (hb q hq).cols]; exact contains_imp _ _ hx
      rw [contains_iff_holds _ _ (by rw [hc1]; exact hl), hUh x hl]
      exact sub_env q hq (hv q hq hi) x hx
    refine ⟨hbase, fun x => ⟨?_, ?_⟩⟩
    · rintro ⟨⟨s, hs1, hs2⟩, hx⟩
      have hl : x.length + 1 = n := by rw [← hc1]; exact contains_imp _ _ hx
      have hxh := (contains_iff_holds _ _ (by rw [hc1]; exact hl)).mp hx
      have hst := hs2.strict hbase.wf hbase.noZero (by rw [hc1]; exact hs1)
      have hfil : ∃ q ∈ polys.filter (fun q => @decide (HasInner n q) (Classical.propDecidable _)), q.Holds x := by
        apply union_closed
        intro ε hε
        obtain ⟨y0, e1, e2⟩ := strict_dense (by omega : s.length = x.length) hst hxh (half_pos hε)
        obtain ⟨δ, hδ, e3⟩ := e2.interior
        have hl0 : y0.length + 1 = n := by rw [e1.length]; exact hl
        obtain ⟨y, e4, e5⟩ := off_near hb y0 hl0 (lt_min hδ (half_pos hε))
        have hly : y.length + 1 = n := by rw [e4.length]; exact hl0
        obtain ⟨q, hq, hqy⟩ := env_off hgood y hly e5
          ((hUh y hly).mp (e3 y (e4.mono (min_le_left _ _))))
        refine ⟨y, ?_, q, ?_, hqy.holds⟩
        · have := e1.trans (e4.mono (min_le_right _ _))
          rwa [add_halves] at this
        · rw [List.mem_filter]
          exact ⟨hq, by simpa using ⟨y, hly, hqy⟩⟩
      obtain ⟨q, hq, hqx⟩ := hfil
      rw [List.mem_filter] at hq
      refine ⟨q, hq.1, by simpa using hq.2, ?_⟩
      exact (contains_iff_holds _ _ (by rw [(hb q hq.1).cols]; exact hl)).mpr hqx
    · rintro ⟨q, hq, ⟨s, hs1, hs2⟩, hx⟩
      refine ⟨⟨s, hs1, ?_⟩, hqU q hq ⟨s, hs1, hs2⟩ x hx⟩
      exact interior_of_subset n (hb q hq).cols hc1 (hqU q hq ⟨s, hs1, hs2⟩) hs1 hs2

end Thin

/-- **C17, lower-dimensional polytopes allowed** For every list of polytopes (without zero rows, those with
interior points bounded; the others arbitrary), `try_union` does not raise, and whenever it returns a polytope: that
polytope has an interior point exactly if one of the inputs has, and in this case it is exactly the union of the inputs
that have interior points.  So lower-dimensional inputs can only disturb the result when all inputs are
lower-dimensional. Missing: that lower-dimensional inputs are part of the union, which is false
(`C17_lower_dim_counterexample`). -/
theorem C17_tryUnion_thin_partial (canon : Mat → Mat) (hc : CanonSpec canon) (hcz : CanonNoZero canon) (lp : LPSolver)
    (hlp : LPSpec lp) (verts : Mat → List Pt) (polys : List Mat) (n : Nat) (hd : 2 ≤ n) (hne : polys ≠ [])
    (hb : ∀ p ∈ polys, Base n p) (hbd : ∀ p ∈ polys, HasInner n p → p.Bounded)
    (hv : ∀ p ∈ polys, HasInner n p → VertsSpec verts p) :
    ∃ res, tryUnion canon lp verts polys = .ok res ∧
      ∀ U, res = some U → Base n U ∧ (HasInner n U ↔ ∃ q ∈ polys, HasInner n q) ∧
        (HasInner n U → ∀ x, U.Contains x ↔ ∃ q ∈ polys, HasInner n q ∧ q.Contains x) := by
  have key : ∃ res, tryUnion canon lp verts polys = .ok res ∧
      ∀ U, res = some U → Base n U ∧ ∀ x, SMem n U x ↔ ∃ q ∈ polys, SMem n q x := by
    match polys, hne, hb, hbd, hv with
    | [p], _, hb, _, _ =>
      exact ⟨some p, rfl, fun U hU => by cases hU; exact ⟨hb p (by simp), fun x => by simp⟩⟩
    | [p, q], hne, hb, hbd, hv =>
      unfold tryUnion
      simp only
      obtain ⟨m, hm, hmwf, hmn, hmx⟩ := C10_intersection_exact canon hc false [p, q] (by simp) n
        (fun q hq => ⟨(hb q hq).wf, (hb q hq).cols⟩)
      rw [hm]
      simp only [bind, Except.bind]
      cases hE : isEmptyIncl lp m with
      | false =>
        simp only [Bool.false_eq_true, if_false]
        exact Thin.core_spec hc hcz hlp hd hb hne hbd hv
      | true => exact ⟨none, rfl, fun U hU => by cases hU⟩
    | p :: q :: r :: rest, hne, hb, hbd, hv =>
      exact Thin.core_spec hc hcz hlp hd hb hne hbd hv
  obtain ⟨res, h1, h2⟩ := key
  refine ⟨res, h1, fun U hU => ?_⟩
  obtain ⟨h3, h4⟩ := h2 U hU
  have nonempty : ∀ q, Base n q → HasInner n q → ∃ x, SMem n q x := by
    rintro q hq ⟨s, hs1, hs2⟩
    exact ⟨s, ⟨s, hs1, hs2⟩, (contains_iff_holds q s (by rw [hq.cols]; exact hs1)).mpr hs2.holds⟩
  refine ⟨h3, ⟨fun h => ?_, ?_⟩, fun h x => ?_⟩
  · obtain ⟨x, hx⟩ := nonempty U h3 h
    obtain ⟨q, hq, hqx⟩ := (h4 x).mp hx
    exact ⟨q, hq, hqx.1⟩
  · rintro ⟨q, hq, hi⟩
    obtain ⟨x, hx⟩ := nonempty q (hb q hq) hi
    exact ((h4 x).mpr ⟨q, hq, hx⟩).1
  · rw [show U.Contains x ↔ SMem n U x from ⟨fun hx => ⟨h, hx⟩, fun hx => hx.2⟩, h4]
    rfl

end Mat
end Expdb
