import Verif.Lemmas.Region
import Verif.Lemmas.Geometry
import Verif.Props.PolytopeHull

/-!
# Properties C20 and C23: regions from half-spaces, transformations of regions
-/

namespace Expdb
namespace Region

variable {L : Type}

/-- Observable membership: the call `r.contains(x)` returns `True`. -/
def Contains (r : Region L) (x : Pt) : Prop := r.contains x = .ok true

/-- **C23 (membership)** On points of the right dimension `contains` never raises and decides the
set denoted by the boolean combination. -/
theorem C23_contains_iff (r : Region L) (x : Pt) (h : r.AllMat (fun m => x.length + 1 = m.cols)) :
    ∃ b, r.contains x = .ok b ∧ (b = true ↔ r.Mem x) := by
  induction r using induct with
  | hp m l =>
    obtain ⟨b, h1, h2⟩ := Mat.contains_eq m x h
    refine ⟨b, by unfold contains; exact h1, ?_⟩
    unfold Mem
    rw [Mat.contains_iff_holds m x h]
    exact h2
  | hw r ih =>
    unfold AllMat at h
    obtain ⟨b, h1, h2⟩ := ih h
    exact ⟨b, by unfold contains; exact h1, by unfold Mem; exact h2⟩
  | hc r ih =>
    unfold AllMat at h
    obtain ⟨b, h1, h2⟩ := ih h
    refine ⟨!b, by unfold contains; rw [h1]; rfl, ?_⟩
    unfold Mem
    rw [← h2]
    cases b <;> simp
  | hu rs ih =>
    rw [AllMat, allMatList_iff] at h
    unfold contains Mem
    exact containsAny_ok rs x (fun r hr => ih r hr (h r hr))
  | hd rs ih =>
    rw [AllMat, allMatList_iff] at h
    unfold contains Mem
    exact containsAny_ok rs x (fun r hr => ih r hr (h r hr))
  | hi rs ih =>
    rw [AllMat, allMatList_iff] at h
    unfold contains Mem
    exact containsAll_ok rs x (fun r hr => ih r hr (h r hr))

theorem contains_iff_mem (r : Region L) (x : Pt) (h : r.AllMat (fun m => x.length + 1 = m.cols)) :
    r.Contains x ↔ r.Mem x := by
  obtain ⟨b, h1, h2⟩ := C23_contains_iff r x h
  unfold Contains
  rw [h1, ← h2]
  constructor
  · intro h; exact Except.ok.inj h
  · intro h; rw [h]

/-- Applying a point-wise correct matrix operation to all polytopes of a region. -/
theorem mapMat_mem (f : Mat → Py Mat) (R : Pt → Pt → Prop) (P : Mat → Prop) (n : Nat)
    (hf : ∀ m, P m → ∃ m', f m = .ok m' ∧ m'.cols = n ∧
      ∀ x y, R x y → (m'.Contains x ↔ m.Contains y))
    (r : Region L) (h : r.AllMat P) :
    ∃ r', r.mapMat f = .ok r' ∧ r'.AllMat (fun m => m.cols = n) ∧
      ∀ x y, R x y → (r'.Mem x ↔ r.Mem y) := by
  have key : ∀ rs : List (Region L), (∀ r ∈ rs, r.AllMat P → ∃ r', r.mapMat f = .ok r' ∧
      r'.AllMat (fun m => m.cols = n) ∧ ∀ x y, R x y → (r'.Mem x ↔ r.Mem y)) →
      AllMatList P rs → ∃ rs', mapMatList f rs = .ok rs' ∧ AllMatList (fun m => m.cols = n) rs' ∧
        ∀ x y, R x y → List.Forall₂ (fun r r' => r'.Mem x ↔ r.Mem y) rs rs' := by
    intro rs ih h
    rw [allMatList_iff] at h
    obtain ⟨rs', h1, h2⟩ := mapMatList_ok rs (fun r r' => r'.AllMat (fun m => m.cols = n) ∧
      ∀ x y, R x y → (r'.Mem x ↔ r.Mem y)) (fun r hr => ih r hr (h r hr))
    refine ⟨rs', h1, ?_, fun x y hR => h2.imp (fun r r' h => h.2 x y hR)⟩
    clear h1 h ih
    induction h2 with
    | nil => trivial
    | cons h _ ih => exact ⟨h.1, ih⟩
  induction r using induct with
  | hp m l =>
    obtain ⟨m', h1, h2, h3⟩ := hf m h
    exact ⟨.polytope m' none, by unfold mapMat; rw [h1]; rfl, h2, fun x y hR => by
      unfold Mem; exact h3 x y hR⟩
  | hw r ih =>
    unfold AllMat at h
    obtain ⟨r', h1, h2, h3⟩ := ih h
    exact ⟨.wrapped r', by unfold mapMat; rw [h1]; rfl, h2, fun x y hR => by
      unfold Mem; exact h3 x y hR⟩
  | hc r ih =>
    unfold AllMat at h
    obtain ⟨r', h1, h2, h3⟩ := ih h
    exact ⟨.complement r', by unfold mapMat; rw [h1]; rfl, h2, fun x y hR => by
      unfold Mem; exact not_congr (h3 x y hR)⟩
  | hu rs ih =>
    obtain ⟨rs', h1, h2, h3⟩ := key rs ih h
    exact ⟨.union rs', by unfold mapMat; rw [h1]; rfl, h2, fun x y hR => by
      unfold Mem; exact memAny_congr (h3 x y hR)⟩
  | hd rs ih =>
    obtain ⟨rs', h1, h2, h3⟩ := key rs ih h
    exact ⟨.disjoint rs', by unfold mapMat; rw [h1]; rfl, h2, fun x y hR => by
      unfold Mem; exact memAny_congr (h3 x y hR)⟩
  | hi rs ih =>
    obtain ⟨rs', h1, h2, h3⟩ := key rs ih h
    exact ⟨.intersect rs', by unfold mapMat; rw [h1]; rfl, h2, fun x y hR => by
      unfold Mem; exact memAll_congr (h3 x y hR)⟩

/-- **C23 (scaling)** `r.scale_all(fs)` contains `x` exactly when `r` contains the point with
coordinates `x[i]/fs[i]`, for every region including complements. -/
theorem C23_scaleAll (r : Region L) (fs : List ℚ) (hnz : ∀ f ∈ fs, f ≠ 0)
    (h : r.AllMat (fun m => m.WF ∧ fs.length + 1 = m.cols ∧ m.rows ≠ [])) :
    ∃ r', r.scaleAll fs = .ok r' ∧ ∀ x : Pt, x.length = fs.length →
      (r'.Contains x ↔ r.Contains (List.zipWith (· / ·) x fs)) := by
  obtain ⟨r', h1, h2, h3⟩ := mapMat_mem (fun m => m.scaleAll fs)
    (fun x y => x.length = fs.length ∧ y = List.zipWith (· / ·) x fs)
    (fun m => m.WF ∧ fs.length + 1 = m.cols ∧ m.rows ≠ []) (fs.length + 1) (by
      rintro m ⟨hm1, hm2, hm3⟩
      obtain ⟨m', e1, _, e2, e3⟩ := Mat.C11_scaleAll_exact m hm1 fs hm2 hnz hm3
      refine ⟨m', e1, by omega, ?_⟩
      rintro x y ⟨hx, rfl⟩
      exact e3 x hx) r h
  refine ⟨r', h1, fun x hx => ?_⟩
  rw [contains_iff_mem r' x (allMat_imp (fun m hm => by omega) r' h2),
    contains_iff_mem r _ (allMat_imp (fun m hm => by
      rw [List.length_zipWith]; omega) r h)]
  exact h3 x _ ⟨hx, rfl⟩

/-- **C23 (substitution)** `r.substitute(values)` contains the remaining coordinates of `x` exactly
when `r` contains `x`, for every `x` agreeing with the substituted values. -/
theorem C23_substitute (r : Region L) (d : Nat) (values : List (Nat × ℚ))
    (hnd : (values.map (·.1)).Nodup) (hlt : ∀ iv ∈ values, iv.1 < d)
    (h : r.AllMat (fun m => m.WF ∧ m.cols = d + 1 ∧ m.rows ≠ [])) :
    ∃ r', r.substitute values = .ok r' ∧ ∀ x : Pt, x.length = d →
      (∀ iv ∈ values, x[iv.1]? = some iv.2) →
      (r'.Contains (Mat.dropKeys (values.map (·.1)) x) ↔ r.Contains x) := by
  obtain ⟨r', h1, h2, h3⟩ := mapMat_mem (fun m => m.substitute values)
    (fun x y => y.length = d ∧ (∀ iv ∈ values, y[iv.1]? = some iv.2) ∧
      x = Mat.dropKeys (values.map (·.1)) y)
    (fun m => m.WF ∧ m.cols = d + 1 ∧ m.rows ≠ []) (d - values.length + 1) (by
      rintro m ⟨hm1, hm2, hm3⟩
      obtain ⟨m', e1, _, e2, e3⟩ := Mat.C13_substitute_exact m hm1 d hm2 hm3 values hnd hlt
      refine ⟨m', e1, e2, ?_⟩
      rintro x y ⟨hy, hv, rfl⟩
      exact e3 y hy hv) r h
  refine ⟨r', h1, fun x hx hv => ?_⟩
  have hlen : (Mat.dropKeys (values.map (·.1)) x).length + 1 = d - values.length + 1 := by
    have := Mat.dropKeys_length (values.map (·.1)) x hnd (by
      intro k hk
      obtain ⟨iv, hiv, rfl⟩ := List.mem_map.mp hk
      rw [hx]; exact hlt iv hiv)
    rw [List.length_map] at this
    omega
  rw [contains_iff_mem r' _ (allMat_imp (fun m hm => by rw [hm]; exact hlen) r' h2),
    contains_iff_mem r _ (allMat_imp (fun m hm => by omega) r h)]
  exact h3 _ x ⟨hx, hv, rfl⟩

/-- Non-vacuity: a union of an interval and a complement of an interval, scaled by `-2`. -/
example : ∃ r', scaleAll (.union [.polytope (Mat.ivl 0 1) (some 0),
      .complement (.polytope (Mat.ivl (-5) 5) (some 1))] : Region Nat) [-2] = .ok r' ∧
    r'.Contains [-1] ∧ ¬ r'.Contains [1] ∧ r'.Contains [11] := by
  refine ⟨_, rfl, ?_, ?_, ?_⟩ <;> (unfold Contains; decide +kernel)

/-- Non-vacuity: substituting `y = 1/2` in the complement of a triangle. -/
example : ∃ r', substitute (.complement (.polytope ⟨3, [⟨false, 0, [1, 0]⟩, ⟨false, 0, [0, 1]⟩,
      ⟨false, 1, [-1, -1]⟩]⟩ (some 0)) : Region Nat) [(1, 1 / 2)] = .ok r' ∧
    ¬ r'.Contains [1 / 2] ∧ r'.Contains [3 / 4] := by
  refine ⟨_, rfl, ?_, ?_⟩ <;> (unfold Contains; decide +kernel)

mutual
/-- No complement, and no empty intersection, in the region. -/
def liftable : Region L → Prop
  | .polytope _ _ => True
  | .wrapped r => liftable r
  | .complement _ => False
  | .union rs => liftableList rs
  | .disjoint rs => liftableList rs
  | .intersect rs => rs ≠ [] ∧ liftableList rs
/-- the same for all regions of a list -/
def liftableList : List (Region L) → Prop
  | [] => True
  | r :: rs => liftable r ∧ liftableList rs
end

theorem liftableList_iff (rs : List (Region L)) : liftableList rs ↔ ∀ r ∈ rs, r.liftable := by
  induction rs with
  | nil => simp [liftableList]
  | cons r rs ih => simp [liftableList, ih]

/-- The new coordinates of `x` lie in their ranges. -/
def InRanges (vars : List Mat.LiftVar) (x : Pt) : Prop :=
  ∀ (j : Nat) (lo hi : ℚ), vars[j]? = some (.range lo hi) → ∃ c, x[j]? = some c ∧ lo ≤ c ∧ c ≤ hi

theorem memAny_lift {rs rs' : List (Region L)} {x y : Pt} {Q : Prop}
    (h : List.Forall₂ (fun r r' => r'.Mem x ↔ r.Mem y ∧ Q) rs rs') :
    MemAny rs' x ↔ MemAny rs y ∧ Q := by
  induction h with
  | nil => simp [MemAny]
  | cons h1 _ ih => unfold MemAny; rw [h1, ih]; tauto

theorem memAll_lift {rs rs' : List (Region L)} {x y : Pt} {Q : Prop} (hne : rs ≠ [])
    (h : List.Forall₂ (fun r r' => r'.Mem x ↔ r.Mem y ∧ Q) rs rs') :
    MemAll rs' x ↔ MemAll rs y ∧ Q := by
  induction h with
  | nil => exact absurd rfl hne
  | @cons r r' rs rs' h1 h2 ih =>
    unfold MemAll
    rw [h1]
    cases h2 with
    | nil => simp [MemAll]
    | cons h3 h4 => rw [ih (by simp)]; tauto

/-- **C23 (lift)**, partial: for regions without complements (and without empty intersections),
`r.lift(vars)` contains `x` exactly when the listed coordinates of `x` form a point of `r` and the
new coordinates lie in their ranges. Missing: complements, for which it is false, see
`C23_lift_complement_counterexample`. -/
theorem C23_lift_partial (r : Region L) (d : Nat) (vars : List Mat.LiftVar)
    (hperm : (vars.filterMap Mat.dimOf).Perm (List.range d)) (hl : r.liftable)
    (h : r.AllMat (fun m => m.WF ∧ m.cols = d + 1 ∧
      ((∃ r ∈ m.rows, r.lin = false) ∨ ∃ lo hi, Mat.LiftVar.range lo hi ∈ vars))) :
    ∃ r', r.lift vars = .ok r' ∧ ∀ x y : Pt, x.length = vars.length → y.length = d →
      (∀ j i : Nat, vars[j]? = some (.dim i) → x[j]? = y[i]?) →
      (r'.Contains x ↔ r.Contains y ∧ InRanges vars x) := by
  set P : Mat → Prop := fun m => m.WF ∧ m.cols = d + 1 ∧
      ((∃ r ∈ m.rows, r.lin = false) ∨ ∃ lo hi, Mat.LiftVar.range lo hi ∈ vars) with hP
  set R : Pt → Pt → Prop := fun x y => x.length = vars.length ∧ y.length = d ∧
      (∀ j i : Nat, vars[j]? = some (.dim i) → x[j]? = y[i]?) with hR
  suffices hmain : ∃ r', r.lift vars = .ok r' ∧ r'.AllMat (fun m => m.cols = vars.length + 1) ∧
      ∀ x y, R x y → (r'.Mem x ↔ r.Mem y ∧ InRanges vars x) by
    obtain ⟨r', h1, h2, h3⟩ := hmain
    refine ⟨r', h1, fun x y hx hy hxy => ?_⟩
    rw [contains_iff_mem r' x (allMat_imp (fun m hm => by omega) r' h2),
      contains_iff_mem r y (allMat_imp (fun m hm => by have := hm.2.1; omega) r h)]
    exact h3 x y ⟨hx, hy, hxy⟩
  have key : ∀ rs : List (Region L), (∀ r ∈ rs, r.liftable → r.AllMat P → ∃ r', r.lift vars = .ok r' ∧
      r'.AllMat (fun m => m.cols = vars.length + 1) ∧
        ∀ x y, R x y → (r'.Mem x ↔ r.Mem y ∧ InRanges vars x)) →
      liftableList rs → AllMatList P rs →
      ∃ rs', liftList vars rs = .ok rs' ∧ AllMatList (fun m => m.cols = vars.length + 1) rs' ∧
        ∀ x y, R x y → List.Forall₂ (fun r r' => r'.Mem x ↔ r.Mem y ∧ InRanges vars x) rs rs' := by
    intro rs ih hl h
    rw [allMatList_iff] at h
    rw [liftableList_iff] at hl
    obtain ⟨rs', h1, h2⟩ := liftList_ok rs (fun r r' =>
      r'.AllMat (fun m => m.cols = vars.length + 1) ∧
      ∀ x y, R x y → (r'.Mem x ↔ r.Mem y ∧ InRanges vars x))
      (fun r hr => ih r hr (hl r hr) (h r hr))
    refine ⟨rs', h1, ?_, fun x y hR => h2.imp (fun r r' h => h.2 x y hR)⟩
    clear h1 h hl ih
    induction h2 with
    | nil => trivial
    | cons h _ ih => exact ⟨h.1, ih⟩
  clear_value P R
  induction r using induct with
  | hp m l =>
    unfold AllMat at h
    rw [hP] at h
    obtain ⟨h1, h2, h3⟩ := h
    obtain ⟨m', e1, _, e2, e3⟩ := Mat.C12_lift_partial m h1 d h2 vars hperm h3
    refine ⟨.polytope m' none, by unfold lift; rw [e1]; rfl, e2, fun x y hxy => ?_⟩
    rw [hR] at hxy
    unfold Mem
    exact e3 x y hxy.1 hxy.2.1 hxy.2.2
  | hw r ih =>
    unfold AllMat at h
    unfold liftable at hl
    obtain ⟨r', h1, h2, h3⟩ := ih hl h
    exact ⟨.wrapped r', by unfold lift; rw [h1]; rfl, h2, fun x y hR => by
      unfold Mem; exact h3 x y hR⟩
  | hc r ih => unfold liftable at hl; exact absurd hl id
  | hu rs ih =>
    obtain ⟨rs', h1, h2, h3⟩ := key rs ih hl h
    exact ⟨.union rs', by unfold lift; rw [h1]; rfl, h2, fun x y hR => by
      unfold Mem; exact memAny_lift (h3 x y hR)⟩
  | hd rs ih =>
    obtain ⟨rs', h1, h2, h3⟩ := key rs ih hl h
    exact ⟨.disjoint rs', by unfold lift; rw [h1]; rfl, h2, fun x y hR => by
      unfold Mem; exact memAny_lift (h3 x y hR)⟩
  | hi rs ih =>
    unfold liftable at hl
    obtain ⟨rs', h1, h2, h3⟩ := key rs ih hl.2 h
    exact ⟨.intersect rs', by unfold lift; rw [h1]; rfl, h2, fun x y hR => by
      unfold Mem; exact memAll_lift hl.1 (h3 x y hR)⟩

/-- Non-vacuity: lifting the union of `[0,1]` and `[3,4]` by a new first coordinate in `[7,8]`. -/
example : liftable (.union [.polytope (Mat.ivl 0 1) none, .polytope (Mat.ivl 3 4) none] : Region Nat) ∧
    ∃ r', lift [.range 7 8, .dim 0] (.union [.polytope (Mat.ivl 0 1) none,
      .polytope (Mat.ivl 3 4) none] : Region Nat) = .ok r' ∧
    r'.Contains [7, 3] ∧ ¬ r'.Contains [7, 2] ∧ ¬ r'.Contains [6, 3] := by
  refine ⟨by simp [liftable, liftableList], _, rfl, ?_, ?_, ?_⟩ <;> (unfold Contains; decide +kernel)

/-- Finding: `lift` of a complement returns the lift of the region itself (region.py:253-254 builds
a POLYTOPE region), here already for the identical lift of the complement of `[0,1]`. -/
theorem C23_lift_complement_counterexample :
    ∃ r', lift [.dim 0] (.complement (.polytope (Mat.ivl 0 1) none) : Region Nat) = .ok r' ∧
      (.complement (.polytope (Mat.ivl 0 1) none) : Region Nat).Contains [2] ∧ ¬ r'.Contains [2] ∧
      ¬ (.complement (.polytope (Mat.ivl 0 1) none) : Region Nat).Contains [0] ∧ r'.Contains [0] := by
  refine ⟨_, rfl, ?_, ?_, ?_, ?_⟩ <;> (unfold Contains; decide +kernel)

/-! ### C20 -/

/-- Rows of the same length, one of them non-zero: `Polytope(rows)` is the set of points
satisfying all rows. -/
theorem ofConstraints_exact (rows : List Row) (d : Nat) (hlen : ∀ r ∈ rows, r.cs.length = d)
    (hnz : ∃ r ∈ rows, r.isZero = false) :
    ∃ m, Mat.ofConstraints rows = .ok m ∧ m.cols = d + 1 ∧ m.WF ∧ m.NoZero ∧
      ∀ x, m.Holds x ↔ ∀ r ∈ rows, r.Holds x := by
  obtain ⟨r0, h0, h0z⟩ := hnz
  have hmem : ∀ r, r ∈ rows.filter (fun r => !r.isZero) ↔ r ∈ rows ∧ r.isZero = false := by
    intro r; rw [List.mem_filter]; simp
  refine ⟨⟨d + 1, rows.filter (fun r => !r.isZero)⟩, ?_, rfl, ?_, ?_, ?_⟩
  · unfold Mat.ofConstraints
    exact Mat.ofRows_ok _ d (List.ne_nil_of_mem ((hmem r0).mpr ⟨h0, h0z⟩))
      (fun r hr => hlen r ((hmem r).mp hr).1)
  · intro r hr
    have := hlen r ((hmem r).mp hr).1
    simp only; omega
  · intro r hr; exact ((hmem r).mp hr).2
  · intro x
    constructor
    · intro h r hr
      cases hz : r.isZero with
      | true => exact Row.isZero_holds r hz x
      | false => exact h r ((hmem r).mpr ⟨hr, hz⟩)
    · intro h r hr; exact h r ((hmem r).mp hr).1

theorem halfplaneLoop_spec (canon : Mat → Mat) (hc : Mat.CanonSpec canon) (box : List Row) (d : Nat)
    (hbox : ∀ r ∈ box, r.cs.length = d) (hbz : ∃ r ∈ box, r.isZero = false) (hps neg : List Row)
    (hh : ∀ r ∈ hps, r.cs.length = d ∧ r.lin = false)
    (hn : ∀ r ∈ neg, r.cs.length = d) :
    ∃ ps : List Mat, halfplaneLoop canon box neg hps =
        .ok (ps.map (fun m => (.polytope m none : Region L))) ∧
      (∀ p ∈ ps, p.cols = d + 1 ∧ p.WF) ∧
      (∀ x : Pt, x.length = d → ((∃ p ∈ ps, p.Contains x) → (∀ r ∈ box, r.Holds x) ∧
        (∀ r ∈ neg, r.Holds x) ∧ ∃ h ∈ hps, h.Holds x)) ∧
      (∀ x : Pt, x.length = d → (∀ r ∈ box, r.Holds x) → (∀ r ∈ neg, r.Holds x) →
        (∃ h ∈ hps, h.Holds x) → ∃ p ∈ ps, p.Contains x) ∧
      ((∀ r ∈ hps, r.isZero = false) → ps.Pairwise (fun p q => ∀ x : Pt, x.length = d →
        ¬ (p.Interior x ∧ q.Interior x))) := by
  induction hps generalizing neg with
  | nil => exact ⟨[], rfl, by simp, by simp, by simp, by simp⟩
  | cons hp hps ih =>
    have hhp := hh hp (by simp)
    obtain ⟨m, h1, h2, h3, _, h5⟩ := ofConstraints_exact (box ++ [hp] ++ neg) d (by
      intro r hr
      simp only [List.mem_append, List.mem_singleton] at hr
      rcases hr with (hr | rfl) | hr
      · exact hbox r hr
      · exact hhp.1
      · exact hn r hr) (by
      obtain ⟨r, hr, hz⟩ := hbz
      exact ⟨r, by simp [hr], hz⟩)
    obtain ⟨ps, e1, e2, e3, e4, e5⟩ := ih (neg ++ [hp.negIneq]) (fun r hr => hh r (by simp [hr])) (by
      intro r hr
      rcases List.mem_append.mp hr with hr | hr
      · exact hn r hr
      · rw [List.mem_singleton] at hr; subst hr; simp [Row.negIneq, hhp.1])
    obtain ⟨c1, c2, c3⟩ := hc m h3
    have hcx : ∀ x : Pt, x.length = d → ((canon m).Contains x ↔
        (∀ r ∈ box, r.Holds x) ∧ hp.Holds x ∧ ∀ r ∈ neg, r.Holds x) := by
      intro x hx
      rw [Mat.contains_iff_holds _ x (by omega), c3 x (by omega), h5]
      simp only [List.mem_append, List.mem_singleton]
      constructor
      · intro h
        exact ⟨fun r hr => h r (Or.inl (Or.inl hr)), h hp (Or.inl (Or.inr rfl)),
          fun r hr => h r (Or.inr hr)⟩
      · rintro ⟨ha, hb, hcc⟩ r ((hr | rfl) | hr)
        · exact ha r hr
        · exact hb
        · exact hcc r hr
    refine ⟨canon m :: ps, ?_, ?_, ?_, ?_, ?_⟩
    · unfold halfplaneLoop
      rw [h1]
      simp only [bind, Except.bind, e1]
      rfl
    · intro p hp'
      rcases List.mem_cons.mp hp' with rfl | hp'
      · exact ⟨by omega, c2⟩
      · exact e2 p hp'
    · rintro x hx ⟨p, hp', hpx⟩
      rcases List.mem_cons.mp hp' with rfl | hp'
      · obtain ⟨a, b, c⟩ := (hcx x hx).mp hpx
        exact ⟨a, c, hp, by simp, b⟩
      · obtain ⟨a, b, h, hh', hx'⟩ := e3 x hx ⟨p, hp', hpx⟩
        exact ⟨a, fun r hr => b r (by simp [hr]), h, by simp [hh'], hx'⟩
    · intro x hx ha hb hex
      by_cases hhx : hp.Holds x
      · exact ⟨canon m, by simp, (hcx x hx).mpr ⟨ha, hhx, hb⟩⟩
      · obtain ⟨p, hp', hpx⟩ := e4 x hx ha (by
          intro r hr
          rcases List.mem_append.mp hr with hr | hr
          · exact hb r hr
          · rw [List.mem_singleton] at hr
            subst hr
            apply Row.Strict.holds
            rw [Row.negIneq_strict]
            by_contra hcon
            push Not at hcon
            exact hhx ⟨fun h => absurd (hhp.2.symm.trans h) (by simp), fun _ => hcon⟩) (by
          obtain ⟨h, hm, hx'⟩ := hex
          rcases List.mem_cons.mp hm with rfl | hm
          · exact absurd hx' hhx
          · exact ⟨h, hm, hx'⟩)
        exact ⟨p, by simp [hp'], hpx⟩
    · intro hz
      rw [List.pairwise_cons]
      refine ⟨?_, e5 (fun r hr => hz r (by simp [hr]))⟩
      rintro q hq x hx ⟨⟨ε1, p1, p2⟩, ⟨ε2, q1, q2⟩⟩
      obtain ⟨y, hy, hne⟩ := exists_generic [hp] x (by
        intro g hg
        rw [List.mem_singleton] at hg
        subst hg
        exact ⟨hz g (by simp), by rw [hhp.1, hx]⟩) (lt_min p1 q1)
      have hyl : y.length = d := by rw [hy.length, hx]
      have hp1 := ((hcx y hyl).mp ((Mat.contains_iff_holds _ y (by omega)).mpr
        (p2 y (hy.mono (min_le_left _ _))))).2.1.2 hhp.2
      have hq1 := (e3 y hyl ⟨q, hq, (Mat.contains_iff_holds _ y (by
        rw [(e2 q hq).1]; omega)).mpr (q2 y (hy.mono (min_le_right _ _)))⟩).2.1 hp.negIneq (by simp)
      rw [Row.negIneq_holds] at hq1
      exact hne hp (by simp) (le_antisymm hq1 hp1)

/-- **C20** `Region.from_union_of_halfplanes(hs, box)` contains exactly the points of the box that
satisfy at least one of the constraints; its pieces have pairwise disjoint interiors when no
constraint is identically zero. -/
theorem C20_fromHalfplanes (canon : Mat → Mat) (hc : Mat.CanonSpec canon) (hs box : List Row)
    (d : Nat) (hbox : ∀ r ∈ box, r.cs.length = d) (hbz : ∃ r ∈ box, r.isZero = false)
    (hh : ∀ r ∈ hs, r.cs.length = d ∧ r.lin = false) :
    ∃ ps : List Mat, fromHalfplanes canon hs box =
        .ok (.disjoint (ps.map (fun m => (.polytope m none : Region L)))) ∧
      (∀ x : Pt, x.length = d →
        ((.disjoint (ps.map (fun m => .polytope m none)) : Region L).Contains x ↔
          (∀ r ∈ box, r.Holds x) ∧ ∃ h ∈ hs, h.Holds x)) ∧
      ((∀ r ∈ hs, r.isZero = false) → ps.Pairwise (fun p q => ∀ x : Pt, x.length = d →
        ¬ (p.Interior x ∧ q.Interior x))) := by
  obtain ⟨ps, h1, h2, h3, h4, h5⟩ := halfplaneLoop_spec (L := L) canon hc box d hbox hbz hs [] hh
    (by simp)
  refine ⟨ps, by unfold fromHalfplanes; rw [h1]; rfl, fun x hx => ?_, h5⟩
  rw [contains_iff_mem]
  · unfold Mem
    rw [memAny_iff]
    have : (∃ r ∈ ps.map (fun m => (.polytope m none : Region L)), r.Mem x) ↔
        ∃ p ∈ ps, p.Contains x := by
      constructor
      · rintro ⟨r, hr, hx⟩
        obtain ⟨p, hp, rfl⟩ := List.mem_map.mp hr
        unfold Mem at hx
        exact ⟨p, hp, hx⟩
      · rintro ⟨p, hp, hx⟩
        exact ⟨_, List.mem_map.mpr ⟨p, hp, rfl⟩, by unfold Mem; exact hx⟩
    rw [this]
    constructor
    · intro h; obtain ⟨a, _, b⟩ := h3 x hx h; exact ⟨a, b⟩
    · rintro ⟨a, b⟩; exact h4 x hx a (by simp) b
  · unfold AllMat
    rw [allMatList_iff]
    intro r hr
    obtain ⟨p, hp, rfl⟩ := List.mem_map.mp hr
    unfold AllMat
    rw [(h2 p hp).1, hx]

/-- Non-vacuity of C20: the points of `[0,2]²` with `x ≥ 1` or `y ≥ 1`. -/
example : ∃ r, fromHalfplanes id [⟨false, -1, [1, 0]⟩, ⟨false, -1, [0, 1]⟩]
      [⟨false, 0, [1, 0]⟩, ⟨false, 2, [-1, 0]⟩, ⟨false, 0, [0, 1]⟩, ⟨false, 2, [0, -1]⟩] =
        .ok (r : Region Nat) ∧
    r.Contains [0, 1] ∧ r.Contains [2, 2] ∧ ¬ r.Contains [1/2, 1/2] ∧ ¬ r.Contains [0, 3] := by
  refine ⟨_, rfl, ?_, ?_, ?_, ?_⟩ <;> (unfold Contains; decide +kernel)

end Region
end Expdb
