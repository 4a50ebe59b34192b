import Verif.Lemmas.Polytope
import Mathlib.Algebra.BigOperators.Group.List.Lemmas
import Mathlib.Data.List.Perm.Basic
import Mathlib.Data.List.NodupEquivFin
import Mathlib.Data.List.Range

/-!
# Properties C10–C13: intersection, scaling, lifting and substitution of polytopes
-/

namespace Expdb
namespace Mat

/-- Observable membership: the call `p.contains(x)` returns `True`. -/
def Contains (m : Mat) (x : Pt) : Prop := m.contains x = .ok true

theorem contains_iff_holds (m : Mat) (x : Pt) (hx : x.length + 1 = m.cols) :
    m.Contains x ↔ m.Holds x := by
  obtain ⟨b, hb, hiff⟩ := contains_eq m x hx
  unfold Contains
  rw [hb, ← hiff]
  constructor
  · intro h; exact Except.ok.inj h
  · intro h; rw [h]

/-- Membership in a set needs the right dimension (`ValueError` otherwise). -/
theorem contains_imp (m : Mat) (x : Pt) (h : m.Contains x) : x.length + 1 = m.cols := by
  by_contra hne
  unfold Contains at h
  rw [contains_error m x hne] at h
  cases h

/-- Contract of `mat.canonicalize()`: the same points in the same dimension. -/
def CanonSpec (canon : Mat → Mat) : Prop :=
  ∀ m : Mat, m.WF → (canon m).cols = m.cols ∧ (canon m).WF ∧
    ∀ x : Pt, x.length + 1 = m.cols → ((canon m).Holds x ↔ m.Holds x)

/-- The contract is satisfiable: doing nothing meets it. -/
example : CanonSpec id := fun _ h => ⟨rfl, h, fun _ _ => Iff.rfl⟩

/-! ### C10 intersection -/

theorem C10_intersection_nil (canon : Mat → Mat) (b : Bool) :
    intersection canon b [] = .error .valueError := rfl

/-- **C10** For every non-empty list of polytopes of the same dimension, `intersection` returns a
polytope of that dimension that contains exactly the points contained in all of them. -/
theorem C10_intersection_exact (canon : Mat → Mat) (hc : CanonSpec canon) (b : Bool)
    (ps : List Mat) (hne : ps ≠ []) (n : Nat) (hps : ∀ p ∈ ps, p.WF ∧ p.cols = n) :
    ∃ m, intersection canon b ps = .ok m ∧ m.WF ∧ m.cols = n ∧
      ∀ x, m.Contains x ↔ ∀ p ∈ ps, p.Contains x := by
  match ps, hne, hps with
  | [p], _, hps =>
    refine ⟨p, rfl, (hps p (by simp)).1, (hps p (by simp)).2, fun x => by simp⟩
  | p :: q :: rest, _, hps =>
    unfold intersection
    set ineqs := (q :: rest).flatMap (fun m => m.asList false) with hin
    set eqs := (q :: rest).flatMap (fun m => m.asList true) with heq
    have hp := hps p (by simp)
    have hlen : ∀ (b : Bool) (r : Row), r ∈ (q :: rest).flatMap (fun m => m.asList b) →
        r.cs.length + 1 = n := by
      intro b r hr
      obtain ⟨m, hm, hr⟩ := List.mem_flatMap.mp hr
      have := hps m (List.mem_cons_of_mem _ hm)
      rw [← this.2]
      exact this.1 r ((mem_asList _ _ _).mp hr).1
    have h1 : p.extendIf ineqs = .ok ⟨p.cols, p.rows ++ ineqs⟩ :=
      extendIf_ok _ _ (fun r hr => by rw [hp.2]; exact hlen false r hr)
    have h2 : (⟨p.cols, p.rows ++ ineqs⟩ : Mat).extendIf eqs =
        .ok ⟨p.cols, (p.rows ++ ineqs) ++ eqs⟩ :=
      extendIf_ok _ _ (fun r hr => by simp only; rw [hp.2]; exact hlen true r hr)
    simp only [bind, Except.bind]
    rw [← hin, ← heq, h1]
    simp only [h2]
    set M : Mat := ⟨p.cols, (p.rows ++ ineqs) ++ eqs⟩ with hM
    have hwf : M.WF := by
      intro r hr
      simp only [hM, List.mem_append] at hr ⊢
      rcases hr with (hr | hr) | hr
      · exact hp.1 r hr
      · rw [hp.2]; exact hlen false r hr
      · rw [hp.2]; exact hlen true r hr
    have hholds : ∀ x, M.Holds x ↔ ∀ s ∈ p :: q :: rest, s.Holds x := by
      intro x
      rw [hM, holds_append ⟨p.cols, p.rows ++ ineqs⟩, holds_append]
      constructor
      · rintro ⟨⟨hA, hB⟩, hC⟩ s hs
        rcases List.mem_cons.mp hs with rfl | hs
        · exact hA
        · rw [holds_iff_lists]
          exact ⟨fun r hr => hB r (List.mem_flatMap.mpr ⟨s, hs, hr⟩),
            fun r hr => hC r (List.mem_flatMap.mpr ⟨s, hs, hr⟩)⟩
      · intro h
        refine ⟨⟨h p (by simp), fun r hr => ?_⟩, fun r hr => ?_⟩
        · obtain ⟨s, hs, hr⟩ := List.mem_flatMap.mp hr
          exact h s (List.mem_cons_of_mem _ hs) r ((mem_asList _ _ _).mp hr).1
        · obtain ⟨s, hs, hr⟩ := List.mem_flatMap.mp hr
          exact h s (List.mem_cons_of_mem _ hs) r ((mem_asList _ _ _).mp hr).1
    have hMn : M.cols = n := hp.2
    have key : ∀ (m' : Mat), m'.cols = n →
        (∀ x : Pt, x.length + 1 = n → (m'.Holds x ↔ M.Holds x)) →
        ∀ x, m'.Contains x ↔ ∀ s ∈ p :: q :: rest, s.Contains x := by
      intro m' hcols hm' x
      by_cases hx : x.length + 1 = n
      · rw [contains_iff_holds _ _ (by rw [hcols]; exact hx), hm' x hx, hholds x]
        exact forall₂_congr (fun s hs => (contains_iff_holds s x (by rw [(hps s hs).2]; exact hx)).symm)
      · constructor
        · intro h; exact absurd (by rw [← hcols]; exact contains_imp _ _ h) hx
        · intro h
          exact absurd (by rw [← (hps p (by simp)).2]; exact contains_imp _ _ (h p (by simp))) hx
    refine ⟨_, rfl, ?_⟩
    cases b
    · refine ⟨hwf, hMn, key M hMn (fun _ _ => Iff.rfl)⟩
    · obtain ⟨hc1, hc2, hc3⟩ := hc M hwf
      refine ⟨hc2, by rw [if_pos rfl, hc1, hMn], ?_⟩
      exact key (canon M) (by rw [hc1, hMn]) (fun x hx => hc3 x (by rw [hMn]; exact hx))

/-- Non-vacuity of C10: two overlapping unit intervals (one with an equality row). -/
example : ∃ m, intersection id true
      [⟨2, [⟨false, 0, [1]⟩, ⟨false, 1, [-1]⟩]⟩, ⟨2, [⟨true, -1, [2]⟩]⟩] = .ok m ∧
    m.Contains [1/2] ∧ ¬ m.Contains [1/4] := by
  refine ⟨⟨2, [⟨false, 0, [1]⟩, ⟨false, 1, [-1]⟩, ⟨true, -1, [2]⟩]⟩, by decide +kernel, ?_, ?_⟩
  · unfold Contains; decide +kernel
  · unfold Contains; decide +kernel

/-! ### C10b boxes -/

theorem unitRow_val (c : ℚ) (n i : Nat) (s : ℚ) (x : Pt) (hi : i < n) (hx : x.length = n) :
    (unitRow c n i s).c0 + dot (unitRow c n i s).cs x = c + s * x.getD i 0 := by
  unfold unitRow; simp only; rw [dot_unit _ _ _ _ hi hx]

theorem unitRow_not_zero (c : ℚ) (n i : Nat) (s : ℚ) (hi : i < n) (hs : s ≠ 0) :
    (unitRow c n i s).isZero = false := by
  rw [Bool.eq_false_iff, Ne, Row.isZero_iff]
  rintro ⟨_, h⟩
  apply hs
  apply h
  unfold unitRow
  simp only
  rw [List.mem_iff_getElem]
  exact ⟨i, by simpa using hi, by simp⟩

theorem rangeRows_holds (n i : Nat) (lo hi : ℚ) (x : Pt) (hn : i < n) (hx : x.length = n) :
    (∀ r ∈ rangeRows n i lo hi, r.Holds x) ↔ lo ≤ x.getD i 0 ∧ x.getD i 0 ≤ hi := by
  unfold rangeRows
  simp only [List.mem_cons, List.not_mem_nil, or_false, forall_eq_or_imp, forall_eq]
  unfold Row.Holds
  rw [unitRow_val _ _ _ _ _ hn hx, unitRow_val _ _ _ _ _ hn hx]
  simp only [unitRow, Bool.false_eq_true, false_imp_iff, true_and, forall_const]
  constructor
  · rintro ⟨h1, h2⟩; constructor <;> linarith
  · rintro ⟨h1, h2⟩; constructor <;> linarith

/-- **C10 (boxes)** `rect(*lims)` contains exactly the points within all limits. -/
theorem C10_rect_exact (lims : List (ℚ × ℚ)) (hne : lims ≠ []) :
    ∃ m, rect lims = .ok m ∧ m.WF ∧ m.cols = lims.length + 1 ∧
      ∀ x, m.Contains x ↔ x.length = lims.length ∧
        ∀ i (h1 : i < lims.length) (h2 : i < x.length), lims[i].1 ≤ x[i] ∧ x[i] ≤ lims[i].2 := by
  unfold rect ofConstraints
  set rows := lims.zipIdx.flatMap (fun t => rangeRows lims.length t.2 t.1.1 t.1.2) with hrows
  have hmem : ∀ r, r ∈ rows ↔ ∃ i, ∃ h : i < lims.length,
      r ∈ rangeRows lims.length i lims[i].1 lims[i].2 := by
    intro r
    rw [hrows, List.mem_flatMap]
    constructor
    · rintro ⟨⟨l, i⟩, ht, hr⟩
      obtain ⟨h1, h2, h3⟩ := List.mem_zipIdx ht
      simp only [Nat.zero_add] at h2 hr
      refine ⟨i, h2, ?_⟩
      simp only [Nat.sub_zero] at h3
      rw [← h3]; exact hr
    · rintro ⟨i, h, hr⟩
      refine ⟨(lims[i], i), ?_, hr⟩
      rw [List.mk_mem_zipIdx_iff_getElem?]
      simp [h]
  have hfilter : rows.filter (fun r => !r.isZero) = rows := by
    rw [List.filter_eq_self]
    intro r hr
    obtain ⟨i, h, hr⟩ := (hmem r).mp hr
    unfold rangeRows at hr
    simp only [List.mem_cons, List.not_mem_nil, or_false] at hr
    rcases hr with rfl | rfl
    · rw [unitRow_not_zero _ _ _ _ h (by norm_num)]; rfl
    · rw [unitRow_not_zero _ _ _ _ h (by norm_num)]; rfl
  have hlen : ∀ r ∈ rows, r.cs.length = lims.length := by
    intro r hr
    obtain ⟨i, h, hr⟩ := (hmem r).mp hr
    unfold rangeRows unitRow at hr
    simp only [List.mem_cons, List.not_mem_nil, or_false] at hr
    rcases hr with rfl | rfl <;> simp
  have hrne : rows ≠ [] := by
    intro h
    cases lims with
    | nil => exact hne rfl
    | cons l ls =>
      have : unitRow (-l.1) (l :: ls).length 0 1 ∈ rows :=
        (hmem _).mpr ⟨0, by simp, by simp [rangeRows]⟩
      rw [h] at this; simp at this
  rw [hfilter, ofRows_ok rows lims.length hrne hlen]
  refine ⟨_, rfl, ?_, rfl, fun x => ?_⟩
  · intro r hr; simp only at hr ⊢; rw [hlen r hr]
  · by_cases hx : x.length = lims.length
    · rw [contains_iff_holds _ _ (by simp only; omega)]
      have : (Holds ⟨lims.length + 1, rows⟩ x) ↔ ∀ i (h : i < lims.length),
          lims[i].1 ≤ x.getD i 0 ∧ x.getD i 0 ≤ lims[i].2 := by
        unfold Holds
        simp only
        constructor
        · intro h i hi
          rw [← rangeRows_holds lims.length i _ _ x hi hx]
          exact fun r hr => h r ((hmem r).mpr ⟨i, hi, hr⟩)
        · intro h r hr
          obtain ⟨i, hi, hr⟩ := (hmem r).mp hr
          exact (rangeRows_holds lims.length i _ _ x hi hx).mpr (h i hi) r hr
      rw [this]
      constructor
      · intro h
        refine ⟨hx, fun i h1 h2 => ?_⟩
        have := h i h1
        rwa [List.getD_eq_getElem?_getD, List.getElem?_eq_getElem h2, Option.getD_some] at this
      · rintro ⟨_, h⟩ i hi
        rw [List.getD_eq_getElem?_getD, List.getElem?_eq_getElem (by omega), Option.getD_some]
        exact h i hi (by omega)
    · constructor
      · intro h
        have := contains_imp _ _ h
        simp only at this
        exact absurd (by omega) hx
      · rintro ⟨h, _⟩; exact absurd h hx

/-- Non-vacuity: the box `[0,1] × [2,3]`. -/
example : ∃ m, rect [(0, 1), (2, 3)] = .ok m ∧ m.Contains [1/2, 3] ∧ ¬ m.Contains [1/2, 1] := by
  refine ⟨_, rfl, ?_, ?_⟩
  · unfold Contains; decide +kernel
  · unfold Contains; decide +kernel

/-! ### C11 scaling -/

/-- **C11** `scale_all` with non-zero factors: `x` is in the scaled polytope exactly when the point
with coordinates `xᵢ / fᵢ` is in the original one. -/
theorem C11_scaleAll_exact (m : Mat) (hwf : m.WF) (fs : List ℚ) (hlen : fs.length + 1 = m.cols)
    (hnz : ∀ f ∈ fs, f ≠ 0) (hrows : m.rows ≠ []) :
    ∃ m', m.scaleAll fs = .ok m' ∧ m'.WF ∧ m'.cols = m.cols ∧
      ∀ x : Pt, x.length = fs.length →
        (m'.Contains x ↔ m.Contains (List.zipWith (· / ·) x fs)) := by
  unfold scaleAll
  rw [if_neg (by simpa using hlen), if_neg (by rintro ⟨_, h⟩; exact hnz 0 h rfl),
    if_neg (by rw [List.length_eq_zero_iff]; exact hrows)]
  refine ⟨_, rfl, ?_, rfl, fun x hx => ?_⟩
  · intro r hr
    simp only [List.mem_map, List.mem_append, mem_asList] at hr
    obtain ⟨s, hs, rfl⟩ := hr
    have : s ∈ m.rows := by tauto
    have := hwf s this
    simp only [scaleRow, List.length_zipWith]
    omega
  · rw [contains_iff_holds _ _ (by simp only; omega),
      contains_iff_holds _ _ (by rw [List.length_zipWith]; omega)]
    have hrow : ∀ s ∈ m.rows, ((scaleRow fs s).Holds x ↔ s.Holds (List.zipWith (· / ·) x fs)) := by
      intro s hs
      have := hwf s hs
      unfold Row.Holds scaleRow
      simp only
      rw [dot_zipWith_div s.cs fs x (by omega) (by omega)]
    rw [holds_iff_lists m]
    unfold Holds
    simp only [List.mem_map, List.mem_append]
    constructor
    · intro h
      constructor <;> intro r hr
      · exact (hrow r ((mem_asList _ _ _).mp hr).1).mp (h _ ⟨r, Or.inl hr, rfl⟩)
      · exact (hrow r ((mem_asList _ _ _).mp hr).1).mp (h _ ⟨r, Or.inr hr, rfl⟩)
    · rintro ⟨h1, h2⟩ r ⟨s, hs | hs, rfl⟩
      · exact (hrow s ((mem_asList _ _ _).mp hs).1).mpr (h1 s hs)
      · exact (hrow s ((mem_asList _ _ _).mp hs).1).mpr (h2 s hs)

/-- The points of the scaled polytope are the images: `y ∈ P ↔ (fᵢ yᵢ) ∈ scale(P)`. -/
theorem C11_scaleAll_image (m : Mat) (hwf : m.WF) (fs : List ℚ) (hlen : fs.length + 1 = m.cols)
    (hnz : ∀ f ∈ fs, f ≠ 0) (hrows : m.rows ≠ []) :
    ∃ m', m.scaleAll fs = .ok m' ∧
      ∀ y : Pt, y.length = fs.length →
        (m'.Contains (List.zipWith (· * ·) y fs) ↔ m.Contains y) := by
  obtain ⟨m', h1, _, _, h4⟩ := C11_scaleAll_exact m hwf fs hlen hnz hrows
  refine ⟨m', h1, fun y hy => ?_⟩
  rw [h4 _ (by rw [List.length_zipWith]; omega)]
  have : List.zipWith (· / ·) (List.zipWith (· * ·) y fs) fs = y := by
    clear h1 h4 hlen
    induction y generalizing fs with
    | nil => simp
    | cons a y ih => cases fs with
      | nil => simp at hy
      | cons f fs =>
        simp only [List.zipWith_cons_cons]
        rw [ih fs (fun g hg => hnz g (by simp [hg])) (by simpa using hy),
          mul_div_cancel_right₀ _ (hnz f (by simp))]
  rw [this]

/-- The rejected inputs: wrong number of factors, or a zero factor. -/
theorem C11_scaleAll_errors (m : Mat) (fs : List ℚ) :
    (fs.length + 1 ≠ m.cols → m.scaleAll fs = .error .valueError) ∧
    (fs.length + 1 = m.cols → m.rows ≠ [] → (0 : ℚ) ∈ fs → m.scaleAll fs = .error .zeroDivision) := by
  constructor
  · intro h; unfold scaleAll; rw [if_pos h]
  · intro h h2 h3; unfold scaleAll
    rw [if_neg (by simpa using h), if_pos ⟨List.length_pos_iff.mpr h2, h3⟩]

/-- Non-vacuity of C11: scaling `[1,2] × [3,4]` by `(2, -3)`. -/
example : ∃ m m', rect [(1, 2), (3, 4)] = .ok m ∧ m.scaleAll [2, -3] = .ok m' ∧
    m'.Contains [3, -10] ∧ ¬ m'.Contains [3, 10] := by
  refine ⟨_, _, rfl, rfl, ?_, ?_⟩ <;> (unfold Contains; decide +kernel)

private theorem scale_core (canon : Mat → Mat) (hc : CanonSpec canon) (m : Mat) (hwf : m.WF)
    (i : Nat) (f : ℚ) (hi : i < m.cols) (hf : f ≠ 0) (g : Pt → Pt) (hg : ∀ x, (g x).length = x.length)
    (hval : ∀ (r : Row) (x : Pt), (scaleRowAt i f r).Holds x ↔ r.Holds (g x))
    (hzero : ∀ r : Row, (scaleRowAt i f r).isZero = r.isZero)
    (hlenr : ∀ r : Row, (scaleRowAt i f r).cs.length = r.cs.length)
    (hrow : ∃ r ∈ m.rows, r.lin = false ∧ r.isZero = false) (additional : List Row)
    (hadd : ∀ r ∈ additional, r.cs.length + 1 = m.cols) :
    ∃ m', m.scale canon i f additional = .ok m' ∧ m'.WF ∧ m'.cols = m.cols ∧
      ∀ x : Pt, x.length + 1 = m.cols →
        (m'.Contains x ↔ m.Contains (g x) ∧ ∀ r ∈ additional, r.Holds x) := by
  obtain ⟨r0, hr0, hl0, hz0⟩ := hrow
  have hrne : m.rows.length > 0 := List.length_pos_iff.mpr (List.ne_nil_of_mem hr0)
  unfold scale
  rw [if_neg (by rintro ⟨_, h⟩; omega), if_neg (by rintro ⟨_, h⟩; exact hf h)]
  set I := (m.asList false).map (scaleRowAt i f) ++ additional with hI
  set E := (m.asList true).map (scaleRowAt i f) with hE
  have hI0 : scaleRowAt i f r0 ∈ I :=
    List.mem_append_left _ (List.mem_map.mpr ⟨r0, (mem_asList _ _ _).mpr ⟨hr0, hl0⟩, rfl⟩)
  have hIpos : I.length > 0 := List.length_pos_iff.mpr (List.ne_nil_of_mem hI0)
  set F := I.filter (fun r => !r.isZero) with hF
  have hF0 : scaleRowAt i f r0 ∈ F := by
    rw [hF, List.mem_filter]; exact ⟨hI0, by rw [hzero, hz0]; rfl⟩
  have hlenI : ∀ r ∈ I, r.cs.length = m.cols - 1 := by
    intro r hr
    rcases List.mem_append.mp hr with hr | hr
    · obtain ⟨s, hs, rfl⟩ := List.mem_map.mp hr
      rw [hlenr]
      have := hwf s ((mem_asList _ _ _).mp hs).1
      omega
    · have := hadd r hr
      omega
  have hlenE : ∀ r ∈ E, r.cs.length = m.cols - 1 := by
    intro r hr
    obtain ⟨s, hs, rfl⟩ := List.mem_map.mp hr
    rw [hlenr]
    have := hwf s ((mem_asList _ _ _).mp hs).1
    omega
  have hof : ofConstraints I = .ok ⟨m.cols, F⟩ := by
    unfold ofConstraints
    rw [ofRows_ok F (m.cols - 1) (List.ne_nil_of_mem hF0)
      (fun r hr => hlenI r (List.mem_filter.mp hr).1)]
    rw [show m.cols - 1 + 1 = m.cols by omega]
  have hext : (⟨m.cols, F⟩ : Mat).extendIf E = .ok ⟨m.cols, F ++ E⟩ :=
    extendIf_ok _ _ (fun r hr => by simp only; rw [hlenE r hr]; omega)
  rw [if_pos hIpos, hof]
  simp only [bind, Except.bind, hext]
  have hwfM : (⟨m.cols, F ++ E⟩ : Mat).WF := by
    intro r hr
    simp only [List.mem_append] at hr ⊢
    rcases hr with hr | hr
    · rw [hlenI r (List.mem_filter.mp hr).1]; omega
    · rw [hlenE r hr]; omega
  obtain ⟨hc1, hc2, hc3⟩ := hc _ hwfM
  refine ⟨_, rfl, hc2, hc1, fun x hx => ?_⟩
  rw [contains_iff_holds _ _ (by rw [hc1]; exact hx), hc3 x hx,
    contains_iff_holds _ _ (by rw [hg]; exact hx), holds_append ⟨m.cols, F⟩,
    holds_iff_lists m]
  have hsplit : (⟨m.cols, F⟩ : Mat).Holds x ↔ (∀ r ∈ m.asList false, r.Holds (g x)) ∧
      ∀ r ∈ additional, r.Holds x := by
    unfold Holds
    simp only
    constructor
    · intro h
      refine ⟨fun r hr => ?_, fun r hr => ?_⟩
      · by_cases hz : r.isZero = true
        · exact Row.isZero_holds r hz _
        · rw [← hval]
          refine h _ ?_
          rw [hF, List.mem_filter]
          exact ⟨List.mem_append_left _ (List.mem_map.mpr ⟨r, hr, rfl⟩), by rw [hzero]; simpa using hz⟩
      · by_cases hz : r.isZero = true
        · exact Row.isZero_holds r hz _
        · refine h _ ?_
          rw [hF, List.mem_filter]
          exact ⟨List.mem_append_right _ hr, by simpa using hz⟩
    · rintro ⟨h, h'⟩ r hr
      rcases List.mem_append.mp (List.mem_filter.mp hr).1 with hr | hr
      · obtain ⟨s, hs, rfl⟩ := List.mem_map.mp hr
        rw [hval]; exact h s hs
      · exact h' r hr
  have hE2 : (∀ r ∈ E, r.Holds x) ↔ ∀ r ∈ m.asList true, r.Holds (g x) := by
    constructor
    · intro h r hr
      rw [← hval]
      exact h _ (List.mem_map.mpr ⟨r, hr, rfl⟩)
    · intro h r hr
      obtain ⟨s, hs, rfl⟩ := List.mem_map.mp hr
      rw [hval]; exact h s hs
  rw [hsplit, hE2]
  tauto

/-- **C11** `scale(i, f, additional)` on one coordinate (`i` counted from 1), when there is an inequality
row that stays non-zero (so that the matrix has columns): the points of the result are the scaled points that meet the
additional constraints. -/
theorem C11_scale_exact (canon : Mat → Mat) (hc : CanonSpec canon) (m : Mat) (hwf : m.WF)
    (j : Nat) (f : ℚ) (hj : j + 1 < m.cols) (hf : f ≠ 0)
    (hrow : ∃ r ∈ m.rows, r.lin = false ∧ r.isZero = false) (additional : List Row)
    (hadd : ∀ r ∈ additional, r.cs.length + 1 = m.cols) :
    ∃ m', m.scale canon (j + 1) f additional = .ok m' ∧ m'.WF ∧ m'.cols = m.cols ∧
      ∀ x : Pt, x.length + 1 = m.cols →
        (m'.Contains x ↔ m.Contains (x.modify j (· / f)) ∧ ∀ r ∈ additional, r.Holds x) := by
  have hval : ∀ (r : Row) (x : Pt), (scaleRowAt (j + 1) f r).Holds x ↔ r.Holds (x.modify j (· / f)) := by
    intro r x
    unfold Row.Holds scaleRowAt
    simp only
    rw [dot_modify_div]
  have hzero : ∀ r : Row, (scaleRowAt (j + 1) f r).isZero = r.isZero := by
    intro r
    rw [Bool.eq_iff_iff, Row.isZero_iff, Row.isZero_iff]
    unfold scaleRowAt
    simp only
    apply and_congr Iff.rfl
    constructor
    · intro h c hcm
      obtain ⟨k, hk, rfl⟩ := List.mem_iff_getElem.mp hcm
      have := h ((r.cs.modify j (· / f))[k]'(by simpa using hk)) (List.getElem_mem _)
      rw [List.getElem_modify] at this
      split at this
      · rcases div_eq_zero_iff.mp this with h | h
        · exact h
        · exact absurd h hf
      · exact this
    · intro h c hcm
      obtain ⟨k, hk, rfl⟩ := List.mem_iff_getElem.mp hcm
      rw [List.getElem_modify]
      have hk' : k < r.cs.length := by simpa using hk
      have := h r.cs[k] (List.getElem_mem _)
      split
      · rw [this, zero_div]
      · exact this
  have hlenr : ∀ r : Row, (scaleRowAt (j + 1) f r).cs.length = r.cs.length := by
    intro r; unfold scaleRowAt; simp
  exact scale_core canon hc m hwf (j + 1) f hj hf (fun x => x.modify j (· / f)) (fun x => List.length_modify ..) hval hzero hlenr hrow
    additional hadd

private theorem dot_scaled (cs : List ℚ) (f : ℚ) (x : Pt) : dot cs (x.map (f * ·)) = f * dot cs x := by
  induction cs generalizing x with
  | nil => simp [dot]
  | cons c cs ih =>
    cases x with
    | nil => simp [dot]
    | cons a x => simp only [List.map_cons, dot, ih]; ring

/-- **C11** `scale(0, f, additional)`: the index 0, which the comment of the method excludes, raises no error; the constants are
divided, so that for positive `f` the whole polytope is divided by `f` in all coordinates. -/
theorem C11_scale_zero (canon : Mat → Mat) (hc : CanonSpec canon) (m : Mat) (hwf : m.WF)
    (f : ℚ) (hj : 0 < m.cols) (hf : 0 < f)
    (hrow : ∃ r ∈ m.rows, r.lin = false ∧ r.isZero = false) (additional : List Row)
    (hadd : ∀ r ∈ additional, r.cs.length + 1 = m.cols) :
    ∃ m', m.scale canon 0 f additional = .ok m' ∧ m'.WF ∧ m'.cols = m.cols ∧
      ∀ x : Pt, x.length + 1 = m.cols →
        (m'.Contains x ↔ m.Contains (x.map (f * ·)) ∧ ∀ r ∈ additional, r.Holds x) := by
  refine scale_core canon hc m hwf 0 f hj hf.ne' (fun x => x.map (f * ·)) (fun x => List.length_map ..) ?_ ?_ (fun r => rfl) hrow
    additional hadd
  · intro r x
    unfold Row.Holds scaleRowAt
    simp only [dot_scaled]
    have e : r.c0 + f * dot r.cs x = f * (r.c0 / f + dot r.cs x) := by field_simp
    rw [e]
    refine and_congr (imp_congr_right fun _ => ?_) (imp_congr_right fun _ => ?_)
    · constructor
      · intro h; rw [h, mul_zero]
      · intro h; exact (mul_eq_zero.mp h).resolve_left hf.ne'
    · exact (mul_nonneg_iff_of_pos_left hf).symm
  · intro r
    rw [Bool.eq_iff_iff, Row.isZero_iff, Row.isZero_iff]
    unfold scaleRowAt
    simp only [div_eq_zero_iff, hf.ne', or_false]

/-- Non-vacuity: `[0,1]×[2,3]` becomes `[0,1/2]×[1,3/2]`. -/
example : rect [(0, 1), (2, 3)] = .ok ⟨3, [⟨false, 0, [1, 0]⟩, ⟨false, 1, [-1, 0]⟩, ⟨false, -2, [0, 1]⟩, ⟨false, 3, [0, -1]⟩]⟩ ∧
    (⟨3, [⟨false, 0, [1, 0]⟩, ⟨false, 1, [-1, 0]⟩, ⟨false, -2, [0, 1]⟩, ⟨false, 3, [0, -1]⟩]⟩ : Mat).scale id 0 2 [] =
      .ok ⟨3, [⟨false, 0, [1, 0]⟩, ⟨false, 1 / 2, [-1, 0]⟩, ⟨false, -1, [0, 1]⟩, ⟨false, 3 / 2, [0, -1]⟩]⟩ := by
  constructor <;> decide +kernel

/-- Non-vacuity of the one-coordinate version: doubling the second coordinate of `[0,1]×[2,3]`, keeping `y ≤ 5`. -/
example : ∃ m m', rect [(0, 1), (2, 3)] = .ok m ∧ m.scale id 2 2 [⟨false, 5, [0, -1]⟩] = .ok m' ∧
    m'.Contains [0, 5] ∧ ¬ m'.Contains [0, 3] ∧ ¬ m'.Contains [0, 6] := by
  refine ⟨_, _, rfl, rfl, ?_, ?_, ?_⟩ <;> (unfold Contains; decide +kernel)

/-! ### C12 lifting -/

/-- The existing dimension named by an entry of the argument of `lift`. -/
def dimOf : LiftVar → Option Nat
  | .dim i => some i
  | .range _ _ => none

private theorem lift_dot (cs y : List ℚ) (vars : List LiftVar) (x : Pt)
    (hx : x.length = vars.length)
    (hy : ∀ (j i : Nat), vars[j]? = some (.dim i) → x[j]? = y[i]?)
    (hlt : ∀ i, LiftVar.dim i ∈ vars → i < y.length) :
    dot (vars.map (liftCoef cs)) x =
      ((vars.filterMap dimOf).map (fun i => cs.getD i 0 * y.getD i 0)).sum := by
  induction vars generalizing x with
  | nil => simp
  | cons v vars ih =>
    cases x with
    | nil => simp at hx
    | cons a x =>
      have ih' := ih x (by simpa using hx)
        (fun j i h => by
          have := hy (j + 1) i (by simpa using h)
          simpa using this)
        (fun i hi => hlt i (by simp [hi]))
      cases v with
      | dim i =>
        have h0 := hy 0 i (by simp)
        simp only [List.getElem?_cons_zero] at h0
        have hd : y.getD i 0 = a := by
          rw [List.getD_eq_getElem?_getD, ← h0, Option.getD_some]
        simp only [List.map_cons, dot_cons, ih', dimOf, liftCoef, List.filterMap_cons, List.sum_cons, hd]
      | range lo hi =>
        simp only [List.map_cons, dot_cons, ih', dimOf, liftCoef, List.filterMap_cons, zero_mul, zero_add]

/-- **C12** If every coordinate `0..d-1` of the polytope is listed exactly once, then `lift(vars)`
contains `x` exactly when the listed coordinates of `x` form a point `y` of the polytope and every
new coordinate lies in its range.  (The hypothesis on rows: there is at least one inequality row
or one range. Missing: the other case, in which the code raises, see `C12_lift_equalities_counterexample`.) -/
theorem C12_lift_partial (m : Mat) (hwf : m.WF) (d : Nat) (hd : m.cols = d + 1)
    (vars : List LiftVar) (hperm : (vars.filterMap dimOf).Perm (List.range d))
    (hineq : (∃ r ∈ m.rows, r.lin = false) ∨ ∃ lo hi, LiftVar.range lo hi ∈ vars) :
    ∃ m', m.lift vars = .ok m' ∧ m'.WF ∧ m'.cols = vars.length + 1 ∧
      ∀ x y : Pt, x.length = vars.length → y.length = d →
        (∀ j i : Nat, vars[j]? = some (.dim i) → x[j]? = y[i]?) →
        (m'.Contains x ↔ m.Contains y ∧
          ∀ (j : Nat) (lo hi : ℚ), vars[j]? = some (.range lo hi) →
            ∃ c, x[j]? = some c ∧ lo ≤ c ∧ c ≤ hi) := by
  have hlt : ∀ i, LiftVar.dim i ∈ vars → i < d := by
    intro i hi
    have : i ∈ vars.filterMap dimOf := List.mem_filterMap.mpr ⟨_, hi, rfl⟩
    exact List.mem_range.mp (hperm.mem_iff.mp this)
  unfold lift
  rw [if_neg]
  swap
  · rintro ⟨_, h⟩
    obtain ⟨v, hv, h⟩ := List.any_eq_true.mp h
    cases v with
    | dim i => have := hlt i hv; simp at h; omega
    | range lo hi => simp at h
  set I := (m.asList false).map (liftRow vars) with hI
  set R := liftRanges vars with hR
  set E := (m.asList true).map (liftRow vars) with hE
  have hRmem : ∀ r, r ∈ R ↔ ∃ j lo hi, vars[j]? = some (.range lo hi) ∧
      r ∈ rangeRows vars.length j lo hi := by
    intro r
    rw [hR]; unfold liftRanges
    rw [List.mem_flatMap]
    constructor
    · rintro ⟨⟨v, j⟩, ht, hr⟩
      rw [List.mk_mem_zipIdx_iff_getElem?] at ht
      cases v with
      | dim i => simp at hr
      | range lo hi => exact ⟨j, lo, hi, ht, hr⟩
    · rintro ⟨j, lo, hi, hv, hr⟩
      exact ⟨(.range lo hi, j), by rw [List.mk_mem_zipIdx_iff_getElem?]; exact hv, hr⟩
  have hlenL : ∀ r : Row, (liftRow vars r).cs.length = vars.length := by
    intro r; unfold liftRow; simp
  have hlenIR : ∀ r ∈ I ++ R, r.cs.length = vars.length := by
    intro r hr
    rcases List.mem_append.mp hr with hr | hr
    · obtain ⟨s, _, rfl⟩ := List.mem_map.mp hr; exact hlenL s
    · obtain ⟨j, lo, hi, _, hr⟩ := (hRmem r).mp hr
      unfold rangeRows unitRow at hr
      simp only [List.mem_cons, List.not_mem_nil, or_false] at hr
      rcases hr with rfl | rfl <;> simp
  have hlenE : ∀ r ∈ E, r.cs.length + 1 = vars.length + 1 := by
    intro r hr
    obtain ⟨s, _, rfl⟩ := List.mem_map.mp hr; rw [hlenL s]
  have hne : I ++ R ≠ [] := by
    rcases hineq with ⟨r, hr, hl⟩ | ⟨lo, hi, hv⟩
    · exact List.ne_nil_of_mem (List.mem_append_left _
        (List.mem_map.mpr ⟨r, (mem_asList _ _ _).mpr ⟨hr, hl⟩, rfl⟩))
    · obtain ⟨j, hj⟩ := List.mem_iff_getElem?.mp hv
      refine List.ne_nil_of_mem (List.mem_append_right _ ((hRmem (unitRow (-lo) vars.length j 1)).mpr
        ⟨j, lo, hi, hj, by simp [rangeRows]⟩))
  have hext : (⟨vars.length + 1, I ++ R⟩ : Mat).extendIf E =
      .ok ⟨vars.length + 1, (I ++ R) ++ E⟩ := extendIf_ok _ _ hlenE
  simp only [bind, Except.bind, ofRows_ok (I ++ R) vars.length hne hlenIR, hext]
  refine ⟨_, rfl, ?_, rfl, fun x y hx hy hxy => ?_⟩
  · intro r hr
    rcases List.mem_append.mp hr with hr | hr
    · simp only; rw [hlenIR r hr]
    · exact hlenE r hr
  rw [contains_iff_holds _ _ (by simp only; omega), contains_iff_holds _ _ (by omega),
    holds_iff_lists m, holds_append ⟨vars.length + 1, I ++ R⟩]
  have hrow : ∀ r ∈ m.rows, ((liftRow vars r).Holds x ↔ r.Holds y) := by
    intro r hr
    have hrl := hwf r hr
    have h1 := lift_dot r.cs y vars x hx hxy (fun i hi => by rw [hy]; exact hlt i hi)
    have h2 := dot_eq_sum_range r.cs y (by omega)
    have h3 : dot (liftRow vars r).cs x = dot r.cs y := by
      unfold liftRow
      simp only
      rw [h1, h2, (hperm.map _).sum_eq, show r.cs.length = d by omega]
    unfold Row.Holds
    rw [h3]
    rfl
  have hrange : (∀ r ∈ R, r.Holds x) ↔ ∀ (j : Nat) (lo hi : ℚ), vars[j]? = some (.range lo hi) →
      ∃ c, x[j]? = some c ∧ lo ≤ c ∧ c ≤ hi := by
    constructor
    · intro h j lo hi hv
      have hj : j < vars.length := (List.getElem?_eq_some_iff.mp hv).1
      have hjx : j < x.length := by omega
      refine ⟨x[j], List.getElem?_eq_getElem hjx, ?_⟩
      have := (rangeRows_holds vars.length j lo hi x hj hx).mp
        (fun r hr => h r ((hRmem r).mpr ⟨j, lo, hi, hv, hr⟩))
      rwa [List.getD_eq_getElem?_getD, List.getElem?_eq_getElem hjx, Option.getD_some] at this
    · intro h r hr
      obtain ⟨j, lo, hi, hv, hr⟩ := (hRmem r).mp hr
      have hj : j < vars.length := (List.getElem?_eq_some_iff.mp hv).1
      obtain ⟨c, hc, h1⟩ := h j lo hi hv
      refine (rangeRows_holds vars.length j lo hi x hj hx).mpr ?_ r hr
      rw [List.getD_eq_getElem?_getD, hc, Option.getD_some]; exact h1
  rw [← hrange]
  constructor
  · rintro ⟨h1, h2⟩
    refine ⟨⟨fun r hr => ?_, fun r hr => ?_⟩, fun r hr => h1 r (List.mem_append_right _ hr)⟩
    · rw [← hrow r ((mem_asList _ _ _).mp hr).1]
      exact h1 _ (List.mem_append_left _ (List.mem_map.mpr ⟨r, hr, rfl⟩))
    · rw [← hrow r ((mem_asList _ _ _).mp hr).1]
      exact h2 _ (List.mem_map.mpr ⟨r, hr, rfl⟩)
  · rintro ⟨⟨h1, h2⟩, h3⟩
    refine ⟨fun r hr => ?_, fun r hr => ?_⟩
    · rcases List.mem_append.mp hr with hr | hr
      · obtain ⟨s, hs, rfl⟩ := List.mem_map.mp hr
        exact (hrow s ((mem_asList _ _ _).mp hs).1).mpr (h1 s hs)
      · exact h3 r hr
    · obtain ⟨s, hs, rfl⟩ := List.mem_map.mp hr
      exact (hrow s ((mem_asList _ _ _).mp hs).1).mpr (h2 s hs)

/-- Non-vacuity of C12: `[-1,1] × [4,9]` lifted as in the unit tests, `(2,3), 0, (3,6), 1`. -/
example : ([LiftVar.range 2 3, .dim 0, .range 3 6, .dim 1].filterMap dimOf).Perm (List.range 2) ∧
    ∃ m m', rect [(-1, 1), (4, 9)] = .ok m ∧
      m.lift [.range 2 3, .dim 0, .range 3 6, .dim 1] = .ok m' ∧
      m'.Contains [2, -1, 5, 7] ∧ ¬ m'.Contains [2, 2, 5, 7] ∧ ¬ m'.Contains [1, -1, 5, 7] := by
  refine ⟨by decide, _, _, rfl, rfl, ?_, ?_, ?_⟩ <;> (unfold Contains; decide +kernel)

/-- Finding: lifting a polytope given by equalities only, without adding a new range, raises
`ValueError` instead of permuting coordinates (polytope.py:791-794). -/
theorem C12_lift_equalities_counterexample :
    lift ⟨2, [⟨true, -1, [2]⟩]⟩ [.dim 0] = .error .valueError := by decide +kernel

/-- Finding: `lift` does not check that every coordinate is listed; an omitted coordinate is
silently set to `0` in every row, so that the lift of the empty-at-`0` polytope `y = 1` (with
`0 ≤ x ≤ 1`) forgets the point set: no point of the lift exists although the polytope has
points. -/
theorem C12_lift_missing_dim_counterexample :
    ∃ m', lift ⟨3, [⟨false, 0, [1, 0]⟩, ⟨false, 1, [-1, 0]⟩, ⟨true, -1, [0, 1]⟩]⟩
        [.dim 0, .range 0 1] = .ok m' ∧
      (Mat.mk 3 [⟨false, 0, [1, 0]⟩, ⟨false, 1, [-1, 0]⟩, ⟨true, -1, [0, 1]⟩]).Contains [0, 1] ∧
      ∀ x, ¬ m'.Contains x := by
  refine ⟨_, rfl, by unfold Contains; decide +kernel, fun x hx => ?_⟩
  have hlen := contains_imp _ _ hx
  rw [contains_iff_holds _ _ hlen] at hx
  have := hx ⟨true, -1, [0, 0]⟩ (by decide +kernel)
  have h := this.1 rfl
  simp only at h
  rw [dot_zero [0, 0] (by simp)] at h
  norm_num at h

/-! ### C13 substitution -/

/-- The coordinates of `x` whose index is not a key. -/
def dropKeys (keys : List Nat) (x : Pt) : Pt :=
  (x.zipIdx.filter (fun t => !(keys.contains t.2))).map (·.1)

private theorem subst_sum (cs x : List ℚ) (values : List (Nat × ℚ)) (h : cs.length = x.length)
    (hnd : (values.map (·.1)).Nodup) (hx : ∀ iv ∈ values, x[iv.1]? = some iv.2) :
    (values.map (fun iv => cs.getD iv.1 0 * iv.2)).sum +
      dot ((cs.zipIdx.filter (fun t => !(values.any (fun iv => iv.1 == t.2)))).map (·.1))
        (dropKeys (values.map (·.1)) x) = dot cs x := by
  set p : Nat → Bool := fun i => values.any (fun iv => iv.1 == i) with hp
  have hpk : ∀ i, (values.map (·.1)).contains i = p i := by
    intro i
    rw [hp, Bool.eq_iff_iff]
    simp only [List.contains_iff_mem, List.mem_map, List.any_eq_true, beq_iff_eq]
  unfold dropKeys
  simp only [hpk]
  rw [zipIdx_filter_map cs (fun i => !p i), zipIdx_filter_map x (fun i => !p i), ← h, dot_map_map,
    dot_eq_sum_range cs x h, sum_filter_add_filter_not (List.range cs.length) p]
  congr 1
  have e1 : values.map (fun iv => cs.getD iv.1 0 * iv.2) =
      (values.map (·.1)).map (fun i => cs.getD i 0 * x.getD i 0) := by
    rw [List.map_map]
    apply List.map_congr_left
    intro iv hiv
    simp only [Function.comp]
    rw [List.getD_eq_getElem?_getD (l := x), hx iv hiv, Option.getD_some]
  rw [e1]
  apply List.Perm.sum_eq
  apply List.Perm.map
  rw [List.perm_ext_iff_of_nodup hnd (List.Nodup.filter _ List.nodup_range)]
  intro i
  rw [List.mem_filter, List.mem_range, hp]
  simp only [List.mem_map, List.any_eq_true, beq_iff_eq]
  constructor
  · rintro ⟨iv, hiv, rfl⟩
    refine ⟨?_, iv, hiv, rfl⟩
    have := (List.getElem?_eq_some_iff.mp (hx iv hiv)).1
    omega
  · rintro ⟨_, iv, hiv, rfl⟩; exact ⟨iv, hiv, rfl⟩

theorem dropKeys_length (keys : List Nat) (x : Pt) (hnd : keys.Nodup)
    (hlt : ∀ k ∈ keys, k < x.length) : (dropKeys keys x).length = x.length - keys.length := by
  unfold dropKeys
  rw [zipIdx_filter_map x (fun i => !keys.contains i), List.length_map]
  have h1 : ((List.range x.length).filter (fun i => keys.contains i)).length = keys.length := by
    apply List.Perm.length_eq
    rw [List.perm_ext_iff_of_nodup (List.Nodup.filter _ List.nodup_range) hnd]
    intro i
    rw [List.mem_filter, List.mem_range, List.contains_iff_mem]
    exact ⟨fun h => h.2, fun h => ⟨hlt i h, h⟩⟩
  have h2 := List.length_eq_length_filter_add (l := List.range x.length) (fun i => keys.contains i)
  rw [List.length_range] at h2
  omega

/-- **C13** `substitute(values)`: for every full point `x` having the given values at the given
coordinates, the remaining coordinates are in the result exactly when `x` is in the polytope. -/
theorem C13_substitute_exact (m : Mat) (hwf : m.WF) (d : Nat) (hd : m.cols = d + 1)
    (hrows : m.rows ≠ []) (values : List (Nat × ℚ)) (hnd : (values.map (·.1)).Nodup)
    (hlt : ∀ iv ∈ values, iv.1 < d) :
    ∃ m', m.substitute values = .ok m' ∧ m'.WF ∧ m'.cols = d - values.length + 1 ∧
      ∀ x : Pt, x.length = d → (∀ iv ∈ values, x[iv.1]? = some iv.2) →
        (m'.Contains (dropKeys (values.map (·.1)) x) ↔ m.Contains x) := by
  unfold substitute
  rw [if_neg]
  swap
  · rintro ⟨_, h⟩
    obtain ⟨iv, hiv, h⟩ := List.any_eq_true.mp h
    have := hlt iv hiv
    simp at h; omega
  have hkeys : ∀ k ∈ values.map (·.1), k < d := by
    intro k hk
    obtain ⟨iv, hiv, rfl⟩ := List.mem_map.mp hk
    exact hlt iv hiv
  have hlen : ∀ r ∈ m.rows.map (substRow values), r.cs.length = d - values.length := by
    intro r hr
    obtain ⟨s, hs, rfl⟩ := List.mem_map.mp hr
    have hsl := hwf s hs
    have := dropKeys_length (values.map (·.1)) s.cs hnd (fun k hk => by have := hkeys k hk; omega)
    unfold dropKeys at this
    have hpk : ∀ i, (values.map (·.1)).contains i = values.any (fun iv => iv.1 == i) := by
      intro i
      rw [Bool.eq_iff_iff]
      simp only [List.contains_iff_mem, List.mem_map, List.any_eq_true, beq_iff_eq]
    simp only [hpk] at this
    unfold substRow
    simp only
    rw [this, List.length_map]; omega
  rw [ofRows_ok _ (d - values.length) (by simpa using hrows) hlen]
  refine ⟨_, rfl, ?_, rfl, fun x hx hxv => ?_⟩
  · intro r hr; simp only at hr ⊢; rw [hlen r hr]
  · rw [contains_iff_holds _ _ (by
        simp only
        rw [dropKeys_length _ _ hnd (fun k hk => by have := hkeys k hk; omega), List.length_map]
        omega),
      contains_iff_holds _ _ (by omega)]
    unfold Holds
    simp only [List.mem_map, forall_exists_index, and_imp, forall_apply_eq_imp_iff₂]
    apply forall₂_congr
    intro r hr
    have hrl := hwf r hr
    have := subst_sum r.cs x values (by omega) hnd hxv
    unfold Row.Holds substRow
    simp only
    rw [add_assoc, this]

/-- Non-vacuity of C13: the triangle of the unit tests, `x := ...`; here `y := 1/2`. -/
example : ∃ m', substitute ⟨3, [⟨false, 0, [1, 0]⟩, ⟨false, 0, [0, 1]⟩, ⟨false, 1, [-1, -1]⟩]⟩
      [(1, 1/2)] = .ok m' ∧ m'.Contains [1/2] ∧ ¬ m'.Contains [3/4] ∧
    dropKeys [1] [1/4, 1/2] = [1/4] := by
  refine ⟨_, rfl, ?_, ?_, by decide +kernel⟩ <;> (unfold Contains; decide +kernel)

/-- **C13** A polytope with a constraint does not accept a value for a coordinate that it does not have. -/
theorem C13_substitute_range (m : Mat) (d : Nat) (hd : m.cols = d + 1) (hrows : m.rows ≠ []) (values : List (Nat × ℚ)) (i : Nat) (v : ℚ)
    (hi : d ≤ i) (hiv : (i, v) ∈ values) : m.substitute values = .error .indexError := by
  unfold substitute
  rw [if_pos]
  exact ⟨List.length_pos_iff.mpr hrows, List.any_eq_true.mpr ⟨(i, v), hiv, by simp; omega⟩⟩

example : substitute ⟨2, [⟨false, 0, [1]⟩]⟩ [(0, 1), (1, 1 / 2)] = .error .indexError :=
  C13_substitute_range _ 1 rfl (by simp) _ 1 (1 / 2) (by omega) (by simp)

end Mat
end Expdb
