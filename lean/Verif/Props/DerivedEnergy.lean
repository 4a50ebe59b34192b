import Verif.Props.DerivedZDCases
import Verif.Props.LiteratureEnergy
import Verif.Props.EnergyRegion
import Verif.Model.DerivedEnergy

/-!
# The regions used in the derivations of zero density energy estimates

All regions are unions of full-dimensional bounded polytopes, and their points are determined.
-/

namespace Expdb
namespace DerivedEnergy

open Rational SupRatio Mat Region ZeroDensity DerivedZD

/-! ### Half spaces in a box -/

/-- Each half space has, strictly inside the box, a point strictly inside it and strictly outside all half spaces before it. -/
def StagG (box pre : List Row) (n : ℕ) : List Row → Prop
  | [] => True
  | r :: rs => (∃ x : Pt, x.length = n ∧ (∀ q ∈ box, q.Strict x) ∧ r.Strict x ∧ ∀ q ∈ pre, q.negIneq.Strict x) ∧
      StagG box (pre ++ [r]) n rs

theorem loop_fullG {canon : Mat → Mat} (hc : CanonSpec canon) (hz : CanonNoZero canon) (box : List Row) (n : ℕ)
    (hbox : ∀ r ∈ box, r.cs.length = n) (hnz : ∃ r ∈ box, r.isZero = false)
    (hbd : ∀ x : Pt, x.length = n → (∀ r ∈ box, r.Holds x) → ∀ c ∈ x, |c| ≤ 1000000) (rows pre : List Row)
    (hr : ∀ r ∈ rows, r.cs.length = n) (hp : ∀ r ∈ pre, r.cs.length = n)
    (h : StagG box pre n rows) : ∃ ms : List Mat, halfplaneLoop (L := ℕ) canon box (pre.map Row.negIneq) rows =
      .ok (ms.map (fun m => .polytope m none)) ∧ ∀ m ∈ ms, FullDim (n + 1) m := by
  induction rows generalizing pre with
  | nil => exact ⟨[], rfl, by simp⟩
  | cons b bs ih =>
    obtain ⟨⟨x, k1, k2, k3, k4⟩, h⟩ := h
    obtain ⟨ms, e1, e2⟩ := ih _ (fun r hr' => hr r (by simp [hr'])) (by
      intro r hr'
      rcases List.mem_append.mp hr' with hr' | hr'
      · exact hp r hr'
      · rw [List.mem_singleton.mp hr']; exact hr b (by simp)) h
    have hlen : ∀ q ∈ box ++ [b] ++ pre.map Row.negIneq, q.cs.length = n := by
      intro q hq
      simp only [List.mem_append, List.mem_singleton, List.mem_map] at hq
      rcases hq with (hq | rfl) | ⟨c, hc', rfl⟩
      · exact hbox q hq
      · exact hr q (by simp)
      · rw [show c.negIneq.cs.length = c.cs.length by simp [Row.negIneq]]; exact hp c hc'
    obtain ⟨r0, hr0, hr0z⟩ := hnz
    obtain ⟨m, h1, h2, h3, h4, h5⟩ := ofConstraints_exact _ n hlen ⟨r0, by simp [hr0], hr0z⟩
    obtain ⟨c1, c2, c3⟩ := hc m h3
    refine ⟨canon m :: ms, ?_, ?_⟩
    · rw [List.map_append] at e1
      simp only [List.map_cons]
      unfold halfplaneLoop
      rw [h1]
      simp only [bind, Except.bind]
      rw [show [b.negIneq] = [b].map Row.negIneq from rfl, e1]
      rfl
    · intro p hp'
      rcases List.mem_cons.mp hp' with rfl | hp'
      · refine ⟨c2, by rw [c1, h2], hz m h3 h4, ⟨1000000, ?_⟩, ⟨x, by rw [k1], ?_⟩⟩
        · intro y hy
          have hl := contains_length hy
          rw [contains_iff_holds _ _ hl, c3 y (by rw [hl, c1]), h5] at hy
          rw [c1, h2] at hl
          exact hbd y (by omega) (fun q hq => hy q (by simp [hq]))
        · rw [interior_congr (n + 1) (m' := ⟨n + 1, box ++ [b] ++ pre.map Row.negIneq⟩) (fun y hy => by
            rw [c3 y (by rw [h2]; exact hy), h5]; rfl) _ (by rw [k1])]
          apply Strict.interior
          intro q hq
          simp only [List.mem_append, List.mem_singleton, List.mem_map] at hq
          rcases hq with (hq | rfl) | ⟨c, hc', rfl⟩
          · exact k2 q hq
          · exact k3
          · exact k4 c hc'
      · exact e2 p hp'

/-! ### Heath-Brown's large value energy region -/

/-- The nine half spaces. -/
def hbRows : List Row := [[2, -2, 0, 1 / 2, -(1 / 2), 0], [3 / 2, -2, 0, 1, -(1 / 2), 0],
    [3 / 2, -2, 1 / 4, 5 / 8, -(1 / 2), 0], [3 / 2, -2, 0, 5 / 2, -1, 0], [1, -2, 0, 3, -1, 0], [1, -2, 1 / 4, 21 / 8, -1, 0],
    [3 / 2, -2, 1 / 4, 1, -(5 / 8), 0], [1, -2, 1 / 4, 3 / 2, -(5 / 8), 0], [1, -2, 1 / 2, 9 / 8, -(5 / 8), 0]].map LargeValues.rowOf

/-- A check of `StagG` with given points. -/
def stagB (box pre : List Row) (n : ℕ) : List Pt → List Row → Bool
  | _, [] => true
  | [], _ :: _ => false
  | x :: xs, r :: rs => x.length == n && box.all (fun q => decide (q.lin = false) && decide (0 < q.c0 + dot q.cs x)) &&
      (decide (r.lin = false) && decide (0 < r.c0 + dot r.cs x)) &&
      pre.all (fun q => decide (q.negIneq.lin = false) && decide (0 < q.negIneq.c0 + dot q.negIneq.cs x)) &&
      stagB box (pre ++ [r]) n xs rs

theorem stagG_of {box : List Row} {n : ℕ} (xs : List Pt) (rs pre : List Row) (h : stagB box pre n xs rs = true) : StagG box pre n rs := by
  induction rs generalizing xs pre with
  | nil => trivial
  | cons r rs ih =>
    match xs with
    | [] => simp [stagB] at h
    | x :: xs =>
      simp only [stagB, Bool.and_eq_true, beq_iff_eq, List.all_eq_true, decide_eq_true_eq] at h
      exact ⟨⟨x, h.1.1.1.1, h.1.1.1.2, h.1.1.2, h.1.2⟩, ih xs _ h.2⟩

theorem hb_stag : StagG LargeValues.energyBox [] 5 hbRows :=
  stagG_of [[11 / 20, 363 / 20, 11 / 5, 2, 1], [4 / 5, 9 / 2, 9 / 5, 3, 1], [4 / 5, 233 / 20, 7 / 10, 4, 1],
    [17 / 20, 37 / 5, 34 / 5, 15, 1], [3 / 4, 56 / 5, 7, 19, 1], [4 / 5, 167 / 10, 21 / 5, 14, 1], [7 / 10, 19 / 10, 4 / 5, 35 / 16, 1],
    [9 / 10, 231 / 20, 29 / 10, 10, 1], [3 / 4, 303 / 20, 51 / 10, 19, 1]] _ _ (by decide +kernel)

theorem energyBox_bounded (x : Pt) (hx : x.length = 5) (h : ∀ r ∈ LargeValues.energyBox, r.Holds x) : ∀ c ∈ x, |c| ≤ 1000000 := by
  match x, hx with
  | [s, t, a, b, c], _ =>
    obtain ⟨⟨h1, h2, h3, h4, h5, h6⟩, h7, h8, h9, h10⟩ := (LargeValues.energyBox_holds s t a b c).mp h
    intro v hv
    simp only [List.mem_cons, List.not_mem_nil, or_false] at hv
    rcases hv with rfl | rfl | rfl | rfl | rfl <;> rw [abs_le] <;> constructor <;> linarith

/-- Heath-Brown's region. -/
theorem hb_full {canon : Mat → Mat} (hc : CanonSpec canon) (hz : CanonNoZero canon) :
    ∃ ms, Literature.lverHB2a (L := ℕ) canon = .ok (unionOf ms) ∧ (∀ m ∈ ms, FullDim 6 m) ∧
      ∀ s t a b c, (unionOf ms).Mem [s, t, a, b, c] ↔ LargeValues.InEnergyBox s t a b c ∧ Literature.HBRelation s t a b := by
  obtain ⟨ms, h1, h2⟩ := loop_fullG hc hz LargeValues.energyBox 5 (by decide +kernel)
    ⟨_, List.mem_of_getElem? (i := 0) (by rfl), by decide +kernel⟩ energyBox_bounded hbRows [] (by decide +kernel) (by simp) hb_stag
  obtain ⟨r, h3, h4⟩ := Literature.C73_hb2a (L := ℕ) canon hc
  have e : r = unionOf ms := by
    unfold Literature.lverHB2a fromHalfplanes at h3
    rw [List.map_nil] at h1
    unfold hbRows at h1
    rw [h1] at h3
    exact (Except.ok.inj h3).symm
  subst e
  refine ⟨ms, h3, h2, fun s t a b c => ?_⟩
  refine Iff.trans ?_ (h4 s t a b c)
  rw [contains_iff_mem]
  · rw [allMat_iff_leaves, unionOf_leaves]
    intro m hm
    rw [(h2 m hm).cols]
    rfl

/-! ### Lifting and raising to powers -/

/-- Lifting keeps interior points. -/
theorem lift_full {m : Mat} (h : FullDim 4 m) : ∃ m', m.lift [.dim 0, .dim 1, .dim 2, .range 0 1000000, .range 0 1000000] = .ok m' ∧
    FullDim 6 m' ∧ ∀ s t a b c, m'.Contains [s, t, a, b, c] ↔ m.Contains [s, t, a] ∧ (0 ≤ b ∧ b ≤ 1000000) ∧ (0 ≤ c ∧ c ≤ 1000000) := by
  obtain ⟨m', h1, h2, h3, h4⟩ := C12_lift_partial m h.wf 3 h.cols
    [.dim 0, .dim 1, .dim 2, .range 0 1000000, .range 0 1000000] (by decide) (.inr ⟨0, 1000000, by simp⟩)
  have key : ∀ s t a b c, m'.Contains [s, t, a, b, c] ↔ m.Contains [s, t, a] ∧ (0 ≤ b ∧ b ≤ 1000000) ∧ (0 ≤ c ∧ c ≤ 1000000) := by
    intro s t a b c
    rw [h4 [s, t, a, b, c] [s, t, a] rfl rfl (by
      intro j i hj
      match j with
      | 0 => simp at hj; subst hj; rfl
      | 1 => simp at hj; subst hj; rfl
      | 2 => simp at hj; subst hj; rfl
      | 3 | 4 => simp at hj
      | j + 5 => simp at hj)]
    constructor
    · rintro ⟨k1, k2⟩
      obtain ⟨b', e2, b1⟩ := k2 3 0 1000000 rfl
      obtain ⟨c', e3, c1⟩ := k2 4 0 1000000 rfl
      simp at e2 e3
      subst e2 e3
      exact ⟨k1, b1, c1⟩
    · rintro ⟨k1, k3, k4⟩
      refine ⟨k1, fun j lo hi hj => ?_⟩
      match j with
      | 0 | 1 | 2 => simp at hj
      | 3 => simp at hj; obtain ⟨rfl, rfl⟩ := hj; exact ⟨b, rfl, k3⟩
      | 4 => simp at hj; obtain ⟨rfl, rfl⟩ := hj; exact ⟨c, rfl, k4⟩
      | j + 5 => simp at hj
  refine ⟨m', h1, ⟨h2, h3, ?_, ?_, ?_⟩, key⟩
  · intro r hr
    rcases lift_rows h1 r hr with ⟨r', hr', rfl⟩ | hr
    · have hl := h.wf r' hr'
      rw [h.cols] at hl
      have hz := h.noZero r' hr'
      obtain ⟨lin, c0, cs⟩ := r'
      match cs, hl with
      | [u, v, w], _ =>
        unfold Row.isZero at hz ⊢
        simp [liftRow, liftCoef] at hz ⊢
        exact hz
    · simp [liftRanges, List.zipIdx, rangeRows, unitRow, List.replicate] at hr
      rcases hr with rfl | rfl | rfl | rfl <;> simp [Row.isZero]
  · obtain ⟨B, hB⟩ := h.bounded
    refine ⟨max B 1000000, fun x hx v hv => ?_⟩
    have hl := contains_length hx
    rw [h3] at hl
    match x, hl with
    | [s, t, a, b, c], _ =>
      obtain ⟨k1, k3, k4⟩ := (key s t a b c).mp hx
      have bd : ∀ w : ℚ, 0 ≤ w ∧ w ≤ 1000000 → |w| ≤ max B 1000000 := fun w hw => by
        rw [abs_of_nonneg hw.1]; exact hw.2.trans (le_max_right _ _)
      simp only [List.mem_cons, List.not_mem_nil, or_false] at hv
      rcases hv with rfl | rfl | rfl | rfl | rfl
      · exact (hB _ k1 _ (by simp)).trans (le_max_left _ _)
      · exact (hB _ k1 _ (by simp)).trans (le_max_left _ _)
      · exact (hB _ k1 _ (by simp)).trans (le_max_left _ _)
      · exact bd _ k3
      · exact bd _ k4
  · obtain ⟨p, hp, ε, hε, hi⟩ := h.inner
    match p, hp with
    | [s, t, a], _ =>
      refine ⟨[s, t, a, 1, 1], rfl, min ε 1, lt_min hε one_pos, ?_⟩
      intro y hy
      match y, hy with
      | [s', t', a', b, c], .cons h1 (.cons h2 (.cons h3 (.cons h4 (.cons h5 .nil)))) =>
        have hy' : Near ε [s, t, a] [s', t', a'] :=
          .cons (h1.trans_le (min_le_left _ _)) (.cons (h2.trans_le (min_le_left _ _)) (.cons (h3.trans_le (min_le_left _ _)) .nil))
        have bd : ∀ w : ℚ, |w - 1| < min ε 1 → 0 ≤ w ∧ w ≤ 1000000 := by
          intro w hw
          have := abs_lt.mp (hw.trans_le (min_le_right _ _))
          exact ⟨by linarith [this.1], by linarith [this.2]⟩
        have hc' : m'.Contains [s', t', a', b, c] := (key _ _ _ _ _).mpr
          ⟨(contains_iff_holds _ _ (by rw [h.cols]; rfl)).mpr (hi _ hy'), bd _ h4, bd _ h5⟩
        exact (contains_iff_holds _ _ (contains_length hc')).mp hc'

/-- Scaling keeps interior points. -/
theorem scale_full6 {m : Mat} (h : FullDim 6 m) (k : ℚ) (hk : 0 < k) : ∃ m', m.scaleAll [1, k, k, k, k] = .ok m' ∧ FullDim 6 m' ∧
    ∀ s t a b c, m'.Contains [s, t, a, b, c] ↔ m.Contains [s, t / k, a / k, b / k, c / k] := by
  have hnz : ∀ f ∈ [1, k, k, k, k], f ≠ 0 := by
    intro f hf
    simp only [List.mem_cons, List.not_mem_nil, or_false] at hf
    rcases hf with rfl | rfl | rfl | rfl | rfl
    · norm_num
    all_goals exact hk.ne'
  have hrows : m.rows ≠ [] := by
    intro he
    obtain ⟨B, hB⟩ := h.bounded
    have := hB [|B| + 1, 0, 0, 0, 0] ((contains_iff_holds _ _ (by rw [h.cols]; rfl)).mpr (by intro r hr; rw [he] at hr; simp at hr))
      (|B| + 1) (by simp)
    rw [abs_of_nonneg (by positivity)] at this
    linarith [le_abs_self B]
  obtain ⟨m', h1, h2, h3, h4⟩ := C11_scaleAll_exact m h.wf [1, k, k, k, k] (by rw [h.cols]; rfl) hnz hrows
  have h5 : ∀ s t a b c, m'.Contains [s, t, a, b, c] ↔ m.Contains [s, t / k, a / k, b / k, c / k] := by
    intro s t a b c
    rw [h4 [s, t, a, b, c] rfl]
    simp
  refine ⟨m', h1, ⟨h2, by rw [h3, h.cols], ?_, ?_, ?_⟩, h5⟩
  · unfold Mat.scaleAll at h1
    rw [if_neg (by simp [h.cols]), if_neg (by rintro ⟨_, h⟩; exact hnz 0 h rfl),
      if_neg (by rw [List.length_eq_zero_iff]; exact hrows)] at h1
    rw [← Except.ok.inj h1]
    intro r hr
    simp only [List.mem_map, List.mem_append, mem_asList] at hr
    obtain ⟨q, hq, rfl⟩ := hr
    have hq : q ∈ m.rows := by rcases hq with h | h <;> exact h.1
    have hl := h.wf q hq
    have hz := h.noZero q hq
    rw [h.cols] at hl
    obtain ⟨b, c0, cs⟩ := q
    match cs, hl with
    | [u, v, w, x, y], _ =>
      simp only [Row.isZero, scaleRow, Bool.and_eq_false_iff, decide_eq_false_iff_not, List.all_eq_false, List.mem_cons,
        List.not_mem_nil, or_false, decide_eq_true_eq, List.zipWith_cons_cons, List.zipWith_nil_right] at hz ⊢
      rcases hz with hz | ⟨z, hx, hz⟩
      · exact .inl hz
      · right
        rcases hx with rfl | rfl | rfl | rfl | rfl
        · exact ⟨z / 1, by simp, by simpa using hz⟩
        all_goals exact ⟨z / k, by simp, by simp [hz, hk.ne']⟩
  · obtain ⟨B, hB⟩ := h.bounded
    refine ⟨|B| * (1 + k), fun x hx c hc => ?_⟩
    have hl := contains_length hx
    rw [h3, h.cols] at hl
    match x, hl with
    | [s, t, a, b, c'], _ =>
      have h6 := hB _ ((h5 s t a b c').mp hx)
      have hle := le_abs_self B
      have hab := abs_nonneg B
      simp only [List.mem_cons, List.not_mem_nil, or_false, forall_eq_or_imp, forall_eq] at h6 hc
      obtain ⟨i1, i2, i3, i4, i5⟩ := h6
      rw [abs_div, abs_of_pos hk, div_le_iff₀ hk] at i2 i3 i4 i5
      rcases hc with rfl | rfl | rfl | rfl | rfl <;> nlinarith
  · obtain ⟨x, hx, ε, e1, e2⟩ := h.inner
    match x, hx with
    | [s, t, a, b, c], _ =>
      refine ⟨[s, t * k, a * k, b * k, c * k], rfl, min ε (ε * k), lt_min e1 (mul_pos e1 hk), fun y hy => ?_⟩
      rw [← contains_iff_holds _ _ (by rw [hy.length, h3, h.cols]; rfl)]
      obtain _ | ⟨n1, hy⟩ := hy
      obtain _ | ⟨n2, hy⟩ := hy
      obtain _ | ⟨n3, hy⟩ := hy
      obtain _ | ⟨n4, hy⟩ := hy
      obtain _ | ⟨n5, hy⟩ := hy
      cases hy
      rw [h5, contains_iff_holds _ _ (by rw [h.cols]; rfl)]
      apply e2
      have hdiv : ∀ p q : ℚ, |q - p * k| < min ε (ε * k) → |q / k - p| < ε := by
        intro p q hpq
        have : q / k - p = (q - p * k) / k := by field_simp
        rw [this, abs_div, abs_of_pos hk, div_lt_iff₀ hk]
        exact hpq.trans_le (min_le_right _ _)
      exact .cons (n1.trans_le (min_le_left _ _)) (.cons (hdiv _ _ n2) (.cons (hdiv _ _ n3) (.cons (hdiv _ _ n4) (.cons (hdiv _ _ n5) .nil))))

/-- The region `R` is a union of full-dimensional polytopes, with the points described by `P`. -/
def Made (P : ℚ → ℚ → ℚ → ℚ → ℚ → Prop) (R : Region ℕ) : Prop :=
  (∃ ms, R = unionOf ms ∧ ∀ m ∈ ms, FullDim 6 m) ∧ ∀ s t a b c, R.Mem [s, t, a, b, c] ↔ P s t a b c

/-- Applying the same operation to all polytopes of a union. -/
theorem mapMat_union {f : Mat → Py Mat} {n : ℕ} (ms : List Mat) (h : ∀ m ∈ ms, ∃ m', f m = .ok m' ∧ FullDim n m') :
    ∃ ms' : List Mat, mapMat (L := ℕ) f (unionOf ms) = .ok (unionOf ms') ∧ (∀ m' ∈ ms', FullDim n m') ∧
      List.Forall₂ (fun m m' => f m = .ok m') ms ms' := by
  have key : ∃ ms' : List Mat, mapMatList (L := ℕ) f (ms.map (fun m => .polytope m none)) = .ok (ms'.map (fun m => .polytope m none)) ∧
      (∀ m' ∈ ms', FullDim n m') ∧ List.Forall₂ (fun m m' => f m = .ok m') ms ms' := by
    induction ms with
    | nil => exact ⟨[], rfl, by simp, .nil⟩
    | cons m ms ih =>
      obtain ⟨ms', h1, h2, h3⟩ := ih (fun m hm => h m (by simp [hm]))
      obtain ⟨m', h4, h5⟩ := h m (by simp)
      refine ⟨m' :: ms', ?_, ?_, .cons h4 h3⟩
      · simp only [List.map_cons]
        unfold mapMatList mapMat
        rw [h4, h1]
        rfl
      · intro p hp
        rcases List.mem_cons.mp hp with rfl | hp
        · exact h5
        · exact h2 p hp
  obtain ⟨ms', h1, h2, h3⟩ := key
  refine ⟨ms', ?_, h2, h3⟩
  unfold unionOf mapMat
  rw [h1]
  rfl

theorem forall₂_exists {α β : Type} {R : α → β → Prop} {p : α → Prop} {q : β → Prop} {as : List α} {bs : List β} (h : List.Forall₂ R as bs)
    (hpq : ∀ a b, R a b → (q b ↔ p a)) : (∃ b ∈ bs, q b) ↔ ∃ a ∈ as, p a := by
  induction h with
  | nil => simp
  | cons hab _ ih => simp only [List.mem_cons, exists_eq_or_imp, ih, hpq _ _ hab]

theorem liftList_union (vars : List LiftVar) (ms ms' : List Mat) (h : List.Forall₂ (fun m m' => m.lift vars = .ok m') ms ms') :
    liftList vars (ms.map (fun m => (.polytope m none : Region ℕ))) = .ok (ms'.map (fun m => .polytope m none)) := by
  induction h with
  | nil => simp [liftList]
  | cons hab _ ih =>
    simp only [List.map_cons]
    unfold liftList
    rw [ih]
    unfold Region.lift
    rw [hab]
    rfl

/-- What a tuple obeys: Heath-Brown's relation, or the maximum of a list of bounds. -/
def Obeys : Option (List (ℚ × ℚ × ℚ)) → ℚ → ℚ → ℚ → ℚ → Prop
  | none, s, t, a, b => Literature.HBRelation s t a b
  | some bs, s, t, a, _ => ∃ q ∈ bs, a ≤ bval q s t

/-- The region `R` is the `k`-th power of the region of `o`. -/
def MadeBy (o : Option (List (ℚ × ℚ × ℚ))) (k : ℚ) (R : Region ℕ) : Prop :=
  Made (fun s t a b c => LargeValues.InEnergyBox s (t / k) (a / k) (b / k) (c / k) ∧ Obeys o s (t / k) (a / k) (b / k)) R

theorem made_hb {canon : Mat → Mat} (hc : CanonSpec canon) (hz : CanonNoZero canon) :
    ∃ R, Literature.lverHB2a (L := ℕ) canon = .ok R ∧ MadeBy none 1 R := by
  obtain ⟨ms, h1, h2, h3⟩ := hb_full hc hz
  refine ⟨_, h1, ⟨ms, rfl, h2⟩, fun s t a b c => ?_⟩
  simp only [div_one]
  exact h3 s t a b c

theorem made_lift {bs : List (ℚ × ℚ × ℚ)} {R : Region ℕ} (h : Realises bs 1 R) : ∃ R', LargeValues.lvToLver R = .ok R' ∧ MadeBy (some bs) 1 R' := by
  obtain ⟨⟨ms, rfl, h1⟩, h2⟩ := h
  have key : ∃ ms' : List Mat, List.Forall₂ (fun m m' => m.lift [.dim 0, .dim 1, .dim 2, .range 0 1000000, .range 0 1000000] = .ok m') ms ms' ∧
      ∀ m' ∈ ms', FullDim 6 m' := by
    clear h2
    induction ms with
    | nil => exact ⟨[], .nil, by simp⟩
    | cons m ms ih =>
      obtain ⟨ms', k1, k2⟩ := ih (fun m hm => h1 m (by simp [hm]))
      obtain ⟨m', k3, k4, _⟩ := lift_full (h1 m (by simp))
      refine ⟨m' :: ms', .cons k3 k1, ?_⟩
      intro p hp
      rcases List.mem_cons.mp hp with rfl | hp
      · exact k4
      · exact k2 p hp
  obtain ⟨ms', k1, k2⟩ := key
  refine ⟨unionOf ms', ?_, ⟨ms', rfl, k2⟩, fun s t a b c => ?_⟩
  · unfold LargeValues.lvToLver LargeValues.lvLimit unionOf Region.lift
    rw [liftList_union _ _ _ k1]
    rfl
  · rw [unionOf_mem]
    have hm : ∀ m ∈ ms, ∀ m', m.lift [.dim 0, .dim 1, .dim 2, .range 0 1000000, .range 0 1000000] = .ok m' →
        (m'.Contains [s, t, a, b, c] ↔ m.Contains [s, t, a] ∧ (0 ≤ b ∧ b ≤ 1000000) ∧ (0 ≤ c ∧ c ≤ 1000000)) := by
      intro m hm m' he
      obtain ⟨m'', e1, _, e3⟩ := lift_full (h1 m hm)
      rw [e1] at he
      rw [← Except.ok.inj he]
      exact e3 s t a b c
    have hx : (∃ m' ∈ ms', m'.Contains [s, t, a, b, c]) ↔
        ∃ m ∈ ms, m.Contains [s, t, a] ∧ (0 ≤ b ∧ b ≤ 1000000) ∧ (0 ≤ c ∧ c ≤ 1000000) := by
      clear h1 h2 k2
      induction k1 with
      | nil => simp
      | cons hab _ ih =>
        simp only [List.mem_cons, exists_eq_or_imp]
        rw [ih (fun m hm' => hm m (by simp [hm'])), hm _ (by simp) _ hab]
    rw [hx]
    have h3 := h2 s t a
    rw [unionOf_mem, div_one, div_one] at h3
    simp only [div_one]
    constructor
    · rintro ⟨m, hm', k3, k4, k5⟩
      obtain ⟨i1, i2⟩ := h3.mp ⟨m, hm', k3⟩
      exact ⟨⟨i1, k4.1, k4.2, k5⟩, i2⟩
    · rintro ⟨⟨i1, i2, i3, i4⟩, i5⟩
      obtain ⟨m, hm', k3⟩ := h3.mpr ⟨i1, i5⟩
      exact ⟨m, hm', k3, ⟨i2, i3⟩, i4⟩

theorem made_raise {o : Option (List (ℚ × ℚ × ℚ))} {R : Region ℕ} (h : MadeBy o 1 R) (k : ℚ) (hk : 0 < k) :
    ∃ R', LargeValues.raiseToPowerEnergy k R = .ok R' ∧ MadeBy o k R' := by
  obtain ⟨⟨ms, rfl, h1⟩, h2⟩ := h
  obtain ⟨ms', k1, k2, k3⟩ := mapMat_union (f := fun m => m.scaleAll [1, k, k, k, k]) (n := 6) ms (by
    intro m hm
    obtain ⟨m', e1, e2, _⟩ := scale_full6 (h1 m hm) k hk
    exact ⟨m', e1, e2⟩)
  refine ⟨unionOf ms', k1, ⟨ms', rfl, k2⟩, fun s t a b c => ?_⟩
  have h3 := h2 s (t / k) (a / k) (b / k) (c / k)
  simp only [div_one] at h3
  refine Iff.trans ?_ h3
  rw [unionOf_mem, unionOf_mem]
  clear h2 h3 k1 k2
  induction k3 with
  | nil => simp
  | @cons m m' _ _ hab _ ih =>
    simp only [List.mem_cons, exists_eq_or_imp]
    rw [ih (fun m hm' => h1 m (by simp [hm']))]
    obtain ⟨m'', e1, _, e3⟩ := scale_full6 (h1 m (by simp)) k hk
    have hab := hab
    rw [e1] at hab
    rw [← Except.ok.inj hab, e3]

/-! ### All regions of a derivation -/

/-- The regions `rs` are those of the estimates with powers in `B`, in some order. -/
def CoversE (rs : List (Region ℕ)) (B : List (Option (List (ℚ × ℚ × ℚ)) × ℚ)) : Prop :=
  (∀ R ∈ rs, ∃ p ∈ B, MadeBy p.1 p.2 R) ∧ ∀ p ∈ B, ∃ R ∈ rs, MadeBy p.1 p.2 R

theorem CoversE.append {rs1 rs2 : List (Region ℕ)} {B1 B2 : List (Option (List (ℚ × ℚ × ℚ)) × ℚ)} (h1 : CoversE rs1 B1)
    (h2 : CoversE rs2 B2) : CoversE (rs1 ++ rs2) (B1 ++ B2) := by
  constructor
  · intro R hR
    rcases List.mem_append.mp hR with hR | hR
    · obtain ⟨p, hp, h⟩ := h1.1 R hR; exact ⟨p, by simp [hp], h⟩
    · obtain ⟨p, hp, h⟩ := h2.1 R hR; exact ⟨p, by simp [hp], h⟩
  · intro p hp
    rcases List.mem_append.mp hp with hp | hp
    · obtain ⟨R, hR, h⟩ := h1.2 p hp; exact ⟨R, by simp [hR], h⟩
    · obtain ⟨R, hR, h⟩ := h2.2 p hp; exact ⟨R, by simp [hR], h⟩

theorem CoversE.perm {rs rs' : List (Region ℕ)} {B : List (Option (List (ℚ × ℚ × ℚ)) × ℚ)} (h : CoversE rs B) (hp : rs'.Perm rs) :
    CoversE rs' B :=
  ⟨fun R hR => h.1 R (hp.mem_iff.mp hR), fun p hB => by
    obtain ⟨R, hR, k⟩ := h.2 p hB
    exact ⟨R, hp.mem_iff.mpr hR, k⟩⟩

/-- What the transforms give. -/
theorem coversE_transforms {rs : List (Region ℕ)} {OB : List (Option (List (ℚ × ℚ × ℚ)))} (h : CoversE rs (OB.map (fun o => (o, 1))))
    (ks : List ℚ) (hk : ∀ k ∈ ks, 0 < k) : ∃ tl, LargeValues.applyTransforms rs (ks.map LargeValues.raiseToPowerEnergy) = .ok tl ∧
      CoversE tl (ks.flatMap (fun k => OB.map (fun o => (o, k)))) := by
  induction ks with
  | nil => exact ⟨[], rfl, by simp, by simp⟩
  | cons k ks ih =>
    obtain ⟨tl, h1, h2⟩ := ih (fun q hq => hk q (by simp [hq]))
    obtain ⟨rs', h3, h4⟩ := LargeValues.applyAll_ok (LargeValues.raiseToPowerEnergy k) (fun R R' => ∀ o, MadeBy o 1 R → MadeBy o k R')
      rs (by
        intro R hR
        obtain ⟨p, hp, hr⟩ := h.1 R hR
        obtain ⟨o, _, rfl⟩ := List.mem_map.mp hp
        obtain ⟨R', e1, _⟩ := made_raise hr k (hk k (by simp))
        refine ⟨R', e1, fun o' hr' => ?_⟩
        obtain ⟨R'', e3, e4⟩ := made_raise hr' k (hk k (by simp))
        rw [e1] at e3
        rw [Except.ok.inj e3]
        exact e4)
    refine ⟨rs' ++ tl, ?_, ?_⟩
    · simp only [List.map_cons]
      unfold LargeValues.applyTransforms
      rw [h3, h1]
      rfl
    · rw [List.flatMap_cons]
      refine CoversE.append ⟨?_, ?_⟩ h2
      · intro R' hR'
        obtain ⟨R, hR, hrel⟩ : ∃ R ∈ rs, ∀ o, MadeBy o 1 R → MadeBy o k R' := by
          clear h1 h2 h3 h ih
          induction h4 with
          | nil => simp at hR'
          | cons hab hrest ih' =>
            rcases List.mem_cons.mp hR' with rfl | hR'
            · exact ⟨_, by simp, hab⟩
            · obtain ⟨R, e1, e2⟩ := ih' hR'
              exact ⟨R, by simp [e1], e2⟩
        obtain ⟨p, hp, hr⟩ := h.1 R hR
        obtain ⟨o, ho, rfl⟩ := List.mem_map.mp hp
        exact ⟨(o, k), List.mem_map.mpr ⟨o, ho, rfl⟩, hrel o hr⟩
      · intro p hp
        obtain ⟨o, ho, rfl⟩ := List.mem_map.mp hp
        obtain ⟨R, hR, hr⟩ := h.2 (o, 1) (List.mem_map.mpr ⟨o, ho, rfl⟩)
        obtain ⟨R', hR', hrel⟩ : ∃ R' ∈ rs', ∀ o, MadeBy o 1 R → MadeBy o k R' := by
          clear h1 h2 h3 h ih
          induction h4 with
          | nil => simp at hR
          | cons hab hrest ih' =>
            rcases List.mem_cons.mp hR with rfl | hR
            · exact ⟨_, by simp, hab⟩
            · obtain ⟨R', e1, e2⟩ := ih' hR
              exact ⟨R', by simp [e1], e2⟩
        exact ⟨R', hR', hrel o hr⟩

/-- Large value estimates are converted into regions as required. -/
theorem convertAll_ok {canon : Mat → Mat} (hc : CanonSpec canon) (hz : CanonNoZero canon) (LB : List (List (ℚ × ℚ × ℚ)))
    (h : ∀ bs ∈ LB, bs ≠ [] ∧ Staggered [] bs) :
    ∃ rs, convertAll canon (LB.map (fun bs => bs.map (fun b => [b.1, b.2.1, b.2.2]))) = .ok rs ∧ Covers rs (LB.map (fun bs => (bs, 1))) := by
  induction LB with
  | nil => exact ⟨[], rfl, by simp, by simp⟩
  | cons bs LB ih =>
    obtain ⟨rs, h1, h2⟩ := ih (fun b hb => h b (by simp [hb]))
    obtain ⟨k1, k2⟩ := h bs (by simp)
    obtain ⟨ms, e1, _, _⟩ := DerivedZD.convert_full hc hz bs k1 k2
    have hr := realises_convert hc hz bs k1 k2 e1
    refine ⟨unionOf ms :: rs, ?_, ?_⟩
    · simp only [List.map_cons]
      unfold convertAll
      rw [e1, h1]
      rfl
    · have : Covers [unionOf ms] [(bs, 1)] := ⟨by simpa using hr, by simpa using hr⟩
      exact this.append h2

theorem lverAll_ok (rs : List (Region ℕ)) (LB : List (List (ℚ × ℚ × ℚ))) (h : Covers rs (LB.map (fun bs => (bs, 1)))) :
    ∃ as, lverAll rs = .ok as ∧ CoversE as (LB.map (fun bs => (some bs, 1))) := by
  have key : ∀ rs : List (Region ℕ), (∀ R ∈ rs, ∃ bs ∈ LB, Realises bs 1 R) → ∃ as, lverAll rs = .ok as ∧
      (∀ A ∈ as, ∃ bs ∈ LB, MadeBy (some bs) 1 A) ∧ ∀ R ∈ rs, ∃ A ∈ as, ∀ bs, Realises bs 1 R → MadeBy (some bs) 1 A := by
    intro rs
    induction rs with
    | nil => exact fun _ => ⟨[], rfl, by simp, by simp⟩
    | cons R rs ih =>
      intro hR
      obtain ⟨as, h1, h2, h3⟩ := ih (fun R hR' => hR R (by simp [hR']))
      obtain ⟨bs, hbs, hr⟩ := hR R (by simp)
      obtain ⟨A, e1, e2⟩ := made_lift hr
      refine ⟨A :: as, ?_, ?_, ?_⟩
      · unfold lverAll
        rw [e1, h1]
        rfl
      · intro B hB
        rcases List.mem_cons.mp hB with rfl | hB
        · exact ⟨bs, hbs, e2⟩
        · exact h2 B hB
      · intro R' hR'
        rcases List.mem_cons.mp hR' with rfl | hR'
        · refine ⟨A, by simp, fun bs' hr' => ?_⟩
          obtain ⟨A', e3, e4⟩ := made_lift hr'
          rw [e1] at e3
          rw [Except.ok.inj e3]
          exact e4
        · obtain ⟨A', k1, k2⟩ := h3 R' hR'
          exact ⟨A', by simp [k1], k2⟩
  obtain ⟨as, h1, h2, h3⟩ := key rs (fun R hR => by
    obtain ⟨p, hp, hr⟩ := h.1 R hR
    obtain ⟨bs, hbs, rfl⟩ := List.mem_map.mp hp
    exact ⟨bs, hbs, hr⟩)
  refine ⟨as, h1, fun A hA => ?_, fun p hp => ?_⟩
  · obtain ⟨bs, hbs, hm⟩ := h2 A hA
    exact ⟨_, List.mem_map.mpr ⟨bs, hbs, rfl⟩, hm⟩
  · obtain ⟨bs, hbs, rfl⟩ := List.mem_map.mp hp
    obtain ⟨R, hR, hr⟩ := h.2 _ (List.mem_map.mpr ⟨bs, hbs, rfl⟩)
    obtain ⟨A, hA, hm⟩ := h3 R hR
    exact ⟨A, hA, hm bs hr⟩

end DerivedEnergy
end Expdb
