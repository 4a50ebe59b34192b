import Verif.Model.Polytope
import Verif.Tactics
import Mathlib.Algebra.BigOperators.Group.List.Basic

/-!
# Semantics of rows and matrices, and linear algebra of lists
-/

namespace Expdb

/-! ### Specification: point sets of rows and matrices -/

/-- The point `x` satisfies the (in)equality of the row. -/
def Row.Holds (r : Row) (x : Pt) : Prop :=
  (r.lin = true → r.c0 + dot r.cs x = 0) ∧ (r.lin = false → 0 ≤ r.c0 + dot r.cs x)

/-- The point `x` satisfies the row strictly (an equality is never strict). -/
def Row.Strict (r : Row) (x : Pt) : Prop := r.lin = false ∧ 0 < r.c0 + dot r.cs x

/-- The point set of a matrix. -/
def Mat.Holds (m : Mat) (x : Pt) : Prop := ∀ r ∈ m.rows, r.Holds x

/-- Points satisfying all rows strictly. -/
def Mat.Strict (m : Mat) (x : Pt) : Prop := ∀ r ∈ m.rows, r.Strict x

/-- All rows have the right number of entries. -/
def Mat.WF (m : Mat) : Prop := ∀ r ∈ m.rows, r.cs.length + 1 = m.cols

/-! ### Linear algebra -/

@[simp] theorem dot_nil_left (x : Pt) : dot [] x = 0 := by cases x <;> rfl
@[simp] theorem dot_nil_right (a : List ℚ) : dot a [] = 0 := by cases a <;> rfl
@[simp] theorem dot_cons (a : ℚ) (as : List ℚ) (x : ℚ) (xs : List ℚ) :
    dot (a :: as) (x :: xs) = a * x + dot as xs := rfl

theorem dot_neg (a x : List ℚ) : dot (a.map (fun t => -t)) x = - dot a x := by
  induction a generalizing x with
  | nil => simp
  | cons a as ih => cases x with
    | nil => simp
    | cons x xs => simp only [List.map_cons, dot_cons, ih]; ring

theorem dot_replicate (n : Nat) (x : List ℚ) : dot (List.replicate n 0) x = 0 := by
  induction n generalizing x with
  | zero => simp
  | succ n ih => cases x with
    | nil => simp
    | cons x xs => simp [List.replicate_succ, ih]

theorem dot_zero (a : List ℚ) (h : ∀ c ∈ a, c = 0) (x : List ℚ) : dot a x = 0 := by
  induction a generalizing x with
  | nil => simp
  | cons a as ih => cases x with
    | nil => simp
    | cons x xs =>
      simp [h a (by simp), ih (fun c hc => h c (by simp [hc]))]

theorem dot_unit (n i : Nat) (s : ℚ) (x : List ℚ) (hi : i < n) (hx : x.length = n) :
    dot ((List.replicate n 0).set i s) x = s * x.getD i 0 := by
  induction n generalizing i x with
  | zero => omega
  | succ n ih => cases x with
    | nil => simp at hx
    | cons x xs =>
      cases i with
      | zero => simp [List.replicate_succ, dot_replicate]
      | succ i =>
        simp only [List.replicate_succ, List.set_cons_succ, dot_cons, zero_mul, zero_add,
          List.getD_cons_succ]
        exact ih i xs (by omega) (by simpa using hx)

theorem dot_comm_replicate (a : List ℚ) (n : Nat) : dot a (List.replicate n 0) = 0 := by
  induction a generalizing n with
  | nil => simp
  | cons c a ih => cases n with
    | zero => simp
    | succ n => simp [List.replicate_succ, ih]

theorem dot_append (a b x y : List ℚ) (h : a.length = x.length) :
    dot (a ++ b) (x ++ y) = dot a x + dot b y := by
  induction a generalizing x with
  | nil => cases x with
    | nil => simp
    | cons x xs => simp at h
  | cons a as ih => cases x with
    | nil => simp at h
    | cons x xs =>
      simp only [List.cons_append, dot_cons, ih xs (by simpa using h)]; ring

theorem dot_add (a x y : List ℚ) (h : x.length = y.length) :
    dot a (List.zipWith (· + ·) x y) = dot a x + dot a y := by
  induction a generalizing x y with
  | nil => simp
  | cons a as ih =>
    cases x with
    | nil => cases y with
      | nil => simp
      | cons y ys => simp at h
    | cons x xs => cases y with
      | nil => simp at h
      | cons y ys =>
        simp only [List.zipWith_cons_cons, dot_cons, ih xs ys (by simpa using h)]; ring

theorem dot_smul (a x : List ℚ) (t : ℚ) : dot a (x.map (fun c => t * c)) = t * dot a x := by
  induction a generalizing x with
  | nil => simp
  | cons a as ih => cases x with
    | nil => simp
    | cons x xs => simp only [List.map_cons, dot_cons, ih]; ring

theorem dot_div (a x : List ℚ) (t : ℚ) : dot a (x.map (fun c => c / t)) = dot a x / t := by
  induction a generalizing x with
  | nil => simp
  | cons a as ih => cases x with
    | nil => simp
    | cons x xs => simp only [List.map_cons, dot_cons, ih]; ring

theorem dot_sub_left (a b x : List ℚ) (h : a.length = b.length) :
    dot (List.zipWith (· - ·) a b) x = dot a x - dot b x := by
  induction a generalizing b x with
  | nil => cases b with
    | nil => simp
    | cons b bs => simp at h
  | cons a as ih => cases b with
    | nil => simp at h
    | cons b bs => cases x with
      | nil => simp
      | cons x xs =>
        simp only [List.zipWith_cons_cons, dot_cons, ih bs xs (by simpa using h)]; ring

theorem dot_zipWith_div (a f x : List ℚ) (h1 : a.length = f.length) (h2 : x.length = f.length) :
    dot (List.zipWith (· / ·) a f) x = dot a (List.zipWith (· / ·) x f) := by
  induction a generalizing f x with
  | nil => simp
  | cons a as ih => cases f with
    | nil => simp at h1
    | cons f fs => cases x with
      | nil => simp at h2
      | cons x xs =>
        simp only [List.zipWith_cons_cons, dot_cons]
        rw [ih fs xs (by simpa using h1) (by simpa using h2)]
        ring

theorem dot_modify_div (a x : List ℚ) (i : Nat) (f : ℚ) :
    dot (a.modify i (· / f)) x = dot a (x.modify i (· / f)) := by
  induction a generalizing x i with
  | nil => simp
  | cons a as ih => cases x with
    | nil => simp
    | cons x xs => cases i with
      | zero => simp; ring
      | succ i => simp [ih]

/-! ### Rows -/

theorem Row.satisfies_iff (r : Row) (x : Pt) : r.satisfies x = true ↔ r.Holds x := by
  unfold Row.satisfies Row.Holds Row.val
  cases r.lin <;> simp

theorem Row.negIneq_holds (r : Row) (x : Pt) :
    r.negIneq.Holds x ↔ r.c0 + dot r.cs x ≤ 0 := by
  unfold Row.Holds Row.negIneq
  simp only [Bool.false_eq_true, false_imp_iff, true_and, dot_neg, forall_const]
  constructor <;> intro h <;> linarith

theorem Row.negIneq_strict (r : Row) (x : Pt) :
    r.negIneq.Strict x ↔ r.c0 + dot r.cs x < 0 := by
  unfold Row.Strict Row.negIneq
  simp only [true_and, dot_neg]
  constructor <;> intro h <;> linarith

theorem Row.asIneq_holds (r : Row) (x : Pt) :
    r.asIneq.Holds x ↔ 0 ≤ r.c0 + dot r.cs x := by
  unfold Row.Holds Row.asIneq
  simp

theorem Row.asIneq_strict (r : Row) (x : Pt) :
    r.asIneq.Strict x ↔ 0 < r.c0 + dot r.cs x := by
  unfold Row.Strict Row.asIneq
  simp

theorem Row.Strict.holds {r : Row} {x : Pt} (h : r.Strict x) : r.Holds x :=
  ⟨fun h' => absurd (h.1.symm.trans h') (by simp), fun _ => h.2.le⟩

theorem Row.isZero_iff (r : Row) : r.isZero = true ↔ r.c0 = 0 ∧ ∀ c ∈ r.cs, c = 0 := by
  unfold Row.isZero
  simp

theorem Row.isZero_holds (r : Row) (h : r.isZero = true) (x : Pt) : r.Holds x := by
  rw [Row.isZero_iff] at h
  unfold Row.Holds
  rw [h.1, dot_zero _ h.2]
  simp

/-! ### Matrices -/

namespace Mat

theorem contains_eq (m : Mat) (x : Pt) (hx : x.length + 1 = m.cols) :
    ∃ b, m.contains x = .ok b ∧ (b = true ↔ m.Holds x) := by
  unfold contains
  rw [if_neg (by simpa using hx)]
  refine ⟨_, rfl, ?_⟩
  simp only [List.all_eq_true]
  unfold Holds
  apply forall₂_congr
  intro r _
  unfold Row.Holds Row.val
  cases r.lin <;> simp

theorem contains_error (m : Mat) (x : Pt) (hx : x.length + 1 ≠ m.cols) :
    m.contains x = .error .valueError := by
  unfold contains; rw [if_pos hx]

theorem mem_asList (m : Mat) (b : Bool) (r : Row) : r ∈ m.asList b ↔ r ∈ m.rows ∧ r.lin = b := by
  unfold asList; simp

theorem holds_iff_lists (m : Mat) (x : Pt) :
    m.Holds x ↔ (∀ r ∈ m.asList false, r.Holds x) ∧ (∀ r ∈ m.asList true, r.Holds x) := by
  unfold Holds
  simp only [mem_asList]
  constructor
  · intro h; exact ⟨fun r hr => h r hr.1, fun r hr => h r hr.1⟩
  · rintro ⟨h1, h2⟩ r hr
    cases hl : r.lin
    · exact h1 r ⟨hr, hl⟩
    · exact h2 r ⟨hr, hl⟩

theorem Strict.holds {m : Mat} {x : Pt} (h : m.Strict x) : m.Holds x := fun r hr => (h r hr).holds

theorem holds_append (m : Mat) (rs : List Row) (x : Pt) :
    Holds ⟨m.cols, m.rows ++ rs⟩ x ↔ m.Holds x ∧ ∀ r ∈ rs, r.Holds x := by
  unfold Holds
  simp only [List.mem_append]
  constructor
  · intro h; exact ⟨fun r hr => h r (Or.inl hr), fun r hr => h r (Or.inr hr)⟩
  · rintro ⟨h1, h2⟩ r (hr | hr)
    · exact h1 r hr
    · exact h2 r hr

theorem strict_append (m : Mat) (rs : List Row) (x : Pt) :
    Strict ⟨m.cols, m.rows ++ rs⟩ x ↔ m.Strict x ∧ ∀ r ∈ rs, r.Strict x := by
  unfold Strict
  simp only [List.mem_append]
  constructor
  · intro h; exact ⟨fun r hr => h r (Or.inl hr), fun r hr => h r (Or.inr hr)⟩
  · rintro ⟨h1, h2⟩ r (hr | hr)
    · exact h1 r hr
    · exact h2 r hr

theorem extend_ok (m : Mat) (rs : List Row) (h : ∀ r ∈ rs, r.cs.length + 1 = m.cols) :
    m.extend rs = .ok ⟨m.cols, m.rows ++ rs⟩ := by
  unfold extend
  rw [if_pos (by simpa using h)]

theorem extendIf_ok (m : Mat) (rows : List Row) (h : ∀ r ∈ rows, r.cs.length + 1 = m.cols) :
    m.extendIf rows = .ok ⟨m.cols, m.rows ++ rows⟩ := by
  unfold extendIf
  split
  · exact extend_ok _ _ h
  · rename_i hn
    have : rows = [] := List.length_eq_zero_iff.mp (by omega)
    rw [this, List.append_nil]

theorem ofRows_ok (rows : List Row) (n : Nat) (hne : rows ≠ [])
    (h : ∀ r ∈ rows, r.cs.length = n) : ofRows rows = .ok ⟨n + 1, rows⟩ := by
  cases rows with
  | nil => exact absurd rfl hne
  | cons r rs =>
    unfold ofRows
    have hr : r.cs.length = n := h r (by simp)
    simp only
    rw [if_pos]
    · rw [hr]
    · simp only [List.all_eq_true, decide_eq_true_eq]
      intro s hs
      rw [hr, h s hs]

end Mat

/-! ### Sums over index ranges -/

theorem dot_map_map (L : List Nat) (f g : Nat → ℚ) :
    dot (L.map f) (L.map g) = (L.map (fun i => f i * g i)).sum := by
  induction L with
  | nil => simp
  | cons i L ih => simp [ih]

theorem eq_map_range_getD (a : List ℚ) : a = (List.range a.length).map (fun i => a.getD i 0) := by
  apply List.ext_getElem
  · simp
  · intro i h1 h2
    simp [List.getD_eq_getElem?_getD, h1]

theorem dot_eq_sum_range (a x : List ℚ) (h : a.length = x.length) :
    dot a x = ((List.range a.length).map (fun i => a.getD i 0 * x.getD i 0)).sum := by
  conv_lhs => rw [eq_map_range_getD a, eq_map_range_getD x, ← h]
  rw [dot_map_map]

theorem zipIdx_filter_map (a : List ℚ) (p : Nat → Bool) :
    (a.zipIdx.filter (fun t => p t.2)).map (·.1) =
      ((List.range a.length).filter p).map (fun i => a.getD i 0) := by
  have h : a.zipIdx = (List.range a.length).map (fun i => (a.getD i 0, i)) := by
    apply List.ext_getElem
    · simp
    · intro i h1 h2
      have h3 : i < a.length := by simpa using h1
      simp [List.getD_eq_getElem?_getD, h3]
  rw [h, List.filter_map, List.map_map]
  rfl

theorem sum_filter_add_filter_not (L : List Nat) (p : Nat → Bool) (f : Nat → ℚ) :
    (L.map f).sum = ((L.filter p).map f).sum + ((L.filter (fun i => !p i)).map f).sum := by
  induction L with
  | nil => simp
  | cons i L ih =>
    by_cases h : p i = true
    · simp [h, ih]; ring
    · simp [h, ih]; ring

end Expdb
