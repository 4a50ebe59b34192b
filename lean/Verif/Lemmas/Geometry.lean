import Verif.Lemmas.Polytope

/-!
# Elementary geometry of finite systems of linear inequalities over ℚ

Neighbourhoods are coordinatewise boxes.  Everything is proved from scratch for lists of rationals.
-/

namespace Expdb

/-- `y` has the same dimension as `x` and every coordinate differs by less than `ε`. -/
def Near (ε : ℚ) (x y : Pt) : Prop := List.Forall₂ (fun a b => |b - a| < ε) x y

theorem Near.length {ε : ℚ} {x y : Pt} (h : Near ε x y) : y.length = x.length :=
  (List.Forall₂.length_eq h).symm

theorem Near.refl {ε : ℚ} (hε : 0 < ε) (x : Pt) : Near ε x x := by
  unfold Near
  induction x with
  | nil => exact .nil
  | cons a x ih => exact .cons (by simpa using hε) ih

theorem Near.mono {ε δ : ℚ} {x y : Pt} (h : Near ε x y) (hle : ε ≤ δ) : Near δ x y :=
  List.Forall₂.imp (fun _ _ h => lt_of_lt_of_le h hle) h

theorem Near.trans {ε δ : ℚ} {x y z : Pt} (h1 : Near ε x y) (h2 : Near δ y z) :
    Near (ε + δ) x z := by
  unfold Near at *
  induction h1 generalizing z with
  | nil => cases h2; exact .nil
  | cons hab _ ih =>
    cases h2 with
    | cons hbc h2 =>
      refine .cons ?_ (ih h2)
      rename_i a b _ _ _ c _
      have : c - a = (c - b) + (b - a) := by ring
      rw [this]
      exact lt_of_le_of_lt (abs_add_le _ _) (by linarith)

theorem near_dot (a : List ℚ) {ε : ℚ} {x y : Pt} (h : Near ε x y) :
    |dot a y - dot a x| ≤ (a.map (fun c => |c|)).sum * ε ∨ x = [] := by
  unfold Near at h
  induction h generalizing a with
  | nil => right; rfl
  | cons hab hr ih =>
    left
    rename_i u v xs ys
    cases a with
    | nil => simp
    | cons c a =>
      have hε : 0 ≤ ε := le_trans (abs_nonneg _) hab.le
      have h1 : |dot a ys - dot a xs| ≤ (a.map (fun c => |c|)).sum * ε := by
        rcases ih a with h | h
        · exact h
        · subst h
          cases hr
          simp only [dot_nil_right, sub_self, abs_zero]
          apply mul_nonneg _ hε
          apply List.sum_nonneg
          intro t ht
          obtain ⟨s, _, rfl⟩ := List.mem_map.mp ht
          exact abs_nonneg _
      simp only [dot_cons, List.map_cons, List.sum_cons]
      have e : c * v + dot a ys - (c * u + dot a xs) = c * (v - u) + (dot a ys - dot a xs) := by ring
      rw [e, add_mul]
      refine le_trans (abs_add_le _ _) (add_le_add ?_ h1)
      rw [abs_mul]
      exact mul_le_mul_of_nonneg_left hab.le (abs_nonneg _)

theorem abs_sum_nonneg (a : List ℚ) : 0 ≤ (a.map (fun c => |c|)).sum := by
  apply List.sum_nonneg
  intro t ht
  obtain ⟨s, _, rfl⟩ := List.mem_map.mp ht
  exact abs_nonneg _

/-- Positivity of an affine functional is an open condition. -/
theorem pos_near (c : ℚ) (a : List ℚ) (x : Pt) (h : 0 < c + dot a x) :
    ∃ ε, 0 < ε ∧ ∀ y, Near ε x y → 0 < c + dot a y := by
  have hs := abs_sum_nonneg a
  set S := (a.map (fun c => |c|)).sum with hS
  refine ⟨(c + dot a x) / (S + 1), by positivity, fun y hy => ?_⟩
  rcases near_dot a hy with h1 | h1
  · rw [← hS] at h1
    have h2 : S * ((c + dot a x) / (S + 1)) < c + dot a x := by
      rw [mul_div_assoc', div_lt_iff₀ (by linarith)]
      nlinarith
    have := (abs_le.mp h1).1
    linarith
  · subst h1
    have := hy.length
    simp at this
    subst this
    simpa using h

theorem neg_near (c : ℚ) (a : List ℚ) (x : Pt) (h : c + dot a x < 0) :
    ∃ ε, 0 < ε ∧ ∀ y, Near ε x y → c + dot a y < 0 := by
  obtain ⟨ε, h1, h2⟩ := pos_near (-c) (a.map (fun t => -t)) x (by rw [dot_neg]; linarith)
  refine ⟨ε, h1, fun y hy => ?_⟩
  have := h2 y hy
  rw [dot_neg] at this; linarith

theorem ne_near (c : ℚ) (a : List ℚ) (x : Pt) (h : c + dot a x ≠ 0) :
    ∃ ε, 0 < ε ∧ ∀ y, Near ε x y → c + dot a y ≠ 0 := by
  rcases lt_or_gt_of_ne h with h | h
  · obtain ⟨ε, h1, h2⟩ := neg_near c a x h
    exact ⟨ε, h1, fun y hy => (h2 y hy).ne⟩
  · obtain ⟨ε, h1, h2⟩ := pos_near c a x h
    exact ⟨ε, h1, fun y hy => (h2 y hy).ne'⟩

/-- Finitely many open conditions hold together in a neighbourhood. -/
theorem near_all {α : Type} (P : α → Pt → Prop) (x : Pt) (L : List α)
    (h : ∀ r ∈ L, ∃ ε, 0 < ε ∧ ∀ y, Near ε x y → P r y) :
    ∃ ε, 0 < ε ∧ ∀ y, Near ε x y → ∀ r ∈ L, P r y := by
  induction L with
  | nil => exact ⟨1, by norm_num, fun _ _ r hr => by simp at hr⟩
  | cons a L ih =>
    obtain ⟨ε, h1, h2⟩ := ih (fun r hr => h r (by simp [hr]))
    obtain ⟨δ, h3, h4⟩ := h a (by simp)
    refine ⟨min ε δ, lt_min h1 h3, fun y hy r hr => ?_⟩
    rcases List.mem_cons.mp hr with rfl | hr
    · exact h4 y (hy.mono (min_le_right _ _))
    · exact h2 y (hy.mono (min_le_left _ _)) r hr

/-- A non-zero linear functional decreases somewhere in every neighbourhood. -/
theorem exists_near_lt (a : List ℚ) (x : Pt) (hlen : a.length = x.length)
    (hne : ∃ c ∈ a, c ≠ 0) {ε : ℚ} (hε : 0 < ε) : ∃ y, Near ε x y ∧ dot a y < dot a x := by
  induction a generalizing x with
  | nil => obtain ⟨c, hc, _⟩ := hne; simp at hc
  | cons c a ih =>
    cases x with
    | nil => simp at hlen
    | cons u x =>
      by_cases hc : c = 0
      · obtain ⟨y, h1, h2⟩ := ih x (by simpa using hlen) (by
          obtain ⟨d, hd, hd0⟩ := hne
          rcases List.mem_cons.mp hd with rfl | hd
          · exact absurd hc hd0
          · exact ⟨d, hd, hd0⟩)
        refine ⟨u :: y, .cons (by simpa using hε) h1, ?_⟩
        simp only [dot_cons]; linarith
      · rcases lt_or_gt_of_ne hc with hc | hc
        · refine ⟨(u + ε / 2) :: x, .cons ?_ (Near.refl hε x), ?_⟩
          · rw [add_sub_cancel_left, abs_of_pos (by linarith)]; linarith
          · simp only [dot_cons]; nlinarith
        · refine ⟨(u - ε / 2) :: x, .cons ?_ (Near.refl hε x), ?_⟩
          · rw [sub_sub_cancel_left, abs_neg, abs_of_pos (by linarith)]; linarith
          · simp only [dot_cons]; nlinarith

/-- Finitely many non-zero affine functionals are simultaneously non-zero at some point of every
neighbourhood. -/
theorem exists_generic (gs : List Row) (x : Pt)
    (h : ∀ g ∈ gs, g.isZero = false ∧ g.cs.length = x.length) :
    ∀ {ε : ℚ}, 0 < ε → ∃ y, Near ε x y ∧ ∀ g ∈ gs, g.c0 + dot g.cs y ≠ 0 := by
  induction gs with
  | nil => exact fun hε => ⟨x, Near.refl hε x, fun g hg => by simp at hg⟩
  | cons f fs ih =>
    intro ε hε
    obtain ⟨y, h1, h2⟩ := ih (fun g' hg' => h g' (by simp [hg'])) (by linarith : 0 < ε / 2)
    obtain ⟨δ, hδ, h3⟩ := near_all (fun (g : Row) y => g.c0 + dot g.cs y ≠ 0) y fs
      (fun g hg => ne_near _ _ _ (h2 g hg))
    have hf := h f (by simp)
    by_cases hfy : f.c0 + dot f.cs y ≠ 0
    · refine ⟨y, h1.mono (by linarith), fun g hg => ?_⟩
      rcases List.mem_cons.mp hg with rfl | hg
      · exact hfy
      · exact h2 g hg
    · push Not at hfy
      have hnz : ∃ c ∈ f.cs, c ≠ 0 := by
        by_contra hcon
        push Not at hcon
        rw [dot_zero _ hcon, add_zero] at hfy
        have := (Row.isZero_iff f).mpr ⟨hfy, hcon⟩
        rw [hf.1] at this; cases this
      obtain ⟨z, hz1, hz2⟩ := exists_near_lt f.cs y (by rw [h1.length]; exact hf.2) hnz
        (lt_min (by linarith : 0 < ε / 2) hδ)
      refine ⟨z, (h1.trans hz1).mono ?_, fun g hg => ?_⟩
      · have := min_le_left (ε / 2) δ; linarith
      · rcases List.mem_cons.mp hg with rfl | hg
        · intro h0; linarith
        · exact h3 z (hz1.mono (min_le_right _ _)) g hg

/-! ### Segments -/

/-- The point `s + t (x - s)`. -/
def seg (s : Pt) (t : ℚ) (x : Pt) : Pt := List.zipWith (fun a b => a + t * (b - a)) s x

theorem seg_length (s x : Pt) (t : ℚ) (h : s.length = x.length) : (seg s t x).length = x.length := by
  unfold seg; simp [h]

theorem dot_seg (a : List ℚ) (s x : Pt) (t : ℚ) (h : s.length = x.length) :
    dot a (seg s t x) = dot a s + t * (dot a x - dot a s) := by
  unfold seg
  induction a generalizing s x with
  | nil => simp
  | cons c a ih =>
    cases s with
    | nil => cases x with
      | nil => simp
      | cons _ _ => simp at h
    | cons u s => cases x with
      | nil => simp at h
      | cons v x =>
        simp only [List.zipWith_cons_cons, dot_cons]
        rw [ih s x (by simpa using h)]
        ring

theorem seg_zero (s x : Pt) (h : s.length = x.length) : seg s 0 x = s := by
  unfold seg
  induction s generalizing x with
  | nil => simp
  | cons u s ih => cases x with
    | nil => simp at h
    | cons v x =>
      rw [List.zipWith_cons_cons, ih x (by simpa using h)]
      congr 1; ring

theorem seg_one (s x : Pt) (h : s.length = x.length) : seg s 1 x = x := by
  unfold seg
  induction s generalizing x with
  | nil => cases x with
    | nil => simp
    | cons _ _ => simp at h
  | cons u s ih => cases x with
    | nil => simp at h
    | cons v x =>
      rw [List.zipWith_cons_cons, ih x (by simpa using h)]
      congr 1; ring

/-- Points of the segment close to its start are in any given neighbourhood. -/
theorem seg_near (s x : Pt) (h : s.length = x.length) {ε : ℚ} (hε : 0 < ε) :
    ∃ δ, 0 < δ ∧ ∀ t, 0 ≤ t → t < δ → Near ε s (seg s t x) := by
  unfold seg Near
  induction s generalizing x with
  | nil => cases x with
    | nil => exact ⟨1, by norm_num, fun _ _ _ => .nil⟩
    | cons _ _ => simp at h
  | cons u s ih => cases x with
    | nil => simp at h
    | cons v x =>
      obtain ⟨δ, h1, h2⟩ := ih x (by simpa using h)
      refine ⟨min δ (ε / (|v - u| + 1)), lt_min h1 (by positivity), fun t h0 ht => ?_⟩
      simp only [List.zipWith_cons_cons]
      refine .cons ?_ (h2 t h0 (lt_of_lt_of_le ht (min_le_left _ _)))
      rw [add_sub_cancel_left, abs_mul, abs_of_nonneg h0]
      have h3 : t < ε / (|v - u| + 1) := lt_of_lt_of_le ht (min_le_right _ _)
      rw [lt_div_iff₀ (by positivity)] at h3
      have := abs_nonneg (v - u)
      nlinarith

namespace Mat

/-- `x` is an interior point of the point set of `m`: a whole box around `x` satisfies all rows. -/
def Interior (m : Mat) (x : Pt) : Prop := ∃ ε, 0 < ε ∧ ∀ y, Near ε x y → m.Holds y

/-- No row is identically zero. -/
def NoZero (m : Mat) : Prop := ∀ r ∈ m.rows, r.isZero = false

/-- No equality row. -/
def NoLin (m : Mat) : Prop := ∀ r ∈ m.rows, r.lin = false

theorem Strict.noLin {m : Mat} {x : Pt} (h : m.Strict x) : m.NoLin := fun r hr => (h r hr).1

theorem Interior.holds {m : Mat} {x : Pt} (h : m.Interior x) : m.Holds x := by
  obtain ⟨ε, h1, h2⟩ := h
  exact h2 x (Near.refl h1 x)

theorem Strict.interior {m : Mat} {x : Pt} (h : m.Strict x) : m.Interior x := by
  obtain ⟨ε, h1, h2⟩ := near_all (fun (r : Row) y => r.Holds y) x m.rows (fun r hr => by
    obtain ⟨ε, h1, h2⟩ := pos_near _ _ _ (h r hr).2
    exact ⟨ε, h1, fun y hy => Row.Strict.holds ⟨(h r hr).1, h2 y hy⟩⟩)
  exact ⟨ε, h1, fun y hy r hr => h2 y hy r hr⟩

theorem Interior.strict {m : Mat} {x : Pt} (hwf : m.WF) (hnz : m.NoZero)
    (hx : x.length + 1 = m.cols) (h : m.Interior x) : m.Strict x := by
  obtain ⟨ε, hε, h⟩ := h
  intro r hr
  have hx0 := h x (Near.refl hε x) r hr
  have hlen : r.cs.length = x.length := by have := hwf r hr; omega
  by_cases hne : ∃ c ∈ r.cs, c ≠ 0
  · obtain ⟨y, hy1, hy2⟩ := exists_near_lt r.cs x hlen hne hε
    have hy := h y hy1 r hr
    unfold Row.Holds at hx0 hy
    unfold Row.Strict
    cases hl : r.lin with
    | true =>
      have h1 := hx0.1 hl; have h2 := hy.1 hl; linarith
    | false =>
      have h1 := hx0.2 hl; have h2 := hy.2 hl
      exact ⟨rfl, by linarith⟩
  · push Not at hne
    have hc0 : r.c0 ≠ 0 := by
      intro h0
      have := (Row.isZero_iff r).mpr ⟨h0, hne⟩
      rw [hnz r hr] at this; cases this
    unfold Row.Holds at hx0
    unfold Row.Strict
    rw [dot_zero _ hne, add_zero] at hx0 ⊢
    cases hl : r.lin with
    | true => exact absurd (hx0.1 hl) hc0
    | false => exact ⟨rfl, lt_of_le_of_ne (hx0.2 hl) (Ne.symm hc0)⟩

/-- For matrices without zero rows the strict points are exactly the interior points. -/
theorem interior_iff_strict {m : Mat} (hwf : m.WF) (hnz : m.NoZero) (x : Pt)
    (hx : x.length + 1 = m.cols) : m.Interior x ↔ m.Strict x :=
  ⟨fun h => h.strict hwf hnz hx, fun h => h.interior⟩

/-- Points violating a system stay violating nearby. -/
theorem not_holds_near (m : Mat) (x : Pt) (h : ¬ m.Holds x) :
    ∃ ε, 0 < ε ∧ ∀ y, Near ε x y → ¬ m.Holds y := by
  unfold Holds at h
  push Not at h
  obtain ⟨r, hr, hx⟩ := h
  have key : ∃ ε, 0 < ε ∧ ∀ y, Near ε x y → ¬ r.Holds y := by
    unfold Row.Holds at hx ⊢
    cases hl : r.lin with
    | true =>
      rw [hl] at hx
      simp only [forall_const, false_imp_iff, and_true, Bool.true_eq_false] at hx ⊢
      exact ne_near _ _ _ hx
    | false =>
      rw [hl] at hx
      simp only [forall_const, Bool.false_eq_true, false_imp_iff, true_and, not_le] at hx ⊢
      exact neg_near _ _ _ hx
  obtain ⟨ε, h1, h2⟩ := key
  exact ⟨ε, h1, fun y hy hm => h2 y hy (hm r hr)⟩

/-- A point that is a limit of points of a finite union of closed systems is in the union. -/
theorem union_closed (ps : List Mat) (x : Pt)
    (h : ∀ ε, 0 < ε → ∃ y, Near ε x y ∧ ∃ p ∈ ps, p.Holds y) : ∃ p ∈ ps, p.Holds x := by
  by_contra hcon
  push Not at hcon
  obtain ⟨ε, h1, h2⟩ := near_all (fun (p : Mat) y => ¬ p.Holds y) x ps
    (fun p hp => not_holds_near p x (hcon p hp))
  obtain ⟨y, hy, p, hp, hpy⟩ := h ε h1
  exact h2 y hy p hp hpy

theorem seg_strict {m : Mat} {s x : Pt} (hlen : s.length = x.length) (hs : m.Strict s)
    (hx : m.Holds x) {t : ℚ} (h0 : 0 < t) (h1 : t ≤ 1) : m.Strict (seg x t s) := by
  intro r hr
  refine ⟨(hs r hr).1, ?_⟩
  rw [dot_seg _ _ _ _ hlen.symm]
  have h2 := (hs r hr).2
  have h3 := (hx r hr).2 (hs r hr).1
  have : r.c0 + (dot r.cs x + t * (dot r.cs s - dot r.cs x)) =
      (1 - t) * (r.c0 + dot r.cs x) + t * (r.c0 + dot r.cs s) := by ring
  rw [this]
  have : 0 < t * (r.c0 + dot r.cs s) := mul_pos h0 h2
  have : 0 ≤ (1 - t) * (r.c0 + dot r.cs x) := mul_nonneg (by linarith) h3
  linarith

/-- A system with a strict point: every point of it is a limit of strict points. -/
theorem strict_dense {m : Mat} {s x : Pt} (hlen : s.length = x.length) (hs : m.Strict s)
    (hx : m.Holds x) {ε : ℚ} (hε : 0 < ε) : ∃ y, Near ε x y ∧ m.Strict y := by
  obtain ⟨δ, h1, h2⟩ := seg_near x s hlen.symm hε
  have hd : 0 < min δ 1 / 2 := by have := lt_min h1 (by norm_num : (0:ℚ) < 1); linarith
  refine ⟨seg x (min δ 1 / 2) s, h2 _ hd.le ?_, seg_strict hlen hs hx hd ?_⟩
  · have := min_le_left δ 1; have := min_le_right δ 1; linarith
  · have := min_le_right δ 1; linarith

/-- Leaving a system of inequalities: on the way from a point `s` of the system to a point `x`
outside there is a last point, and there some inequality that `x` violates is tight. -/
theorem exit_point (rows : List Row) (hl : ∀ r ∈ rows, r.lin = false) (s x : Pt)
    (hlen : s.length = x.length) (hs : ∀ r ∈ rows, r.Holds s) (hx : ¬ ∀ r ∈ rows, r.Holds x) :
    ∃ t, 0 ≤ t ∧ t < 1 ∧ (∀ r ∈ rows, r.Holds (seg s t x)) ∧
      ∃ r ∈ rows, r.c0 + dot r.cs (seg s t x) = 0 ∧ r.c0 + dot r.cs x < 0 := by
  induction rows with
  | nil => simp at hx
  | cons r rows ih =>
    have hrl := hl r (by simp)
    have hrs := (hs r (by simp)).2 hrl
    have hiff : ∀ y, r.Holds y ↔ 0 ≤ r.c0 + dot r.cs y := by
      intro y; unfold Row.Holds; simp [hrl]
    by_cases hrest : ∀ r' ∈ rows, r'.Holds x
    · -- only `r` is violated
      have hrx : r.c0 + dot r.cs x < 0 := by
        by_contra hcon
        apply hx
        intro r' hr'
        rcases List.mem_cons.mp hr' with rfl | hr'
        · rw [hiff]; linarith
        · exact hrest r' hr'
      set A := r.c0 + dot r.cs s with hA
      set B := r.c0 + dot r.cs x with hB
      have hAB : 0 < A - B := by linarith
      have ht0 : 0 ≤ A / (A - B) := div_nonneg hrs hAB.le
      have ht1 : A / (A - B) < 1 := by rw [div_lt_one hAB]; linarith
      have hval : r.c0 + dot r.cs (seg s (A / (A - B)) x) = 0 := by
        rw [dot_seg _ _ _ _ hlen]
        have : r.c0 + (dot r.cs s + A / (A - B) * (dot r.cs x - dot r.cs s)) =
          A - A / (A - B) * (A - B) := by rw [hA, hB]; ring
        rw [this, div_mul_cancel₀ _ hAB.ne']; ring
      refine ⟨A / (A - B), ht0, ht1, ?_, r, by simp, hval, hrx⟩
      intro r' hr'
      rcases List.mem_cons.mp hr' with rfl | hr'
      · rw [hiff, hval]
      · have hl' := hl r' (by simp [hr'])
        have h1 := (hs r' (by simp [hr'])).2 hl'
        have h2 := (hrest r' hr').2 hl'
        refine ⟨fun h => absurd (hl'.symm.trans h) (by simp), fun _ => ?_⟩
        rw [dot_seg _ _ _ _ hlen]
        nlinarith
    · obtain ⟨t, h0, h1, hall, r1, hr1, hz1, hx1⟩ := ih (fun r' hr' => hl r' (by simp [hr']))
        (fun r' hr' => hs r' (by simp [hr'])) hrest
      by_cases hrt : r.Holds (seg s t x)
      · refine ⟨t, h0, h1, ?_, r1, by simp [hr1], hz1, hx1⟩
        intro r' hr'
        rcases List.mem_cons.mp hr' with rfl | hr'
        · exact hrt
        · exact hall r' hr'
      · -- `r` is left earlier
        rw [hiff, not_le, dot_seg _ _ _ _ hlen] at hrt
        set A := r.c0 + dot r.cs s with hA
        set B := r.c0 + dot r.cs x with hB
        have hrt' : A - t * (A - B) < 0 := by
          have : r.c0 + (dot r.cs s + t * (dot r.cs x - dot r.cs s)) = A - t * (A - B) := by
            rw [hA, hB]; ring
          linarith
        have hAB : 0 < A - B := by
          by_contra hcon
          push Not at hcon
          nlinarith
        have hrx : B < 0 := by nlinarith
        have ht0 : 0 ≤ A / (A - B) := div_nonneg hrs hAB.le
        have htt : A / (A - B) < t := by rw [div_lt_iff₀ hAB]; linarith
        have hval : r.c0 + dot r.cs (seg s (A / (A - B)) x) = 0 := by
          rw [dot_seg _ _ _ _ hlen]
          have : r.c0 + (dot r.cs s + A / (A - B) * (dot r.cs x - dot r.cs s)) =
            A - A / (A - B) * (A - B) := by rw [hA, hB]; ring
          rw [this, div_mul_cancel₀ _ hAB.ne']; ring
        refine ⟨A / (A - B), ht0, by linarith, ?_, r, by simp, hval, hrx⟩
        intro r' hr'
        rcases List.mem_cons.mp hr' with rfl | hr'
        · rw [hiff, hval]
        · have hl' := hl r' (by simp [hr'])
          have e1 := (hs r' (by simp [hr'])).2 hl'
          have e2 := (hall r' hr').2 hl'
          refine ⟨fun h => absurd (hl'.symm.trans h) (by simp), fun _ => ?_⟩
          rw [dot_seg _ _ _ _ hlen] at e2 ⊢
          -- affine in the parameter, nonnegative at `0` and at `t`
          by_contra hcon
          push Not at hcon
          set P := r'.c0 + dot r'.cs s
          set D := dot r'.cs x - dot r'.cs s
          set u := A / (A - B)
          have e1' : 0 ≤ P := e1
          have e2' : 0 ≤ P + t * D := by
            have : P + t * D = r'.c0 + (dot r'.cs s + t * D) := by ring
            linarith
          have e3' : P + u * D < 0 := by
            have : P + u * D = r'.c0 + (dot r'.cs s + u * D) := by ring
            linarith
          have hD : D < 0 := by
            by_contra h; push Not at h; nlinarith
          nlinarith

end Mat
end Expdb
