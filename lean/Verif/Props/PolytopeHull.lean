import Verif.Props.PolytopeLP
import Mathlib.Algebra.BigOperators.Ring.List

/-!
# Properties C17 and C19: `try_union`, `intersects`, `get_centroid`
-/

namespace Expdb
namespace Mat

/-! ### Convex hulls -/

/-- The combination `Σ wᵢ vᵢ` in dimension `d`. -/
def combo (d : Nat) : List ℚ → List Pt → Pt
  | w :: ws, v :: vs => List.zipWith (· + ·) (v.map (fun c => w * c)) (combo d ws vs)
  | _, _ => List.replicate d 0

/-- `x` is a convex combination of the points `vs`. -/
def InHull (d : Nat) (vs : List Pt) (x : Pt) : Prop :=
  ∃ ws : List ℚ, ws.length = vs.length ∧ (∀ w ∈ ws, 0 ≤ w) ∧ ws.sum = 1 ∧ x = combo d ws vs

/-- Contract of the V-representation of a bounded polytope: the reported vertices have the right
dimension and their convex hull is the polytope. -/
def VertsSpec (verts : Mat → List Pt) (p : Mat) : Prop :=
  (∀ v ∈ verts p, v.length + 1 = p.cols) ∧
  ∀ x, p.Contains x ↔ InHull (p.cols - 1) (verts p) x

theorem combo_length (d : Nat) (ws : List ℚ) (vs : List Pt) (h : ∀ v ∈ vs, v.length = d) :
    (combo d ws vs).length = d := by
  induction ws generalizing vs with
  | nil => simp [combo]
  | cons w ws ih => cases vs with
    | nil => simp [combo]
    | cons v vs =>
      simp only [combo, List.length_zipWith, List.length_map]
      rw [ih vs (fun u hu => h u (by simp [hu])), h v (by simp)]; simp

theorem dot_combo (d : Nat) (a : List ℚ) (ws : List ℚ) (vs : List Pt) (h : ∀ v ∈ vs, v.length = d) :
    dot a (combo d ws vs) = (List.zipWith (fun w v => w * dot a v) ws vs).sum := by
  induction ws generalizing vs with
  | nil => simp only [combo, List.zipWith_nil_left, List.sum_nil]
           rw [dot_comm_replicate]
  | cons w ws ih => cases vs with
    | nil => simp only [combo, List.zipWith_nil_right, List.sum_nil]
             rw [dot_comm_replicate]
    | cons v vs =>
      have hvs : ∀ u ∈ vs, u.length = d := fun u hu => h u (by simp [hu])
      simp only [combo, List.zipWith_cons_cons, List.sum_cons]
      rw [dot_add _ _ _ (by rw [List.length_map, combo_length d ws vs hvs, h v (by simp)]),
        dot_smul, ih vs hvs]

/-- An affine functional on a convex combination. -/
theorem val_combo (d : Nat) (c : ℚ) (a : List ℚ) (ws : List ℚ) (vs : List Pt)
    (h : ∀ v ∈ vs, v.length = d) (hlen : ws.length = vs.length) (hs : ws.sum = 1) :
    c + dot a (combo d ws vs) = (List.zipWith (fun w v => w * (c + dot a v)) ws vs).sum := by
  rw [dot_combo d a ws vs h]
  have : ∀ (ws : List ℚ) (vs : List Pt), ws.length = vs.length →
      (List.zipWith (fun w v => w * (c + dot a v)) ws vs).sum =
      ws.sum * c + (List.zipWith (fun w v => w * dot a v) ws vs).sum := by
    intro ws
    induction ws with
    | nil => intro vs _; simp
    | cons w ws ih => intro vs hl; cases vs with
      | nil => simp at hl
      | cons v vs =>
        simp only [List.zipWith_cons_cons, List.sum_cons]
        rw [ih vs (by simpa using hl)]; ring
  rw [this ws vs hlen, hs, one_mul]

theorem zipWith_sum_nonneg (ws : List ℚ) (vs : List Pt) (f : Pt → ℚ) (hw : ∀ w ∈ ws, 0 ≤ w)
    (hf : ∀ v ∈ vs, 0 ≤ f v) : 0 ≤ (List.zipWith (fun w v => w * f v) ws vs).sum := by
  induction ws generalizing vs with
  | nil => simp
  | cons w ws ih => cases vs with
    | nil => simp
    | cons v vs =>
      simp only [List.zipWith_cons_cons, List.sum_cons]
      have := ih vs (fun u hu => hw u (by simp [hu])) (fun u hu => hf u (by simp [hu]))
      have := mul_nonneg (hw w (by simp)) (hf v (by simp))
      linarith

theorem zipWith_sum_pos (ws : List ℚ) (vs : List Pt) (f : Pt → ℚ) (hw : ∀ w ∈ ws, 0 ≤ w)
    (hlen : ws.length = vs.length) (hs : 0 < ws.sum)
    (hf : ∀ v ∈ vs, 0 < f v) : 0 < (List.zipWith (fun w v => w * f v) ws vs).sum := by
  induction ws generalizing vs with
  | nil => simp at hs
  | cons w ws ih => cases vs with
    | nil => simp at hlen
    | cons v vs =>
      simp only [List.zipWith_cons_cons, List.sum_cons] at hs ⊢
      have h0 := hw w (by simp)
      have h1 := hf v (by simp)
      have h2 := zipWith_sum_nonneg ws vs f (fun u hu => hw u (by simp [hu]))
        (fun u hu => (hf u (by simp [hu])).le)
      rcases h0.lt_or_eq with h0 | h0
      · have := mul_pos h0 h1; linarith
      · rw [← h0] at hs ⊢
        have := ih vs (fun u hu => hw u (by simp [hu])) (by simpa using hlen) (by linarith)
          (fun u hu => hf u (by simp [hu]))
        linarith

/-- Affine functionals that are nonnegative at the points are nonnegative on the hull. -/
theorem hull_nonneg (d : Nat) (c : ℚ) (a : List ℚ) (vs : List Pt) (h : ∀ v ∈ vs, v.length = d)
    (hv : ∀ v ∈ vs, 0 ≤ c + dot a v) (x : Pt) (hx : InHull d vs x) : 0 ≤ c + dot a x := by
  obtain ⟨ws, h1, h2, h3, rfl⟩ := hx
  rw [val_combo d c a ws vs h h1 h3]
  exact zipWith_sum_nonneg ws vs (fun v => c + dot a v) h2 hv

theorem hull_pos (d : Nat) (c : ℚ) (a : List ℚ) (vs : List Pt) (h : ∀ v ∈ vs, v.length = d)
    (hv : ∀ v ∈ vs, 0 < c + dot a v) (x : Pt) (hx : InHull d vs x) : 0 < c + dot a x := by
  obtain ⟨ws, h1, h2, h3, rfl⟩ := hx
  rw [val_combo d c a ws vs h h1 h3]
  exact zipWith_sum_pos ws vs (fun v => c + dot a v) h2 h1 (by rw [h3]; norm_num) hv

theorem hull_nonpos (d : Nat) (c : ℚ) (a : List ℚ) (vs : List Pt) (h : ∀ v ∈ vs, v.length = d)
    (hv : ∀ v ∈ vs, c + dot a v ≤ 0) (x : Pt) (hx : InHull d vs x) : c + dot a x ≤ 0 := by
  have := hull_nonneg d (-c) (a.map (fun t => -t)) vs h
    (fun v hv' => by rw [dot_neg]; have := hv v hv'; linarith) x hx
  rw [dot_neg] at this; linarith

theorem combo_zero (d : Nat) (n : Nat) (vs : List Pt) (h : ∀ v ∈ vs, v.length = d) :
    combo d (List.replicate n 0) vs = List.replicate d 0 := by
  induction n generalizing vs with
  | zero => simp [combo]
  | succ n ih => cases vs with
    | nil => simp [combo]
    | cons v vs =>
      rw [List.replicate_succ]
      simp only [combo, zero_mul]
      rw [ih vs (fun u hu => h u (by simp [hu]))]
      have : v.map (fun _ => (0:ℚ)) = List.replicate d 0 := by
        rw [List.map_const', h v (by simp)]
      rw [this]
      simp

theorem hull_mem (d : Nat) (vs : List Pt) (h : ∀ v ∈ vs, v.length = d) (v : Pt) (hv : v ∈ vs) :
    InHull d vs v := by
  induction vs with
  | nil => simp at hv
  | cons u vs ih =>
    have hvs : ∀ u ∈ vs, u.length = d := fun w hw => h w (by simp [hw])
    rcases List.mem_cons.mp hv with rfl | hv
    · refine ⟨1 :: List.replicate vs.length 0, by simp, ?_, by simp, ?_⟩
      · intro w hw
        rcases List.mem_cons.mp hw with rfl | hw
        · norm_num
        · rw [List.eq_of_mem_replicate hw]
      · simp only [combo]
        rw [combo_zero d _ vs hvs]
        have hl := h v (by simp)
        apply List.ext_getElem
        · simp [hl]
        · intro i h1 h2; simp
    · obtain ⟨ws, h1, h2, h3, h4⟩ := ih hvs hv
      refine ⟨0 :: ws, by simp [h1], ?_, by simp [h3], ?_⟩
      · intro w hw
        rcases List.mem_cons.mp hw with rfl | hw
        · exact le_refl _
        · exact h2 w hw
      · simp only [combo, zero_mul]
        rw [← h4]
        have : u.map (fun _ => (0:ℚ)) = List.replicate d 0 := by
          rw [List.map_const', h u (by simp)]
        rw [this]
        have hl := hvs v hv
        apply List.ext_getElem
        · simp [hl]
        · intro i h1 h2; simp

/-- The interval `a ≤ x ≤ b` as a matrix. -/
def ivl (a b : ℚ) : Mat := ⟨2, [⟨false, -a, [1]⟩, ⟨false, b, [-1]⟩]⟩

theorem ivl_contains (a b : ℚ) (x : Pt) :
    (ivl a b).Contains x ↔ ∃ c, x = [c] ∧ a ≤ c ∧ c ≤ b := by
  constructor
  · intro h
    have hl := contains_imp _ _ h
    rw [contains_iff_holds _ _ hl] at h
    match x, hl with
    | [c], _ =>
      have h1 := (h ⟨false, -a, [1]⟩ (by simp [ivl])).2 rfl
      have h2 := (h ⟨false, b, [-1]⟩ (by simp [ivl])).2 rfl
      simp at h1 h2
      exact ⟨c, rfl, by linarith, by linarith⟩
  · rintro ⟨c, rfl, h1, h2⟩
    rw [contains_iff_holds _ _ (by simp [ivl])]
    intro r hr
    simp only [ivl, List.mem_cons, List.not_mem_nil, or_false] at hr
    rcases hr with rfl | rfl
    · refine ⟨fun h => by simp at h, fun _ => ?_⟩
      simp; linarith
    · refine ⟨fun h => by simp at h, fun _ => ?_⟩
      simp; linarith

/-- Non-vacuity of the vertex contract: the end points of an interval. -/
theorem ivl_vertsSpec (a b : ℚ) (hab : a ≤ b) (verts : Mat → List Pt)
    (hv : verts (ivl a b) = [[a], [b]]) : VertsSpec verts (ivl a b) := by
  refine ⟨?_, fun x => ?_⟩
  · rw [hv]; intro v hv'; simp at hv'; rcases hv' with rfl | rfl <;> simp [ivl]
  · rw [hv, ivl_contains]
    constructor
    · rintro ⟨c, rfl, h1, h2⟩
      rcases hab.lt_or_eq with hlt | rfl
      · refine ⟨[(b - c) / (b - a), (c - a) / (b - a)], by simp, ?_, ?_, ?_⟩
        · intro w hw
          simp at hw
          rcases hw with rfl | rfl
          · apply div_nonneg <;> linarith
          · apply div_nonneg <;> linarith
        · have : b - a ≠ 0 := by linarith
          simp only [List.sum_cons, List.sum_nil]; field_simp; ring
        · have : b - a ≠ 0 := by linarith
          simp only [combo, ivl, List.map_cons, List.map_nil]
          simp
          field_simp; ring
      · have : c = a := le_antisymm h2 h1
        subst this
        exact ⟨[1, 0], by simp, by simp, by simp, by simp [combo, ivl]⟩
    · rintro ⟨ws, h1, h2, h3, rfl⟩
      match ws, h1 with
      | [u, w], _ =>
        have hu := h2 u (by simp)
        have hw := h2 w (by simp)
        simp at h3
        refine ⟨u * a + w * b, by simp [combo, ivl], ?_, ?_⟩
        · have : u = 1 - w := by linarith
          subst this; nlinarith
        · have : w = 1 - u := by linarith
          subst this; nlinarith

/-! ### C19 -/

theorem intersectsLoop_spec (h : Row) (vs : List Pt) : ∀ sign : ℚ,
    intersectsLoop h sign vs = true ↔
      (0 < sign ∧ ∃ v ∈ vs, h.c0 + dot h.cs v < 0) ∨
      (sign < 0 ∧ ∃ v ∈ vs, 0 < h.c0 + dot h.cs v) ∨
      ((∃ v ∈ vs, h.c0 + dot h.cs v < 0) ∧ ∃ v ∈ vs, 0 < h.c0 + dot h.cs v) := by
  induction vs with
  | nil => intro sign; simp [intersectsLoop]
  | cons v vs ih =>
    intro sign
    simp only [intersectsLoop]
    obtain ⟨a, ha'⟩ : ∃ a, a = h.val v := ⟨_, rfl⟩
    have ha : a = h.c0 + dot h.cs v := ha'
    rw [← ha']
    have e1 : (∃ u ∈ v :: vs, h.c0 + dot h.cs u < 0) ↔ a < 0 ∨ ∃ u ∈ vs, h.c0 + dot h.cs u < 0 := by
      simp [ha]
    have e2 : (∃ u ∈ v :: vs, 0 < h.c0 + dot h.cs u) ↔ 0 < a ∨ ∃ u ∈ vs, 0 < h.c0 + dot h.cs u := by
      simp [ha]
    rw [e1, e2]
    by_cases hneg : sign * a < 0
    · rw [if_pos hneg]
      simp only [true_iff]
      rcases mul_neg_iff.mp hneg with ⟨h1, h2⟩ | ⟨h1, h2⟩
      · exact Or.inl ⟨h1, Or.inl h2⟩
      · exact Or.inr (Or.inl ⟨h1, Or.inl h2⟩)
    · rw [if_neg hneg, ih]
      by_cases ha0 : a = 0
      · rw [if_neg (by simpa using ha0), ha0]
        simp
      · rw [if_pos ha0]
        rcases lt_or_gt_of_ne ha0 with h1 | h1
        · have hs : sign ≤ 0 := by by_contra hc; push Not at hc; exact hneg (mul_neg_of_pos_of_neg hc h1)
          have e3 := not_lt.mpr hs
          have e4 := not_lt.mpr h1.le
          simp only [h1, e3, e4, false_and, false_or, true_and, true_or]
          constructor
          · rintro (h | ⟨_, h⟩) <;> exact Or.inr h
          · rintro (⟨_, h⟩ | h) <;> exact Or.inl h
        · have hs : 0 ≤ sign := by by_contra hc; push Not at hc; exact hneg (mul_neg_of_neg_of_pos hc h1)
          have e3 := not_lt.mpr hs
          have e4 := not_lt.mpr h1.le
          simp only [h1, e3, e4, false_and, false_or, true_and, true_or, and_true]
          constructor
          · rintro (h | ⟨h, _⟩) <;> exact Or.inr h
          · rintro (⟨_, h⟩ | h) <;> exact Or.inl h

/-- **C19** `P.intersects(plane)` is `True` exactly when `P` has points strictly on both sides of
the plane. -/
theorem C19_intersects_iff (verts : Mat → List Pt) (p : Mat) (hv : VertsSpec verts p) (h : Row) :
    intersects verts p h = true ↔
      (∃ x, p.Contains x ∧ h.c0 + dot h.cs x < 0) ∧ ∃ x, p.Contains x ∧ 0 < h.c0 + dot h.cs x := by
  have hl : ∀ v ∈ verts p, v.length = p.cols - 1 := fun v hv' => by have := hv.1 v hv'; omega
  unfold intersects
  rw [intersectsLoop_spec]
  simp only [lt_self_iff_false, false_and, false_or]
  apply and_congr
  · constructor
    · rintro ⟨v, h1, h2⟩
      exact ⟨v, (hv.2 v).mpr (hull_mem _ _ hl v h1), h2⟩
    · rintro ⟨x, h1, h2⟩
      by_contra hcon
      push Not at hcon
      have := hull_nonneg _ h.c0 h.cs _ hl hcon x ((hv.2 x).mp h1)
      linarith
  · constructor
    · rintro ⟨v, h1, h2⟩
      exact ⟨v, (hv.2 v).mpr (hull_mem _ _ hl v h1), h2⟩
    · rintro ⟨x, h1, h2⟩
      by_contra hcon
      push Not at hcon
      have := hull_nonpos _ h.c0 h.cs _ hl hcon x ((hv.2 x).mp h1)
      linarith

theorem foldl_addPt (d : Nat) (t : ℚ) (vs : List Pt) (h : ∀ v ∈ vs, v.length = d) :
    ∀ z : Pt, z.length = d → (vs.foldl addPt z).map (fun a => a / t) =
      addPt (z.map (fun a => a / t)) (combo d (List.replicate vs.length (1 / t)) vs) := by
  induction vs with
  | nil =>
    intro z hz
    simp only [List.foldl_nil, List.length_nil, List.replicate_zero, combo, addPt]
    apply List.ext_getElem
    · simp [hz]
    · intro i h1 h2; simp
  | cons v vs ih =>
    intro z hz
    have hvs : ∀ u ∈ vs, u.length = d := fun w hw => h w (by simp [hw])
    have hv := h v (by simp)
    rw [List.foldl_cons, ih hvs (addPt z v) (by simp [addPt, hz, hv])]
    rw [List.length_cons, List.replicate_succ]
    simp only [combo, addPt]
    have hc := combo_length d (List.replicate vs.length (1/t)) vs hvs
    apply List.ext_getElem
    · simp
    · intro i h1 h2
      simp only [List.getElem_zipWith, List.getElem_map]
      ring

/-- **C19 (centroid)** The centroid of a bounded polytope with a vertex is in the polytope, and if
the polytope does not cross the plane then the side of the centroid is the side of every point. -/
theorem C19_centroid_side (verts : Mat → List Pt) (p : Mat) (hv : VertsSpec verts p)
    (hc : 1 ≤ p.cols) (hne : verts p ≠ []) :
    ∃ c, centroid verts p = .ok c ∧ p.Contains c ∧
      ∀ h : Row, intersects verts p h = false →
        (h.c0 + dot h.cs c < 0 → ∀ x, p.Contains x → h.c0 + dot h.cs x ≤ 0) ∧
        (0 < h.c0 + dot h.cs c → ∀ x, p.Contains x → 0 ≤ h.c0 + dot h.cs x) ∧
        (h.c0 + dot h.cs c = 0 → ∀ x, p.Contains x → h.c0 + dot h.cs x = 0) := by
  have hl : ∀ v ∈ verts p, v.length = p.cols - 1 := fun v hv' => by have := hv.1 v hv'; omega
  have hpos : 0 < (verts p).length := List.length_pos_iff.mpr hne
  have hposq : (0:ℚ) < (verts p).length := by exact_mod_cast hpos
  unfold centroid
  simp only
  rw [if_neg (by rintro ⟨h, _⟩; omega)]
  refine ⟨_, rfl, ?_⟩
  have hw : ∀ w ∈ List.replicate (verts p).length (1 / ((verts p).length : ℚ)), 0 ≤ w := by
    intro w hw; rw [List.eq_of_mem_replicate hw]; positivity
  have hsum : (List.replicate (verts p).length (1 / ((verts p).length : ℚ))).sum = 1 := by
    rw [List.sum_replicate, nsmul_eq_mul]; field_simp
  have heq : ((verts p).foldl addPt (List.replicate (p.cols - 1) 0)).map
      (fun a => a / ((verts p).length : ℚ)) =
      combo (p.cols - 1) (List.replicate (verts p).length (1 / ((verts p).length : ℚ))) (verts p) := by
    rw [foldl_addPt (p.cols - 1) _ (verts p) hl _ (by simp)]
    have hcl := combo_length (p.cols - 1)
      (List.replicate (verts p).length (1 / ((verts p).length : ℚ))) (verts p) hl
    unfold addPt
    apply List.ext_getElem
    · rw [List.length_zipWith, hcl]; simp
    · intro i h1 h2; simp
  rw [heq]
  have hmem : p.Contains (combo (p.cols - 1)
      (List.replicate (verts p).length (1 / ((verts p).length : ℚ))) (verts p)) :=
    (hv.2 _).mpr ⟨_, by simp, hw, hsum, rfl⟩
  refine ⟨hmem, fun h hint => ?_⟩
  have hnot : ¬ ((∃ x, p.Contains x ∧ h.c0 + dot h.cs x < 0) ∧
      ∃ x, p.Contains x ∧ 0 < h.c0 + dot h.cs x) := by
    rw [← C19_intersects_iff verts p hv h, hint]; simp
  refine ⟨fun hlt x hx => ?_, fun hlt x hx => ?_, fun h0 => ?_⟩
  · by_contra hcon
    exact hnot ⟨⟨_, hmem, hlt⟩, x, hx, not_le.mp hcon⟩
  · by_contra hcon
    exact hnot ⟨⟨x, hx, not_le.mp hcon⟩, _, hmem, hlt⟩
  · -- all vertices are on the plane
    have hvc := val_combo (p.cols - 1) h.c0 h.cs _ (verts p) hl
      (by simp : (List.replicate (verts p).length (1 / ((verts p).length : ℚ))).length = _) hsum
    rw [h0] at hvc
    have hscale : ∀ (vs : List Pt) (w : ℚ), (List.zipWith (fun w v => w * (h.c0 + dot h.cs v))
        (List.replicate vs.length w) vs).sum = w * (vs.map (fun v => h.c0 + dot h.cs v)).sum := by
      intro vs w
      induction vs with
      | nil => simp
      | cons v vs ih =>
        simp only [List.length_cons, List.replicate_succ, List.zipWith_cons_cons, List.sum_cons,
          List.map_cons]
        rw [ih]; ring
    rw [hscale] at hvc
    have hsum0 : ((verts p).map (fun v => h.c0 + dot h.cs v)).sum = 0 := by
      have h1 : (1 / ((verts p).length : ℚ)) ≠ 0 := by positivity
      rcases mul_eq_zero.mp hvc.symm with h2 | h2
      · exact absurd h2 h1
      · exact h2
    have hzero : ∀ v ∈ verts p, h.c0 + dot h.cs v = 0 := by
      have gen : ∀ (L : List ℚ), L.sum = 0 → (∀ a ∈ L, 0 ≤ a) → ∀ a ∈ L, a = 0 := by
        intro L
        induction L with
        | nil => intro _ _ a ha; simp at ha
        | cons b L ih =>
          intro hs hn a ha
          have hb := hn b (by simp)
          have hL : 0 ≤ L.sum := List.sum_nonneg (fun c hc => hn c (by simp [hc]))
          rw [List.sum_cons] at hs
          rcases List.mem_cons.mp ha with rfl | ha
          · linarith
          · exact ih (by linarith) (fun c hc => hn c (by simp [hc])) a ha
      by_cases hn : ∃ x, p.Contains x ∧ h.c0 + dot h.cs x < 0
      · have hall : ∀ v ∈ verts p, h.c0 + dot h.cs v ≤ 0 := by
          intro v hv'
          by_contra hcon
          exact hnot ⟨hn, v, (hv.2 v).mpr (hull_mem _ _ hl v hv'), not_le.mp hcon⟩
        intro v hv'
        have := gen ((verts p).map (fun v => -(h.c0 + dot h.cs v))) (by
          have : (verts p).map (fun v => -(h.c0 + dot h.cs v)) =
            (verts p).map (fun v => (-1) * (h.c0 + dot h.cs v)) := by
            apply List.map_congr_left; intro u _; ring
          rw [this, List.sum_map_mul_left, hsum0, mul_zero]) (by
          intro a ha
          obtain ⟨u, hu, rfl⟩ := List.mem_map.mp ha
          linarith [hall u hu]) (-(h.c0 + dot h.cs v)) (List.mem_map.mpr ⟨v, hv', rfl⟩)
        linarith
      · push Not at hn
        intro v hv'
        exact gen _ hsum0 (by
          intro a ha
          obtain ⟨u, hu, rfl⟩ := List.mem_map.mp ha
          exact hn u ((hv.2 u).mpr (hull_mem _ _ hl u hu))) _ (List.mem_map.mpr ⟨v, hv', rfl⟩)
    intro x hx
    have hx' := (hv.2 x).mp hx
    exact le_antisymm (hull_nonpos _ _ _ _ hl (fun v hv' => (hzero v hv').le) x hx')
      (hull_nonneg _ _ _ _ hl (fun v hv' => (hzero v hv').ge) x hx')

/-- Non-vacuity of C19: the interval `[0,1]` crosses the point `1/2` but not the point `2`. -/
example : VertsSpec (fun _ => [[0], [1]]) (ivl 0 1) ∧
    intersects (fun _ => [[0], [1]]) (ivl 0 1) ⟨true, -1, [2]⟩ = true ∧
    intersects (fun _ => [[0], [1]]) (ivl 0 1) ⟨true, -2, [1]⟩ = false ∧
    centroid (fun _ => [[0], [1]]) (ivl 0 1) = .ok [1/2] :=
  ⟨ivl_vertsSpec 0 1 (by norm_num) _ rfl, by decide +kernel, by decide +kernel, by decide +kernel⟩

end Mat
end Expdb
