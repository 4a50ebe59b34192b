import Verif.Props.PolytopeHull
import Mathlib.Data.List.Sublists

/-!
# Bounded polytopes have finitely many vertices spanning them

The vertex enumeration of cdd enters the theorems as a parameter with the contract
`Mat.VertsSpec`.  Here it is proved that the contract can be met for every bounded polytope.
-/

namespace Expdb
namespace Mat

/-- The polytope is bounded. -/
def Bounded (m : Mat) : Prop := ∃ B : ℚ, ∀ x, m.Contains x → ∀ c ∈ x, |c| ≤ B

/-- The point `x + t d`. -/
def mv (x : Pt) (t : ℚ) (d : Pt) : Pt := List.zipWith (fun a b => a + t * b) x d

theorem mv_length (x d : Pt) (t : ℚ) (h : d.length = x.length) : (mv x t d).length = x.length := by
  unfold mv; simp [h]

theorem dot_mv (a : List ℚ) (x d : Pt) (t : ℚ) (h : d.length = x.length) :
    dot a (mv x t d) = dot a x + t * dot a d := by
  unfold mv
  induction a generalizing x d with
  | nil => simp
  | cons c a ih => cases x with
    | nil => cases d with
      | nil => simp
      | cons _ _ => simp at h
    | cons u x => cases d with
      | nil => simp at h
      | cons w d => simp at h; simp [ih x d h]; ring

theorem seg_mv (x d : Pt) (t1 t2 : ℚ) (h : d.length = x.length) (h1 : 0 < t1) (h2 : 0 < t2) :
    seg (mv x t1 d) (t1 / (t1 + t2)) (mv x (-t2) d) = x := by
  unfold seg mv
  induction x generalizing d with
  | nil => simp
  | cons u x ih => cases d with
    | nil => simp at h
    | cons w d =>
      simp at h
      simp only [List.zipWith_cons_cons]
      rw [ih d h]
      congr 1
      have : t1 + t2 ≠ 0 := by linarith
      field_simp; ring

theorem combo_seg (d : Nat) (s : ℚ) (ws ws' : List ℚ) (vs : List Pt) (h : ∀ v ∈ vs, v.length = d)
    (h1 : ws.length = vs.length) (h2 : ws'.length = vs.length) :
    combo d (seg ws s ws') vs = seg (combo d ws vs) s (combo d ws' vs) := by
  induction vs generalizing ws ws' with
  | nil =>
    simp at h1 h2
    subst h1; subst h2
    unfold seg
    simp only [combo, List.zipWith_nil_left]
    rw [List.zipWith_replicate]; simp
  | cons v vs ih =>
    cases ws with
    | nil => simp at h1
    | cons w ws => cases ws' with
      | nil => simp at h2
      | cons w' ws' =>
        have hvs : ∀ u ∈ vs, u.length = d := fun u hu => h u (by simp [hu])
        have e1 := combo_length d ws vs hvs
        have e2 := combo_length d ws' vs hvs
        have e3 := h v (by simp)
        have ih' := ih ws ws' hvs (by simpa using h1) (by simpa using h2)
        have hs : seg (w :: ws) s (w' :: ws') = (w + s * (w' - w)) :: seg ws s ws' := rfl
        rw [hs]
        simp only [combo]
        rw [ih']
        generalize combo d ws vs = C at *
        generalize combo d ws' vs = C' at *
        clear ih' ih hvs h hs h1 h2
        induction v generalizing d C C' with
        | nil => simp [seg]
        | cons a v ihv => cases C with
          | nil => simp at e1 e3; omega
          | cons c C => cases C' with
            | nil => simp at e2 e3; omega
            | cons c' C' =>
              have := ihv (d - 1) (by simp at e3; omega) C (by simp at e1; omega) C'
                (by simp at e2; omega)
              unfold seg at this ⊢
              simp only [List.map_cons, List.zipWith_cons_cons] at this ⊢
              rw [this]
              congr 1
              ring

theorem hull_seg (d : Nat) (vs : List Pt) (h : ∀ v ∈ vs, v.length = d) (y z : Pt) (s : ℚ)
    (h0 : 0 ≤ s) (h1 : s ≤ 1) (hy : InHull d vs y) (hz : InHull d vs z) :
    InHull d vs (seg y s z) := by
  obtain ⟨ws, a1, a2, a3, rfl⟩ := hy
  obtain ⟨ws', b1, b2, b3, rfl⟩ := hz
  refine ⟨seg ws s ws', by rw [seg_length _ _ _ (by omega)]; exact b1, ?_, ?_,
    (combo_seg d s ws ws' vs h a1 b1).symm⟩
  · intro w hw
    unfold seg at hw
    obtain ⟨i, hi, rfl⟩ := List.getElem_of_mem hw
    rw [List.getElem_zipWith]
    rw [List.length_zipWith] at hi
    have e1 := a2 ws[i] (List.getElem_mem _)
    have e2 := b2 ws'[i] (List.getElem_mem _)
    nlinarith
  · have : ∀ ws ws' : List ℚ, ws.length = ws'.length →
        (seg ws s ws').sum = ws.sum + s * (ws'.sum - ws.sum) := by
      intro ws
      induction ws with
      | nil => intro ws' hl; cases ws' with
        | nil => simp [seg]
        | cons _ _ => simp at hl
      | cons w ws ih => intro ws' hl; cases ws' with
        | nil => simp at hl
        | cons w' ws' =>
          have := ih ws' (by simpa using hl)
          unfold seg at this ⊢
          simp only [List.zipWith_cons_cons, List.sum_cons, this]; ring
    rw [this ws ws' (by omega), a3, b3]; ring

/-- No non-zero direction is orthogonal to all tight rows. -/
def IsVertex (m : Mat) (x : Pt) : Prop :=
  m.Feasible x ∧ ∀ d : Pt, d.length = x.length →
    (∀ r ∈ m.rows, r.c0 + dot r.cs x = 0 → dot r.cs d = 0) → ∀ c ∈ d, c = 0

/-- number of rows that are not tight -/
def slackCount (m : Mat) (x : Pt) : Nat :=
  (m.rows.filter (fun r => decide (r.c0 + dot r.cs x ≠ 0))).length

/-- Walking along a direction orthogonal to the tight rows makes a new row tight. -/
theorem walk (m : Mat) (hb : m.Bounded) (x d : Pt) (hx : m.Feasible x)
    (hd : d.length = x.length) (hdn : ∃ c ∈ d, c ≠ 0)
    (horth : ∀ r ∈ m.rows, r.c0 + dot r.cs x = 0 → dot r.cs d = 0) :
    ∃ t, 0 < t ∧ m.Feasible (mv x t d) ∧ slackCount m (mv x t d) < slackCount m x := by
  have hfeas : ∀ t, (∀ r ∈ m.rows, r.lin = false → 0 ≤ r.c0 + dot r.cs x + t * dot r.cs d) →
      m.Feasible (mv x t d) := by
    intro t ht
    refine ⟨by rw [mv_length _ _ _ hd]; exact hx.1, fun r hr => ⟨fun hl => ?_, fun hl => ?_⟩⟩
    · have h0 := (hx.2 r hr).1 hl
      rw [dot_mv _ _ _ _ hd, horth r hr h0]; linarith
    · rw [dot_mv _ _ _ _ hd]; have := ht r hr hl; linarith
  -- some row decreases
  have hdec : ∃ r ∈ m.rows, r.lin = false ∧ dot r.cs d < 0 := by
    by_contra hcon
    push Not at hcon
    obtain ⟨B, hB⟩ := hb
    obtain ⟨c, hc, hc0⟩ := hdn
    obtain ⟨i, hi, rfl⟩ := List.getElem_of_mem hc
    have hall : ∀ t, 0 ≤ t → m.Feasible (mv x t d) := by
      intro t ht
      apply hfeas
      intro r hr hl
      have := mul_nonneg ht (hcon r hr hl)
      have := (hx.2 r hr).2 hl
      linarith
    have hxi : i < x.length := by omega
    have hval : ∀ t, 0 ≤ t → |x[i] + t * d[i]| ≤ B := by
      intro t ht
      refine hB _ ((feasible_iff _ _).mp (hall t ht)) _ ?_
      have hlt : i < (mv x t d).length := by rw [mv_length _ _ _ hd]; exact hxi
      have : (mv x t d)[i] = x[i] + t * d[i] := by simp [mv]
      rw [← this]; exact List.getElem_mem _
    have hB0 : |x[i]| ≤ B := by simpa using hval 0 (le_refl _)
    have hpos : 0 < |d[i]| := abs_pos.mpr hc0
    have h1 := hval ((2 * B + 1) / |d[i]|) (by
      apply div_nonneg
      · have := abs_nonneg x[i]; linarith
      · exact hpos.le)
    have h2 : |(2 * B + 1) / |d[i]| * d[i]| = 2 * B + 1 := by
      rw [abs_mul, abs_div, abs_abs, div_mul_cancel₀ _ hpos.ne', abs_of_nonneg]
      have := abs_nonneg x[i]; linarith
    have h3 := abs_sub_abs_le_abs_sub ((2 * B + 1) / |d[i]| * d[i]) (-x[i])
    rw [h2, abs_neg, sub_neg_eq_add, add_comm _ x[i]] at h3
    linarith
  -- smallest ratio
  have hmin : ∀ L : List Row, (∃ r ∈ L, dot r.cs d < 0) → ∃ r ∈ L, dot r.cs d < 0 ∧
      ∀ s ∈ L, dot s.cs d < 0 →
        (r.c0 + dot r.cs x) / (-dot r.cs d) ≤ (s.c0 + dot s.cs x) / (-dot s.cs d) := by
    intro L
    induction L with
    | nil => rintro ⟨r, hr, _⟩; simp at hr
    | cons a L ih =>
      intro hex
      by_cases hL : ∃ r ∈ L, dot r.cs d < 0
      · obtain ⟨r, hr, h1, h2⟩ := ih hL
        by_cases ha : dot a.cs d < 0 ∧
            (a.c0 + dot a.cs x) / (-dot a.cs d) < (r.c0 + dot r.cs x) / (-dot r.cs d)
        · refine ⟨a, by simp, ha.1, fun s hs hsd => ?_⟩
          rcases List.mem_cons.mp hs with rfl | hs
          · exact le_refl _
          · exact ha.2.le.trans (h2 s hs hsd)
        · refine ⟨r, by simp [hr], h1, fun s hs hsd => ?_⟩
          rcases List.mem_cons.mp hs with rfl | hs
          · by_contra hlt; exact ha ⟨hsd, not_le.mp hlt⟩
          · exact h2 s hs hsd
      · push Not at hL
        obtain ⟨r, hr, hrd⟩ := hex
        rcases List.mem_cons.mp hr with rfl | hr
        · refine ⟨r, by simp, hrd, fun s hs hsd => ?_⟩
          rcases List.mem_cons.mp hs with rfl | hs
          · exact le_refl _
          · exact absurd hsd (not_lt.mpr (hL s hs))
        · exact absurd hrd (not_lt.mpr (hL r hr))
  obtain ⟨r, hr, hrd, hrmin⟩ := hmin (m.rows.filter (fun r => r.lin = false)) (by
    obtain ⟨r, hr, hl, h⟩ := hdec
    exact ⟨r, List.mem_filter.mpr ⟨hr, by simpa using hl⟩, h⟩)
  rw [List.mem_filter] at hr
  have hrl : r.lin = false := by simpa using hr.2
  have hrx : 0 < r.c0 + dot r.cs x := by
    rcases ((hx.2 r hr.1).2 hrl).lt_or_eq with h | h
    · exact h
    · have := horth r hr.1 h.symm; linarith
  set t := (r.c0 + dot r.cs x) / (-dot r.cs d) with ht
  have ht0 : 0 < t := div_pos hrx (by linarith)
  refine ⟨t, ht0, ?_, ?_⟩
  · apply hfeas
    intro s hs hl
    by_cases hsd : dot s.cs d < 0
    · have := hrmin s (List.mem_filter.mpr ⟨hs, by simpa using hl⟩) hsd
      rw [le_div_iff₀ (by linarith)] at this
      linarith
    · push Not at hsd
      have := mul_nonneg ht0.le hsd
      have := (hx.2 s hs).2 hl
      linarith
  · -- tight rows stay tight, and `r` becomes tight
    unfold slackCount
    have hrt : r.c0 + dot r.cs (mv x t d) = 0 := by
      rw [dot_mv _ _ _ _ hd, ht]
      rw [div_mul_eq_mul_div, div_neg, mul_div_assoc, div_self hrd.ne]; ring
    have hsub : ∀ s ∈ m.rows, s.c0 + dot s.cs x = 0 → s.c0 + dot s.cs (mv x t d) = 0 := by
      intro s hs h0
      rw [dot_mv _ _ _ _ hd, horth s hs h0]; linarith
    have key : ∀ L : List Row, (∀ s ∈ L, s ∈ m.rows) → r ∈ L →
        (L.filter (fun s => decide (s.c0 + dot s.cs (mv x t d) ≠ 0))).length <
        (L.filter (fun s => decide (s.c0 + dot s.cs x ≠ 0))).length := by
      have hle : ∀ L : List Row, (∀ s ∈ L, s ∈ m.rows) →
        (L.filter (fun s => decide (s.c0 + dot s.cs (mv x t d) ≠ 0))).length ≤
        (L.filter (fun s => decide (s.c0 + dot s.cs x ≠ 0))).length := by
        intro L hL
        induction L with
        | nil => simp
        | cons a L ih =>
          have ih' := ih (fun s hs => hL s (by simp [hs]))
          rw [List.filter_cons, List.filter_cons]
          by_cases h1 : a.c0 + dot a.cs x = 0
          · have := hsub a (hL a (by simp)) h1
            simp only [h1, this, ne_eq, not_true_eq_false, decide_false, Bool.false_eq_true, if_false]
            exact ih'
          · have e1 : decide (a.c0 + dot a.cs x ≠ 0) = true := by simpa using h1
            rw [e1]
            simp only [if_true, List.length_cons]
            split
            · simp only [List.length_cons]; omega
            · omega
      intro L hL hrL
      induction L with
      | nil => simp at hrL
      | cons a L ih =>
        rw [List.filter_cons, List.filter_cons]
        rcases List.mem_cons.mp hrL with rfl | hrL
        · have e1 : decide (r.c0 + dot r.cs x ≠ 0) = true := by simpa using hrx.ne'
          have e2 : decide (r.c0 + dot r.cs (mv x t d) ≠ 0) = false := by simpa using hrt
          rw [e1, e2]
          simp only [if_true, Bool.false_eq_true, if_false, List.length_cons]
          have := hle L (fun s hs => hL s (by simp [hs]))
          omega
        · have ih' := ih (fun s hs => hL s (by simp [hs])) hrL
          by_cases h1 : a.c0 + dot a.cs x = 0
          · have := hsub a (hL a (by simp)) h1
            simp only [h1, this, ne_eq, not_true_eq_false, decide_false, Bool.false_eq_true, if_false]
            exact ih'
          · have e1 : decide (a.c0 + dot a.cs x ≠ 0) = true := by simpa using h1
            rw [e1]
            simp only [if_true, List.length_cons]
            split
            · simp only [List.length_cons]; omega
            · omega
    exact key m.rows (fun s hs => hs) hr.1

/-- Every feasible point is in the hull of any list of points containing all vertices. -/
theorem feasible_inHull (m : Mat) (hb : m.Bounded) (vs : List Pt)
    (hvl : ∀ v ∈ vs, v.length = m.cols - 1) (hvs : ∀ v, m.IsVertex v → v ∈ vs) (k : Nat) (x : Pt)
    (hk : slackCount m x ≤ k) (hx : m.Feasible x) : InHull (m.cols - 1) vs x := by
  induction k generalizing x with
  | zero =>
    refine hull_mem _ _ hvl x (hvs x ⟨hx, ?_⟩)
    intro d hd horth
    by_contra hne
    push Not at hne
    obtain ⟨t, _, _, h⟩ := walk m hb x d hx hd hne horth
    omega
  | succ k ih =>
    by_cases hv : m.IsVertex x
    · exact hull_mem _ _ hvl x (hvs x hv)
    · unfold IsVertex at hv
      rw [and_iff_right hx] at hv
      push Not at hv
      obtain ⟨d, hd, horth, hdn⟩ := hv
      obtain ⟨t1, p1, f1, s1⟩ := walk m hb x d hx hd hdn horth
      have hneg : ∀ (a : List ℚ), dot a (d.map (fun c => -1 * c)) = -dot a d := by
        intro a; rw [dot_smul]; ring
      obtain ⟨t2, p2, f2, s2⟩ := walk m hb x (d.map (fun c => -1 * c)) hx (by simpa using hd) (by
          obtain ⟨c, hc, hc0⟩ := hdn
          exact ⟨-1 * c, List.mem_map.mpr ⟨c, hc, rfl⟩, by simpa using hc0⟩) (by
          intro r hr h0
          rw [hneg, horth r hr h0, neg_zero])
      have hmv : mv x t2 (d.map (fun c => -1 * c)) = mv x (-t2) d := by
        unfold mv
        rw [List.zipWith_map_right]
        congr 1
        funext a b; ring
      rw [hmv] at f2 s2
      rw [← seg_mv x d t1 t2 hd p1 p2]
      have hs0 : 0 ≤ t1 / (t1 + t2) := div_nonneg p1.le (by linarith)
      have hs1 : t1 / (t1 + t2) ≤ 1 := by rw [div_le_one (by linarith)]; linarith
      exact hull_seg _ _ hvl _ _ _ hs0 hs1 (ih _ (by omega) f1) (ih _ (by omega) f2)

theorem sub_zero_eq (x y : Pt) (h : x.length = y.length)
    (h0 : ∀ c ∈ List.zipWith (fun a b => b - a) x y, c = 0) : x = y := by
  induction x generalizing y with
  | nil => cases y with
    | nil => rfl
    | cons _ _ => simp at h
  | cons a x ih => cases y with
    | nil => simp at h
    | cons b y =>
      simp only [List.zipWith_cons_cons, List.mem_cons, forall_eq_or_imp] at h0
      rw [ih y (by simpa using h) h0.2, show a = b by linarith [h0.1]]

theorem dot_sub_right (a x y : List ℚ) (h : x.length = y.length) :
    dot a (List.zipWith (fun u v => v - u) x y) = dot a y - dot a x := by
  induction a generalizing x y with
  | nil => simp
  | cons c a ih => cases x with
    | nil => cases y with
      | nil => simp
      | cons _ _ => simp at h
    | cons u x => cases y with
      | nil => simp at h
      | cons v y => simp at h; simp [ih x y h]; ring

/-- Vertices are determined by their tight rows, so there are finitely many. -/
theorem finite_vertices (m : Mat) : ∃ vs : List Pt, ∀ v, v ∈ vs ↔ m.IsVertex v := by
  classical
  let tight : Pt → List Row := fun x => m.rows.filter (fun r => decide (r.c0 + dot r.cs x = 0))
  refine ⟨m.rows.sublists.filterMap (fun T =>
    if h : ∃ x, m.IsVertex x ∧ tight x = T then some h.choose else none), fun v => ?_⟩
  rw [List.mem_filterMap]
  constructor
  · rintro ⟨T, _, hT⟩
    split at hT
    · rename_i h
      rw [Option.some.injEq] at hT
      rw [← hT]
      exact h.choose_spec.1
    · cases hT
  · intro hv
    have hex : ∃ x, m.IsVertex x ∧ tight x = tight v := ⟨v, hv, rfl⟩
    refine ⟨tight v, List.mem_sublists.mpr List.filter_sublist, ?_⟩
    rw [dif_pos hex, Option.some.injEq]
    obtain ⟨hw, ht⟩ := hex.choose_spec
    generalize hex.choose = w at hw ht
    have hl : v.length = w.length := by have := hv.1.1; have := hw.1.1; omega
    symm
    apply sub_zero_eq v w hl
    apply hv.2 _ (by simp [hl])
    intro r hr h0
    have h1 : r ∈ tight w := by
      rw [ht]; exact List.mem_filter.mpr ⟨hr, by simpa using h0⟩
    have h2 : r.c0 + dot r.cs w = 0 := by simpa using (List.mem_filter.mp h1).2
    rw [dot_sub_right _ _ _ hl]; linarith

/-- The contract of the vertex enumeration can be met on all bounded polytopes (of positive
dimension) at once. -/
theorem vertsSpec_satisfiable : ∃ verts : Mat → List Pt, ∀ m : Mat, 1 ≤ m.cols → m.Bounded →
    VertsSpec verts m := by
  classical
  choose verts hverts using finite_vertices
  refine ⟨verts, fun m hm hb => ⟨fun v hv => ((hverts m v).mp hv).1.1, fun x => ?_⟩⟩
  have hvl : ∀ v ∈ verts m, v.length = m.cols - 1 := fun v hv => by
    have := ((hverts m v).mp hv).1.1; omega
  constructor
  · intro hx
    exact feasible_inHull m hb _ hvl (fun v hv => (hverts m v).mpr hv) (slackCount m x) x (le_refl _)
      ((feasible_iff m x).mpr hx)
  · intro hx
    have hlen : x.length + 1 = m.cols := by
      obtain ⟨ws, _, _, _, rfl⟩ := hx
      rw [combo_length _ _ _ hvl]; omega
    rw [contains_iff_holds m x hlen]
    intro r hr
    have hv : ∀ v ∈ verts m, r.Holds v := fun v hv => ((hverts m v).mp hv).1.2 r hr
    refine ⟨fun hl => ?_, fun hl => ?_⟩
    · apply le_antisymm
      · exact hull_nonpos _ _ _ _ hvl (fun v hv' => ((hv v hv').1 hl).le) x hx
      · exact hull_nonneg _ _ _ _ hvl (fun v hv' => ((hv v hv').1 hl).ge) x hx
    · exact hull_nonneg _ _ _ _ hvl (fun v hv' => (hv v hv').2 hl) x hx

end Mat
end Expdb
