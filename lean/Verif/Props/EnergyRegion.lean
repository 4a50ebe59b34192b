import Verif.Props.ZeroDensity
import Verif.Props.Project

/-!
# Properties C67 and C68: large value energy regions, their projections and additive energy bounds
-/

namespace Expdb

open Mat Region

/-! ### Projections of full-dimensional polytopes -/

/-- Contract of `cdd`: the inequalities computed from points contain no row of zeros. -/
def HRepNoZero (hrep : List Pt → Mat) : Prop := ∀ vs, vs ≠ [] → (hrep vs).NoZero

/-- The matrix without rows of zeros. -/
def dropZero (m : Mat) : Mat := ⟨m.cols, m.rows.filter (fun r => !r.isZero)⟩

theorem dropZero_contains (m : Mat) (x : Pt) : (dropZero m).Contains x ↔ m.Contains x := by
  have key : ∀ hl : x.length + 1 = m.cols, ((dropZero m).Contains x ↔ m.Contains x) := by
    intro hl
    rw [contains_iff_holds (dropZero m) x hl, contains_iff_holds m x hl]
    constructor
    · intro h r hr
      by_cases hz : r.isZero = true
      · unfold Row.isZero at hz
        rw [Bool.and_eq_true, decide_eq_true_eq, List.all_eq_true] at hz
        have hd : dot r.cs x = 0 := dot_zero r.cs (fun a ha => by simpa using hz.2 a ha) x
        refine ⟨fun _ => ?_, fun _ => ?_⟩ <;> rw [hz.1, hd] <;> norm_num
      · exact h r (List.mem_filter.mpr ⟨hr, by simpa using hz⟩)
    · intro h r hr
      exact h r (List.mem_filter.mp hr).1
  constructor
  · intro h
    exact (key (contains_length (m := dropZero m) h)).mp h
  · intro h
    exact (key (contains_length h)).mpr h

theorem hRepNoZero_satisfiable : ∃ hrep : List Pt → Mat, HRepSpec hrep ∧ HRepNoZero hrep := by
  obtain ⟨hrep, hh⟩ := hRepSpec_satisfiable
  refine ⟨fun vs => dropZero (hrep vs), ?_, ?_⟩
  · intro d vs hne hv
    obtain ⟨h1, h2, h3⟩ := hh d vs hne hv
    exact ⟨fun r hr => h1 r (List.mem_filter.mp hr).1, h2, fun x => by rw [← h3]; exact dropZero_contains _ _⟩
  · intro vs _ r hr
    simpa using (List.mem_filter.mp hr).2

theorem pickFrom_near (dims : List ℕ) {ε : ℚ} (hε : 0 < ε) : ∀ (y x' : Pt) (i : ℕ), Near ε (pickFrom dims i y) x' →
    ∃ y', Near ε y y' ∧ pickFrom dims i y' = x' := by
  intro y
  induction y with
  | nil =>
    intro x' i h
    rw [pickFrom] at h
    cases h
    exact ⟨[], .nil, rfl⟩
  | cons c y ih =>
    intro x' i h
    rw [pickFrom] at h
    split at h
    · rename_i hi
      cases h with
      | cons h1 h2 =>
        obtain ⟨y', g1, g2⟩ := ih _ _ h2
        exact ⟨_ :: y', .cons h1 g1, by rw [pickFrom, if_pos hi, g2]⟩
    · rename_i hi
      obtain ⟨y', g1, g2⟩ := ih _ _ h
      exact ⟨c :: y', .cons (by simpa using hε) g1, by rw [pickFrom, if_neg hi, g2]⟩

theorem pickFrom_mem (dims : List ℕ) : ∀ (y : Pt) (i : ℕ), ∀ c ∈ pickFrom dims i y, c ∈ y := by
  intro y
  induction y with
  | nil => intro i c hc; simp [pickFrom] at hc
  | cons a y ih =>
    intro i c hc
    rw [pickFrom] at hc
    split at hc
    · rcases List.mem_cons.mp hc with rfl | hc
      · simp
      · exact List.mem_cons_of_mem _ (ih _ _ hc)
    · exact List.mem_cons_of_mem _ (ih _ _ hc)

theorem near_pick (dims : List ℕ) {ε : ℚ} : ∀ (y y' : Pt) (i : ℕ), Near ε y y' → Near ε (pickFrom dims i y) (pickFrom dims i y') := by
  intro y
  induction y with
  | nil => intro y' i h; cases h; exact .nil
  | cons c y ih =>
    intro y' i h
    cases h with
    | cons h1 h2 =>
      rw [pickFrom, pickFrom]
      split
      · exact .cons h1 (ih _ _ h2)
      · exact ih _ _ h2

/-- The projection of a full-dimensional bounded polytope is one. -/
theorem project_fullDim {verts : Mat → List Pt} {hrep : List Pt → Mat} (hh : HRepSpec hrep) (hz : HRepNoZero hrep) {m : Mat}
    {n : ℕ} (hm : FullDim n m) (hv : VertsSpec verts m) (dims : List ℕ) :
    ∃ p, Mat.project verts hrep m dims = some p ∧ FullDim (pickDim dims 0 (n - 1) + 1) p ∧
      ∀ x, p.Contains x ↔ ∃ y, m.Contains y ∧ pickDims dims y = x := by
  obtain ⟨h1, h2⟩ := Mat.C63_project verts hrep hh m hv dims
  cases hp : Mat.project verts hrep m dims with
  | none =>
    obtain ⟨x, hx⟩ := hm.nonempty
    exact absurd hx (h1.mp hp x)
  | some p =>
    obtain ⟨g1, g2, g3⟩ := h2 p hp
    refine ⟨p, rfl, ⟨g1, by rw [g2, hm.cols], ?_, ?_, ?_⟩, g3⟩
    · unfold Mat.project fromVRep at hp
      split at hp
      · cases hp
      · rename_i hne
        have := Option.some.inj hp
        rw [← this]
        exact hz _ hne
    · obtain ⟨B, hB⟩ := hm.bounded
      refine ⟨B, fun x hx c hc => ?_⟩
      obtain ⟨y, hy, rfl⟩ := (g3 x).mp hx
      exact hB y hy c (pickFrom_mem dims _ _ _ hc)
    · obtain ⟨s, hs, ε, hε, hi⟩ := hm.inner
      have hsl : s.length = n - 1 := by omega
      refine ⟨pickDims dims s, by unfold pickDims; rw [pickFrom_length, hsl], ε, hε, ?_⟩
      intro x' hx'
      obtain ⟨y', k1, k2⟩ := pickFrom_near dims hε s x' 0 hx'
      have hc : p.Contains x' := (g3 x').mpr ⟨y', (contains_iff_holds _ _ (by rw [k1.length, hs, hm.cols])).mpr (hi y' k1), k2⟩
      exact (contains_iff_holds _ _ (contains_length hc)).mp hc

namespace ZeroDensity

open Rational SupRatio

variable {L : Type} [DecidableEq L] {eng : Engine}

omit [DecidableEq L] in
theorem projectList_polys {verts : Mat → List Pt} {hrep : List Pt → Mat} (hh : HRepSpec hrep) (hz : HRepNoZero hrep) {n : ℕ}
    (dims : List ℕ) (ms : List Mat) (hm : ∀ m ∈ ms, FullDim n m) (hv : ∀ m ∈ ms, VertsSpec verts m) :
    ∃ ps : List Mat, projectList verts hrep dims (ms.map (fun m => (.polytope m none : Region L))) =
        .ok (ps.map (fun m => .polytope m none)) ∧ ps.length = ms.length ∧
      (∀ p ∈ ps, FullDim (pickDim dims 0 (n - 1) + 1) p) ∧
      ∀ x, (∃ p ∈ ps, p.Contains x) ↔ ∃ m ∈ ms, ∃ y, m.Contains y ∧ pickDims dims y = x := by
  induction ms with
  | nil => exact ⟨[], by simp [projectList], rfl, by simp, by simp⟩
  | cons m ms ih =>
    obtain ⟨ps, h1, h2, h3, h4⟩ := ih (fun m hm' => hm m (by simp [hm'])) (fun m hm' => hv m (by simp [hm']))
    obtain ⟨p, g1, g2, g3⟩ := project_fullDim hh hz (hm m (by simp)) (hv m (by simp)) dims
    refine ⟨p :: ps, ?_, by simp [h2], ?_, ?_⟩
    · rw [List.map_cons, projectList_cons, Region.project, g1, h1]
      rfl
    · intro q hq
      rcases List.mem_cons.mp hq with rfl | hq
      · exact g2
      · exact h3 q hq
    · intro x
      simp only [List.mem_cons, exists_eq_or_imp, h4, g3]

/-- Projection and simplification of a disjoint union of full-dimensional polytopes. -/
theorem projectSimplify_spec (heng : EngineSpec eng) {hrep : List Pt → Mat} (hh : HRepSpec hrep) (hz : HRepNoZero hrep) {n : ℕ}
    (hn : 2 ≤ n) (dims : List ℕ) (hd : 1 ≤ pickDim dims 0 (n - 1)) (ms : List Mat) (hm : ∀ m ∈ ms, FullDim n m) :
    (ms = [] ∧ projectSimplify eng hrep dims (.disjoint (ms.map (fun m => .polytope m none)) : Region L) = .ok none) ∨
    ∃ (qs : List Mat) (p : Region L), projectSimplify eng hrep dims (.disjoint (ms.map (fun m => .polytope m none)) : Region L) = .ok (some p) ∧
      ((ms.length = 1 ∧ ∃ q, qs = [q] ∧ p = .polytope q none) ∨ (2 ≤ ms.length ∧ p = .union (qs.map (fun m => .polytope m none)))) ∧
      (∀ q ∈ qs, FullDim (pickDim dims 0 (n - 1) + 1) q) ∧
      ∀ x, (∃ q ∈ qs, q.Contains x) ↔ ∃ m ∈ ms, ∃ y, m.Contains y ∧ pickDims dims y = x := by
  obtain ⟨ps, h1, h2, h3, h4⟩ := projectList_polys (L := L) (verts := eng.verts) hh hz dims ms hm
    (fun m hm' => heng.verts m (by rw [(hm m hm').cols]; omega) (hm m hm').bounded)
  match ps, h2 with
  | [], h2 =>
    left
    have : ms = [] := List.length_eq_zero_iff.mp (by simpa using h2.symm)
    subst this
    refine ⟨rfl, ?_⟩
    rw [List.map_nil, projectSimplify, Region.project, projectList]
  | [p], h2 =>
    right
    refine ⟨[p], .polytope p none, ?_, .inl ⟨h2.symm, p, rfl, rfl⟩, h3, h4⟩
    unfold projectSimplify
    rw [Region.project, h1]
    rfl
  | p :: q :: ps, h2 =>
    right
    have hG : ∀ r ∈ (p :: q :: ps).map (fun m => (⟨m, []⟩ : Expdb.Piece L)),
        Good (pickDim dims 0 (n - 1) + 1) (fun _ => False) r.mat := by
      intro r hr
      obtain ⟨m, hm', rfl⟩ := List.mem_map.mp hr
      exact ⟨h3 m hm', fun x hx => hx.elim⟩
    obtain ⟨out, g1, _, g2, g3, _⟩ := C24_simplifyUnion (Good (pickDim dims 0 (n - 1) + 1) (fun _ => False)) _
      (tryUnion_unionExact heng (by omega)) eng.order heng.order false _ hG
    refine ⟨out.map (·.mat), .union ((out.map (·.mat)).map (fun m => .polytope m none)), ?_,
      .inr ⟨by rw [← h2]; simp, rfl⟩, ?_, ?_⟩
    · unfold projectSimplify
      rw [Region.project, h1]
      simp only [List.map_cons]
      rw [simplify, simplifyChildren]
      have := polyMats_map (L := L) (p :: q :: ps)
      simp only [List.map_cons] at this g1
      rw [this]
      simp only [List.map_cons, bind, Except.bind, pure, Except.pure]
      rw [g1]
      simp only [List.map_map]
      rfl
    · intro r hr
      obtain ⟨o, ho, rfl⟩ := List.mem_map.mp hr
      exact (g3 o ho).toFullDim
    · intro x
      rw [← h4]
      constructor
      · rintro ⟨r, hr, hx⟩
        obtain ⟨o, ho, rfl⟩ := List.mem_map.mp hr
        obtain ⟨o', ho', hx'⟩ := (g2 x).mp ⟨o, ho, hx⟩
        obtain ⟨m, hm', rfl⟩ := List.mem_map.mp ho'
        exact ⟨m, hm', hx'⟩
      · rintro ⟨m, hm', hx⟩
        obtain ⟨o, ho, hx'⟩ := (g2 x).mpr ⟨⟨m, []⟩, List.mem_map.mpr ⟨m, hm', rfl⟩, hx⟩
        exact ⟨o.mat, List.mem_map.mpr ⟨o, ho, rfl⟩, hx'⟩

/-! ### The domain -/

theorem lift_rows {m m' : Mat} {vars : List LiftVar} (h : m.lift vars = .ok m') :
    ∀ r ∈ m'.rows, (∃ r' ∈ m.rows, r = liftRow vars r') ∨ r ∈ liftRanges vars := by
  have ho : ∀ (rows : List Row) (a : Mat), ofRows rows = .ok a → a.rows = rows := by
    intro rows a h
    unfold ofRows at h
    split at h
    · cases h; rfl
    · split at h
      · cases h; rfl
      · cases h
  have he : ∀ (a b : Mat) (rows : List Row), a.extendIf rows = .ok b → ∀ r ∈ b.rows, r ∈ a.rows ∨ r ∈ rows := by
    intro a b rows h r hr
    unfold extendIf extend at h
    split at h
    · split at h
      · cases h; exact List.mem_append.mp hr
      · cases h
    · cases h; exact .inl hr
  unfold Mat.lift at h
  split at h
  · cases h
  · simp only [bind, Except.bind] at h
    split at h
    · cases h
    · rename_i a ha
      intro r hr
      rcases he _ _ _ h r hr with hr | hr
      · rw [ho _ _ ha] at hr
        rcases List.mem_append.mp hr with hr | hr
        · obtain ⟨r', hr', rfl⟩ := List.mem_map.mp hr
          exact .inl ⟨r', ((mem_asList _ _ _).mp hr').1, rfl⟩
        · exact .inr hr
      · obtain ⟨r', hr', rfl⟩ := List.mem_map.mp hr
        exact .inl ⟨r', ((mem_asList _ _ _).mp hr').1, rfl⟩

omit [DecidableEq L] in
theorem lift_domain_base {d : Mat} (hd : Base 3 d) (hb : d.Bounded) :
    ∃ m', LargeValues.lverDomain (.polytope d none : Region L) = .ok (.polytope m' none) ∧ Base 6 m' ∧ m'.Bounded ∧
      ∀ x, m'.Contains x ↔ ∃ s t a b c, x = [s, t, a, b, c] ∧ d.Contains [s, t] ∧ (0 ≤ a ∧ a ≤ 1000000) ∧
        (0 ≤ b ∧ b ≤ 1000000) ∧ (0 ≤ c ∧ c ≤ 1000000) := by
  obtain ⟨m', h1, h2, h3, h4⟩ := C12_lift_partial d hd.wf 2 hd.cols
    [.dim 0, .dim 1, .range 0 1000000, .range 0 1000000, .range 0 1000000] (by decide) (.inr ⟨0, 1000000, by simp⟩)
  have hc : ∀ x, m'.Contains x ↔ ∃ s t a b c, x = [s, t, a, b, c] ∧ d.Contains [s, t] ∧ (0 ≤ a ∧ a ≤ 1000000) ∧
        (0 ≤ b ∧ b ≤ 1000000) ∧ (0 ≤ c ∧ c ≤ 1000000) := by
    intro x
    have key : ∀ s t a b c, m'.Contains [s, t, a, b, c] ↔ d.Contains [s, t] ∧ (0 ≤ a ∧ a ≤ 1000000) ∧
        (0 ≤ b ∧ b ≤ 1000000) ∧ (0 ≤ c ∧ c ≤ 1000000) := by
      intro s t a b c
      rw [h4 [s, t, a, b, c] [s, t] rfl rfl (by
        intro j i hj
        match j with
        | 0 => simp at hj; subst hj; rfl
        | 1 => simp at hj; subst hj; rfl
        | 2 | 3 | 4 => simp at hj
        | j + 5 => simp at hj)]
      constructor
      · rintro ⟨k1, k2⟩
        obtain ⟨a', e1, a1⟩ := k2 2 0 1000000 rfl
        obtain ⟨b', e2, b1⟩ := k2 3 0 1000000 rfl
        obtain ⟨c', e3, c1⟩ := k2 4 0 1000000 rfl
        simp at e1 e2 e3
        subst e1 e2 e3
        exact ⟨k1, a1, b1, c1⟩
      · rintro ⟨k1, k2, k3, k4⟩
        refine ⟨k1, fun j lo hi hj => ?_⟩
        match j with
        | 0 | 1 => simp at hj
        | 2 => simp at hj; obtain ⟨rfl, rfl⟩ := hj; exact ⟨a, rfl, k2⟩
        | 3 => simp at hj; obtain ⟨rfl, rfl⟩ := hj; exact ⟨b, rfl, k3⟩
        | 4 => simp at hj; obtain ⟨rfl, rfl⟩ := hj; exact ⟨c, rfl, k4⟩
        | j + 5 => simp at hj
    constructor
    · intro h
      have hl := contains_length h
      rw [h3] at hl
      match x, hl with
      | [s, t, a, b, c], _ => exact ⟨s, t, a, b, c, rfl, (key s t a b c).mp h⟩
    · rintro ⟨s, t, a, b, c, rfl, h⟩
      exact (key s t a b c).mpr h
  refine ⟨m', ?_, ⟨h2, h3, ?_⟩, ?_, hc⟩
  · unfold LargeValues.lverDomain LargeValues.lvLimit
    rw [Region.lift, h1]
    rfl
  · intro r hr
    rcases lift_rows h1 r hr with ⟨r', hr', rfl⟩ | hr
    · have hl := hd.wf r' hr'
      rw [hd.cols] at hl
      have hz := hd.noZero r' hr'
      obtain ⟨lin, c0, cs⟩ := r'
      match cs, hl with
      | [u, v], _ =>
        unfold Row.isZero at hz ⊢
        simp [liftRow, liftCoef] at hz ⊢
        exact hz
    · simp [liftRanges, List.zipIdx, rangeRows, unitRow, List.replicate] at hr
      rcases hr with rfl | rfl | rfl | rfl | rfl | rfl <;> simp [Row.isZero]
  · obtain ⟨B, hB⟩ := hb
    refine ⟨max B 1000000, fun x hx v hv => ?_⟩
    obtain ⟨s, t, a, b, c, rfl, k1, k2, k3, k4⟩ := (hc x).mp hx
    have bd : ∀ w : ℚ, 0 ≤ w ∧ w ≤ 1000000 → |w| ≤ max B 1000000 := fun w hw => by
      rw [abs_of_nonneg hw.1]; exact hw.2.trans (le_max_right _ _)
    simp only [List.mem_cons, List.not_mem_nil, or_false] at hv
    rcases hv with rfl | rfl | rfl | rfl | rfl
    · exact (hB _ k1 _ (by simp)).trans (le_max_left _ _)
    · exact (hB _ k1 _ (by simp)).trans (le_max_left _ _)
    · exact bd _ k2
    · exact bd _ k3
    · exact bd _ k4

omit [DecidableEq L] in
theorem lift_domain {d : Mat} (hd : FullDim 3 d) :
    ∃ m', LargeValues.lverDomain (.polytope d none : Region L) = .ok (.polytope m' none) ∧ FullDim 6 m' ∧
      ∀ x, m'.Contains x ↔ ∃ s t a b c, x = [s, t, a, b, c] ∧ d.Contains [s, t] ∧ (0 ≤ a ∧ a ≤ 1000000) ∧
        (0 ≤ b ∧ b ≤ 1000000) ∧ (0 ≤ c ∧ c ≤ 1000000) := by
  obtain ⟨m', h1, h2, h3, hc⟩ := lift_domain_base (L := L) (d := d) ⟨hd.wf, hd.cols, hd.noZero⟩ hd.bounded
  refine ⟨m', h1, ⟨h2.wf, h2.cols, h2.noZero, h3, ?_⟩, hc⟩
  · obtain ⟨p, hp, ε, hε, hi⟩ := hd.inner
    match p, hp with
    | [s, t], _ =>
      refine ⟨[s, t, 1, 1, 1], rfl, min ε 1, lt_min hε one_pos, ?_⟩
      intro y hy
      match y, hy with
      | [s', t', a, b, c], .cons h1 (.cons h2 (.cons h3 (.cons h4 (.cons h5 .nil)))) =>
        have hy' : Near ε [s, t] [s', t'] :=
          .cons (h1.trans_le (min_le_left _ _)) (.cons (h2.trans_le (min_le_left _ _)) .nil)
        have bd : ∀ w : ℚ, |w - 1| < min ε 1 → 0 ≤ w ∧ w ≤ 1000000 := by
          intro w hw
          have := abs_lt.mp (hw.trans_le (min_le_right _ _))
          exact ⟨by linarith [this.1], by linarith [this.2]⟩
        have hc' : m'.Contains [s', t', a, b, c] := (hc _).mpr ⟨_, _, _, _, _, rfl,
          (contains_iff_holds _ _ (by rw [hd.cols]; rfl)).mpr (hi _ hy'), bd _ h3, bd _ h4, bd _ h5⟩
        exact (contains_iff_holds _ _ (contains_length hc')).mp hc'

/-! ### C67: the best large value energy region -/

/-- The tuples `(sigma, tau, rho, rho*, s)` with `(sigma, tau)` in the polygon `d` and the others in `[0, 1000000]` that are in all
regions. -/
def Tuples (d : Mat) (rs : List (Region L)) (x : Pt) : Prop :=
  ∃ s t a b c, x = [s, t, a, b, c] ∧ d.Contains [s, t] ∧ (0 ≤ a ∧ a ≤ 1000000) ∧ (0 ≤ b ∧ b ≤ 1000000) ∧ (0 ≤ c ∧ c ≤ 1000000) ∧
    ∀ R ∈ rs, R.Mem x

/-- `x` is a limit of interior points of `S`. -/
def InnerLimit (S : Pt → Prop) (x : Pt) : Prop :=
  ∀ ε : ℚ, 0 < ε → ∃ y, Near ε x y ∧ ∃ δ : ℚ, 0 < δ ∧ ∀ z, Near δ y z → S z

/-- Conversion of a region: the polytopes, what they contain, and what they cover. -/
theorem convert_full (heng : EngineSpec eng) {n : ℕ} (hn : 2 ≤ n) (r : Region L) (hpl : Plain false r)
    (hfd : ∀ m ∈ r.leaves, FullDim n m) :
    ∃ ms : List Mat, asDisjointUnion eng false r = .ok (.disjoint (ms.map (fun m => .polytope m none))) ∧
      (∀ m ∈ ms, FullDim n m) ∧ (∀ m ∈ ms, ∀ x, m.Contains x → r.Mem x) ∧
      ∀ x, x.length + 1 = n → ∀ Q : Mat → Prop, (∀ ε : ℚ, 0 < ε → ∃ y, Near ε x y ∧ ∃ δ : ℚ, 0 < δ ∧ ∀ z, Near δ y z →
        r.Mem z ∧ ∀ m ∈ ms, m.Contains z → Q m) → ∃ m ∈ ms, Q m ∧ m.Contains x := by
  have hg : r.AllMat (Good n (Generic n r.leaves)) :=
    (allMat_iff_leaves _ r).mpr (fun m hm => good_of_generic _ m hm (hfd m hm))
  obtain ⟨out, h1, h2, _⟩ := asDisjoint_spec (track := false) heng hn (fun x hx => hx.1) r hpl hg
  refine ⟨out.map (·.mat), ?_, ?_, ?_, ?_⟩
  · unfold asDisjointUnion
    rw [h1]
    simp only [bind, Except.bind, pure, Except.pure, List.map_map]
    rfl
  · intro m hm
    obtain ⟨p, hp, rfl⟩ := List.mem_map.mp hm
    exact (h2.good p hp).toFullDim
  · intro m hm x hx
    obtain ⟨p, hp, rfl⟩ := List.mem_map.mp hm
    exact h2.sound p hp x hx
  · intro x hx Q h
    refine cover_near (n := n) _ Q x hx ?_ ?_
    · intro m hm
      obtain ⟨p, hp, rfl⟩ := List.mem_map.mp hm
      exact (h2.good p hp).cols
    · intro ε hε
      obtain ⟨y, h3, δ, hδ, h4⟩ := h (ε / 2) (by linarith)
      obtain ⟨z, hz, hzg⟩ := generic_near r.leaves hfd y (by rw [h3.length]; exact hx) (lt_min hδ (show 0 < ε / 2 by linarith))
      obtain ⟨h5, h6⟩ := h4 z (hz.mono (min_le_left _ _))
      obtain ⟨p, hp, hpz⟩ := h2.cover z hzg h5
      have hmem : p.mat ∈ out.map (·.mat) := List.mem_map.mpr ⟨p, hp, rfl⟩
      exact ⟨z, (h3.trans (hz.mono (min_le_right _ _))).mono (by linarith), p.mat, hmem, h6 _ hmem hpz, hpz⟩

theorem best_spec (heng : EngineSpec eng) (lvers tl : List (Region L)) (transforms : List (Region L → Py (Region L)))
    (ht : LargeValues.applyTransforms lvers transforms = .ok tl) (zeta : Bool) (zlvers : List (Region L))
    (hpl : ∀ r ∈ lvers ++ tl ++ (if zeta then zlvers else []), Plain false r ∧ ∀ m ∈ r.leaves, FullDim 6 m)
    (d : Mat) (hd : FullDim 3 d) :
    ∃ ms : List Mat, LargeValues.bestLver eng lvers transforms zeta zlvers (.polytope d none) =
        .ok (.disjoint (ms.map (fun m => .polytope m none))) ∧
      (∀ m ∈ ms, FullDim 6 m) ∧
      (∀ m ∈ ms, ∀ x, m.Contains x → Tuples d (lvers ++ tl ++ (if zeta then zlvers else [])) x) ∧
      ∀ x, x.length = 5 → ∀ Q : Mat → Prop, (∀ ε : ℚ, 0 < ε → ∃ y, Near ε x y ∧ ∃ δ : ℚ, 0 < δ ∧ ∀ z, Near δ y z →
        Tuples d (lvers ++ tl ++ (if zeta then zlvers else [])) z ∧ ∀ m ∈ ms, m.Contains z → Q m) →
        ∃ m ∈ ms, Q m ∧ m.Contains x := by
  obtain ⟨D, g1, g2, g3⟩ := lift_domain (L := L) hd
  have hT : ∀ x, Tuples d (lvers ++ tl ++ (if zeta then zlvers else [])) x ↔
      (Region.intersect (.polytope D none :: (lvers ++ tl ++ (if zeta then zlvers else [])))).Mem x := by
    intro x
    rw [Mem, memAll_iff]
    simp only [List.mem_cons, forall_eq_or_imp]
    rw [Mem, g3]
    constructor
    · rintro ⟨s, t, a, b, c, e, k1, k2, k3, k4, k5⟩
      exact ⟨⟨s, t, a, b, c, e, k1, k2, k3, k4⟩, k5⟩
    · rintro ⟨⟨s, t, a, b, c, e, k1, k2, k3, k4⟩, k5⟩
      exact ⟨s, t, a, b, c, e, k1, k2, k3, k4, k5⟩
  obtain ⟨ms, h1, h2, h3, h4⟩ := convert_full heng (n := 6) (by norm_num)
    (Region.intersect (.polytope D none :: (lvers ++ tl ++ (if zeta then zlvers else [])))) (by
      rw [Plain]
      refine ⟨by simp, (plainList_iff _).mpr ?_⟩
      intro r hr
      rcases List.mem_cons.mp hr with rfl | hr
      · simp [Plain]
      · exact (hpl r hr).1) (by
      intro m hm
      rw [leaves, mem_leavesList] at hm
      obtain ⟨r, hr, hm⟩ := hm
      rcases List.mem_cons.mp hr with rfl | hr
      · rw [leaves, List.mem_singleton] at hm
        subst hm
        exact g2
      · exact (hpl r hr).2 m hm)
  refine ⟨ms, ?_, h2, fun m hm x hx => (hT x).mpr (h3 m hm x hx), ?_⟩
  · unfold LargeValues.bestLver
    rw [ht]
    simp only [bind, Except.bind]
    rw [g1]
    exact h1
  · intro x hx Q h
    refine h4 x (by omega) Q (fun ε hε => ?_)
    obtain ⟨y, k1, δ, k2, k3⟩ := h ε hε
    exact ⟨y, k1, δ, k2, fun z hz => ⟨(hT z).mp (k3 z hz).1, (k3 z hz).2⟩⟩

/-- **C67** For large value energy regions built from full-dimensional bounded polytopes by intersections and disjoint unions
and a polygon as domain, `compute_best_lver` does not raise. Every point of the result is a tuple of the domain which is in
all regions (with `rho`, `rho*` and `s` between `0` and `1000000`), and every tuple that is a limit of interior points of this set
is in the result. Missing: polytopes without interior points, whose intersections are dropped
(`C21_lower_dim_counterexample`), and unbounded polytopes. -/
theorem C67_bestLver_partial (heng : EngineSpec eng) (lvers tl : List (Region L)) (transforms : List (Region L → Py (Region L)))
    (ht : LargeValues.applyTransforms lvers transforms = .ok tl) (zeta : Bool) (zlvers : List (Region L))
    (hpl : ∀ r ∈ lvers ++ tl ++ (if zeta then zlvers else []), Plain false r ∧ ∀ m ∈ r.leaves, FullDim 6 m)
    (d : Mat) (hd : FullDim 3 d) :
    ∃ out, LargeValues.bestLver eng lvers transforms zeta zlvers (.polytope d none) = .ok out ∧
      (∀ x, out.Mem x → Tuples d (lvers ++ tl ++ (if zeta then zlvers else [])) x) ∧
      ∀ x, InnerLimit (Tuples d (lvers ++ tl ++ (if zeta then zlvers else []))) x → out.Mem x := by
  obtain ⟨ms, h1, _, h3, h4⟩ := best_spec heng lvers tl transforms ht zeta zlvers hpl d hd
  have hmem : ∀ x, (Region.disjoint (ms.map (fun m => .polytope m none)) : Region L).Mem x ↔ ∃ m ∈ ms, m.Contains x := by
    intro x
    rw [Mem, memAny_iff]
    simp [Mem]
  refine ⟨_, h1, ?_, ?_⟩
  · intro x hx
    obtain ⟨m, hm, hx⟩ := (hmem x).mp hx
    exact h3 m hm x hx
  · intro x hx
    have hl : x.length = 5 := by
      obtain ⟨y, k1, δ, k2, k3⟩ := hx 1 one_pos
      obtain ⟨s, t, a, b, c, e, _⟩ := k3 y (Near.refl k2 y)
      rw [← k1.length, e]
      rfl
    obtain ⟨m, hm, _, hc⟩ := h4 x hl (fun _ => True) (fun ε hε => by
      obtain ⟨y, k1, δ, k2, k3⟩ := hx ε hε
      exact ⟨y, k1, δ, k2, fun z hz => ⟨k3 z hz, fun _ _ _ => trivial⟩⟩)
    exact (hmem x).mpr ⟨m, hm, hc⟩

/-! ### C67: projections -/

theorem asDisjointUnion_polys (ms : List Mat) :
    asDisjointUnion eng false (.disjoint (ms.map (fun m => .polytope m none)) : Region L) =
      .ok (.disjoint (ms.map (fun m => .polytope m none))) := by
  have key : asDisjointList eng false (ms.map (fun m => (.polytope m none : Region L))) = .ok (ms.map (fun m => [⟨m, []⟩])) := by
    induction ms with
    | nil => simp [asDisjointList]
    | cons m ms ih =>
      rw [List.map_cons, asDisjointList, ih, asDisjoint, leafPieces]
      rfl
  have hfl : ∀ ms : List Mat, (ms.map (fun m => [(⟨m, []⟩ : Expdb.Piece L)])).flatten = ms.map (fun m => ⟨m, []⟩) := by
    intro ms
    induction ms with
    | nil => rfl
    | cons m ms ih => simp [ih]
  unfold asDisjointUnion
  rw [asDisjoint, key]
  simp only [bind, Except.bind, pure, Except.pure, hfl, List.map_map]
  rfl

/-- Projection and simplification as sets. -/
theorem projectSimplify_mem (heng : EngineSpec eng) {hrep : List Pt → Mat} (hh : HRepSpec hrep) (hz : HRepNoZero hrep) {n : ℕ}
    (hn : 2 ≤ n) (dims : List ℕ) (hd : 1 ≤ pickDim dims 0 (n - 1)) (ms : List Mat) (hm : ∀ m ∈ ms, FullDim n m) :
    ∃ o, projectSimplify eng hrep dims (.disjoint (ms.map (fun m => .polytope m none)) : Region L) = .ok o ∧
      (o = none ↔ ms = []) ∧ ∀ p, o = some p → ∀ x, p.Mem x ↔ ∃ m ∈ ms, ∃ y, m.Contains y ∧ pickDims dims y = x := by
  rcases projectSimplify_spec (L := L) heng hh hz hn dims hd ms hm with ⟨h1, h2⟩ | ⟨qs, p, h1, h2, _, h4⟩
  · exact ⟨none, h2, by simp [h1], by simp⟩
  · refine ⟨some p, h1, ?_, ?_⟩
    · have : ms ≠ [] := by
        rintro rfl
        rcases h2 with h | h <;> simp at h
      simp [this]
    · intro p' hp' x
      rw [← Option.some.inj hp', ← h4]
      rcases h2 with ⟨_, q, rfl, rfl⟩ | ⟨_, rfl⟩
      · rw [Mem]; simp
      · rw [Mem, memAny_iff]
        simp [Mem]

/-- The dimensions kept by the projections. -/
theorem pick_five (s t a b c : ℚ) : pickDims [0, 1, 2] [s, t, a, b, c] = [s, t, a] ∧
    pickDims [0, 1, 3] [s, t, a, b, c] = [s, t, b] := by
  simp [pickDims, pickFrom]

theorem five (m : Mat) (hm : m.cols = 6) (y : Pt) (hy : m.Contains y) : ∃ s t a b c, y = [s, t, a, b, c] := by
  have hl := contains_length hy
  rw [hm] at hl
  match y, hl with
  | [s, t, a, b, c], _ => exact ⟨s, t, a, b, c, rfl⟩

/-- **C67, projection to rho** For a large value energy region built from full-dimensional bounded polytopes by intersections
and disjoint unions: if it has interior points, `lver_to_lv` returns a region whose points are all of the form
`(sigma, tau, rho)` for a point of the energy region, and which contains `(sigma, tau, rho)` for all limits
`(sigma, tau, rho, rho*, s)` of interior points. If it has no interior points, `lver_to_lv` raises `AttributeError` (`simplify` is
called on `None`). -/
theorem C67_lverToLv_partial (heng : EngineSpec eng) {hrep : List Pt → Mat} (hh : HRepSpec hrep) (hz : HRepNoZero hrep)
    (r : Region L) (hpl : Plain false r) (hfd : ∀ m ∈ r.leaves, FullDim 6 m) :
    ((∃ x, x.length = 5 ∧ IntMem r x) → ∃ p, lverToLv eng hrep r = .ok p ∧
      (∀ x, p.Mem x → ∃ s t a b c, r.Mem [s, t, a, b, c] ∧ x = [s, t, a]) ∧
      ∀ s t a b c, InnerLimit r.Mem [s, t, a, b, c] → p.Mem [s, t, a]) ∧
    ((¬ ∃ x, x.length = 5 ∧ IntMem r x) → lverToLv eng hrep r = .error .attributeError) := by
  obtain ⟨ms, h1, h2, h3, h4⟩ := convert_full heng (n := 6) (by norm_num) r hpl hfd
  obtain ⟨o, g1, g2, g3⟩ := projectSimplify_mem (L := L) heng hh hz (by norm_num : 2 ≤ 6) [0, 1, 2] (by decide) ms h2
  have hlim : ∀ x, x.length = 5 → InnerLimit r.Mem x → ∃ m ∈ ms, m.Contains x := by
    intro x hl hx
    obtain ⟨m, hm, _, hc⟩ := h4 x (by omega) (fun _ => True) (fun ε hε => by
      obtain ⟨y, k1, δ, k2, k3⟩ := hx ε hε
      exact ⟨y, k1, δ, k2, fun z hz => ⟨k3 z hz, fun _ _ _ => trivial⟩⟩)
    exact ⟨m, hm, hc⟩
  have hinner : ms = [] ↔ ¬ ∃ x, x.length = 5 ∧ IntMem r x := by
    constructor
    · rintro rfl ⟨x, hl, δ, hδ, hx⟩
      obtain ⟨m, hm, _⟩ := hlim x hl (fun ε hε => ⟨x, Near.refl hε x, δ, hδ, hx⟩)
      simp at hm
    · intro h
      by_contra hne
      obtain ⟨m, hm⟩ := List.exists_mem_of_ne_nil _ hne
      obtain ⟨s, hs, ε, hε, hi⟩ := (h2 m hm).inner
      refine h ⟨s, by omega, ε, hε, fun y hy => h3 m hm y ?_⟩
      exact (contains_iff_holds _ _ (by rw [hy.length, hs, (h2 m hm).cols])).mpr (hi y hy)
  unfold lverToLv
  rw [h1]
  simp only [g1]
  constructor
  · intro hi
    cases o with
    | none => exact absurd hi (hinner.mp (g2.mp rfl))
    | some p =>
      refine ⟨p, rfl, ?_, ?_⟩
      · intro x hx
        obtain ⟨m, hm, y, hy, e⟩ := (g3 p rfl x).mp hx
        obtain ⟨s, t, a, b, c, rfl⟩ := five m (h2 m hm).cols y hy
        exact ⟨s, t, a, b, c, h3 m hm _ hy, by rw [← e, (pick_five s t a b c).1]⟩
      · intro s t a b c hl
        obtain ⟨m, hm, hc⟩ := hlim _ rfl hl
        exact (g3 p rfl _).mpr ⟨m, hm, _, hc, (pick_five s t a b c).1⟩
  · intro hi
    rw [g2.mpr (hinner.mpr hi)]

/-- **C67, projection to rho*** Under the assumptions of `C67_bestLver_partial`, `compute_LV_star` does not raise, and returns what
`lver_to_energy` returns for the result of `compute_best_lver`. It is `None` exactly if the set of tuples has no interior points.
Otherwise all its points are `(sigma, tau, rho*)` for a tuple of the set, and it contains `(sigma, tau, rho*)` for all limits of
interior points of the set. -/
theorem C67_energy_partial (heng : EngineSpec eng) {hrep : List Pt → Mat} (hh : HRepSpec hrep) (hz : HRepNoZero hrep)
    (lvers tl : List (Region L)) (transforms : List (Region L → Py (Region L)))
    (ht : LargeValues.applyTransforms lvers transforms = .ok tl) (zeta : Bool) (zlvers : List (Region L))
    (hpl : ∀ r ∈ lvers ++ tl ++ (if zeta then zlvers else []), Plain false r ∧ ∀ m ∈ r.leaves, FullDim 6 m)
    (d : Mat) (hd : FullDim 3 d) :
    ∃ o E, LargeValues.bestLver eng lvers transforms zeta zlvers (.polytope d none) = .ok E ∧ lverToEnergy eng hrep E = .ok o ∧
      lvStar eng hrep lvers transforms zeta zlvers (.polytope d none) = .ok o ∧
      (o = none ↔ ∀ x, ¬ InnerLimit (Tuples d (lvers ++ tl ++ (if zeta then zlvers else []))) x) ∧
      ∀ p, o = some p →
        (∀ x, p.Mem x → ∃ s t a b c, Tuples d (lvers ++ tl ++ (if zeta then zlvers else [])) [s, t, a, b, c] ∧ x = [s, t, b]) ∧
        ∀ s t a b c, InnerLimit (Tuples d (lvers ++ tl ++ (if zeta then zlvers else []))) [s, t, a, b, c] → p.Mem [s, t, b] := by
  obtain ⟨ms, h1, h2, h3, h4⟩ := best_spec heng lvers tl transforms ht zeta zlvers hpl d hd
  obtain ⟨o, g1, g2, g3⟩ := projectSimplify_mem (L := L) heng hh hz (by norm_num : 2 ≤ 6) [0, 1, 3] (by decide) ms h2
  have hlim : ∀ x, InnerLimit (Tuples d (lvers ++ tl ++ (if zeta then zlvers else []))) x → ∃ m ∈ ms, m.Contains x := by
    intro x hx
    have hl : x.length = 5 := by
      obtain ⟨y, k1, δ, k2, k3⟩ := hx 1 one_pos
      obtain ⟨s, t, a, b, c, e, _⟩ := k3 y (Near.refl k2 y)
      rw [← k1.length, e]
      rfl
    obtain ⟨m, hm, _, hc⟩ := h4 x hl (fun _ => True) (fun ε hε => by
      obtain ⟨y, k1, δ, k2, k3⟩ := hx ε hε
      exact ⟨y, k1, δ, k2, fun z hz => ⟨k3 z hz, fun _ _ _ => trivial⟩⟩)
    exact ⟨m, hm, hc⟩
  refine ⟨o, _, h1, ?_, ?_, ?_, ?_⟩
  · unfold lverToEnergy
    rw [asDisjointUnion_polys]
    exact g1
  · unfold lvStar
    rw [h1]
    exact g1
  · rw [g2]
    constructor
    · rintro rfl x hx
      obtain ⟨m, hm, _⟩ := hlim x hx
      simp at hm
    · intro h
      by_contra hne
      obtain ⟨m, hm⟩ := List.exists_mem_of_ne_nil _ hne
      obtain ⟨s, hs, ε, hε, hi⟩ := (h2 m hm).inner
      refine h s (fun η hη => ⟨s, Near.refl hη s, ε, hε, fun y hy => h3 m hm y ?_⟩)
      exact (contains_iff_holds _ _ (by rw [hy.length, hs, (h2 m hm).cols])).mpr (hi y hy)
  · rintro p rfl
    constructor
    · intro x hx
      obtain ⟨m, hm, y, hy, e⟩ := (g3 p rfl x).mp hx
      obtain ⟨s, t, a, b, c, rfl⟩ := five m (h2 m hm).cols y hy
      exact ⟨s, t, a, b, c, h3 m hm _ hy, by rw [← e, (pick_five s t a b c).2]⟩
    · intro s t a b c hl
      obtain ⟨m, hm, hc⟩ := hlim _ hl
      exact (g3 p rfl _).mpr ⟨m, hm, _, hc, (pick_five s t a b c).2⟩

/-! ### C68: the bound on the additive energy -/

/-- The polygon `x0 ≤ sigma ≤ x1`, `m1 sigma + c1 ≤ tau ≤ m2 sigma + c2`. -/
def strip (x0 x1 m1 c1 m2 c2 : ℚ) : Mat :=
  ⟨3, [⟨false, -x0, [1, 0]⟩, ⟨false, x1, [-1, 0]⟩, ⟨false, -c1, [-m1, 1]⟩, ⟨false, c2, [m2, -1]⟩]⟩

theorem energyDomain_eq (m c x0 x1 : ℚ) : energyDomain m c x0 x1 = .ok (strip x0 x1 m c (2 * m) (2 * c)) := by
  simp [energyDomain, Mat.ofConstraints, Mat.ofRows, LargeValues.rowOf, Row.isZero, strip]

theorem energyZetaDomain_eq (m c x0 x1 : ℚ) : energyZetaDomain m c x0 x1 = .ok (strip x0 x1 0 2 m c) := by
  simp [energyZetaDomain, Mat.ofConstraints, Mat.ofRows, LargeValues.rowOf, Row.isZero, strip]

theorem strip_wf (x0 x1 m1 c1 m2 c2 : ℚ) : (strip x0 x1 m1 c1 m2 c2).WF := by
  intro r hr
  simp only [strip, List.mem_cons, List.not_mem_nil, or_false] at hr
  rcases hr with rfl | rfl | rfl | rfl <;> rfl

theorem strip_contains (x0 x1 m1 c1 m2 c2 : ℚ) (x : Pt) : (strip x0 x1 m1 c1 m2 c2).Contains x ↔
    ∃ s t, x = [s, t] ∧ (x0 ≤ s ∧ s ≤ x1) ∧ m1 * s + c1 ≤ t ∧ t ≤ m2 * s + c2 := by
  constructor
  · intro h
    have hl := contains_length h
    rw [contains_iff_holds _ _ hl] at h
    match x, hl with
    | [s, t], _ =>
      have h1 := (h ⟨false, -x0, [1, 0]⟩ (by simp [strip])).2 rfl
      have h2 := (h ⟨false, x1, [-1, 0]⟩ (by simp [strip])).2 rfl
      have h3 := (h ⟨false, -c1, [-m1, 1]⟩ (by simp [strip])).2 rfl
      have h4 := (h ⟨false, c2, [m2, -1]⟩ (by simp [strip])).2 rfl
      simp at h1 h2 h3 h4
      exact ⟨s, t, rfl, ⟨by linarith, by linarith⟩, by linarith, by linarith⟩
  · rintro ⟨s, t, rfl, ⟨h1, h2⟩, h3, h4⟩
    rw [contains_iff_holds _ _ rfl]
    intro r hr
    simp only [strip, List.mem_cons, List.not_mem_nil, or_false] at hr
    rcases hr with rfl | rfl | rfl | rfl <;> refine ⟨fun h => (by cases h), fun _ => ?_⟩ <;> simp <;> linarith

theorem strip_fullDim (x0 x1 m1 c1 m2 c2 s0 : ℚ) (h0 : x0 < s0) (h1 : s0 < x1) (h2 : m1 * s0 + c1 < m2 * s0 + c2) :
    FullDim 3 (strip x0 x1 m1 c1 m2 c2) := by
  refine ⟨strip_wf _ _ _ _ _ _, rfl, ?_, ⟨max (max |x0| |x1|) (max (|m1| * max |x0| |x1| + |c1|) (|m2| * max |x0| |x1| + |c2|)), ?_⟩,
    [s0, ((m1 * s0 + c1) + (m2 * s0 + c2)) / 2], rfl, Strict.interior ?_⟩
  · intro r hr
    simp only [strip, List.mem_cons, List.not_mem_nil, or_false] at hr
    rcases hr with rfl | rfl | rfl | rfl <;> simp [Row.isZero]
  · intro x hx v hv
    obtain ⟨s, t, rfl, ⟨k1, k2⟩, k3, k4⟩ := (strip_contains _ _ _ _ _ _ x).mp hx
    have hs : |s| ≤ max |x0| |x1| := abs_le_max_abs_abs k1 k2
    have hb : ∀ a b : ℚ, |a * s + b| ≤ |a| * max |x0| |x1| + |b| := by
      intro a b
      refine (abs_add_le _ _).trans (add_le_add ?_ le_rfl)
      rw [abs_mul]
      exact mul_le_mul_of_nonneg_left hs (abs_nonneg _)
    simp only [List.mem_cons, List.not_mem_nil, or_false] at hv
    rcases hv with rfl | rfl
    · exact hs.trans (le_max_left _ _)
    · exact (abs_le_max_abs_abs k3 k4).trans ((max_le_max (hb m1 c1) (hb m2 c2)).trans (le_max_right _ _))
  · intro r hr
    simp only [strip, List.mem_cons, List.not_mem_nil, or_false] at hr
    rcases hr with rfl | rfl | rfl | rfl <;> refine ⟨rfl, ?_⟩ <;> simp <;> linarith

/-- `(s, t, a, b, c)` is a limit of interior points of `S` with larger first coordinate. -/
def RightLimit5 (S : Pt → Prop) (s t a b c : ℚ) : Prop :=
  ∀ ε : ℚ, 0 < ε → ∃ s' t' a' b' c', Near ε [s, t, a, b, c] [s', t', a', b', c'] ∧ s < s' ∧
    ∃ δ : ℚ, 0 < δ ∧ ∀ z, Near δ [s', t', a', b', c'] z → S z

omit [DecidableEq L] in
theorem regionPolys_union (qs : List Mat) : regionPolys (.union (qs.map (fun m => .polytope m none)) : Region L) = .ok qs := by
  rw [regionPolys]
  induction qs with
  | nil => rfl
  | cons q qs ih =>
    rw [List.map_cons, childPolys, childPoly, ih]
    rfl

/-- The polytopes `ms` are the result of `compute_best_lver`: full-dimensional, consisting of tuples, and covering the tuples that are
limits of interior points. -/
def IsBest (eng : Engine) (lvers : List (Region L)) (transforms : List (Region L → Py (Region L))) (zeta : Bool)
    (zlvers all : List (Region L)) (d : Mat) (ms : List Mat) : Prop :=
  LargeValues.bestLver eng lvers transforms zeta zlvers (.polytope d none) = .ok (.disjoint (ms.map (fun m => .polytope m none))) ∧
    (∀ m ∈ ms, FullDim 6 m) ∧ (∀ m ∈ ms, ∀ x, m.Contains x → Tuples d all x) ∧
    ∀ x, x.length = 5 → ∀ Q : Mat → Prop, (∀ ε : ℚ, 0 < ε → ∃ y, Near ε x y ∧ ∃ δ : ℚ, 0 < δ ∧ ∀ z, Near δ y z →
      Tuples d all z ∧ ∀ m ∈ ms, m.Contains z → Q m) → ∃ m ∈ ms, Q m ∧ m.Contains x

/-- One half of the computation, from the result of `compute_best_lver`. -/
theorem energySup_of_best (heng : EngineSpec eng) {hrep : List Pt → Mat} (hh : HRepSpec hrep) (hz : HRepNoZero hrep)
    {edges : Mat → List (Pt × Pt)} (hed : ∀ p : Mat, p.cols = 4 → p.Bounded → EdgesSpec edges p)
    {solve : RF ℝ → RF ℝ → List ℝ} (hs : SolveSpec solve) {isZero : Expr ℝ → Bool} (hi : ZeroSpec isZero)
    (lvers all : List (Region L)) (transforms : List (Region L → Py (Region L))) (zeta : Bool) (zlvers : List (Region L))
    (d : Mat) (hpos : ∀ s t, d.Contains [s, t] → 0 < t) (D : Ival ℝ) (hD : D.x0 < D.x1) (ms : List Mat)
    (hbest : IsBest eng lvers transforms zeta zlvers all d ms) :
      (ms.length = 1 → energySup eng hrep edges solve isZero lvers transforms zeta zlvers d D = .error .typeError) ∧
      (ms.length ≠ 1 → ∃ o qs, energySup eng hrep edges solve isZero lvers transforms zeta zlvers d D = .ok o ∧ SupOut edges D qs o ∧
        (∀ s t a b c, RightLimit5 (Tuples d all) s t a b c → ((b / t : ℚ) : ℝ) ∈ Ratios qs s) ∧
        ∀ s, ∀ v ∈ Ratios qs s, ∃ t a b c, Tuples d all [s, t, a, b, c] ∧ v = ((b / t : ℚ) : ℝ)) := by
  obtain ⟨h1, h2, h3, h4⟩ := hbest
  have hE : ∀ o, projectSimplify eng hrep [0, 1, 3] (.disjoint (ms.map (fun m => .polytope m none)) : Region L) = .ok o →
      energySup eng hrep edges solve isZero lvers transforms zeta zlvers d D =
        (match o with | none => .ok [] | some p => supLVOnTau edges solve isZero p D) := by
    intro o ho
    unfold energySup lverToEnergy
    rw [h1]
    simp only
    rw [asDisjointUnion_polys]
    simp only
    rw [ho]
    cases o <;> rfl
  have hlim : ∀ s t a b c, RightLimit5 (Tuples d all) s t a b c →
      ∀ ε : ℚ, 0 < ε → ∃ s' t' a' b' c', Near ε [s, t, a, b, c] [s', t', a', b', c'] ∧ s < s' ∧
        ∃ m ∈ ms, m.Contains [s', t', a', b', c'] := by
    intro s t a b c hl ε hε
    obtain ⟨s', t', a', b', c', k1, k2, δ, k3, k4⟩ := hl ε hε
    obtain ⟨m, hm, _, hc⟩ := h4 [s', t', a', b', c'] rfl (fun _ => True) (fun η hη =>
      ⟨_, Near.refl hη _, δ, k3, fun z hz => ⟨k4 z hz, fun _ _ _ => trivial⟩⟩)
    exact ⟨s', t', a', b', c', k1, k2, m, hm, hc⟩
  rcases projectSimplify_spec (L := L) heng hh hz (by norm_num : 2 ≤ 6) [0, 1, 3] (by decide) ms h2 with
    ⟨rfl, g1⟩ | ⟨qs, p, g1, g2, g3, g4⟩
  · refine ⟨by simp, fun _ => ⟨[], [], hE none g1, supOut_nil _ _, ?_, ?_⟩⟩
    · intro s t a b c hl
      obtain ⟨_, _, _, _, _, _, _, m, hm, _⟩ := hlim s t a b c hl 1 one_pos
      simp at hm
    · rintro s v ⟨q, hq, _⟩
      simp at hq
  · rcases g2 with ⟨k, q, rfl, rfl⟩ | ⟨k, rfl⟩
    · exact ⟨fun _ => by rw [hE _ g1]; rfl, fun h => absurd k h⟩
    · refine ⟨fun h => by omega, fun _ => ?_⟩
      have hq : ∀ q ∈ qs, ∀ s t r, q.Contains [s, t, r] → ∃ a c, Tuples d all [s, t, a, r, c] := by
        intro q hq s t r hc
        obtain ⟨m, hm, y, hy, e⟩ := (g4 _).mp ⟨q, hq, hc⟩
        obtain ⟨s', t', a, b, c, rfl⟩ := five m (h2 m hm).cols y hy
        rw [(pick_five _ _ _ _ _).2] at e
        simp only [List.cons.injEq, and_true] at e
        obtain ⟨rfl, rfl, rfl⟩ := e
        exact ⟨a, c, h3 m hm _ hy⟩
      obtain ⟨o, e1, e2⟩ := supOut_of_sup edges solve hs isZero hi qs D hD (by
        intro q hq'
        have h := g3 q hq'
        refine ⟨hed q h.cols h.bounded, h.cols, fun s t r hc => ?_⟩
        obtain ⟨a, c, s', t', a', b', c', e, hdc, _⟩ := hq q hq' s t r hc
        simp only [List.cons.injEq, and_true] at e
        rw [← e.1, ← e.2.1] at hdc
        exact hpos s t hdc)
      refine ⟨o, qs, ?_, e2, ?_, ?_⟩
      · rw [hE _ g1]
        simp only
        unfold supLVOnTau
        rw [regionPolys_union]
        exact e1
      · intro s t a b c hl
        obtain ⟨q, hq', hQ, hc⟩ := cover_near (n := 4) qs (fun q => ∃ s' t' r', q.Contains [s', t', r'] ∧ s < s') [s, t, b] rfl
          (fun q hq' => (g3 q hq').cols) (by
            intro ε hε
            obtain ⟨s', t', a', b', c', k1, k2, m, hm, k3⟩ := hlim s t a b c hl ε hε
            obtain ⟨q, hq', hc⟩ := (g4 [s', t', b']).mpr ⟨m, hm, _, k3, (pick_five _ _ _ _ _).2⟩
            have := near_pick [0, 1, 3] _ _ 0 k1
            exact ⟨[s', t', b'], this, q, hq', ⟨s', t', b', hc, k2⟩, hc⟩)
        exact ⟨q, hq', t, b, hc, hQ, rfl⟩
      · rintro s v ⟨q, hq', t, r, hc, _, rfl⟩
        obtain ⟨a, c, h⟩ := hq q hq' s t r hc
        exact ⟨t, a, r, c, h, rfl⟩

/-- One half of the computation. -/
theorem energySup_spec (heng : EngineSpec eng) {hrep : List Pt → Mat} (hh : HRepSpec hrep) (hz : HRepNoZero hrep)
    {edges : Mat → List (Pt × Pt)} (hed : ∀ p : Mat, p.cols = 4 → p.Bounded → EdgesSpec edges p)
    {solve : RF ℝ → RF ℝ → List ℝ} (hs : SolveSpec solve) {isZero : Expr ℝ → Bool} (hi : ZeroSpec isZero)
    (lvers tl : List (Region L)) (transforms : List (Region L → Py (Region L)))
    (ht : LargeValues.applyTransforms lvers transforms = .ok tl) (zeta : Bool) (zlvers : List (Region L))
    (hpl : ∀ r ∈ lvers ++ tl ++ (if zeta then zlvers else []), Plain false r ∧ ∀ m ∈ r.leaves, FullDim 6 m)
    (d : Mat) (hd : FullDim 3 d) (hpos : ∀ s t, d.Contains [s, t] → 0 < t) (D : Ival ℝ) (hD : D.x0 < D.x1) :
    ∃ ms : List Mat, LargeValues.bestLver eng lvers transforms zeta zlvers (.polytope d none) =
        .ok (.disjoint (ms.map (fun m => .polytope m none))) ∧
      (ms.length = 1 → energySup eng hrep edges solve isZero lvers transforms zeta zlvers d D = .error .typeError) ∧
      (ms.length ≠ 1 → ∃ o qs, energySup eng hrep edges solve isZero lvers transforms zeta zlvers d D = .ok o ∧ SupOut edges D qs o ∧
        (∀ s t a b c, RightLimit5 (Tuples d (lvers ++ tl ++ (if zeta then zlvers else []))) s t a b c →
          ((b / t : ℚ) : ℝ) ∈ Ratios qs s) ∧
        ∀ s, ∀ v ∈ Ratios qs s, ∃ t a b c, Tuples d (lvers ++ tl ++ (if zeta then zlvers else [])) [s, t, a, b, c] ∧
          v = ((b / t : ℚ) : ℝ)) := by
  obtain ⟨ms, h⟩ := best_spec heng lvers tl transforms ht zeta zlvers hpl d hd
  exact ⟨ms, h.1, energySup_of_best heng hh hz hed hs hi lvers _ transforms zeta zlvers d hpos D hD ms h⟩

theorem quotient_one_sub (f : RF ℝ) (x : ℝ) (hx : x ≠ 1) :
    (quotient f (RF.make [-1, 1] none)).at x * (1 - x) = f.at x := by
  have h1 : (1 : ℝ) - x ≠ 0 := sub_ne_zero.mpr (Ne.symm hx)
  unfold quotient RF.at RF.make
  simp [polyExpr, polyLoop, Expr.eval]
  by_cases hd : f.den.eval x = 0
  · simp [hd]
  · rw [← sub_eq_add_neg, div_mul_eq_mul_div, mul_div_mul_right _ _ h1]

/-- **C68** For large value energy regions (and their transforms) and zeta large value energy regions built from
full-dimensional bounded polytopes by intersections and disjoint unions, and `tau0 = m sigma + c` which is at least 2 on the
interval: if `compute_best_lver` returns zero or at least two polytopes for `tau0 ≤ tau ≤ 2 tau0`, and likewise for
`2 ≤ tau ≤ tau0`, then `lver_to_energy_bound` does not raise. At each `s` of the interval other than 1 exactly one of the returned
pieces gives a value `v`, where `v (1 - s)` is at least `rho* / tau` for every tuple of either set that can be approached from the
right by interior points, and is equal to `rho* / tau` for a tuple of one of the sets (or the placeholder `-1000000`). If one of
the results is a single polytope, the function raises `TypeError`. Missing: tuples that cannot be approached from the right
(`C41_right_end_counterexample`), and polytopes without interior points. -/
theorem C68_energyBound_partial (heng : EngineSpec eng) {hrep : List Pt → Mat} (hh : HRepSpec hrep) (hz : HRepNoZero hrep)
    {edges : Mat → List (Pt × Pt)} (hed : ∀ p : Mat, p.cols = 4 → p.Bounded → EdgesSpec edges p)
    {solve : RF ℝ → RF ℝ → List ℝ} (hs : SolveSpec solve) {isZero : Expr ℝ → Bool} (hi : ZeroSpec isZero)
    (lvers tl : List (Region L)) (transforms : List (Region L → Py (Region L)))
    (ht : LargeValues.applyTransforms lvers transforms = .ok tl) (zlvers : List (Region L))
    (hpl : ∀ r ∈ lvers ++ tl ++ zlvers, Plain false r ∧ ∀ m ∈ r.leaves, FullDim 6 m)
    (m c x0 x1 : ℚ) (hx : x0 < x1) (h0 : 2 ≤ m * x0 + c) (h1 : 2 ≤ m * x1 + c) (h01 : 2 < m * x0 + c ∨ 2 < m * x1 + c)
    (incL incU : Bool) :
    ∃ ms1 ms2 : List Mat,
      LargeValues.bestLver eng lvers transforms false zlvers (.polytope (strip x0 x1 m c (2 * m) (2 * c)) none) =
        .ok (.disjoint (ms1.map (fun m => .polytope m none))) ∧
      LargeValues.bestLver eng lvers transforms true zlvers (.polytope (strip x0 x1 0 2 m c) none) =
        .ok (.disjoint (ms2.map (fun m => .polytope m none))) ∧
      ((ms1.length = 1 ∨ ms2.length = 1) →
        lverToEnergyBound eng hrep edges solve isZero lvers transforms zlvers m c x0 x1 incL incU = .error .typeError) ∧
      (ms1.length ≠ 1 → ms2.length ≠ 1 →
        ∃ out, lverToEnergyBound eng hrep edges solve isZero lvers transforms zlvers m c x0 x1 incL incU = .ok out ∧
          ∀ s, x0 ≤ s → s < x1 → s ≠ 1 → ∃ q ∈ out, q.2.x0 ≤ s ∧ s < q.2.x1 ∧
            (∀ q' ∈ out, q'.2.x0 ≤ s → s < q'.2.x1 → q' = q) ∧
            (∀ t a b c', RightLimit5 (Tuples (strip x0 x1 m c (2 * m) (2 * c)) (lvers ++ tl)) s t a b c' ∨
              RightLimit5 (Tuples (strip x0 x1 0 2 m c) (lvers ++ tl ++ zlvers)) s t a b c' →
              ((b / t : ℚ) : ℝ) ≤ q.1.at s * (1 - s)) ∧
            (q.1.at s * (1 - s) = -1000000 ∨
              ∃ t a b c', (Tuples (strip x0 x1 m c (2 * m) (2 * c)) (lvers ++ tl) [s, t, a, b, c'] ∨
                Tuples (strip x0 x1 0 2 m c) (lvers ++ tl ++ zlvers) [s, t, a, b, c']) ∧
                q.1.at s * (1 - s) = ((b / t : ℚ) : ℝ))) := by
  have hmid : 2 < m * ((x0 + x1) / 2) + c := by
    rcases h01 with h | h <;> linarith
  have hbetween : ∀ s, x0 ≤ s → s ≤ x1 → 2 ≤ m * s + c := by
    intro s k1 k2
    rcases le_total 0 m with hm | hm
    · have := mul_le_mul_of_nonneg_left k1 hm; linarith
    · have := mul_le_mul_of_nonpos_left k2 hm; linarith
  have hD : ((⟨x0, x1, incL, incU⟩ : Ival ℝ)).x0 < (⟨x0, x1, incL, incU⟩ : Ival ℝ).x1 := by
    simpa using hx
  obtain ⟨ms1, a1, a2, a3⟩ := energySup_spec heng hh hz hed hs hi lvers tl transforms ht false zlvers
    (fun r hr => hpl r (List.mem_append_left zlvers (by simpa using hr)))
    (strip x0 x1 m c (2 * m) (2 * c)) (strip_fullDim _ _ _ _ _ _ ((x0 + x1) / 2) (by linarith) (by linarith) (by linarith))
    (by
      intro s t hc
      obtain ⟨s', t', e, k, k3, _⟩ := (strip_contains _ _ _ _ _ _ _).mp hc
      simp only [List.cons.injEq, and_true] at e
      rw [e.2]
      linarith [hbetween s' k.1 k.2]) ⟨x0, x1, incL, incU⟩ hD
  obtain ⟨ms2, b1, b2, b3⟩ := energySup_spec heng hh hz hed hs hi lvers tl transforms ht true zlvers
    (fun r hr => hpl r (by simpa using hr))
    (strip x0 x1 0 2 m c) (strip_fullDim _ _ _ _ _ _ ((x0 + x1) / 2) (by linarith) (by linarith) (by linarith))
    (by
      intro s t hc
      obtain ⟨s', t', e, k, k3, _⟩ := (strip_contains _ _ _ _ _ _ _).mp hc
      simp only [List.cons.injEq, and_true] at e
      rw [e.2]
      linarith) ⟨x0, x1, incL, incU⟩ hD
  simp only [Bool.false_eq_true, if_false, List.append_nil, if_true] at a2 a3 b2 b3
  refine ⟨ms1, ms2, a1, b1, ?_, ?_⟩
  · intro h
    unfold lverToEnergyBound
    rw [energyDomain_eq, energyZetaDomain_eq]
    simp only [bind, Except.bind]
    by_cases hm : ms1.length = 1
    · rw [a2 hm]
    · obtain ⟨o, _, e, _⟩ := a3 hm
      rw [e]
      simp only
      rw [b2 (h.resolve_left hm)]
  · intro k1 k2
    obtain ⟨o1, q1, e1, f1, f2, f3⟩ := a3 k1
    obtain ⟨o2, q2, e2, g1, g2, g3⟩ := b3 k2
    refine ⟨(rfMax solve isZero (funcDomains o1 ++ funcDomains o2) ⟨x0, x1, incL, incU⟩ true).map
      (fun p => (quotient p.fn (RF.make [-1, 1] none), p.dom)), ?_, ?_⟩
    · unfold lverToEnergyBound
      rw [energyDomain_eq, energyZetaDomain_eq]
      simp only [bind, Except.bind, pure, Except.pure]
      rw [e1]
      simp only
      rw [e2]
    · intro s l1 l2 l3
      obtain ⟨q, r1, r2, r3, r4, r5⟩ := max2_core hs hi hD f1 g1 true (by simp) s (by simpa using l1) (by simpa using l2)
      have hv := quotient_one_sub q.fn s (by exact_mod_cast l3)
      refine ⟨_, List.mem_map.mpr ⟨q, r1, rfl⟩, r2, r3, ?_, ?_, ?_⟩
      · intro q' hq' i1 i2
        obtain ⟨p, hp, rfl⟩ := List.mem_map.mp hq'
        rw [r4 p hp i1 i2]
      · intro t a b c' h
        simp only [hv]
        rcases h with h | h
        · obtain ⟨p, hp, k⟩ := f2 s t a b c' h
          exact r5.2 (.inr ⟨p, by simp [hp], k⟩)
        · obtain ⟨p, hp, k⟩ := g2 s t a b c' h
          exact r5.2 (.inr ⟨p, by simp [hp], k⟩)
      · simp only [hv]
        rcases r5.1 with h | ⟨p, hp, k⟩
        · exact .inl h
        · right
          rcases List.mem_append.mp hp with hp | hp
          · obtain ⟨t, a, b, c', i1, i2⟩ := f3 s _ ⟨p, hp, k⟩
            exact ⟨t, a, b, c', .inl i1, i2⟩
          · obtain ⟨t, a, b, c', i1, i2⟩ := g3 s _ ⟨p, hp, k⟩
            exact ⟨t, a, b, c', .inr i1, i2⟩

/-- **Finding** (zero_density_energy_estimate.py:281, region.py:229-233) Without any large value energy region the best region is the
domain itself, which is one polytope. Its projection is a region of type POLYTOPE instead of a union, and
`lver_to_energy_bound` raises `TypeError`. -/
theorem C68_single_counterexample (heng : EngineSpec eng) {hrep : List Pt → Mat} (hh : HRepSpec hrep) (hz : HRepNoZero hrep)
    {edges : Mat → List (Pt × Pt)} (hed : ∀ p : Mat, p.cols = 4 → p.Bounded → EdgesSpec edges p)
    {solve : RF ℝ → RF ℝ → List ℝ} (hs : SolveSpec solve) {isZero : Expr ℝ → Bool} (hi : ZeroSpec isZero)
    (m c x0 x1 : ℚ) (hx : x0 < x1) (h0 : 2 < m * x0 + c) (h1 : 2 < m * x1 + c) (incL incU : Bool) :
    lverToEnergyBound eng hrep edges solve isZero ([] : List (Region L)) [] [] m c x0 x1 incL incU = .error .typeError := by
  obtain ⟨ms1, ms2, a1, _, a3, _⟩ := C68_energyBound_partial (L := L) heng hh hz hed hs hi [] [] [] rfl [] (by simp) m c x0 x1 hx
    h0.le h1.le (.inl h0) incL incU
  refine a3 (.inl ?_)
  obtain ⟨D, g1, _, _⟩ := lift_domain (L := L) (strip_fullDim x0 x1 m c (2 * m) (2 * c) ((x0 + x1) / 2) (by linarith) (by linarith)
    (by linarith))
  have e : asDisjoint eng false (.intersect [.polytope D none] : Region L) = .ok [⟨D, []⟩] := by
    unfold asDisjoint asDisjointList asDisjointList asDisjoint leafPieces
    rfl
  unfold LargeValues.bestLver at a1
  rw [show LargeValues.applyTransforms ([] : List (Region L)) [] = .ok [] from rfl] at a1
  simp only [bind, Except.bind] at a1
  rw [g1] at a1
  simp only [Bool.false_eq_true, if_false, List.append_nil] at a1
  unfold asDisjointUnion at a1
  rw [e] at a1
  simp only [bind, Except.bind, pure, Except.pure, Except.ok.injEq, Region.disjoint.injEq] at a1
  have := congrArg List.length a1
  simpa using this.symm

/-! ### C69: zero density estimates from large value energy regions -/

/-- One half of `lver_to_zd`. -/
theorem lverSup_spec (heng : EngineSpec eng) {hrep : List Pt → Mat} (hh : HRepSpec hrep) (hz : HRepNoZero hrep)
    {edges : Mat → List (Pt × Pt)} (hed : ∀ p : Mat, p.cols = 4 → p.Bounded → EdgesSpec edges p)
    {solve : RF ℝ → RF ℝ → List ℝ} (hs : SolveSpec solve) {isZero : Expr ℝ → Bool} (hi : ZeroSpec isZero)
    (D : Ival ℝ) (hD : D.x0 < D.x1) (ms : List Mat) (hm : ∀ m ∈ ms, FullDim 6 m)
    (hpos : ∀ m ∈ ms, ∀ s t a b c, m.Contains [s, t, a, b, c] → 0 < t) (h2 : 2 ≤ ms.length) :
    ∃ o qs, lverSup eng hrep edges solve isZero D (some (.disjoint (ms.map (fun m => .polytope m none)) : Region L)) = .ok o ∧
      SupOut edges D qs o ∧
      (∀ m ∈ ms, ∀ s t a b c s' t' a' b' c', m.Contains [s, t, a, b, c] → m.Contains [s', t', a', b', c'] → s < s' →
        ((a / t : ℚ) : ℝ) ∈ Ratios qs s) ∧
      ∀ s, ∀ v ∈ Ratios qs s, ∃ m ∈ ms, ∃ t a b c, m.Contains [s, t, a, b, c] ∧ v = ((a / t : ℚ) : ℝ) := by
  rcases projectSimplify_spec (L := L) heng hh hz (by norm_num : 2 ≤ 6) [0, 1, 2] (by decide) ms hm with
    ⟨rfl, g1⟩ | ⟨qs, p, g1, g2, g3, g4⟩
  · simp at h2
  · rcases g2 with ⟨k, q, rfl, rfl⟩ | ⟨_, rfl⟩
    · omega
    · have hq : ∀ q ∈ qs, ∀ s t r, q.Contains [s, t, r] → ∃ m ∈ ms, ∃ b c, m.Contains [s, t, r, b, c] := by
        intro q hq s t r hc
        obtain ⟨m, hm', y, hy, e⟩ := (g4 _).mp ⟨q, hq, hc⟩
        obtain ⟨s', t', a, b, c, rfl⟩ := five m (hm m hm').cols y hy
        rw [(pick_five _ _ _ _ _).1] at e
        simp only [List.cons.injEq, and_true] at e
        obtain ⟨rfl, rfl, rfl⟩ := e
        exact ⟨m, hm', b, c, hy⟩
      obtain ⟨o, e1, e2⟩ := supOut_of_sup edges solve hs isZero hi qs D hD (by
        intro q hq'
        have h := g3 q hq'
        refine ⟨hed q h.cols h.bounded, h.cols, fun s t r hc => ?_⟩
        obtain ⟨m, hm', b, c, hc'⟩ := hq q hq' s t r hc
        exact hpos m hm' _ _ _ _ _ hc')
      refine ⟨o, qs, ?_, e2, ?_, ?_⟩
      · unfold lverSup
        simp only
        rw [g1]
        simp only
        unfold supLVOnTau
        rw [regionPolys_union]
        exact e1
      · intro m hm' s t a b c s' t' a' b' c' k1 k2 hlt
        obtain ⟨q, hq', hQ, hc⟩ := cover_near (n := 4) qs (fun q => ∃ s' t' r', q.Contains [s', t', r'] ∧ s < s') [s, t, a] rfl
          (fun q hq' => (g3 q hq').cols) (by
            intro ε hε
            have hB : ∃ l : ℚ, 0 < l ∧ l ≤ 1 ∧ l * |s' - s| < ε ∧ l * |t' - t| < ε ∧ l * |a' - a| < ε := by
              refine ⟨min 1 (ε / (1 + |s' - s| + |t' - t| + |a' - a|)), lt_min one_pos (by positivity), min_le_left _ _, ?_⟩
              have hb : ∀ w : ℚ, |w| < 1 + |s' - s| + |t' - t| + |a' - a| →
                  min 1 (ε / (1 + |s' - s| + |t' - t| + |a' - a|)) * |w| < ε := by
                intro w hw
                have hp : 0 < 1 + |s' - s| + |t' - t| + |a' - a| := by positivity
                calc min 1 (ε / (1 + |s' - s| + |t' - t| + |a' - a|)) * |w|
                    ≤ ε / (1 + |s' - s| + |t' - t| + |a' - a|) * |w| :=
                      mul_le_mul_of_nonneg_right (min_le_right _ _) (abs_nonneg _)
                  _ < ε / (1 + |s' - s| + |t' - t| + |a' - a|) * (1 + |s' - s| + |t' - t| + |a' - a|) :=
                      mul_lt_mul_of_pos_left hw (by positivity)
                  _ = ε := div_mul_cancel₀ _ hp.ne'
              refine ⟨hb _ ?_, hb _ ?_, hb _ ?_⟩ <;>
                linarith [abs_nonneg (s' - s), abs_nonneg (t' - t), abs_nonneg (a' - a)]
            obtain ⟨l, l0, l1, l2, l3, l4⟩ := hB
            have hseg := contains_seg m _ _ l l0.le l1 k1 k2
            simp only [seg, List.zipWith_cons_cons, List.zipWith_nil_left] at hseg
            obtain ⟨q, hq', hc⟩ := (g4 _).mpr ⟨m, hm', _, hseg, (pick_five _ _ _ _ _).1⟩
            refine ⟨_, ?_, q, hq', ⟨_, _, _, hc, ?_⟩, hc⟩
            · have hab : ∀ u w : ℚ, l * |w - u| < ε → |u + l * (w - u) - u| < ε := by
                intro u w h
                rw [add_sub_cancel_left, abs_mul, abs_of_pos l0]
                exact h
              exact .cons (hab _ _ l2) (.cons (hab _ _ l3) (.cons (hab _ _ l4) .nil))
            · have : 0 < l * (s' - s) := mul_pos l0 (by linarith)
              linarith)
        exact ⟨q, hq', t, a, hc, hQ, rfl⟩
      · rintro s v ⟨q, hq', t, r, hc, _, rfl⟩
        obtain ⟨m, hm', b, c, h⟩ := hq q hq' s t r hc
        exact ⟨m, hm', t, r, b, c, h, rfl⟩

/-- **C69** For a large value energy region and a zeta large value energy region which are disjoint unions of at least two
full-dimensional bounded polytopes with `tau > 0`, `lver_to_zd` does not raise, and at each `s` of the interval exactly one of the
returned pieces gives a value: at least `rho / tau` for each point with `sigma = s` of a polytope that extends further to the
right, and equal to `rho / tau` for a point of one of the polytopes (or the placeholder `-1000000`). Missing: points of polytopes
that end at `s` (`C41_right_end_counterexample`), regions with one or no polytope (`C69_single_counterexample`,
`C69_empty_counterexample`) and lower-dimensional polytopes. -/
theorem C69_lverToZd_partial (heng : EngineSpec eng) {hrep : List Pt → Mat} (hh : HRepSpec hrep) (hz : HRepNoZero hrep)
    {edges : Mat → List (Pt × Pt)} (hed : ∀ p : Mat, p.cols = 4 → p.Bounded → EdgesSpec edges p)
    {solve : RF ℝ → RF ℝ → List ℝ} (hs : SolveSpec solve) {isZero : Expr ℝ → Bool} (hi : ZeroSpec isZero)
    (D : Ival ℝ) (hD : D.x0 < D.x1) (ms1 ms2 : List Mat) (hm : ∀ m ∈ ms1 ++ ms2, FullDim 6 m)
    (hpos : ∀ m ∈ ms1 ++ ms2, ∀ s t a b c, m.Contains [s, t, a, b, c] → 0 < t) (h1 : 2 ≤ ms1.length) (h2 : 2 ≤ ms2.length) :
    ∃ out, lverToZd eng hrep edges solve isZero (some (.disjoint (ms1.map (fun m => .polytope m none)) : Region L))
        (some (.disjoint (ms2.map (fun m => .polytope m none)))) D = .ok out ∧
      ∀ s : ℚ, D.x0 ≤ s → (s : ℝ) < D.x1 → ∃ q ∈ out, q.dom.x0 ≤ s ∧ s < q.dom.x1 ∧
        (∀ q' ∈ out, q'.dom.x0 ≤ s → s < q'.dom.x1 → q' = q) ∧
        (∀ m ∈ ms1 ++ ms2, ∀ t a b c s' t' a' b' c', m.Contains [s, t, a, b, c] → m.Contains [s', t', a', b', c'] → s < s' →
          ((a / t : ℚ) : ℝ) ≤ q.fn.at s) ∧
        (q.fn.at s = -1000000 ∨ ∃ m ∈ ms1 ++ ms2, ∃ t a b c, m.Contains [s, t, a, b, c] ∧ q.fn.at s = ((a / t : ℚ) : ℝ)) := by
  obtain ⟨o1, q1, a1, a2, a3, a4⟩ := lverSup_spec (L := L) heng hh hz hed hs hi D hD ms1 (fun m h => hm m (by simp [h]))
    (fun m h => hpos m (by simp [h])) h1
  obtain ⟨o2, q2, b1, b2, b3, b4⟩ := lverSup_spec (L := L) heng hh hz hed hs hi D hD ms2 (fun m h => hm m (by simp [h]))
    (fun m h => hpos m (by simp [h])) h2
  refine ⟨rfMax solve isZero (funcDomains o1 ++ funcDomains o2) D true, ?_, ?_⟩
  · unfold lverToZd
    rw [a1, b1]
    rfl
  · intro s l1 l2
    obtain ⟨q, r1, r2, r3, r4, r5⟩ := max2_core hs hi hD a2 b2 true (by simp) s l1 l2
    refine ⟨q, r1, r2, r3, r4, ?_, ?_⟩
    · intro m hm' t a b c s' t' a' b' c' k1 k2 k3
      rcases List.mem_append.mp hm' with hm' | hm'
      · obtain ⟨p, hp, k⟩ := a3 m hm' s t a b c s' t' a' b' c' k1 k2 k3
        exact r5.2 (.inr ⟨p, by simp [hp], k⟩)
      · obtain ⟨p, hp, k⟩ := b3 m hm' s t a b c s' t' a' b' c' k1 k2 k3
        exact r5.2 (.inr ⟨p, by simp [hp], k⟩)
    · rcases r5.1 with h | ⟨p, hp, k⟩
      · exact .inl h
      · right
        rcases List.mem_append.mp hp with hp | hp
        · obtain ⟨m, hm', t, a, b, c, i1, i2⟩ := a4 s _ ⟨p, hp, k⟩
          exact ⟨m, by simp [hm'], t, a, b, c, i1, i2⟩
        · obtain ⟨m, hm', t, a, b, c, i1, i2⟩ := b4 s _ ⟨p, hp, k⟩
          exact ⟨m, by simp [hm'], t, a, b, c, i1, i2⟩

/-- **Finding** (zero_density_estimate.py:499-500) For a large value energy region of one polytope the projection is a region of
type POLYTOPE, whose child cannot be iterated: `TypeError`. -/
theorem C69_single_counterexample (heng : EngineSpec eng) {hrep : List Pt → Mat} (hh : HRepSpec hrep) (hz : HRepNoZero hrep)
    (edges : Mat → List (Pt × Pt)) (solve : RF ℝ → RF ℝ → List ℝ) (isZero : Expr ℝ → Bool) (D : Ival ℝ) (m : Mat)
    (hm : FullDim 6 m) (zeta : Option (Region L)) :
    lverToZd eng hrep edges solve isZero (some (.disjoint [.polytope m none])) zeta D = .error .typeError := by
  rcases projectSimplify_spec (L := L) heng hh hz (by norm_num : 2 ≤ 6) [0, 1, 2] (by decide) [m] (by simpa using hm) with
    ⟨h, _⟩ | ⟨qs, p, g1, ⟨_, q, rfl, rfl⟩ | ⟨h, _⟩, _, _⟩
  · simp at h
  · have e : lverSup eng hrep edges solve isZero D (some (.disjoint [.polytope m none] : Region L)) = .error .typeError := by
      unfold lverSup
      simp only [List.map_cons, List.map_nil] at g1 ⊢
      rw [g1]
      rfl
    unfold lverToZd
    rw [e]
    rfl
  · simp at h

/-- **Finding** (zero_density_estimate.py:499-500) For an empty disjoint union the projection is `None`, on which `simplify` is called:
`AttributeError`. (`lver_to_energy` and `compute_LV_star` check for `None`.) -/
theorem C69_empty_counterexample (eng : Engine) (hrep : List Pt → Mat) (edges : Mat → List (Pt × Pt))
    (solve : RF ℝ → RF ℝ → List ℝ) (isZero : Expr ℝ → Bool) (D : Ival ℝ) (zeta : Option (Region L)) :
    lverToZd eng hrep edges solve isZero (some (.disjoint [])) zeta D = .error .attributeError := by
  have e : projectSimplify eng hrep [0, 1, 2] (.disjoint [] : Region L) = .ok none := by
    unfold projectSimplify
    rw [Region.project.eq_def]
    simp only
    rw [projectList]
  unfold lverToZd lverSup
  simp only
  rw [e]
  rfl

/-! ### Examples -/

/-- The region `sigma` in `[0, 1/4]` or `[1/2, 3/4]`, `tau` in `[0, 10]` of the examples. -/
theorem slabs_exist : ∃ D1 D2 : Mat, FullDim 6 D1 ∧ FullDim 6 D2 ∧
    (∀ x, D1.Contains x ↔ ∃ s t a b c, x = [s, t, a, b, c] ∧ (strip 0 (1 / 4) 0 0 0 10).Contains [s, t] ∧ (0 ≤ a ∧ a ≤ 1000000) ∧
      (0 ≤ b ∧ b ≤ 1000000) ∧ (0 ≤ c ∧ c ≤ 1000000)) ∧
    ∀ x, D2.Contains x ↔ ∃ s t a b c, x = [s, t, a, b, c] ∧ (strip (1 / 2) (3 / 4) 0 0 0 10).Contains [s, t] ∧
      (0 ≤ a ∧ a ≤ 1000000) ∧ (0 ≤ b ∧ b ≤ 1000000) ∧ (0 ≤ c ∧ c ≤ 1000000) := by
  obtain ⟨D1, _, g1, g2⟩ := lift_domain (L := ℕ) (strip_fullDim 0 (1 / 4) 0 0 0 10 (1 / 8) (by norm_num) (by norm_num) (by norm_num))
  obtain ⟨D2, _, g3, g4⟩ := lift_domain (L := ℕ) (strip_fullDim (1 / 2) (3 / 4) 0 0 0 10 (5 / 8) (by norm_num) (by norm_num)
    (by norm_num))
  exact ⟨D1, D2, g1, g3, g2, g4⟩

/-- The tuples of the two slabs over a strip. -/
theorem slabs_tuples {D1 D2 : Mat} (g1 : ∀ x, D1.Contains x ↔ ∃ s t a b c, x = [s, t, a, b, c] ∧
      (strip 0 (1 / 4) 0 0 0 10).Contains [s, t] ∧ (0 ≤ a ∧ a ≤ 1000000) ∧ (0 ≤ b ∧ b ≤ 1000000) ∧ (0 ≤ c ∧ c ≤ 1000000))
    (g2 : ∀ x, D2.Contains x ↔ ∃ s t a b c, x = [s, t, a, b, c] ∧ (strip (1 / 2) (3 / 4) 0 0 0 10).Contains [s, t] ∧
      (0 ≤ a ∧ a ≤ 1000000) ∧ (0 ≤ b ∧ b ≤ 1000000) ∧ (0 ≤ c ∧ c ≤ 1000000)) (u v : ℚ) (hu : 0 ≤ u) (hv : v ≤ 10) (x : Pt) :
    Tuples (strip 0 (3 / 4) 0 u 0 v) [.disjoint [.polytope D1 none, .polytope D2 (none : Option ℕ)]] x ↔
      ∃ s t a b c, x = [s, t, a, b, c] ∧ ((0 ≤ s ∧ s ≤ 1 / 4) ∨ (1 / 2 ≤ s ∧ s ≤ 3 / 4)) ∧ (u ≤ t ∧ t ≤ v) ∧ (0 ≤ a ∧ a ≤ 1000000) ∧
        (0 ≤ b ∧ b ≤ 1000000) ∧ (0 ≤ c ∧ c ≤ 1000000) := by
  constructor
  · rintro ⟨s, t, a, b, c, rfl, h1, h2, h3, h4, h5⟩
    obtain ⟨s', t', e, k1, k2, k3⟩ := (strip_contains _ _ _ _ _ _ _).mp h1
    simp only [List.cons.injEq, and_true] at e
    obtain ⟨rfl, rfl⟩ := e
    have h5 := h5 _ (List.mem_singleton.mpr rfl)
    rw [Mem, memAny_iff] at h5
    obtain ⟨R, hR, h5⟩ := h5
    refine ⟨s, t, a, b, c, rfl, ?_, ⟨by linarith, by linarith⟩, h2, h3, h4⟩
    simp only [List.mem_cons, List.not_mem_nil, or_false] at hR
    rcases hR with rfl | rfl <;> rw [Mem] at h5
    · obtain ⟨_, _, _, _, _, e, k, _⟩ := (g1 _).mp h5
      obtain ⟨_, _, e', k, _⟩ := (strip_contains _ _ _ _ _ _ _).mp k
      simp only [List.cons.injEq, and_true] at e e'
      left; rw [e.1, e'.1]; exact k
    · obtain ⟨_, _, _, _, _, e, k, _⟩ := (g2 _).mp h5
      obtain ⟨_, _, e', k, _⟩ := (strip_contains _ _ _ _ _ _ _).mp k
      simp only [List.cons.injEq, and_true] at e e'
      right; rw [e.1, e'.1]; exact k
  · rintro ⟨s, t, a, b, c, rfl, h1, h2, h3, h4, h5⟩
    refine ⟨s, t, a, b, c, rfl, (strip_contains _ _ _ _ _ _ _).mpr ⟨s, t, rfl, ?_, by linarith, by linarith⟩, h3, h4, h5, ?_⟩
    · rcases h1 with h | h <;> constructor <;> linarith
    · intro R hR
      simp only [List.mem_singleton] at hR
      subst hR
      rw [Mem, memAny_iff]
      rcases h1 with h | h
      · refine ⟨.polytope D1 none, by simp, ?_⟩
        rw [Mem]
        exact (g1 _).mpr ⟨s, t, a, b, c, rfl, (strip_contains _ _ _ _ _ _ _).mpr ⟨s, t, rfl, h, by linarith, by linarith⟩,
          h3, h4, h5⟩
      · refine ⟨.polytope D2 none, by simp, ?_⟩
        rw [Mem]
        exact (g2 _).mpr ⟨s, t, a, b, c, rfl, (strip_contains _ _ _ _ _ _ _).mpr ⟨s, t, rfl, h, by linarith, by linarith⟩,
          h3, h4, h5⟩

theorem slabs_plain {D1 D2 : Mat} (f1 : FullDim 6 D1) (f2 : FullDim 6 D2) (zeta : Bool) :
    ∀ r ∈ [.disjoint [.polytope D1 none, .polytope D2 (none : Option ℕ)]] ++ [] ++ (if zeta then [] else []),
      Plain false r ∧ ∀ m ∈ r.leaves, FullDim 6 m := by
  intro r hr
  have : r = .disjoint [.polytope D1 none, .polytope D2 none] := by cases zeta <;> simpa using hr
  subst this
  refine ⟨by simp [Plain, plainList_iff], ?_⟩
  simp only [leaves, leavesList, List.append_nil, List.cons_append, List.nil_append, List.mem_cons, List.not_mem_nil, or_false]
  rintro m (rfl | rfl)
  · exact f1
  · exact f2

theorem slabs_inner {D1 D2 : Mat} (g1 : ∀ x, D1.Contains x ↔ ∃ s t a b c, x = [s, t, a, b, c] ∧
      (strip 0 (1 / 4) 0 0 0 10).Contains [s, t] ∧ (0 ≤ a ∧ a ≤ 1000000) ∧ (0 ≤ b ∧ b ≤ 1000000) ∧ (0 ≤ c ∧ c ≤ 1000000))
    (g2 : ∀ x, D2.Contains x ↔ ∃ s t a b c, x = [s, t, a, b, c] ∧ (strip (1 / 2) (3 / 4) 0 0 0 10).Contains [s, t] ∧
      (0 ≤ a ∧ a ≤ 1000000) ∧ (0 ≤ b ∧ b ≤ 1000000) ∧ (0 ≤ c ∧ c ≤ 1000000)) (u v : ℚ) (hu : 0 ≤ u) (huv : u < v) (hv : v ≤ 10)
    (s : ℚ) (hs : s = 1 / 8 ∨ s = 5 / 8) (t0 : ℚ) (ht0 : t0 = (u + v) / 2) :
    InnerLimit (Tuples (strip 0 (3 / 4) 0 u 0 v) [.disjoint [.polytope D1 none, .polytope D2 (none : Option ℕ)]])
      [s, t0, 1, 1, 1] := by
  subst ht0
  refine (fun ε hε => ⟨_, .refl hε _, min (1 / 8) ((v - u) / 2), lt_min (by norm_num) (by linarith), fun z hz => ?_⟩)
  rw [slabs_tuples g1 g2 u v hu hv]
  match z, hz with
  | [s', t, a, b, c], .cons k1 (.cons k2 (.cons k3 (.cons k4 (.cons k5 .nil)))) =>
    have m1 := min_le_left (1 / 8) ((v - u) / 2)
    have m2 := min_le_right (1 / 8) ((v - u) / 2)
    rw [abs_lt] at k1 k2 k3 k4 k5
    refine ⟨s', t, a, b, c, rfl, ?_, ⟨by linarith, by linarith⟩, ⟨by linarith, by linarith⟩, ⟨by linarith, by linarith⟩,
      ⟨by linarith, by linarith⟩⟩
    rcases hs with rfl | rfl
    · left; constructor <;> linarith
    · right; constructor <;> linarith

/-- The two slabs do not become one polytope. -/
theorem slabs_length {D1 D2 : Mat} (heng : EngineSpec eng) (f1 : FullDim 6 D1) (f2 : FullDim 6 D2)
    (g1 : ∀ x, D1.Contains x ↔ ∃ s t a b c, x = [s, t, a, b, c] ∧
      (strip 0 (1 / 4) 0 0 0 10).Contains [s, t] ∧ (0 ≤ a ∧ a ≤ 1000000) ∧ (0 ≤ b ∧ b ≤ 1000000) ∧ (0 ≤ c ∧ c ≤ 1000000))
    (g2 : ∀ x, D2.Contains x ↔ ∃ s t a b c, x = [s, t, a, b, c] ∧ (strip (1 / 2) (3 / 4) 0 0 0 10).Contains [s, t] ∧
      (0 ≤ a ∧ a ≤ 1000000) ∧ (0 ≤ b ∧ b ≤ 1000000) ∧ (0 ≤ c ∧ c ≤ 1000000)) (u v : ℚ) (hu : 0 ≤ u) (huv : u < v) (hv : v ≤ 10)
    (zeta : Bool) (ms : List Mat)
    (h : LargeValues.bestLver eng [.disjoint [.polytope D1 none, .polytope D2 (none : Option ℕ)]] [] zeta []
      (.polytope (strip 0 (3 / 4) 0 u 0 v) none) = .ok (.disjoint (ms.map (fun m => .polytope m none)))) : ms.length ≠ 1 := by
  intro hl
  obtain ⟨m, rfl⟩ := List.length_eq_one_iff.mp hl
  obtain ⟨out, e1, e2, e3⟩ := C67_bestLver_partial heng [.disjoint [.polytope D1 none, .polytope D2 (none : Option ℕ)]] [] [] rfl zeta []
    (slabs_plain f1 f2 zeta) (strip 0 (3 / 4) 0 u 0 v) (strip_fullDim _ _ _ _ _ _ (1 / 8) (by norm_num) (by norm_num) (by linarith))
  rw [h] at e1
  have : ([.disjoint [.polytope D1 none, .polytope D2 (none : Option ℕ)]] ++ [] ++ (if zeta then [] else []) : List (Region ℕ)) =
    [.disjoint [.polytope D1 none, .polytope D2 none]] := by cases zeta <;> rfl
  rw [this] at e2 e3
  simp only [Except.ok.injEq] at e1
  subst e1
  have hM : ∀ x, (Region.disjoint ([m].map (fun m => .polytope m (none : Option ℕ)))).Mem x ↔ m.Contains x := by
    intro x
    rw [Mem, memAny_iff]
    simp [Mem]
  have hI : ∀ s, s = 1 / 8 ∨ s = 5 / 8 → m.Contains [s, (u + v) / 2, 1, 1, 1] := by
    intro s hs
    rw [← hM]
    exact e3 _ (slabs_inner g1 g2 u v hu huv hv s hs _ rfl)
  have := contains_seg m _ _ (1 / 2) (by norm_num) (by norm_num) (hI (1 / 8) (by norm_num)) (hI (5 / 8) (by norm_num))
  have := (slabs_tuples g1 g2 u v hu hv _).mp (e2 _ ((hM _).mpr this))
  obtain ⟨s, t, a, b, c, e, h, _⟩ := this
  simp only [seg, List.zipWith_cons_cons, List.cons.injEq] at e
  rw [← e.1] at h
  norm_num at h

/-- The best region of two slabs contains the points of both slabs and no point between them (C67). -/
example : ∃ (eng : Engine) (D1 D2 : Mat) (out : Region ℕ), EngineSpec eng ∧ FullDim 6 D1 ∧ FullDim 6 D2 ∧
    LargeValues.bestLver eng [.disjoint [.polytope D1 none, .polytope D2 none]] [] true [] (.polytope (strip 0 (3 / 4) 0 2 0 3) none) =
      .ok out ∧ out.Mem [1 / 8, 5 / 2, 1, 1, 1] ∧ ¬ out.Mem [3 / 8, 5 / 2, 1, 1, 1] := by
  obtain ⟨eng, heng⟩ := engineSpec_satisfiable
  obtain ⟨D1, D2, f1, f2, g1, g2⟩ := slabs_exist
  obtain ⟨out, e1, e2, e3⟩ := C67_bestLver_partial heng [.disjoint [.polytope D1 none, .polytope D2 (none : Option ℕ)]] [] [] rfl true []
    (slabs_plain f1 f2 true) (strip 0 (3 / 4) 0 2 0 3) (strip_fullDim _ _ _ _ _ _ (1 / 8) (by norm_num) (by norm_num) (by norm_num))
  simp only [if_true, List.append_nil] at e2 e3
  refine ⟨eng, D1, D2, out, heng, f1, f2, e1, e3 _ (slabs_inner g1 g2 _ _ (by norm_num) (by norm_num) (by norm_num) _ (.inl rfl) _ ?_), ?_⟩
  · norm_num
  · intro h
    obtain ⟨s, t, a, b, c, e, h, _⟩ := (slabs_tuples g1 g2 2 3 (by norm_num) (by norm_num) _).mp (e2 _ h)
    simp only [List.cons.injEq] at e
    rw [← e.1] at h
    norm_num at h

/-- Projection of the two slabs (C67). -/
example : ∃ (eng : Engine) (hrep : List Pt → Mat) (D1 D2 : Mat) (p : Region ℕ), EngineSpec eng ∧ HRepSpec hrep ∧ HRepNoZero hrep ∧
    FullDim 6 D1 ∧ FullDim 6 D2 ∧ lverToLv eng hrep (.disjoint [.polytope D1 none, .polytope D2 none]) = .ok p ∧
    p.Mem [1 / 8, 5, 7] ∧ ¬ p.Mem [3 / 8, 5, 7] := by
  obtain ⟨eng, heng⟩ := engineSpec_satisfiable
  obtain ⟨hrep, hh, hz⟩ := hRepNoZero_satisfiable
  obtain ⟨D1, D2, f1, f2, g1, g2⟩ := slabs_exist
  have hp := slabs_plain f1 f2 true _ (by simp : (.disjoint [.polytope D1 none, .polytope D2 none] : Region ℕ) ∈ _)
  have hball : ∀ z, Near (1 / 8) [1 / 8, 5, 7, 1, 1] z → (.disjoint [.polytope D1 none, .polytope D2 none] : Region ℕ).Mem z := by
    intro z hz
    have : Tuples (strip 0 (3 / 4) 0 0 0 10) [.disjoint [.polytope D1 none, .polytope D2 (none : Option ℕ)]] z := by
      rw [slabs_tuples g1 g2 _ _ (by norm_num) (by norm_num)]
      match z, hz with
      | [s', t, a, b, c], .cons k1 (.cons k2 (.cons k3 (.cons k4 (.cons k5 .nil)))) =>
        rw [abs_lt] at k1 k2 k3 k4 k5
        exact ⟨s', t, a, b, c, rfl, .inl ⟨by linarith, by linarith⟩, ⟨by linarith, by linarith⟩, ⟨by linarith, by linarith⟩,
          ⟨by linarith, by linarith⟩, ⟨by linarith, by linarith⟩⟩
    obtain ⟨_, _, _, _, _, _, _, _, _, _, h⟩ := this
    exact h _ (List.mem_singleton.mpr rfl)
  obtain ⟨p, e1, e2, e3⟩ := (C67_lverToLv_partial heng hh hz _ hp.1 hp.2).1 ⟨[1 / 8, 5, 7, 1, 1], rfl, 1 / 8, by norm_num, hball⟩
  refine ⟨eng, hrep, D1, D2, p, heng, hh, hz, f1, f2, e1,
    e3 _ _ _ _ _ (fun ε hε => ⟨_, .refl hε _, 1 / 8, by norm_num, hball⟩), fun h => ?_⟩
  obtain ⟨s, t, a, b, c, h, e⟩ := e2 _ h
  simp only [List.cons.injEq, and_true] at e
  rw [Mem, memAny_iff] at h
  obtain ⟨R, hR, h⟩ := h
  simp only [List.mem_cons, List.not_mem_nil, or_false] at hR
  rcases hR with rfl | rfl <;> rw [Mem] at h
  · obtain ⟨_, _, _, _, _, e', k, _⟩ := (g1 _).mp h
    obtain ⟨_, _, e'', k, _⟩ := (strip_contains _ _ _ _ _ _ _).mp k
    simp only [List.cons.injEq, and_true] at e' e''
    rw [← e''.1, ← e'.1, ← e.1] at k
    norm_num at k
  · obtain ⟨_, _, _, _, _, e', k, _⟩ := (g2 _).mp h
    obtain ⟨_, _, e'', k, _⟩ := (strip_contains _ _ _ _ _ _ _).mp k
    simp only [List.cons.injEq, and_true] at e' e''
    rw [← e''.1, ← e'.1, ← e.1] at k
    norm_num at k

/-- All external functions exist that the theorems of this file assume. -/
theorem C68_satisfiable : ∃ (eng : Engine) (hrep : List Pt → Mat) (edges : Mat → List (Pt × Pt)) (solve : RF ℝ → RF ℝ → List ℝ)
    (isZero : Expr ℝ → Bool), EngineSpec eng ∧ HRepSpec hrep ∧ HRepNoZero hrep ∧
      (∀ p : Mat, p.cols = 4 → p.Bounded → EdgesSpec edges p) ∧ SolveSpec solve ∧ ZeroSpec isZero := by
  obtain ⟨eng, heng⟩ := engineSpec_satisfiable
  obtain ⟨hrep, hh, hz⟩ := hRepNoZero_satisfiable
  obtain ⟨edges, solve, isZero, hs, hi, hed⟩ := C41_satisfiable
  exact ⟨eng, hrep, edges, solve, isZero, heng, hh, hz, hed, hs, hi⟩

/-- For the two slabs and `tau0 = 3` the energy bound exists, and `A*(1/8) (1 - 1/8) = 1000000 / 2` (C68). -/
example : ∃ (eng : Engine) (hrep : List Pt → Mat) (edges : Mat → List (Pt × Pt)) (solve : RF ℝ → RF ℝ → List ℝ)
    (isZero : Expr ℝ → Bool) (D1 D2 : Mat) (out : List (RF ℝ × Ival ℝ)), EngineSpec eng ∧ HRepSpec hrep ∧ HRepNoZero hrep ∧
    (∀ p : Mat, p.cols = 4 → p.Bounded → EdgesSpec edges p) ∧ SolveSpec solve ∧ ZeroSpec isZero ∧ FullDim 6 D1 ∧ FullDim 6 D2 ∧
    lverToEnergyBound eng hrep edges solve isZero [.disjoint [.polytope D1 none, .polytope D2 (none : Option ℕ)]] [] [] 0 3 0 (3 / 4)
      true false = .ok out ∧ ∃ q ∈ out, q.1.at ((1 / 8 : ℚ) : ℝ) * (1 - ((1 / 8 : ℚ) : ℝ)) = 500000 := by
  obtain ⟨eng, hrep, edges, solve, isZero, heng, hh, hz, hed, hs, hi⟩ := C68_satisfiable
  obtain ⟨D1, D2, f1, f2, g1, g2⟩ := slabs_exist
  obtain ⟨ms1, ms2, a1, a2, _, a4⟩ := C68_energyBound_partial heng hh hz hed hs hi
    [.disjoint [.polytope D1 none, .polytope D2 (none : Option ℕ)]] [] [] rfl [] (by simpa using slabs_plain f1 f2 true)
    0 3 0 (3 / 4) (by norm_num) (by norm_num) (by norm_num) (by norm_num) true false
  have z0 : (2 * 0 : ℚ) = 0 := by norm_num
  rw [z0] at a1 a4
  obtain ⟨out, b1, b2⟩ := a4 (slabs_length heng f1 f2 g1 g2 _ _ (by norm_num) (by norm_num) (by norm_num) false ms1 a1)
    (slabs_length heng f1 f2 g1 g2 _ _ (by norm_num) (by norm_num) (by norm_num) true ms2 a2)
  obtain ⟨q, q1, _, _, _, q2, q3⟩ := b2 (1 / 8) (by norm_num) (by norm_num) (by norm_num)
  refine ⟨eng, hrep, edges, solve, isZero, D1, D2, out, heng, hh, hz, hed, hs, hi, f1, f2, b1, q, q1, le_antisymm ?_ ?_⟩
  · rcases q3 with q3 | ⟨t, a, b, c, q3, q4⟩
    · rw [q3]; norm_num
    · rw [q4]
      have : 2 ≤ t ∧ b ≤ 1000000 := by
        simp only [List.append_nil] at q3
        rw [slabs_tuples g1 g2 _ _ (by norm_num) (by norm_num), slabs_tuples g1 g2 _ _ (by norm_num) (by norm_num)] at q3
        rcases q3 with ⟨_, _, _, _, _, e, _, k1, _, k2, _⟩ | ⟨_, _, _, _, _, e, _, k1, _, k2, _⟩ <;>
          simp only [List.cons.injEq, and_true] at e <;> rw [e.2.1, e.2.2.2.1]
        · exact ⟨by linarith [k1.1], k2.2⟩
        · exact ⟨k1.1, k2.2⟩
      have : b / t ≤ 500000 := by rw [div_le_iff₀ (by linarith)]; linarith
      exact_mod_cast this
  · have := q2 2 1 1000000 1 (.inr ?_)
    · norm_num at this ⊢
      exact this
    · intro ε hε
      let η := min (ε / 2) (1 / 16)
      have η0 : 0 < η := lt_min (by linarith) (by norm_num)
      have η1 : η < ε := (min_le_left _ _).trans_lt (by linarith)
      have η2 : η ≤ 1 / 16 := min_le_right _ _
      refine ⟨1 / 8 + η, 2 + η, 1, 1000000 - η, 1, ?_, by linarith, η / 2, by linarith, ?_⟩
      · refine .cons ?_ (.cons ?_ (.cons ?_ (.cons ?_ (.cons ?_ .nil)))) <;> rw [abs_lt] <;> constructor <;> linarith
      · intro z hz
        simp only [List.append_nil]
        rw [slabs_tuples g1 g2 _ _ (by norm_num) (by norm_num)]
        match z, hz with
        | [s, t, a, b, c], .cons h1 (.cons h2 (.cons h3 (.cons h4 (.cons h5 .nil)))) =>
          rw [abs_lt] at h1 h2 h3 h4 h5
          exact ⟨s, t, a, b, c, rfl, .inl ⟨by linarith, by linarith⟩, ⟨by linarith, by linarith⟩, ⟨by linarith, by linarith⟩,
            ⟨by linarith, by linarith⟩, ⟨by linarith, by linarith⟩⟩

/-- Two slabs that meet the hypotheses of C69: the supremum at `1/8` is `1000000 / 1`. -/
example : ∃ (eng : Engine) (hrep : List Pt → Mat) (edges : Mat → List (Pt × Pt)) (solve : RF ℝ → RF ℝ → List ℝ)
    (isZero : Expr ℝ → Bool) (D1 D2 : Mat) (out : List (Rational.Piece ℝ)), EngineSpec eng ∧ HRepSpec hrep ∧ HRepNoZero hrep ∧
    (∀ p : Mat, p.cols = 4 → p.Bounded → EdgesSpec edges p) ∧ SolveSpec solve ∧ ZeroSpec isZero ∧ FullDim 6 D1 ∧ FullDim 6 D2 ∧
    lverToZd eng hrep edges solve isZero (some (.disjoint [.polytope D1 none, .polytope D2 (none : Option ℕ)]))
      (some (.disjoint [.polytope D1 none, .polytope D2 none])) ⟨0, 1, true, false⟩ = .ok out ∧
    ∃ q ∈ out, q.fn.at ((1 / 8 : ℚ) : ℝ) = 1000000 := by
  obtain ⟨eng, hrep, edges, solve, isZero, heng, hh, hz, hed, hs, hi⟩ := C68_satisfiable
  obtain ⟨D1, _, f1, g1⟩ := lift_domain (L := ℕ) (strip_fullDim 0 (1 / 4) 0 1 0 10 (1 / 8) (by norm_num) (by norm_num) (by norm_num))
  obtain ⟨D2, _, f2, g2⟩ := lift_domain (L := ℕ) (strip_fullDim (1 / 2) (3 / 4) 0 2 0 10 (5 / 8) (by norm_num) (by norm_num)
    (by norm_num))
  have hpos : ∀ m ∈ [D1, D2] ++ [D1, D2], ∀ s t a b c, m.Contains [s, t, a, b, c] → 1 ≤ t ∧ a ≤ 1000000 := by
    intro m hm s t a b c hc
    simp only [List.cons_append, List.nil_append, List.mem_cons, List.not_mem_nil, or_false] at hm
    have : m = D1 ∨ m = D2 := by tauto
    rcases this with rfl | rfl
    · obtain ⟨_, _, _, _, _, e, k, k', _⟩ := (g1 _).mp hc
      obtain ⟨_, _, e', _, k, _⟩ := (strip_contains _ _ _ _ _ _ _).mp k
      simp only [List.cons.injEq, and_true] at e e'
      rw [e.2.1, e'.2, e.2.2.1]
      exact ⟨by linarith, k'.2⟩
    · obtain ⟨_, _, _, _, _, e, k, k', _⟩ := (g2 _).mp hc
      obtain ⟨_, _, e', _, k, _⟩ := (strip_contains _ _ _ _ _ _ _).mp k
      simp only [List.cons.injEq, and_true] at e e'
      rw [e.2.1, e'.2, e.2.2.1]
      exact ⟨by linarith, k'.2⟩
  obtain ⟨out, b1, b2⟩ := C69_lverToZd_partial (L := ℕ) heng hh hz hed hs hi ⟨0, 1, true, false⟩ (by norm_num) [D1, D2] [D1, D2]
    (by
      intro m hm
      simp only [List.cons_append, List.nil_append, List.mem_cons, List.not_mem_nil, or_false] at hm
      have : m = D1 ∨ m = D2 := by tauto
      rcases this with rfl | rfl
      · exact f1
      · exact f2) (fun m hm s t a b c hc => by linarith [(hpos m hm s t a b c hc).1]) (by simp) (by simp)
  obtain ⟨q, q1, _, _, _, q2, q3⟩ := b2 (1 / 8) (by norm_num) (by norm_num)
  refine ⟨eng, hrep, edges, solve, isZero, D1, D2, out, heng, hh, hz, hed, hs, hi, f1, f2, b1, q, q1, le_antisymm ?_ ?_⟩
  · rcases q3 with q3 | ⟨m, hm, t, a, b, c, k, q4⟩
    · rw [q3]; norm_num
    · rw [q4]
      obtain ⟨k1, k2⟩ := hpos m hm _ _ _ _ _ k
      have : a / t ≤ 1000000 := by rw [div_le_iff₀ (by linarith)]; linarith
      exact_mod_cast this
  · have hc : ∀ s : ℚ, 0 ≤ s → s ≤ 1 / 4 → D1.Contains [s, 1, 1000000, 0, 0] := by
      intro s h1 h2
      exact (g1 _).mpr ⟨s, 1, 1000000, 0, 0, rfl, (strip_contains _ _ _ _ _ _ _).mpr ⟨s, 1, rfl, ⟨h1, h2⟩, by norm_num, by norm_num⟩,
        by norm_num, by norm_num, by norm_num⟩
    have := q2 D1 (by simp) 1 1000000 0 0 (1 / 4) 1 1000000 0 0 (hc _ (by norm_num) (by norm_num)) (hc _ (by norm_num) le_rfl)
      (by norm_num)
    norm_num at this ⊢
    exact this

end ZeroDensity
end Expdb
