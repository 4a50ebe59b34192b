import Verif.Model.Project
import Verif.Props.RegionMore

/-!
# Property C63: projections
-/

namespace Expdb

/-! ### Picking coordinates -/

/-- Number of indices `i, …, i + d - 1` in `dims`. -/
def pickDim (dims : List ℕ) (i : ℕ) : ℕ → ℕ
  | 0 => 0
  | d + 1 => (if i ∈ dims then 1 else 0) + pickDim dims (i + 1) d

theorem pickFrom_length (dims : List ℕ) : ∀ (v : Pt) (i : ℕ), (pickFrom dims i v).length = pickDim dims i v.length := by
  intro v
  induction v with
  | nil => intro i; rfl
  | cons c v ih =>
    intro i
    rw [pickFrom, List.length_cons, pickDim]
    split
    · rw [List.length_cons, ih, add_comm]
    · rw [ih, zero_add]

theorem pickFrom_replicate (dims : List ℕ) (d : ℕ) : ∀ i, pickFrom dims i (List.replicate d 0) = List.replicate (pickDim dims i d) 0 := by
  induction d with
  | zero => intro i; rfl
  | succ d ih =>
    intro i
    rw [List.replicate_succ, pickFrom, pickDim]
    split
    · rw [ih, Nat.add_comm 1 (pickDim _ _ _), List.replicate_succ]
    · rw [ih, zero_add]

theorem pickFrom_map (dims : List ℕ) (f : ℚ → ℚ) : ∀ (v : Pt) (i : ℕ), pickFrom dims i (v.map f) = (pickFrom dims i v).map f := by
  intro v
  induction v with
  | nil => intro i; rfl
  | cons c v ih =>
    intro i
    rw [List.map_cons, pickFrom, pickFrom]
    split
    · rw [ih, List.map_cons]
    · rw [ih]

theorem pickFrom_zipWith (dims : List ℕ) (f : ℚ → ℚ → ℚ) : ∀ (v w : Pt) (i : ℕ), v.length = w.length →
    pickFrom dims i (List.zipWith f v w) = List.zipWith f (pickFrom dims i v) (pickFrom dims i w) := by
  intro v
  induction v with
  | nil => intro w i _; rfl
  | cons c v ih =>
    intro w i h
    cases w with
    | nil => simp at h
    | cons e w =>
      rw [List.zipWith_cons_cons, pickFrom, pickFrom, pickFrom]
      split
      · rw [ih w _ (by simpa using h), List.zipWith_cons_cons]
      · rw [ih w _ (by simpa using h)]

theorem pick_combo (dims : List ℕ) (d : ℕ) (ws : List ℚ) (vs : List Pt) (h : ∀ v ∈ vs, v.length = d) :
    pickDims dims (Mat.combo d ws vs) = Mat.combo (pickDim dims 0 d) ws (vs.map (pickDims dims)) := by
  unfold pickDims
  induction ws generalizing vs with
  | nil => simp [Mat.combo, pickFrom_replicate]
  | cons w ws ih =>
    cases vs with
    | nil => simp [Mat.combo, pickFrom_replicate]
    | cons v vs =>
      have hvs : ∀ u ∈ vs, u.length = d := fun u hu => h u (by simp [hu])
      rw [Mat.combo, List.map_cons, Mat.combo, pickFrom_zipWith _ _ _ _ _ (by
        rw [List.length_map, h v (by simp), Mat.combo_length d ws vs hvs]), pickFrom_map, ih vs hvs]

/-! ### The contract of the external library -/

/-- Contract of `cdd`: the inequalities computed for a non-empty list of points of dimension `d` describe their convex hull. -/
def HRepSpec (hrep : List Pt → Mat) : Prop :=
  ∀ (d : ℕ) (vs : List Pt), vs ≠ [] → (∀ v ∈ vs, v.length = d) →
    (hrep vs).WF ∧ (hrep vs).cols = d + 1 ∧ ∀ x, (hrep vs).Contains x ↔ Mat.InHull d vs x

theorem dot_neg_map (f : Pt → ℚ) : ∀ (vs : List Pt) (ws : List ℚ), ws.length = vs.length →
    dot (vs.map (fun v => -f v)) ws = -(List.zipWith (fun w v => w * f v) ws vs).sum := by
  intro vs
  induction vs with
  | nil => intro ws h; simp
  | cons v vs ih =>
    intro ws h
    cases ws with
    | nil => simp at h
    | cons w ws =>
      simp only [List.map_cons, dot_cons, List.zipWith_cons_cons, List.sum_cons]
      rw [ih ws (by simpa using h)]
      ring

theorem dot_ones : ∀ (ws : List ℚ), dot (List.replicate ws.length 1) ws = ws.sum := by
  intro ws
  induction ws with
  | nil => rfl
  | cons w ws ih => simp [List.replicate_succ, ih]

theorem ext_unit (d : ℕ) (x y : Pt) (hx : x.length = d) (hy : y.length = d)
    (h : ∀ j, j < d → dot ((List.replicate d 0).set j 1) x = dot ((List.replicate d 0).set j 1) y) : x = y := by
  apply List.ext_getElem (by rw [hx, hy])
  intro j h1 h2
  have := h j (by omega)
  rw [dot_unit d j 1 x (by omega) hx, dot_unit d j 1 y (by omega) hy] at this
  simpa [h1, h2] using this

open FM in
/-- The inequalities for weights `ws` (first) and a point (last): nonnegative weights of sum 1 whose combination of the
points `vs` is the point. -/
def hullSystem (d : ℕ) (vs : List Pt) : List Ineq :=
  (List.range vs.length).map (fun i => ⟨0, (List.replicate vs.length 0).set i 1 ++ List.replicate d 0⟩) ++
    [⟨-1, List.replicate vs.length 1 ++ List.replicate d 0⟩,
      ⟨1, (List.replicate vs.length 1).map (fun t => -t) ++ List.replicate d 0⟩] ++
    (List.range d).map (fun j => ⟨0, vs.map (fun v => -dot ((List.replicate d 0).set j 1) v) ++ (List.replicate d 0).set j 1⟩) ++
    (List.range d).map (fun j => ⟨0, (vs.map (fun v => -dot ((List.replicate d 0).set j 1) v) ++ (List.replicate d 0).set j 1).map
      (fun t => -t)⟩)

open FM in
theorem hullSystem_length (d : ℕ) (vs : List Pt) : ∀ r ∈ hullSystem d vs, r.a.length = vs.length + d := by
  intro r hr
  unfold hullSystem at hr
  simp only [List.mem_append, List.mem_map, List.mem_range, List.mem_cons, List.not_mem_nil, or_false] at hr
  rcases hr with ((⟨i, _, rfl⟩ | rfl | rfl) | ⟨j, _, rfl⟩) | ⟨j, _, rfl⟩ <;> simp

open FM in
theorem hullSystem_iff (d : ℕ) (vs : List Pt) (hv : ∀ v ∈ vs, v.length = d) (x : Pt) (hx : x.length = d) (ws : List ℚ)
    (hw : ws.length = vs.length) :
    (∀ r ∈ hullSystem d vs, r.Ok (ws ++ x)) ↔ (∀ w ∈ ws, 0 ≤ w) ∧ ws.sum = 1 ∧ x = Mat.combo d ws vs := by
  have e1 : ∀ i, i < vs.length → dot ((List.replicate vs.length 0).set i 1 ++ List.replicate d 0) (ws ++ x) = ws.getD i 0 := by
    intro i hi
    rw [dot_append _ _ _ _ (by simp [hw]), dot_unit _ _ _ _ hi hw, dot_replicate]
    ring
  have e2 : dot (List.replicate vs.length 1 ++ List.replicate d 0) (ws ++ x) = ws.sum := by
    rw [dot_append _ _ _ _ (by simp [hw]), dot_replicate, ← hw, dot_ones, add_zero]
  have e3 : dot ((List.replicate vs.length 1).map (fun t => -t) ++ List.replicate d 0) (ws ++ x) = -ws.sum := by
    rw [dot_append _ _ _ _ (by simp [hw]), dot_replicate, dot_neg, ← hw, dot_ones, add_zero]
  have e4 : ∀ j, dot (vs.map (fun v => -dot ((List.replicate d 0).set j 1) v) ++ (List.replicate d 0).set j 1) (ws ++ x) =
      dot ((List.replicate d 0).set j 1) x - dot ((List.replicate d 0).set j 1) (Mat.combo d ws vs) := by
    intro j
    rw [dot_append _ _ _ _ (by simp [hw]), dot_neg_map _ _ _ hw, Mat.dot_combo d _ ws vs hv]
    ring
  constructor
  · intro h
    have m1 : ∀ i, i < vs.length → 0 ≤ ws.getD i 0 := by
      intro i hi
      have := h ⟨0, (List.replicate vs.length 0).set i 1 ++ List.replicate d 0⟩ (by
        unfold hullSystem
        simp only [List.mem_append, List.mem_map, List.mem_range]
        exact .inl (.inl (.inl ⟨i, hi, rfl⟩)))
      unfold Ineq.Ok at this
      simp only at this
      rw [e1 i hi] at this
      linarith
    have m2 := h ⟨-1, List.replicate vs.length 1 ++ List.replicate d 0⟩ (by unfold hullSystem; simp)
    have m3 := h ⟨1, (List.replicate vs.length 1).map (fun t => -t) ++ List.replicate d 0⟩ (by unfold hullSystem; simp)
    unfold Ineq.Ok at m2 m3
    simp only at m2 m3
    rw [e2] at m2
    rw [e3] at m3
    refine ⟨fun w hw' => ?_, by linarith, ?_⟩
    · obtain ⟨i, hi, rfl⟩ := List.getElem_of_mem hw'
      have := m1 i (by omega)
      simpa [hi] using this
    · apply ext_unit d _ _ hx (Mat.combo_length d ws vs hv)
      intro j hj
      have m4 := h ⟨0, vs.map (fun v => -dot ((List.replicate d 0).set j 1) v) ++ (List.replicate d 0).set j 1⟩ (by
        unfold hullSystem
        simp only [List.mem_append, List.mem_map, List.mem_range]
        exact .inl (.inr ⟨j, hj, rfl⟩))
      have m5 := h ⟨0, (vs.map (fun v => -dot ((List.replicate d 0).set j 1) v) ++ (List.replicate d 0).set j 1).map (fun t => -t)⟩ (by
        unfold hullSystem
        simp only [List.mem_append, List.mem_map (f := fun j => (⟨0, _⟩ : Ineq)), List.mem_range]
        exact .inr ⟨j, hj, rfl⟩)
      unfold Ineq.Ok at m4 m5
      simp only at m4 m5
      rw [e4] at m4
      rw [dot_neg, e4] at m5
      linarith
  · rintro ⟨h1, h2, h3⟩ r hr
    unfold hullSystem at hr
    simp only [List.mem_append, List.mem_map (f := fun i => (⟨0, _⟩ : Ineq)), List.mem_range, List.mem_cons, List.not_mem_nil, or_false] at hr
    rcases hr with ((⟨i, hi, rfl⟩ | rfl | rfl) | ⟨j, hj, rfl⟩) | ⟨j, hj, rfl⟩
    · unfold Ineq.Ok
      simp only
      rw [e1 i hi]
      have : ws.getD i 0 = ws[i]'(by omega) := by simp [hw, hi]
      rw [this]
      have := h1 _ (List.getElem_mem (by omega : i < ws.length))
      linarith
    · unfold Ineq.Ok
      simp only
      rw [e2, h2]
      norm_num
    · unfold Ineq.Ok
      simp only
      rw [e3, h2]
      norm_num
    · unfold Ineq.Ok
      simp only
      rw [e4, ← h3]
      simp
    · unfold Ineq.Ok
      simp only
      rw [dot_neg, e4, ← h3]
      simp

/-- The contract can be met: the convex hull of finitely many points is described by finitely many inequalities. -/
theorem hRepSpec_satisfiable : ∃ hrep : List Pt → Mat, HRepSpec hrep := by
  have key : ∀ vs : List Pt, ∃ m : Mat, ∀ d, vs ≠ [] → (∀ v ∈ vs, v.length = d) →
      m.WF ∧ m.cols = d + 1 ∧ ∀ x, m.Contains x ↔ Mat.InHull d vs x := by
    intro vs
    by_cases h : ∃ d, vs ≠ [] ∧ ∀ v ∈ vs, v.length = d
    · obtain ⟨d, hne, hv⟩ := h
      obtain ⟨rs, h1, h2⟩ := FM.project vs.length d (hullSystem d vs) (hullSystem_length d vs)
      refine ⟨⟨d + 1, rs.map (fun r => ⟨false, r.c, r.a⟩)⟩, fun d' _ hv' => ?_⟩
      have hd : d' = d := by
        cases vs with
        | nil => exact absurd rfl hne
        | cons v vs => rw [← hv' v (by simp), hv v (by simp)]
      subst hd
      refine ⟨?_, rfl, fun x => ?_⟩
      · intro r hr
        obtain ⟨s, hs, rfl⟩ := List.mem_map.mp hr
        simp only
        rw [h1 s hs]
      · have hlen : ∀ x : Pt, x.length = d' → ((⟨d' + 1, rs.map (fun r => ⟨false, r.c, r.a⟩)⟩ : Mat).Contains x ↔ Mat.InHull d' vs x) := by
          intro x hx
          rw [Mat.contains_iff_holds _ _ (by simp [hx])]
          have : (⟨d' + 1, rs.map (fun r => ⟨false, r.c, r.a⟩)⟩ : Mat).Holds x ↔ ∀ r ∈ rs, r.Ok x := by
            constructor
            · intro h r hr
              exact (h ⟨false, r.c, r.a⟩ (List.mem_map.mpr ⟨r, hr, rfl⟩)).2 rfl
            · intro h r hr
              obtain ⟨s, hs, rfl⟩ := List.mem_map.mp hr
              exact ⟨fun h' => absurd h' (by simp), fun _ => h s hs⟩
          rw [this, h2]
          constructor
          · rintro ⟨ws, g1, g2⟩
            obtain ⟨k1, k2, k3⟩ := (hullSystem_iff d' vs hv x hx ws g1).mp g2
            exact ⟨ws, g1, k1, k2, k3⟩
          · rintro ⟨ws, g1, k1, k2, k3⟩
            exact ⟨ws, g1, (hullSystem_iff d' vs hv x hx ws g1).mpr ⟨k1, k2, k3⟩⟩
        constructor
        · intro h
          exact (hlen x (by have := Mat.contains_length h; simpa using this)).mp h
        · intro h
          exact (hlen x (by
            obtain ⟨ws, _, _, _, rfl⟩ := h
            exact Mat.combo_length d' ws vs hv)).mpr h
    · refine ⟨⟨0, []⟩, fun d h1 h2 => absurd ⟨d, h1, h2⟩ h⟩
  choose hrep h using key
  exact ⟨hrep, fun d vs h1 h2 => h vs d h1 h2⟩

/-! ### Polytopes -/

namespace Mat

theorem inHull_nil (d : ℕ) (x : Pt) : ¬ InHull d [] x := by
  rintro ⟨ws, h1, _, h3, _⟩
  have : ws = [] := by simpa using h1
  subst this
  simp at h3

/-- **C63** (polytopes) The projection of a polytope is the set of projections of its points; it is `None` exactly if the
polytope is empty. -/
theorem C63_project (verts : Mat → List Pt) (hrep : List Pt → Mat) (hh : HRepSpec hrep) (m : Mat) (hv : VertsSpec verts m)
    (dims : List ℕ) :
    (project verts hrep m dims = none ↔ ∀ y, ¬ m.Contains y) ∧
      ∀ p, project verts hrep m dims = some p → p.WF ∧ p.cols = pickDim dims 0 (m.cols - 1) + 1 ∧
        ∀ x, p.Contains x ↔ ∃ y, m.Contains y ∧ pickDims dims y = x := by
  obtain ⟨h1, h2⟩ := hv
  have hlen : ∀ v ∈ verts m, v.length = m.cols - 1 := fun v hv => by have := h1 v hv; omega
  unfold project fromVRep
  constructor
  · constructor
    · intro h
      split at h
      · rename_i he
        rw [List.map_eq_nil_iff] at he
        intro y hy
        rw [h2, he] at hy
        exact inHull_nil _ _ hy
      · cases h
    · intro h
      rw [if_pos]
      rw [List.map_eq_nil_iff]
      by_contra hne
      obtain ⟨v, hv⟩ := List.exists_mem_of_ne_nil _ hne
      exact h v ((h2 v).mpr (hull_mem _ _ hlen v hv))
  · intro p h
    split at h
    · cases h
    · rename_i hne
      have := Option.some.inj h
      subst this
      obtain ⟨g1, g2, g3⟩ := hh (pickDim dims 0 (m.cols - 1)) _ hne (by
        intro v hv
        obtain ⟨u, hu, rfl⟩ := List.mem_map.mp hv
        unfold pickDims
        rw [pickFrom_length, hlen u hu])
      refine ⟨g1, g2, fun x => ?_⟩
      rw [g3]
      constructor
      · rintro ⟨ws, a1, a2, a3, rfl⟩
        rw [List.length_map] at a1
        exact ⟨combo (m.cols - 1) ws (verts m), (h2 _).mpr ⟨ws, a1, a2, a3, rfl⟩, pick_combo dims _ ws _ hlen⟩
      · rintro ⟨y, hy, rfl⟩
        obtain ⟨ws, a1, a2, a3, rfl⟩ := (h2 y).mp hy
        exact ⟨ws, by rw [List.length_map]; exact a1, a2, a3, pick_combo dims _ ws _ hlen⟩

end Mat

/-! ### Regions -/

namespace Region

variable {L : Type}

/-- Union of a list of regions, as an option. -/
def joinUnion : List (Region L) → Option (Region L)
  | [] => none
  | [p] => some p
  | p :: q :: ps => some (.union (p :: q :: ps))

theorem union_of_list (ps : List (Region L)) (o : Option (Region L))
    (h : o = joinUnion ps) :
    (o = none ↔ ps = []) ∧ ∀ r, o = some r → ∀ x, r.Mem x ↔ ∃ p ∈ ps, p.Mem x := by
  match ps, h with
  | [], h => subst h; simp [joinUnion]
  | [p], h =>
    subst h
    refine ⟨by simp [joinUnion], fun r hr x => ?_⟩
    have := Option.some.inj hr
    subst this
    simp
  | p :: q :: ps, h =>
    subst h
    refine ⟨by simp [joinUnion], fun r hr x => ?_⟩
    have := Option.some.inj hr
    subst this
    rw [Mem, memAny_iff]

theorem projectList_cons {verts : Mat → List Pt} {hrep : List Pt → Mat} {dims : List ℕ} {r : Region L} {rs : List (Region L)} :
    projectList verts hrep dims (r :: rs) =
    (match project verts hrep dims r with
    | .error e => .error e
    | .ok o =>
      match projectList verts hrep dims rs with
      | .error e => .error e
      | .ok ps => .ok (o.toList ++ ps)) := by
  rw [projectList]
  rfl

/-- **C63** (part) For regions built by unions of polytopes the projection is exact: it returns, the result is `None` exactly
if the region is empty, and otherwise it is the set of projections of the points. Missing: intersections, where the code
returns the intersection of the projections (`C63_intersect_counterexample`) or raises (`C63_single_counterexample`). -/
theorem C63_project_partial (verts : Mat → List Pt) (hrep : List Pt → Mat) (hh : HRepSpec hrep) (dims : List ℕ) (n : ℕ)
    (r : Region L) (hr : r.UnionTree) (hm : r.AllMat (fun m => Mat.VertsSpec verts m ∧ m.cols = n)) :
    ∃ o, project verts hrep dims r = .ok o ∧ (o = none ↔ ∀ y, ¬ r.Mem y) ∧
      ∀ p, o = some p → p.UnionTree ∧ p.AllMat (fun m => m.WF ∧ m.cols = pickDim dims 0 (n - 1) + 1) ∧
        ∀ x, p.Mem x ↔ ∃ y, r.Mem y ∧ pickDims dims y = x := by
  have key : ∀ rs : List (Region L), (∀ r ∈ rs, ∃ o, project verts hrep dims r = .ok o ∧ (o = none ↔ ∀ y, ¬ r.Mem y) ∧
      ∀ p, o = some p → p.UnionTree ∧ p.AllMat (fun m => m.WF ∧ m.cols = pickDim dims 0 (n - 1) + 1) ∧
        ∀ x, p.Mem x ↔ ∃ y, r.Mem y ∧ pickDims dims y = x) →
      ∃ ps, projectList verts hrep dims rs = .ok ps ∧
        (∀ p ∈ ps, p.UnionTree ∧ p.AllMat (fun m => m.WF ∧ m.cols = pickDim dims 0 (n - 1) + 1)) ∧
        (ps = [] ↔ ∀ y, ¬ ∃ r ∈ rs, r.Mem y) ∧
        ∀ x, (∃ p ∈ ps, p.Mem x) ↔ ∃ y, (∃ r ∈ rs, r.Mem y) ∧ pickDims dims y = x := by
    intro rs
    induction rs with
    | nil => intro _; exact ⟨[], by rw [projectList], by simp, by simp, by simp⟩
    | cons r rs ih =>
      intro h
      obtain ⟨o, a1, a2, a3⟩ := h r (by simp)
      obtain ⟨ps, b1, b2, b3, b4⟩ := ih (fun r' hr' => h r' (by simp [hr']))
      refine ⟨o.toList ++ ps, by rw [projectList_cons, a1, b1], ?_, ?_, ?_⟩
      · intro p hp
        rw [List.mem_append, Option.mem_toList] at hp
        rcases hp with hp | hp
        · exact ⟨(a3 p hp).1, (a3 p hp).2.1⟩
        · exact b2 p hp
      · rw [List.append_eq_nil_iff, Option.toList_eq_nil_iff, a2, b3]
        simp only [List.mem_cons, exists_eq_or_imp, not_or]
        exact ⟨fun h y => ⟨h.1 y, h.2 y⟩, fun h => ⟨fun y => (h y).1, fun y => (h y).2⟩⟩
      · intro x
        simp only [List.mem_append, Option.mem_toList, List.mem_cons, exists_eq_or_imp]
        constructor
        · rintro ⟨p, hp | hp, hx⟩
          · obtain ⟨y, hy, e⟩ := ((a3 p hp).2.2 x).mp hx
            exact ⟨y, .inl hy, e⟩
          · obtain ⟨y, hy, e⟩ := (b4 x).mp ⟨p, hp, hx⟩
            exact ⟨y, .inr hy, e⟩
        · rintro ⟨y, hy | hy, e⟩
          · cases ho : o with
            | none => exact absurd hy (a2.mp ho y)
            | some p => exact ⟨p, .inl rfl, ((a3 p ho).2.2 x).mpr ⟨y, hy, e⟩⟩
          · obtain ⟨p, hp, hx⟩ := (b4 x).mpr ⟨y, hy, e⟩
            exact ⟨p, .inr hp, hx⟩
  have fin : ∀ (ps : List (Region L)) (o : Option (Region L)) (S : Pt → Prop),
      (o = joinUnion ps) →
      (∀ p ∈ ps, p.UnionTree ∧ p.AllMat (fun m => m.WF ∧ m.cols = pickDim dims 0 (n - 1) + 1)) →
      (ps = [] ↔ ∀ y, ¬ S y) → (∀ x, (∃ p ∈ ps, p.Mem x) ↔ ∃ y, S y ∧ pickDims dims y = x) →
      (o = none ↔ ∀ y, ¬ S y) ∧ ∀ p, o = some p → p.UnionTree ∧
        p.AllMat (fun m => m.WF ∧ m.cols = pickDim dims 0 (n - 1) + 1) ∧ ∀ x, p.Mem x ↔ ∃ y, S y ∧ pickDims dims y = x := by
    intro ps o S ho h1 h2 h3
    obtain ⟨g1, g2⟩ := union_of_list ps o ho
    refine ⟨g1.trans h2, fun p hp => ⟨?_, ?_, fun x => (g2 p hp x).trans (h3 x)⟩⟩
    · match ps, ho with
      | [], ho => rw [ho] at hp; cases hp
      | [q], ho => rw [ho] at hp; have := Option.some.inj hp; subst this; exact (h1 q (by simp)).1
      | q :: q' :: ps, ho =>
        rw [ho] at hp
        have := Option.some.inj hp
        subst this
        rw [UnionTree, unionTreeList_iff]
        exact fun r hr => (h1 r hr).1
    · match ps, ho with
      | [], ho => rw [ho] at hp; cases hp
      | [q], ho => rw [ho] at hp; have := Option.some.inj hp; subst this; exact (h1 q (by simp)).2
      | q :: q' :: ps, ho =>
        rw [ho] at hp
        have := Option.some.inj hp
        subst this
        rw [AllMat, allMatList_iff]
        exact fun r hr => (h1 r hr).2
  induction r using induct with
  | hp m l =>
    rw [AllMat] at hm
    obtain ⟨h1, h2⟩ := Mat.C63_project verts hrep hh m hm.1 dims
    refine ⟨_, by rw [project], ?_, ?_⟩
    · rw [Option.map_eq_none_iff, h1]
      simp only [Mem]
    · intro p hp
      obtain ⟨q, hq, rfl⟩ := Option.map_eq_some_iff.mp hp
      obtain ⟨g1, g2, g3⟩ := h2 q hq
      rw [hm.2] at g2
      refine ⟨by rw [UnionTree]; trivial, by rw [AllMat]; exact ⟨g1, g2⟩, fun x => ?_⟩
      rw [Mem, g3]
      simp only [Mem]
  | hw r _ => rw [UnionTree] at hr; exact hr.elim
  | hc r _ => rw [UnionTree] at hr; exact hr.elim
  | hi rs _ => rw [UnionTree] at hr; exact hr.elim
  | hu rs ih =>
    rw [UnionTree, unionTreeList_iff] at hr
    rw [AllMat, allMatList_iff] at hm
    obtain ⟨ps, h1, h2, h3, h4⟩ := key rs (fun r hr' => ih r hr' (hr r hr') (hm r hr'))
    have hmem : ∀ y, (Region.union rs).Mem y ↔ ∃ r ∈ rs, r.Mem y := fun y => by rw [Mem, memAny_iff]
    simp only [hmem]
    refine ⟨joinUnion ps, ?_, fin ps _ (fun y => ∃ r ∈ rs, r.Mem y) rfl h2 h3 h4⟩
    rw [project, h1]
    match ps with
    | [] => rfl
    | [p] => rfl
    | p :: q :: ps => rfl
  | hd rs ih =>
    rw [UnionTree, unionTreeList_iff] at hr
    rw [AllMat, allMatList_iff] at hm
    obtain ⟨ps, h1, h2, h3, h4⟩ := key rs (fun r hr' => ih r hr' (hr r hr') (hm r hr'))
    have hmem : ∀ y, (Region.disjoint rs).Mem y ↔ ∃ r ∈ rs, r.Mem y := fun y => by rw [Mem, memAny_iff]
    simp only [hmem]
    refine ⟨joinUnion ps, ?_, fin ps _ (fun y => ∃ r ∈ rs, r.Mem y) rfl h2 h3 h4⟩
    rw [project, h1]
    match ps with
    | [] => rfl
    | [p] => rfl
    | p :: q :: ps => rfl

/-- The hypotheses of `C63_project_partial` can be met for every region built by unions of bounded polytopes, with one choice
of the external functions. -/
theorem C63_satisfiable : ∃ (verts : Mat → List Pt) (hrep : List Pt → Mat), HRepSpec hrep ∧
    ∀ (n : ℕ), 1 ≤ n → ∀ r : Region L, r.AllMat (fun m => m.Bounded ∧ m.cols = n) →
      r.AllMat (fun m => Mat.VertsSpec verts m ∧ m.cols = n) := by
  obtain ⟨verts, hv⟩ := Mat.vertsSpec_satisfiable
  obtain ⟨hrep, hh⟩ := hRepSpec_satisfiable
  exact ⟨verts, hrep, hh, fun n hn r hr => allMat_imp (fun m hm => ⟨hv m (by rw [hm.2]; exact hn) hm.1, hm.2⟩) r hr⟩

/-- Two unit squares above each other: the projection to the first axis contains `1/2`. -/
example (verts : Mat → List Pt) (hrep : List Pt → Mat) (hh : HRepSpec hrep)
    (h1 : Mat.VertsSpec verts (box2 0 1 0 1)) (h2 : Mat.VertsSpec verts (box2 0 1 2 3)) :
    ∃ p, project verts hrep [0] (.union [.polytope (box2 0 1 0 1) none, .polytope (box2 0 1 2 3) none] : Region L) = .ok (some p) ∧
      p.Mem [1 / 2] ∧ ¬ p.Mem [2] := by
  obtain ⟨o, a1, a2, a3⟩ := C63_project_partial verts hrep hh [0] 3
    (.union [.polytope (box2 0 1 0 1) none, .polytope (box2 0 1 2 3) none] : Region L)
    (by simp [UnionTree, UnionTreeList]) (by simp only [AllMat, AllMatList]; exact ⟨⟨h1, rfl⟩, ⟨h2, rfl⟩, trivial⟩)
  have m1 : (.union [.polytope (box2 0 1 0 1) none, .polytope (box2 0 1 2 3) none] : Region L).Mem [1 / 2, 1 / 2] := by
    rw [Mem, memAny_iff]
    exact ⟨_, List.mem_cons_self, by rw [Mem, box2_contains]; exact ⟨_, _, rfl, by norm_num⟩⟩
  cases o with
  | none => exact absurd m1 (a2.mp rfl _)
  | some p =>
    refine ⟨p, a1, ((a3 p rfl).2.2 _).mpr ⟨_, m1, rfl⟩, fun h => ?_⟩
    obtain ⟨y, hy, e⟩ := ((a3 p rfl).2.2 _).mp h
    rw [Mem, memAny_iff] at hy
    obtain ⟨r, hr, hy⟩ := hy
    simp only [List.mem_cons, List.not_mem_nil, or_false] at hr
    rcases hr with rfl | rfl <;>
    · rw [Mem, box2_contains] at hy
      obtain ⟨s, t, rfl, b1, b2, _, _⟩ := hy
      simp [pickDims, pickFrom] at e
      rw [e] at b2
      norm_num at b2

/-- **Finding** (region.py:235-241) The projection of an intersection is the intersection of the projections, which is larger:
two disjoint squares above each other have an empty intersection, but the projection to the first axis is `[0, 1]`. -/
theorem C63_intersect_counterexample (verts : Mat → List Pt) (hrep : List Pt → Mat) (hh : HRepSpec hrep)
    (h1 : Mat.VertsSpec verts (box2 0 1 0 1)) (h2 : Mat.VertsSpec verts (box2 0 1 2 3)) :
    ∃ p, project verts hrep [0] (.intersect [.polytope (box2 0 1 0 1) none, .polytope (box2 0 1 2 3) none] : Region L) =
        .ok (some p) ∧ p.Mem [1 / 2] ∧
      ∀ y, ¬ (.intersect [.polytope (box2 0 1 0 1) none, .polytope (box2 0 1 2 3) none] : Region L).Mem y := by
  obtain ⟨a1, a2⟩ := Mat.C63_project verts hrep hh _ h1 [0]
  obtain ⟨b1, b2⟩ := Mat.C63_project verts hrep hh _ h2 [0]
  have c1 : (box2 0 1 0 1).Contains [1 / 2, 0] := (box2_contains _ _ _ _ _).mpr ⟨_, _, rfl, by norm_num⟩
  have c2 : (box2 0 1 2 3).Contains [1 / 2, 2] := (box2_contains _ _ _ _ _).mpr ⟨_, _, rfl, by norm_num⟩
  cases hp : Mat.project verts hrep (box2 0 1 0 1) [0] with
  | none => exact absurd c1 (a1.mp hp _)
  | some p =>
    cases hq : Mat.project verts hrep (box2 0 1 2 3) [0] with
    | none => exact absurd c2 (b1.mp hq _)
    | some q =>
      refine ⟨.intersect [.polytope p none, .polytope q none], ?_, ?_, ?_⟩
      · simp [project, projectList, hp, hq]
      · rw [Mem, memAll_iff]
        intro r hr
        simp only [List.mem_cons, List.not_mem_nil, or_false] at hr
        rcases hr with rfl | rfl
        · rw [Mem]; exact ((a2 p hp).2.2 _).mpr ⟨_, c1, rfl⟩
        · rw [Mem]; exact ((b2 q hq).2.2 _).mpr ⟨_, c2, rfl⟩
      · intro y hy
        rw [Mem, memAll_iff] at hy
        have d1 := hy (.polytope (box2 0 1 0 1) none) (by simp)
        have d2 := hy (.polytope (box2 0 1 2 3) none) (by simp)
        rw [Mem, box2_contains] at d1 d2
        obtain ⟨s, t, rfl, _, _, _, e1⟩ := d1
        obtain ⟨s', t', e, _, _, e2, _⟩ := d2
        simp only [List.cons.injEq, and_true] at e
        rw [← e.2] at e2
        linarith

/-- **Finding** (region.py:240) An intersection with exactly one non-empty member raises `IndexError`: `ps[1]` of a list of
length 1. -/
theorem C63_single_counterexample (verts : Mat → List Pt) (hrep : List Pt → Mat) (hh : HRepSpec hrep) (m : Mat)
    (hm : Mat.VertsSpec verts m) (l : Option L) (y : Pt) (hy : m.Contains y) (dims : List ℕ) :
    project verts hrep dims (.intersect [.polytope m l] : Region L) = .error .indexError := by
  obtain ⟨a1, _⟩ := Mat.C63_project verts hrep hh m hm dims
  cases hp : Mat.project verts hrep m dims with
  | none => exact absurd hy (a1.mp hp y)
  | some p => simp [project, projectList, hp]

/-- The hypotheses of the two counterexamples are met. -/
example : ∃ (verts : Mat → List Pt) (hrep : List Pt → Mat), HRepSpec hrep ∧ Mat.VertsSpec verts (box2 0 1 0 1) ∧
    Mat.VertsSpec verts (box2 0 1 2 3) ∧ (box2 0 1 0 1).Contains [1 / 2, 0] := by
  obtain ⟨verts, hv⟩ := Mat.vertsSpec_satisfiable
  obtain ⟨hrep, hh⟩ := hRepSpec_satisfiable
  exact ⟨verts, hrep, hh, hv _ (by decide) (box2_bounded _ _ _ _), hv _ (by decide) (box2_bounded _ _ _ _),
    (box2_contains _ _ _ _ _).mpr ⟨_, _, rfl, by norm_num⟩⟩

/-- A complement is rejected. -/
theorem C63_complement (verts : Mat → List Pt) (hrep : List Pt → Mat) (dims : List ℕ) (r : Region L) :
    project verts hrep dims (.complement r) = .error .notImplemented := by
  rw [project]

end Region
end Expdb
