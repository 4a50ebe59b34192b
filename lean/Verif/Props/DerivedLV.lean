import Verif.Model.DerivedLV
import Verif.Props.RegionMixed
import Verif.Props.DerivedEnergy

/-!
# Property C88: the derivation of the Guth--Maynard large values theorem
-/

namespace Expdb
namespace DerivedLV

open Mat Region ZeroDensity DerivedEnergy LargeValues

/-! ### The regions -/

/-- Each half space either contains no point of the box, or has, strictly inside the box, a point strictly inside it and strictly outside
all half spaces before it. -/
def StagM (box pre : List Row) (n : ℕ) : List Row → Prop
  | [] => True
  | r :: rs => ((∃ x : Pt, x.length = n ∧ (∀ q ∈ box, q.Strict x) ∧ r.Strict x ∧ ∀ q ∈ pre, q.negIneq.Strict x) ∨
      ∀ x : Pt, x.length = n → (∀ q ∈ box, q.Holds x) → ¬ r.Holds x) ∧ StagM box (pre ++ [r]) n rs

theorem loop_mixed {canon : Mat → Mat} (hc : CanonSpec canon) (hz : CanonNoZero canon) (box : List Row) (n : ℕ)
    (hbox : ∀ r ∈ box, r.cs.length = n) (hnz : ∃ r ∈ box, r.isZero = false)
    (hbd : ∀ x : Pt, x.length = n → (∀ r ∈ box, r.Holds x) → ∀ c ∈ x, |c| ≤ 1000000) (rows pre : List Row)
    (hr : ∀ r ∈ rows, r.cs.length = n) (hp : ∀ r ∈ pre, r.cs.length = n)
    (h : StagM box pre n rows) : ∃ ms : List Mat, halfplaneLoop (L := ℕ) canon box (pre.map Row.negIneq) rows =
      .ok (ms.map (fun m => .polytope m none)) ∧ ∀ m ∈ ms, Mixed (n + 1) m := by
  induction rows generalizing pre with
  | nil => exact ⟨[], rfl, by simp⟩
  | cons b bs ih =>
    obtain ⟨hx, h⟩ := h
    obtain ⟨ms, e1, e2⟩ := ih _ (fun r hr' => hr r (by simp [hr'])) (by
      intro r hr'
      rcases List.mem_append.mp hr' with hr' | hr'
      · exact hp r hr'
      · rw [List.mem_singleton.mp hr']; exact hr b (by simp)) h
    have hlen : ∀ q ∈ box ++ [b] ++ pre.map Row.negIneq, q.cs.length = n := by
      intro q hq
      simp only [List.mem_append, List.mem_singleton, List.mem_map] at hq
      rcases hq with (hq | rfl) | ⟨c, hc', rfl⟩
      · exact hbox q hq
      · exact hr q (by simp)
      · rw [show c.negIneq.cs.length = c.cs.length by simp [Row.negIneq]]; exact hp c hc'
    obtain ⟨r0, hr0, hr0z⟩ := hnz
    obtain ⟨m, h1, h2, h3, h4, h5⟩ := ofConstraints_exact _ n hlen ⟨r0, by simp [hr0], hr0z⟩
    obtain ⟨c1, c2, c3⟩ := hc m h3
    have hmem : ∀ y, (canon m).Contains y → y.length = n ∧ ∀ q ∈ box ++ [b] ++ pre.map Row.negIneq, q.Holds y := by
      intro y hy
      have hl := contains_length hy
      rw [contains_iff_holds _ _ hl, c3 y (by rw [hl, c1]), h5] at hy
      rw [c1, h2] at hl
      exact ⟨by omega, hy⟩
    have hB : (canon m).Bounded := ⟨1000000, fun y hy => hbd y (hmem y hy).1 (fun q hq => (hmem y hy).2 q (by simp [hq]))⟩
    refine ⟨canon m :: ms, ?_, ?_⟩
    · rw [List.map_append] at e1
      simp only [List.map_cons]
      unfold halfplaneLoop
      rw [h1]
      simp only [bind, Except.bind]
      rw [show [b.negIneq] = [b].map Row.negIneq from rfl, e1]
      rfl
    · intro p hp'
      rcases List.mem_cons.mp hp' with rfl | hp'
      · refine ⟨⟨c2, by rw [c1, h2], hz m h3 h4⟩, fun _ => hB, ?_⟩
        rcases hx with ⟨x, k1, k2, k3, k4⟩ | hx
        · left
          refine ⟨x, by rw [k1], ?_⟩
          rw [interior_congr (n + 1) (m' := ⟨n + 1, box ++ [b] ++ pre.map Row.negIneq⟩) (fun y hy => by
            rw [c3 y (by rw [h2]; exact hy), h5]; rfl) _ (by rw [k1])]
          apply Strict.interior
          intro q hq
          simp only [List.mem_append, List.mem_singleton, List.mem_map] at hq
          rcases hq with (hq | rfl) | ⟨c, hc', rfl⟩
          · exact k2 q hq
          · exact k3
          · exact k4 c hc'
        · right
          intro y hy
          exact hx y (hmem y hy).1 (fun q hq => (hmem y hy).2 q (by simp [hq])) ((hmem y hy).2 b (by simp))
      · exact e2 p hp'

/-- A check of the points of `StagM`. -/
theorem stag_point {box pre : List Row} {n : ℕ} {r : Row} {rs : List Row} (x : Pt)
    (hx : stagB box pre n [x] [r] = true) (h : StagM box (pre ++ [r]) n rs) : StagM box pre n (r :: rs) := by
  obtain ⟨h1, _⟩ := stagG_of _ _ _ hx
  exact ⟨.inl h1, h⟩

theorem stag_empty {box pre : List Row} {n : ℕ} {r : Row} {rs : List Row} (hx : ∀ x : Pt, x.length = n → (∀ q ∈ box, q.Holds x) → ¬ r.Holds x)
    (h : StagM box (pre ++ [r]) n rs) : StagM box pre n (r :: rs) := ⟨.inr hx, h⟩

theorem thin_row (x : Pt) (hx : x.length = 5) (h : ∀ q ∈ energyBox, q.Holds x) : ¬ (rowOf [-(7 / 3), -2, 0, -1, 0, 0]).Holds x := by
  match x, hx with
  | [s, t, a, b, c], _ =>
    obtain ⟨⟨h1, h2, h3, h4, h5, h6⟩, _⟩ := (energyBox_holds s t a b c).mp h
    rw [rowOf_holds6]
    intro h
    linarith

theorem box_nz {extra : List Row} : ∃ r ∈ energyBox ++ extra, r.isZero = false :=
  ⟨_, List.mem_append_left _ List.mem_cons_self, by decide +kernel⟩

theorem box_bd {extra : List Row} (x : Pt) (hx : x.length = 5) (h : ∀ r ∈ energyBox ++ extra, r.Holds x) : ∀ c ∈ x, |c| ≤ 1000000 :=
  energyBox_bounded x hx (fun r hr => h r (List.mem_append_left _ hr))

/-- The rows of the two parts of the first region. -/
def rows1 : List Row := (Literature.gmCommon 2 ++ [[1, -2, 2 / 3, 1 / 6, -(5 / 6), 0]]).map rowOf

/-- The rows of the two parts of the first region. -/
def rows2 : List Row := (Literature.gmCommon 2 ++ [[1, -2, 2 / 3, -(1 / 2), 0, 0], [4 / 3, -2, 1 / 3, -(5 / 6), 1 / 6, 0]]).map rowOf

theorem rows1_eq : rows1 = [[2, -2, 0, -1, 0, 0], [-(7 / 3), -2, 0, -1, 0, 0], [5, -6, 0, -1, 0, 0], [4, -6, 1, -(3 / 2), 0, 0],
    [5 / 3, -2, 1 / 12, -(11 / 24), 0, 0], [1, -2, 2 / 3, 1 / 6, -(5 / 6), 0]].map rowOf := by decide +kernel

theorem rows2_eq : rows2 = [[2, -2, 0, -1, 0, 0], [-(7 / 3), -2, 0, -1, 0, 0], [5, -6, 0, -1, 0, 0], [4, -6, 1, -(3 / 2), 0, 0],
    [5 / 3, -2, 1 / 12, -(11 / 24), 0, 0], [1, -2, 2 / 3, -(1 / 2), 0, 0], [4 / 3, -2, 1 / 3, -(5 / 6), 1 / 6, 0]].map rowOf := by
  decide +kernel

theorem stag1 : StagM energyBox [] 5 rows1 := by
  rw [rows1_eq]
  refine stag_point [13 / 20, 11 / 20, 1 / 10, 5 / 2, 1] (by decide +kernel) (stag_empty thin_row ?_)
  refine stag_point [11 / 20, 9 / 10, 3 / 2, 13 / 5, 1] (by decide +kernel) ?_
  refine stag_point [9 / 10, 279 / 20, 63 / 20, 39 / 4, 1] (by decide +kernel) ?_
  refine stag_point [3 / 4, 5 / 4, 11 / 20, 24 / 5, 1] (by decide +kernel) ?_
  exact stag_point [13 / 20, 13 / 10, 63 / 20, 4 / 5, 1] (by decide +kernel) trivial

theorem stag2 : StagM energyBox [] 5 rows2 := by
  rw [rows2_eq]
  refine stag_point [3 / 5, 6 / 5, 1 / 20, 3 / 2, 1] (by decide +kernel) (stag_empty thin_row ?_)
  refine stag_point [13 / 20, 9 / 20, 4 / 5, 1 / 4, 1] (by decide +kernel) ?_
  refine stag_point [3 / 4, 261 / 20, 5 / 2, 11 / 5, 1] (by decide +kernel) ?_
  refine stag_point [3 / 4, 13 / 10, 11 / 20, 269 / 20, 1] (by decide +kernel) ?_
  refine stag_point [17 / 20, 109 / 20, 19 / 5, 3 / 10, 1] (by decide +kernel) ?_
  exact stag_point [13 / 20, 2 / 5, 29 / 20, 39 / 5, 1] (by decide +kernel) trivial

/-- The default box with further constraints. -/
theorem append_mixed (extra : List Row) (hl : ∀ r ∈ extra, r.cs.length = 5) (x : Pt) (hx : x.length = 5)
    (hs : ∀ q ∈ energyBox ++ extra, q.Strict x) (ms : List Mat) (hm : ∀ m ∈ ms, Mixed 6 m) : ∃ ms' : List Mat,
      Literature.appendChild (L := ℕ) (energyBox ++ extra) (DerivedZD.unionOf ms) = .ok (DerivedZD.unionOf ms') ∧ ∀ m ∈ ms', Mixed 6 m := by
  obtain ⟨m, e1, e2, e3, e4, e5⟩ := ofConstraints_exact (energyBox ++ extra) 5 (by
    intro r hr
    rcases List.mem_append.mp hr with hr | hr
    · exact (by decide : ∀ r ∈ energyBox, r.cs.length = 5) r hr
    · exact hl r hr) box_nz
  refine ⟨ms ++ [m], ?_, ?_⟩
  · unfold Literature.appendChild DerivedZD.unionOf
    rw [e1, List.map_append]
    rfl
  · intro q hq
    rcases List.mem_append.mp hq with hq | hq
    · exact hm q hq
    · rw [List.mem_singleton.mp hq]
      refine FullDim.mixed ⟨e3, e2, e4, ⟨1000000, fun y hy => ?_⟩, ⟨x, by rw [hx], ?_⟩⟩
      · have hl := contains_length hy
        rw [contains_iff_holds _ _ hl, e5] at hy
        exact box_bd y (by omega) hy
      · rw [interior_congr 6 (m' := ⟨6, energyBox ++ extra⟩) (fun y _ => by rw [e5]; rfl) _ (by rw [hx])]
        exact Strict.interior hs

/-- A region of the literature from full-dimensional or empty polytopes. -/
def Fine (R : Region ℕ) : Prop := Plain false R ∧ ∀ m ∈ R.leaves, Mixed 6 m

theorem fine_union {ms : List Mat} (h : ∀ m ∈ ms, Mixed 6 m) : Fine (DerivedZD.unionOf ms) := by
  refine ⟨?_, fun m hm => h m (by rwa [DerivedZD.unionOf_leaves] at hm)⟩
  unfold DerivedZD.unionOf Plain
  rw [plainList_iff]
  intro r hr
  obtain ⟨m, _, rfl⟩ := List.mem_map.mp hr
  unfold Plain
  simp

theorem Fine.mem {R : Region ℕ} (h : Fine R) (s t a b c : ℚ) : R.Contains [s, t, a, b, c] ↔ R.Mem [s, t, a, b, c] := by
  rw [contains_iff_mem]
  rw [allMat_iff_leaves]
  intro m hm
  rw [(h.2 m hm).cols]
  rfl

theorem gm1_fine {canon : Mat → Mat} (hc : CanonSpec canon) (hz : CanonNoZero canon) : ∃ R, Literature.lverGM1 (L := ℕ) canon 2 = .ok R ∧
    Fine R ∧ ∀ s t a b c, R.Mem [s, t, a, b, c] ↔ InEnergyBox s t a b c ∧
      Literature.GMRelation (2 * t + 7 * a / 2 - 5 * b / 2) 2 s t a b := by
  obtain ⟨ms1, h1, h2⟩ := loop_mixed hc hz energyBox 5 (by decide +kernel) ⟨_, List.mem_of_getElem? (i := 0) (by rfl), by decide +kernel⟩
    energyBox_bounded rows1 [] (by decide +kernel) (by simp) stag1
  obtain ⟨ms2, g1, g2⟩ := loop_mixed hc hz energyBox 5 (by decide +kernel) ⟨_, List.mem_of_getElem? (i := 0) (by rfl), by decide +kernel⟩
    energyBox_bounded rows2 [] (by decide +kernel) (by simp) stag2
  obtain ⟨R, h3, h4⟩ := Literature.gm1_raw (L := ℕ) canon hc 2 (by norm_num)
  have e : R = .intersect [DerivedZD.unionOf ms1, DerivedZD.unionOf ms2] := by
    unfold Literature.lverGM1 fromHalfplanes at h3
    rw [List.map_nil] at h1 g1
    unfold rows1 at h1
    unfold rows2 at g1
    rw [h1, g1] at h3
    exact (Except.ok.inj h3).symm
  have hf : Fine R := by
    rw [e]
    refine ⟨?_, ?_⟩
    · unfold Plain
      rw [plainList_iff]
      refine ⟨by simp, ?_⟩
      intro r hr
      simp only [List.mem_cons, List.not_mem_nil, or_false] at hr
      rcases hr with rfl | rfl
      · exact (fine_union h2).1
      · exact (fine_union g2).1
    · intro m hm
      rw [leaves, mem_leavesList] at hm
      obtain ⟨r, hr, hm⟩ := hm
      simp only [List.mem_cons, List.not_mem_nil, or_false] at hr
      rcases hr with rfl | rfl
      · exact (fine_union h2).2 m hm
      · exact (fine_union g2).2 m hm
  exact ⟨R, h3, hf, fun s t a b c => by rw [← hf.mem, h4]⟩

theorem gm2_fine {canon : Mat → Mat} (hc : CanonSpec canon) (hz : CanonNoZero canon) : ∃ R, Literature.lverGM2 (L := ℕ) canon = .ok R ∧
    Fine R ∧ ∀ s t a b c, R.Mem [s, t, a, b, c] ↔ InEnergyBox s t a b c ∧
      (t < 3 / 2 → b ≤ max (3 * a + 1 - 2 * s) (2 * a + 2 - 2 * s)) := by
  obtain ⟨ms, h1, h2⟩ := loop_mixed hc hz (energyBox ++ [rowOf [3 / 2, 0, -1, 0, 0, 0]]) 5 (by decide +kernel) box_nz box_bd
    ([[1, -2, 0, 3, -1, 0], [2, -2, 0, 2, -1, 0]].map rowOf) [] (by decide +kernel) (by simp) (by
      refine stag_point [3 / 4, 3 / 4, 39 / 20, 9 / 20, 1] (by decide +kernel) ?_
      exact stag_point [7 / 10, 7 / 20, 3 / 4, 19 / 10, 1] (by decide +kernel) trivial)
  obtain ⟨ms', g1, g2⟩ := append_mixed [rowOf [-(3 / 2), 0, 1, 0, 0, 0]] (by decide +kernel) [3 / 4, 2, 1, 1, 1] rfl
    (by unfold Row.Strict; decide +kernel) ms h2
  obtain ⟨R, h3, h4⟩ := Literature.C73_gm2 (L := ℕ) canon hc
  have e : R = DerivedZD.unionOf ms' := by
    unfold Literature.lverGM2 fromHalfplanes at h3
    rw [List.map_nil] at h1
    rw [h1] at h3
    exact (Except.ok.inj (h3.symm.trans g1))
  have hf : Fine R := e ▸ fine_union g2
  exact ⟨R, h3, hf, fun s t a b c => by rw [← hf.mem, h4]⟩

theorem gm3_fine {canon : Mat → Mat} (hc : CanonSpec canon) (hz : CanonNoZero canon) : ∃ R, Literature.lverGM3 (L := ℕ) canon = .ok R ∧
    Fine R ∧ ∀ s t a b c, R.Mem [s, t, a, b, c] ↔ InEnergyBox s t a b c ∧
      (1 < t → t < 4 / 3 → b ≤ max (a + 4 - 4 * s) (max (21 * a / 8 + t / 4 + 1 - 2 * s) (3 * a + 1 - 2 * s))) := by
  obtain ⟨ms, h1, h2⟩ := loop_mixed hc hz (energyBox ++ [rowOf [4 / 3, 0, -1, 0, 0, 0], rowOf [-1, 0, 1, 0, 0, 0]]) 5 (by decide +kernel)
    box_nz box_bd ([[4, -4, 0, 1, -1, 0], [1, -2, 1 / 4, 21 / 8, -1, 0], [1, -2, 0, 3, -1, 0]].map rowOf) [] (by decide +kernel) (by simp) (by
      refine stag_point [9 / 10, 5 / 4, 9 / 5, 6 / 5, 1] (by decide +kernel) ?_
      refine stag_point [17 / 20, 11 / 10, 13 / 10, 12 / 5, 1] (by decide +kernel) ?_
      exact stag_point [17 / 20, 21 / 20, 13 / 4, 173 / 20, 1] (by decide +kernel) trivial)
  obtain ⟨ms', g1, g2⟩ := append_mixed [rowOf [-(4 / 3), 0, 1, 0, 0, 0]] (by decide +kernel) [3 / 4, 2, 1, 1, 1] rfl (by unfold Row.Strict; decide +kernel) ms h2
  obtain ⟨ms'', k1, k2⟩ := append_mixed [rowOf [1, 0, -1, 0, 0, 0]] (by decide +kernel) [3 / 4, 1 / 2, 1, 1, 1] rfl
    (by unfold Row.Strict; decide +kernel) ms' g2
  obtain ⟨R, h3, h4⟩ := Literature.C73_gm3 (L := ℕ) canon hc
  have e : R = DerivedZD.unionOf ms'' := by
    unfold Literature.lverGM3 fromHalfplanes at h3
    rw [List.map_nil] at h1
    rw [h1] at h3
    change (Literature.appendChild _ (DerivedZD.unionOf ms) >>= _) = _ at h3
    rw [g1] at h3
    exact (Except.ok.inj (h3.symm.trans k1))
  have hf : Fine R := e ▸ fine_union k2
  exact ⟨R, h3, hf, fun s t a b c => by rw [← hf.mem, h4]⟩

/-- The conditions of the three regions of the code (the bound `S3 ≤ 2τ + ρ/2 + ρ*/2` of the text is `2τ + 7ρ/2 - 5ρ*/2` in the code,
see `C73_gm1_counterexample`). -/
def Feasible (s t a b : ℚ) : Prop :=
  Literature.GMRelation (2 * t + 7 * a / 2 - 5 * b / 2) 2 s t a b ∧
    (t < 3 / 2 → b ≤ max (3 * a + 1 - 2 * s) (2 * a + 2 - 2 * s)) ∧
    (1 < t → t < 4 / 3 → b ≤ max (a + 4 - 4 * s) (max (21 * a / 8 + t / 4 + 1 - 2 * s) (3 * a + 1 - 2 * s)))

theorem regions_ok {canon : Mat → Mat} (hc : CanonSpec canon) (hz : CanonNoZero canon) : ∃ rs, regions canon = .ok rs ∧
    (∀ R ∈ rs, Fine R) ∧ ∀ s t a b c, (∀ R ∈ rs, R.Mem [s, t, a, b, c]) ↔ InEnergyBox s t a b c ∧ Feasible s t a b := by
  obtain ⟨R1, a1, a2, a3⟩ := gm1_fine hc hz
  obtain ⟨R2, b1, b2, b3⟩ := gm2_fine hc hz
  obtain ⟨R3, c1, c2, c3⟩ := gm3_fine hc hz
  refine ⟨[R1, R2, R3], ?_, ?_, fun s t a b c => ?_⟩
  · unfold regions
    rw [a1, b1, c1]
    rfl
  · intro R hR
    simp only [List.mem_cons, List.not_mem_nil, or_false] at hR
    rcases hR with rfl | rfl | rfl <;> assumption
  · simp only [List.mem_cons, List.not_mem_nil, or_false, forall_eq_or_imp, forall_eq, a3, b3, c3]
    unfold Feasible
    tauto

/-! ### The region of tuples and its projection -/

/-- The tuples of the box that satisfy the conditions. -/
def Tuple (x : Pt) : Prop := ∃ s t a b c, x = [s, t, a, b, c] ∧ InEnergyBox s t a b c ∧ Feasible s t a b

theorem rect_eq : Mat.rect [(1 / 2, 1), (0, lvLimit)] = .ok (ZeroDensity.strip (1 / 2) 1 0 0 0 1000000) := by
  simp [Mat.rect, Mat.rangeRows, Mat.unitRow, Mat.ofConstraints, Mat.ofRows, Row.isZero, ZeroDensity.strip, lvLimit]

theorem tuples_iff {rs : List (Region ℕ)} (h : ∀ s t a b c, (∀ R ∈ rs, R.Mem [s, t, a, b, c]) ↔ InEnergyBox s t a b c ∧ Feasible s t a b)
    (x : Pt) : Tuples (ZeroDensity.strip (1 / 2) 1 0 0 0 1000000) rs x ↔ Tuple x := by
  constructor
  · rintro ⟨s, t, a, b, c, rfl, _, _, _, _, h5⟩
    exact ⟨s, t, a, b, c, rfl, (h s t a b c).mp h5⟩
  · rintro ⟨s, t, a, b, c, rfl, h1, h2⟩
    obtain ⟨⟨k1, k2, k3, k4, k5, k6⟩, k7, k8, k9, k10⟩ := id h1
    exact ⟨s, t, a, b, c, rfl, (strip_contains _ _ _ _ _ _ _).mpr ⟨s, t, rfl, ⟨k1, k2⟩, by linarith, by linarith⟩, ⟨k5, k6⟩, ⟨k7, k8⟩,
      ⟨k9, k10⟩, (h s t a b c).mpr ⟨h1, h2⟩⟩

/-- Interior points of `S` are interior points of every set that contains the limits of interior points of `S`. -/
theorem innerLimit_of_cover {S T : Pt → Prop} (h : ∀ x, InnerLimit S x → T x) (x : Pt) (hx : InnerLimit S x) : InnerLimit T x := by
  intro ε hε
  obtain ⟨y, h1, δ, hδ, h2⟩ := hx ε hε
  refine ⟨y, h1, δ / 2, by linarith, fun z hz => h z (fun ε' hε' => ⟨z, Near.refl hε' z, δ / 2, by linarith, fun w hw => h2 w ?_⟩)⟩
  exact (hz.trans hw).mono (by linarith)

/-- A ball in the set of tuples. -/
theorem tuple_ball {s t a b : ℚ} (δ : ℚ) (hδ : 0 < δ) (hδ1 : δ ≤ 1)
    (h : ∀ s' t' a' b', |s' - s| < δ → |t' - t| < δ → |a' - a| < δ → |b' - b| < δ →
      (InBox s' t' a' ∧ 0 ≤ b' ∧ b' ≤ 1000000) ∧ Feasible s' t' a' b') : InnerLimit Tuple [s, t, a, b, 1] := by
  intro ε hε
  refine ⟨_, Near.refl hε _, δ, hδ, fun z hz => ?_⟩
  match z, hz with
  | [s', t', a', b', c'], .cons h1 (.cons h2 (.cons h3 (.cons h4 (.cons h5 .nil)))) =>
    obtain ⟨⟨k1, k2, k3⟩, k4⟩ := h s' t' a' b' h1 h2 h3 h4
    have := abs_lt.mp h5
    exact ⟨s', t', a', b', c', rfl, ⟨k1, k2, k3, by linarith [this.1], by linarith [this.2]⟩, k4⟩

theorem not_convex (m : Mat) (h : ∀ x, m.Contains x → Tuple x) (hc : ∀ x, InnerLimit Tuple x → m.Contains x) : False := by
  have p1 : m.Contains [4 / 5, 2, 1 / 5, 10, 1] := by
    refine hc _ (tuple_ball (1 / 100) (by norm_num) (by norm_num) fun s t a b h1 h2 h3 h4 => ?_)
    rw [abs_lt] at h1 h2 h3 h4
    refine ⟨⟨⟨by linarith, by linarith, by linarith, by linarith, by linarith, by linarith⟩, by linarith, by linarith⟩, ?_, ?_, ?_⟩
    · rw [Literature.gm_iff]; left; left; linarith
    · intro h; linarith
    · intro _ h; linarith
  have p2 : m.Contains [4 / 5, 1 / 2, 1 / 5, 1 / 10, 1] := by
    refine hc _ (tuple_ball (1 / 100) (by norm_num) (by norm_num) fun s t a b h1 h2 h3 h4 => ?_)
    rw [abs_lt] at h1 h2 h3 h4
    refine ⟨⟨⟨by linarith, by linarith, by linarith, by linarith, by linarith, by linarith⟩, by linarith, by linarith⟩, ?_, ?_, ?_⟩
    · rw [Literature.gm_iff]; left; left; linarith
    · intro _; exact le_max_of_le_right (by linarith)
    · intro h; linarith
  obtain ⟨s, t, a, b, c, e, _, _, h2, _⟩ := h _ (SupRatio.contains_seg m _ _ (1 / 2) (by norm_num) (by norm_num) p1 p2)
  simp only [seg, List.zipWith_cons_cons, List.cons.injEq] at e
  obtain ⟨rfl, rfl, rfl, rfl, _⟩ := e
  norm_num at h2

/-- The large value region before the substitution. -/
theorem projected_spec {eng : Engine} (heng : EngineSpec eng) {hrep : List Pt → Mat} (hh : HRepSpec hrep) (hz : HRepNoZero hrep)
    (order : List (Region ℕ) → List (Region ℕ)) (ho : ∀ l, (order l).Perm l) :
    ∃ qs : List Mat, projected eng hrep order = .ok (.union (qs.map (fun m => .polytope m none))) ∧ (∀ q ∈ qs, FullDim 4 q) ∧
      (∀ q ∈ qs, ∀ x, q.Contains x → ∃ s t a b c, x = [s, t, a] ∧ InEnergyBox s t a b c ∧ Feasible s t a b) ∧
      ∀ s t a b c, InnerLimit Tuple [s, t, a, b, c] → ∃ q ∈ qs, q.Contains [s, t, a] := by
  obtain ⟨rs, h1, h2, h3⟩ := regions_ok heng.canon heng.canonNoZero
  have hor : ∀ R, R ∈ order rs ↔ R ∈ rs := fun R => (ho rs).mem_iff
  obtain ⟨ms, b1, b2, b3, b4⟩ := best_mixed heng (order rs) [] [] rfl false [] (by
    intro R hR
    simp only [List.append_nil, Bool.false_eq_true, if_false] at hR
    exact h2 R ((hor R).mp hR)) (ZeroDensity.strip (1 / 2) 1 0 0 0 1000000)
    (strip_fullDim _ _ _ _ _ _ (3 / 4) (by norm_num) (by norm_num) (by norm_num))
  have hT : ∀ x, Tuples (ZeroDensity.strip (1 / 2) 1 0 0 0 1000000) (order rs ++ [] ++ (if false = true then [] else [])) x ↔ Tuple x :=
    tuples_iff (by
      intro s t a b c
      rw [← h3]
      simp [hor])
  have hT' : Tuples (ZeroDensity.strip (1 / 2) 1 0 0 0 1000000) (order rs ++ [] ++ (if false = true then [] else [])) = Tuple :=
    funext fun x => propext (hT x)
  rw [hT'] at b3 b4
  have hM : ∀ x, (DerivedZD.unionOf ms).Mem x ↔ ∃ m ∈ ms, m.Contains x := DerivedZD.unionOf_mem ms
  obtain ⟨ms', c1, c2, c3, c4⟩ := convert_mixed heng (n := 6) (by norm_num) (DerivedZD.unionOf ms) (DerivedZD.unionOf_plain ms)
    (by rw [DerivedZD.unionOf_leaves]; exact b2)
  have sound : ∀ m ∈ ms', ∀ x, m.Contains x → Tuple x := by
    intro m hm x hx
    obtain ⟨m', hm', hx'⟩ := (hM x).mp (c3 m hm x hx)
    exact b3 m' hm' x hx'
  have cover : ∀ x, InnerLimit Tuple x → ∃ m ∈ ms', m.Contains x := by
    intro x hx
    obtain ⟨m, hm, hx'⟩ := b4 x hx
    exact c4 x (by rw [contains_length hx', (b2 m hm).cols])
      (innerLimit_of_cover (fun y hy => (hM y).mpr (b4 y hy)) x hx)
  rcases projectSimplify_mixed (L := ℕ) heng hh hz (by norm_num : 2 ≤ 6) [0, 1, 2] (by decide) ms' c2 with
    ⟨g1, _⟩ | ⟨qs, fs, p, g1, g2, g3, g4, g5, g6⟩
  · exfalso
    refine not_convex ⟨0, [⟨false, -1, []⟩]⟩ (fun x hx => ?_) (fun x hx => ?_)
    · have := (contains_iff_holds _ _ (contains_length hx)).mp hx _ (List.mem_singleton.mpr rfl)
      have h0 := this.2 rfl
      simp at h0
      linarith
    · obtain ⟨m, hm, hx'⟩ := cover x hx
      exact absurd hx' (g1 m hm x)
  · rcases g4 with ⟨hl, _⟩ | ⟨_, hp⟩
    · exfalso
      obtain ⟨f, rfl⟩ := List.length_eq_one_iff.mp hl
      refine not_convex f (fun x hx => sound f (g2 f (by simp)).2 x hx) (fun x hx => ?_)
      obtain ⟨f', hf', hx'⟩ := (g3 x).mpr (cover x hx)
      rw [List.mem_singleton.mp hf'] at hx'
      exact hx'
    · refine ⟨qs, ?_, g5, ?_, ?_⟩
      · unfold projected
        rw [h1, rect_eq]
        simp only [bind, Except.bind]
        rw [b1]
        change lverToLv eng hrep (DerivedZD.unionOf ms) = _
        unfold lverToLv
        rw [c1]
        simp only
        rw [g1, hp]
      · intro q hq x hx
        obtain ⟨m, hm, y, hy, e⟩ := (g6 x).mp ⟨q, hq, hx⟩
        obtain ⟨s, t, a, b, c, rfl, k1, k2⟩ := sound m hm y hy
        exact ⟨s, t, a, b, c, by rw [← e, (pick_five s t a b c).1], k1, k2⟩
      · intro s t a b c hx
        obtain ⟨m, hm, hx'⟩ := cover _ hx
        exact (g6 _).mpr ⟨m, hm, _, hx', (pick_five s t a b c).1⟩

/-! ### The slice `τ = 6/5` -/

/-- Contract of `canonicalize`: a polytope with interior points is left without rows of zeros. -/
def CanonClean (canon : Mat → Mat) : Prop := ∀ m : Mat, m.WF → HasInner m.cols m → (canon m).NoZero

theorem intersect_clean {canon : Mat → Mat} (hc : CanonSpec canon) (hcl : CanonClean canon) {p q m : Mat} {n : ℕ} (hp : p.WF) (hpn : p.cols = n)
    (hq : q.WF) (hqn : q.cols = n) (h : Mat.intersect canon p q = .ok m) (hi : HasInner n m) : m.NoZero := by
  have hlen : ∀ (b : Bool), ∀ r ∈ q.asList b, r.cs.length + 1 = p.cols := fun b r hr => by
    rw [hpn, ← hqn]; exact hq r ((mem_asList _ _ _).mp hr).1
  unfold Mat.intersect intersection at h
  simp only [List.flatMap_cons, List.flatMap_nil, List.append_nil, bind, Except.bind] at h
  rw [extendIf_ok p _ (hlen false)] at h
  simp only at h
  rw [extendIf_ok _ _ (fun r hr => by simpa using hlen true r hr)] at h
  simp only [if_true, Except.ok.injEq] at h
  have hwf : Mat.WF ⟨p.cols, p.rows ++ q.asList false ++ q.asList true⟩ := by
    intro r hr
    simp only [List.mem_append] at hr ⊢
    rcases hr with (hr | hr) | hr
    · exact hp r hr
    · exact hlen false r hr
    · exact hlen true r hr
  rw [← h]
  apply hcl _ hwf
  obtain ⟨s, h1, h2⟩ := hi
  refine ⟨s, by rw [h1, hpn], ?_⟩
  rw [← h] at h2
  exact (interior_congr n (fun x hx => ((hc _ hwf).2.2 x (by rw [hx, hpn]))) s h1).mp h2

theorem fullDim_rows {n : ℕ} {m : Mat} (h : FullDim (n + 2) m) : m.rows ≠ [] := by
  intro h0
  obtain ⟨B, hB⟩ := h.bounded
  have hm : m.Contains (List.replicate (n + 1) (|B| + 1)) := by
    rw [contains_iff_holds _ _ (by rw [h.cols]; simp)]
    intro r hr
    rw [h0] at hr
    simp at hr
  have := hB _ hm (|B| + 1) (by simp)
  have h1 := le_abs_self (|B| + 1)
  have h2 := le_abs_self B
  linarith

theorem domain_eq : domain = .ok ⟨3, [⟨false, -(7 / 10), [1, 0]⟩, ⟨false, 8 / 10, [-1, 0]⟩]⟩ := by
  simp [domain, Mat.ofConstraints, Mat.ofRows, rowOf, Row.isZero]

/-- The range of `σ` in the code. -/
def dom : Mat := ⟨3, [⟨false, -(7 / 10), [1, 0]⟩, ⟨false, 8 / 10, [-1, 0]⟩]⟩

theorem dom_wf : dom.WF := by unfold Mat.WF; decide

theorem dom_contains (s a : ℚ) : dom.Contains [s, a] ↔ 7 / 10 ≤ s ∧ s ≤ 4 / 5 := by
  rw [contains_iff_holds _ _ rfl]
  unfold dom Mat.Holds
  simp only [List.mem_cons, List.not_mem_nil, or_false, forall_eq_or_imp, forall_eq, Row.Holds]
  simp
  intro _
  norm_num

/-- One piece after the substitution and the restriction. -/
structure Slice (q m : Mat) : Prop where
  wf : m.WF
  cols : m.cols = 3
  clean : HasInner 3 m → m.NoZero
  mem : ∀ s a, m.Contains [s, a] ↔ (7 / 10 ≤ s ∧ s ≤ 4 / 5) ∧ q.Contains [s, 6 / 5, a]

theorem slice_one {eng : Engine} (heng : EngineSpec eng) (hcl : CanonClean eng.canon) {q : Mat} (hq : FullDim 4 q) :
    ∃ q' m, q.substitute [(1, 6 / 5)] = .ok q' ∧ Mat.intersect eng.canon q' dom = .ok m ∧ Slice q m := by
  obtain ⟨q', h1, h2, h3, h4⟩ := C13_substitute_exact q hq.wf 3 hq.cols (fullDim_rows hq) [(1, 6 / 5)] (by simp) (by simp)
  obtain ⟨m, e1, e2, e3, e4⟩ := C10_intersection_exact eng.canon heng.canon true [q', dom] (by simp) 3 (by
    intro r hr
    simp only [List.mem_cons, List.not_mem_nil, or_false] at hr
    rcases hr with rfl | rfl
    · exact ⟨h2, h3⟩
    · exact ⟨dom_wf, rfl⟩)
  refine ⟨q', m, h1, e1, e2, e3, fun hi => intersect_clean heng.canon hcl h2 h3 dom_wf rfl e1 hi, fun s a => ?_⟩
  rw [e4]
  simp only [List.mem_cons, List.not_mem_nil, or_false, forall_eq_or_imp, forall_eq]
  rw [dom_contains, ← h4 [s, 6 / 5, a] rfl (by simp)]
  exact and_comm

theorem slice_all {eng : Engine} (heng : EngineSpec eng) (hcl : CanonClean eng.canon) (qs : List Mat) (hq : ∀ q ∈ qs, FullDim 4 q) :
    ∃ qs' ms : List Mat, mapMatList (L := ℕ) (fun m => m.substitute [(1, 6 / 5)]) (qs.map (fun m => .polytope m none)) =
        .ok (qs'.map (fun m => .polytope m none)) ∧
      clip eng dom (qs'.map (fun m => .polytope m none)) = .ok ms ∧ List.Forall₂ Slice qs ms := by
  induction qs with
  | nil => exact ⟨[], [], by simp [mapMatList], rfl, .nil⟩
  | cons q qs ih =>
    obtain ⟨qs', ms, h1, h2, h3⟩ := ih (fun q hq' => hq q (by simp [hq']))
    obtain ⟨q', m, k1, k2, k3⟩ := slice_one heng hcl (hq q (by simp))
    refine ⟨q' :: qs', m :: ms, ?_, ?_, .cons k3 h3⟩
    · simp only [List.map_cons]
      unfold mapMatList mapMat
      rw [k1, h1]
      rfl
    · simp only [List.map_cons]
      unfold clip
      rw [show clipOne eng dom (.polytope q' none) = .ok m from k2, h2]
      rfl

/-- The set to be found. -/
def target : Mat := ⟨3, [⟨false, -(7 / 10), [1, 0]⟩, ⟨false, 8 / 10, [-1, 0]⟩, ⟨false, 0, [0, 1]⟩, ⟨false, 18 / 5, [-4, -1]⟩]⟩

theorem target_wf : target.WF := by unfold Mat.WF; decide

theorem target_contains (s a : ℚ) : target.Contains [s, a] ↔ (7 / 10 ≤ s ∧ s ≤ 4 / 5) ∧ 0 ≤ a ∧ a ≤ 18 / 5 - 4 * s := by
  rw [contains_iff_holds _ _ rfl]
  unfold target Mat.Holds
  simp only [List.mem_cons, List.not_mem_nil, or_false, forall_eq_or_imp, forall_eq, Row.Holds]
  simp
  constructor
  · rintro ⟨h1, h2, h3, h4⟩; refine ⟨⟨?_, ?_⟩, ?_, ?_⟩ <;> linarith
  · rintro ⟨⟨h1, h2⟩, h3, h4⟩; refine ⟨?_, ?_, ?_, ?_⟩ <;> linarith

theorem target_strict : target.Strict [3 / 4, 1 / 5] := by
  intro r hr
  simp only [target, List.mem_cons, List.not_mem_nil, or_false] at hr
  rcases hr with rfl | rfl | rfl | rfl <;> constructor <;> simp <;> norm_num

/-- At `τ = 6/5` the conditions give `ρ ≤ 18/5 - 4σ`. -/
theorem slice_upper {s a b : ℚ} (h1 : 7 / 10 ≤ s) (h2 : s ≤ 4 / 5) (h : Feasible s (6 / 5) a b) : a ≤ 18 / 5 - 4 * s := by
  have h := h.1
  rw [Literature.gm_iff] at h
  push_cast at h
  rcases h with (h | h | h | h | h) | ⟨h3, h | h⟩ <;> linarith

/-- At `τ = 6/5` all these `ρ` occur, as limits of interior points. -/
theorem slice_inner {s a : ℚ} (h1 : 7 / 10 ≤ s) (h2 : s ≤ 4 / 5) (h3 : 0 ≤ a) (h4 : a ≤ 18 / 5 - 4 * s) :
    InnerLimit Tuple [s, 6 / 5, a, 1 / 20, 1] := by
  intro ε hε
  obtain ⟨η, e1, e2, e3⟩ : ∃ η : ℚ, 0 < η ∧ η < ε ∧ η ≤ 1 / 20 :=
    ⟨min (ε / 2) (1 / 20), lt_min (by linarith) (by norm_num), (min_le_left _ _).trans_lt (by linarith), min_le_right _ _⟩
  refine ⟨[s, 6 / 5 + η, a + η, 1 / 20, 1], ?_, η / 100, by linarith, ?_⟩
  · refine .cons ?_ (.cons ?_ (.cons ?_ (.cons ?_ (.cons ?_ .nil)))) <;> rw [abs_lt] <;> constructor <;> linarith
  · intro z hz
    match z, hz with
    | [s', t', a', b', c'], .cons k1 (.cons k2 (.cons k3 (.cons k4 (.cons k5 .nil)))) =>
      rw [abs_lt] at k1 k2 k3 k4 k5
      refine ⟨s', t', a', b', c', rfl, ⟨⟨?_, ?_, ?_, ?_, ?_, ?_⟩, ?_, ?_, ?_, ?_⟩, ?_, ?_, ?_⟩
      all_goals try linarith
      · rw [Literature.gm_iff]
        right
        exact ⟨by linarith, .inl (by linarith)⟩
      · intro _; exact le_max_of_le_right (by linarith)
      · intro _ _; exact le_max_of_le_left (by linarith)

theorem two (m : Mat) (h : m.cols = 3) (x : Pt) (hx : m.Contains x) : ∃ s a, x = [s, a] := by
  have := contains_length hx
  rw [h] at this
  match x, this with
  | [s, a], _ => exact ⟨s, a, rfl⟩

/-- A polytope without its rows of zeros. -/
def dropZero (m : Mat) : Mat := ⟨m.cols, m.rows.filter (fun r => !r.isZero)⟩

theorem isZero_holds {r : Row} (h : r.isZero = true) (x : Pt) : r.Holds x := by
  have h0 : ∀ (cs : List ℚ) (x : Pt), (∀ c ∈ cs, c = 0) → dot cs x = 0 := by
    intro cs
    induction cs with
    | nil => intro x _; simp
    | cons c cs ih =>
      intro x hc
      cases x with
      | nil => simp
      | cons y x => rw [dot_cons, ih x (fun d hd => hc d (by simp [hd])), hc c (by simp)]; ring
  unfold Row.isZero at h
  simp only [Bool.and_eq_true, decide_eq_true_eq, List.all_eq_true] at h
  have := h0 r.cs x h.2
  constructor <;> intro _ <;> rw [this] <;> simp [h.1]

theorem dropZero_holds (m : Mat) (x : Pt) : (dropZero m).Holds x ↔ m.Holds x := by
  unfold dropZero Mat.Holds
  constructor
  · intro h r hr
    cases hz : r.isZero with
    | true => exact isZero_holds hz x
    | false => exact h r (List.mem_filter.mpr ⟨hr, by simp [hz]⟩)
  · intro h r hr
    exact h r (List.mem_filter.mp hr).1

end DerivedLV
end Expdb
