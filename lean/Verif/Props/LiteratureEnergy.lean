import Verif.Model.Literature
import Verif.Props.LargeValues

/-!
# Property C73: the large value energy regions of the literature
-/

namespace Expdb
namespace Literature

open LargeValues
open Region (Contains contains_iff_mem)

variable {L : Type}

/-- A union of half spaces in the default box with further constraints. -/
theorem halfplanes5 (canon : Mat → Mat) (hc : Mat.CanonSpec canon) (hs extra : List (List ℚ)) (h1 : ∀ c ∈ hs, c.length = 6)
    (h2 : ∀ c ∈ extra, c.length = 6) : ∃ rs : List (Region L),
      Region.fromHalfplanes canon (hs.map rowOf) (energyBox ++ extra.map rowOf) = .ok (.disjoint rs) ∧
      Region.AllMatList (fun m => m.cols = 5 + 1) rs ∧
      ∀ σ τ ρ ρs s, Region.MemAny rs [σ, τ, ρ, ρs, s] ↔ InEnergyBox σ τ ρ ρs s ∧
        (∀ c ∈ extra, (rowOf c).Holds [σ, τ, ρ, ρs, s]) ∧ ∃ h ∈ hs, (rowOf h).Holds [σ, τ, ρ, ρs, s] := by
  obtain ⟨ps, e1, e2, e3, e4, _⟩ := Region.halfplaneLoop_spec (L := L) canon hc (energyBox ++ extra.map rowOf) 5 (by
      intro r hr
      rcases List.mem_append.mp hr with hr | hr
      · exact (by decide : ∀ r ∈ energyBox, r.cs.length = 5) r hr
      · obtain ⟨c, hc', rfl⟩ := List.mem_map.mp hr
        rw [rowOf_length, h2 c hc'])
    ⟨_, List.mem_append_left _ List.mem_cons_self, by decide +kernel⟩ (hs.map rowOf) [] (by
      intro r hr
      obtain ⟨c, hc', rfl⟩ := List.mem_map.mp hr
      exact ⟨by rw [rowOf_length, h1 c hc'], rowOf_lin c⟩) (by simp)
  refine ⟨ps.map (fun m => .polytope m none), by unfold Region.fromHalfplanes; rw [e1]; rfl, ?_, fun σ τ ρ ρs s => ?_⟩
  · rw [Region.allMatList_iff]
    intro r hr
    obtain ⟨p, hp, rfl⟩ := List.mem_map.mp hr
    unfold Region.AllMat
    exact (e2 p hp).1
  · have hm : Region.MemAny (ps.map (fun m => (.polytope m none : Region L))) [σ, τ, ρ, ρs, s] ↔
        ∃ p ∈ ps, p.Contains [σ, τ, ρ, ρs, s] := by
      rw [Region.memAny_iff]
      constructor
      · rintro ⟨r, hr, hx⟩
        obtain ⟨p, hp, rfl⟩ := List.mem_map.mp hr
        unfold Region.Mem at hx
        exact ⟨p, hp, hx⟩
      · rintro ⟨p, hp, hx⟩
        exact ⟨_, List.mem_map.mpr ⟨p, hp, rfl⟩, by unfold Region.Mem; exact hx⟩
    have hb : (∀ r ∈ energyBox ++ extra.map rowOf, r.Holds [σ, τ, ρ, ρs, s]) ↔
        InEnergyBox σ τ ρ ρs s ∧ ∀ c ∈ extra, (rowOf c).Holds [σ, τ, ρ, ρs, s] := by
      rw [← energyBox_holds]
      simp only [List.mem_append, or_imp, forall_and, List.mem_map, forall_exists_index, and_imp, forall_apply_eq_imp_iff₂]
    rw [hm]
    constructor
    · intro h
      obtain ⟨a, _, b⟩ := e3 _ rfl h
      obtain ⟨a1, a2⟩ := hb.mp a
      obtain ⟨r, hr, hx⟩ := b
      obtain ⟨c, hc', rfl⟩ := List.mem_map.mp hr
      exact ⟨a1, a2, c, hc', hx⟩
    · rintro ⟨a1, a2, c, hc', hx⟩
      exact e4 _ rfl (hb.mpr ⟨a1, a2⟩) (by simp) ⟨_, List.mem_map.mpr ⟨c, hc', rfl⟩, hx⟩

/-- Appending the default box with further constraints to a disjoint union. -/
theorem append5 (rs : List (Region L)) (h : Region.AllMatList (fun m => m.cols = 5 + 1) rs) (extra : List (List ℚ))
    (h2 : ∀ c ∈ extra, c.length = 6) : ∃ rs' : List (Region L),
      appendChild (energyBox ++ extra.map rowOf) (.disjoint rs) = .ok (.disjoint rs') ∧
      Region.AllMatList (fun m => m.cols = 5 + 1) rs' ∧
      ∀ σ τ ρ ρs s, Region.MemAny rs' [σ, τ, ρ, ρs, s] ↔ Region.MemAny rs [σ, τ, ρ, ρs, s] ∨
        InEnergyBox σ τ ρ ρs s ∧ ∀ c ∈ extra, (rowOf c).Holds [σ, τ, ρ, ρs, s] := by
  obtain ⟨m, e1, e2, e3, e4, e5⟩ := Region.ofConstraints_exact (energyBox ++ extra.map rowOf) 5 (by
      intro r hr
      rcases List.mem_append.mp hr with hr | hr
      · exact (by decide : ∀ r ∈ energyBox, r.cs.length = 5) r hr
      · obtain ⟨c, hc', rfl⟩ := List.mem_map.mp hr
        rw [rowOf_length, h2 c hc'])
    ⟨_, List.mem_append_left _ List.mem_cons_self, by decide +kernel⟩
  refine ⟨rs ++ [.polytope m none], by unfold appendChild; rw [e1]; rfl, ?_, fun σ τ ρ ρs s => ?_⟩
  · rw [Region.allMatList_iff] at h ⊢
    intro r hr
    rcases List.mem_append.mp hr with hr | hr
    · exact h r hr
    · rw [List.mem_singleton.mp hr]
      unfold Region.AllMat
      exact e2
  · have hb : (∀ r ∈ energyBox ++ extra.map rowOf, r.Holds [σ, τ, ρ, ρs, s]) ↔
        InEnergyBox σ τ ρ ρs s ∧ ∀ c ∈ extra, (rowOf c).Holds [σ, τ, ρ, ρs, s] := by
      rw [← energyBox_holds]
      simp only [List.mem_append, or_imp, forall_and, List.mem_map, forall_exists_index, and_imp, forall_apply_eq_imp_iff₂]
    rw [Region.memAny_iff, Region.memAny_iff]
    simp only [List.mem_append, List.mem_singleton, or_and_right, exists_or, exists_eq_left]
    refine or_congr Iff.rfl ?_
    unfold Region.Mem
    rw [Mat.contains_iff_holds m _ (by rw [e2]; rfl), ← hb, ← e5]

theorem disjoint5 {rs : List (Region L)} (h : Region.AllMatList (fun m => m.cols = 5 + 1) rs) (σ τ ρ ρs s : ℚ) :
    (Region.disjoint rs).Contains [σ, τ, ρ, ρs, s] ↔ Region.MemAny rs [σ, τ, ρ, ρs, s] := disjoint_contains h _ rfl

/-- The bound on double zeta sums `s ≤ max(ρ + 1, 2ρ, 5ρ/4 + τ/2) + 1` (additive_energy.tex, Heath-Brown bound on double zeta sums). -/
def DoubleZeta (τ ρ s : ℚ) : Prop := s ≤ max (ρ + 1) (max (2 * ρ) (5 / 4 * ρ + τ / 2)) + 1

/-- The Heath-Brown relation (additive_energy.tex). -/
def HBRelation (σ τ ρ ρs : ℚ) : Prop :=
  ρs ≤ 1 - 2 * σ + 1 / 2 * max (ρ + 1) (max (2 * ρ) (5 / 4 * ρ + τ / 2)) +
    1 / 2 * max (ρs + 1) (max (4 * ρ) (3 / 4 * ρs + ρ + τ / 2))

/-- **C73** (double zeta sums, Heath-Brown) -/
theorem C73_hb1 (canon : Mat → Mat) (hc : Mat.CanonSpec canon) : ∃ r : Region L, lverHB1 canon = .ok r ∧
    ∀ σ τ ρ ρs s, r.Contains [σ, τ, ρ, ρs, s] ↔ InEnergyBox σ τ ρ ρs s ∧ DoubleZeta τ ρ s := by
  obtain ⟨rs, h1, h2, h3⟩ := halfplanes5 (L := L) canon hc
    [[2, 0, 0, 1, 0, -1], [1, 0, 0, 2, 0, -1], [1, 0, 1 / 2, 5 / 4, 0, -1]] [] (by decide) (by decide)
  refine ⟨.disjoint rs, by rw [List.map_nil, List.append_nil] at h1; exact h1, fun σ τ ρ ρs s => ?_⟩
  rw [disjoint5 h2, h3]
  refine and_congr_right fun _ => ?_
  unfold DoubleZeta
  rw [← sub_le_iff_le_add]
  simp only [List.exists_mem_cons_iff, List.not_mem_nil, false_and, exists_false, or_false, rowOf_holds6, le_max_iff,
    false_imp_iff, forall_const, true_and]
  refine or_congr ?_ (or_congr ?_ ?_) <;> constructor <;> intro h <;> linarith

/-- **C73** (double zeta sums for `τ ≤ 1`, Ivić) -/
theorem C73_ivic (canon : Mat → Mat) (hc : Mat.CanonSpec canon) : ∃ r : Region L, lverIvic canon = .ok r ∧
    ∀ σ τ ρ ρs s, r.Contains [σ, τ, ρ, ρs, s] ↔ InEnergyBox σ τ ρ ρs s ∧ (τ < 1 → s ≤ max (ρ + 1) (2 * ρ) + 1) := by
  obtain ⟨rs, h1, h2, h3⟩ := halfplanes5 (L := L) canon hc [[2, 0, 0, 1, 0, -1], [1, 0, 0, 2, 0, -1]] [[1, 0, -1, 0, 0, 0]]
    (by decide) (by decide)
  obtain ⟨rs', g1, g2, g3⟩ := append5 rs h2 [[-1, 0, 1, 0, 0, 0]] (by decide)
  refine ⟨.disjoint rs', ?_, fun σ τ ρ ρs s => ?_⟩
  · unfold lverIvic
    rw [List.map_singleton] at h1 g1
    rw [h1]
    exact g1
  rw [disjoint5 g2, g3, h3, ← and_or_left]
  refine and_congr_right fun _ => ?_
  rw [← sub_le_iff_le_add]
  simp only [List.mem_cons, List.not_mem_nil, or_false, exists_eq_or_imp, exists_eq_left, forall_eq, rowOf_holds6,
    le_max_iff]
  constructor
  · rintro (⟨_, h | h⟩ | h) hτ
    · left; linarith
    · right; linarith
    · linarith
  · intro h
    rcases lt_or_ge τ 1 with hτ | hτ
    · left
      refine ⟨by linarith, ?_⟩
      rcases h hτ with h | h
      · left; linarith
      · right; linarith
    · right; linarith

/-- **C73** (the Heath-Brown relation, multiplied out into nine half spaces) -/
theorem C73_hb2a (canon : Mat → Mat) (hc : Mat.CanonSpec canon) : ∃ r : Region L, lverHB2a canon = .ok r ∧
    ∀ σ τ ρ ρs s, r.Contains [σ, τ, ρ, ρs, s] ↔ InEnergyBox σ τ ρ ρs s ∧ HBRelation σ τ ρ ρs := by
  obtain ⟨rs, h1, h2, h3⟩ := halfplanes5 (L := L) canon hc
    [[2, -2, 0, 1 / 2, -(1 / 2), 0], [3 / 2, -2, 0, 1, -(1 / 2), 0],
      [3 / 2, -2, 1 / 4, 5 / 8, -(1 / 2), 0], [3 / 2, -2, 0, 5 / 2, -1, 0], [1, -2, 0, 3, -1, 0], [1, -2, 1 / 4, 21 / 8, -1, 0],
      [3 / 2, -2, 1 / 4, 1, -(5 / 8), 0], [1, -2, 1 / 4, 3 / 2, -(5 / 8), 0], [1, -2, 1 / 2, 9 / 8, -(5 / 8), 0]] []
    (by decide) (by decide)
  refine ⟨.disjoint rs, by rw [List.map_nil, List.append_nil] at h1; exact h1, fun σ τ ρ ρs s => ?_⟩
  rw [disjoint5 h2, h3]
  refine and_congr_right fun _ => ?_
  have hb : HBRelation σ τ ρ ρs ↔ 2 * ρs - 2 + 4 * σ ≤
      max (ρ + 1) (max (2 * ρ) (5 / 4 * ρ + τ / 2)) + max (ρs + 1) (max (4 * ρ) (3 / 4 * ρs + ρ + τ / 2)) := by
    unfold HBRelation
    constructor <;> intro h <;> linarith
  rw [hb, max_sum]
  simp only [List.exists_mem_cons_iff, List.not_mem_nil, false_and, exists_false, or_false, rowOf_holds6,
    false_imp_iff, forall_const, true_and]
  constructor
  · rintro (h | h | h | h | h | h | h | h | h)
    · left; linarith
    · right; right; right; left; linarith
    · right; right; right; right; right; right; left; linarith
    · right; left; linarith
    · right; right; right; right; left; linarith
    · right; right; right; right; right; right; right; left; linarith
    · right; right; left; linarith
    · right; right; right; right; right; left; linarith
    · right; right; right; right; right; right; right; right; linarith
  · rintro (h | h | h | h | h | h | h | h | h)
    · left; linarith
    · right; right; right; left; linarith
    · right; right; right; right; right; right; left; linarith
    · right; left; linarith
    · right; right; right; right; left; linarith
    · right; right; right; right; right; right; right; left; linarith
    · right; right; left; linarith
    · right; right; right; right; right; left; linarith
    · right; right; right; right; right; right; right; right; linarith

/-- **C73** (the simplified Heath-Brown relation) -/
theorem C73_hb2b (canon : Mat → Mat) (hc : Mat.CanonSpec canon) : ∃ r : Region L, lverHB2b canon = .ok r ∧
    ∀ σ τ ρ ρs s, r.Contains [σ, τ, ρ, ρs, s] ↔ InEnergyBox σ τ ρ ρs s ∧
      (τ < 3 / 2 → ρs ≤ max (3 * ρ + 1 - 2 * σ) (max (ρ + 4 - 4 * σ) (5 * ρ / 2 + (3 - 4 * σ) / 2))) := by
  obtain ⟨rs, h1, h2, h3⟩ := halfplanes5 (L := L) canon hc [[1, -2, 0, 3, -1, 0], [4, -4, 0, 1, -1, 0], [3 / 2, -2, 0, 5 / 2, -1, 0]]
    [[3 / 2, 0, -1, 0, 0, 0]] (by decide) (by decide)
  obtain ⟨rs', g1, g2, g3⟩ := append5 rs h2 [[-(3 / 2), 0, 1, 0, 0, 0]] (by decide)
  refine ⟨.disjoint rs', ?_, fun σ τ ρ ρs s => ?_⟩
  · unfold lverHB2b
    rw [List.map_singleton] at h1 g1
    rw [h1]
    exact g1
  rw [disjoint5 g2, g3, h3, ← and_or_left]
  refine and_congr_right fun _ => ?_
  simp only [List.mem_cons, List.not_mem_nil, or_false, exists_eq_or_imp, exists_eq_left, forall_eq, rowOf_holds6,
    le_max_iff]
  constructor
  · rintro (⟨_, h | h | h⟩ | h) hτ
    · left; linarith
    · right; left; linarith
    · right; right; linarith
    · linarith
  · intro h
    rcases lt_or_ge τ (3 / 2) with hτ | hτ
    · left
      refine ⟨by linarith, ?_⟩
      rcases h hτ with h | h | h
      · left; linarith
      · right; left; linarith
      · right; right; linarith
    · right; linarith

/-- **C73** (the second Heath-Brown relation, for every `k`) -/
theorem C73_hb3 (canon : Mat → Mat) (hc : Mat.CanonSpec canon) (k : ℕ) : ∃ r : Region L, lverHB3 canon k = .ok r ∧
    ∀ σ τ ρ ρs s, r.Contains [σ, τ, ρ, ρs, s] ↔ InEnergyBox σ τ ρ ρs s ∧
      ρ ≤ max (2 - 2 * σ) (ρs / 4 + max (τ / 4 + k * (3 - 4 * σ) / 4) (k * τ / 4 + k * (1 - 2 * σ) / 2)) := by
  obtain ⟨rs, h1, h2, h3⟩ := halfplanes5 (L := L) canon hc [[2, -2, 0, -1, 0, 0], [3 * (k : ℚ) / 4, -(k : ℚ), 1 / 4, -1, 1 / 4, 0],
    [(k : ℚ) / 2, -(k : ℚ), (k : ℚ) / 4, -1, 1 / 4, 0]] [] (by simp) (by simp)
  refine ⟨.disjoint rs, by rw [List.map_nil, List.append_nil] at h1; exact h1, fun σ τ ρ ρs s => ?_⟩
  rw [disjoint5 h2, h3]
  refine and_congr_right fun _ => ?_
  rw [le_max_iff, ← sub_le_iff_le_add', le_max_iff]
  simp only [List.exists_mem_cons_iff, List.not_mem_nil, false_and, exists_false, or_false, rowOf_holds6,
    false_imp_iff, forall_const, true_and]
  refine or_congr ?_ (or_congr ?_ ?_) <;> constructor <;> intro h <;> linarith

/-- **C73** (the second Guth–Maynard relation) -/
theorem C73_gm2 (canon : Mat → Mat) (hc : Mat.CanonSpec canon) : ∃ r : Region L, lverGM2 canon = .ok r ∧
    ∀ σ τ ρ ρs s, r.Contains [σ, τ, ρ, ρs, s] ↔ InEnergyBox σ τ ρ ρs s ∧
      (τ < 3 / 2 → ρs ≤ max (3 * ρ + 1 - 2 * σ) (2 * ρ + 2 - 2 * σ)) := by
  obtain ⟨rs, h1, h2, h3⟩ := halfplanes5 (L := L) canon hc [[1, -2, 0, 3, -1, 0], [2, -2, 0, 2, -1, 0]]
    [[3 / 2, 0, -1, 0, 0, 0]] (by decide) (by decide)
  obtain ⟨rs', g1, g2, g3⟩ := append5 rs h2 [[-(3 / 2), 0, 1, 0, 0, 0]] (by decide)
  refine ⟨.disjoint rs', ?_, fun σ τ ρ ρs s => ?_⟩
  · unfold lverGM2
    rw [List.map_singleton] at h1 g1
    rw [h1]
    exact g1
  rw [disjoint5 g2, g3, h3, ← and_or_left]
  refine and_congr_right fun _ => ?_
  simp only [List.mem_cons, List.not_mem_nil, or_false, exists_eq_or_imp, exists_eq_left, forall_eq, rowOf_holds6,
    le_max_iff]
  constructor
  · rintro (⟨_, h | h⟩ | h) hτ
    · left; linarith
    · right; linarith
    · linarith
  · intro h
    rcases lt_or_ge τ (3 / 2) with hτ | hτ
    · left
      refine ⟨by linarith, ?_⟩
      rcases h hτ with h | h
      · left; linarith
      · right; linarith
    · right; linarith

/-- **C73** (the third Guth–Maynard relation) -/
theorem C73_gm3 (canon : Mat → Mat) (hc : Mat.CanonSpec canon) : ∃ r : Region L, lverGM3 canon = .ok r ∧
    ∀ σ τ ρ ρs s, r.Contains [σ, τ, ρ, ρs, s] ↔ InEnergyBox σ τ ρ ρs s ∧
      (1 < τ → τ < 4 / 3 → ρs ≤ max (ρ + 4 - 4 * σ) (max (21 * ρ / 8 + τ / 4 + 1 - 2 * σ) (3 * ρ + 1 - 2 * σ))) := by
  obtain ⟨rs, h1, h2, h3⟩ := halfplanes5 (L := L) canon hc [[4, -4, 0, 1, -1, 0], [1, -2, 1 / 4, 21 / 8, -1, 0], [1, -2, 0, 3, -1, 0]]
    [[4 / 3, 0, -1, 0, 0, 0], [-1, 0, 1, 0, 0, 0]] (by decide) (by decide)
  obtain ⟨rs', g1, g2, g3⟩ := append5 rs h2 [[-(4 / 3), 0, 1, 0, 0, 0]] (by decide)
  obtain ⟨rs'', k1, k2, k3⟩ := append5 rs' g2 [[1, 0, -1, 0, 0, 0]] (by decide)
  refine ⟨.disjoint rs'', ?_, fun σ τ ρ ρs s => ?_⟩
  · unfold lverGM3
    simp only [List.map_cons, List.map_nil] at h1 g1 k1
    rw [List.map_cons, List.map_cons, List.map_cons, List.map_nil, h1]
    show (appendChild _ _ >>= _) = _
    rw [g1]
    exact k1
  rw [disjoint5 k2, k3, g3, h3, ← and_or_left, ← and_or_left]
  refine and_congr_right fun _ => ?_
  simp only [List.mem_cons, List.not_mem_nil, or_false, exists_eq_or_imp, exists_eq_left, forall_eq_or_imp, forall_eq, rowOf_holds6,
    le_max_iff]
  constructor
  · rintro ((⟨_, h | h | h⟩ | h) | h) hτ hτ'
    · left; linarith
    · right; left; linarith
    · right; right; linarith
    · linarith
    · linarith
  · intro h
    rcases le_or_gt τ 1 with hτ | hτ
    · right; linarith
    rcases lt_or_ge τ (4 / 3) with hτ' | hτ'
    · left; left
      refine ⟨⟨by linarith, by linarith⟩, ?_⟩
      rcases h hτ hτ' with h | h | h
      · left; linarith
      · right; left; linarith
      · right; right; linarith
    · left; right; linarith

/-- The Guth–Maynard relation for the parameter `k` (additive_energy.tex), with `B` in place of the bound `2τ + ρ/2 + ρ*/2` on `S3`. -/
def GMRelation (B : ℚ) (k : ℕ) (σ τ ρ ρs : ℚ) : Prop :=
  ∃ S1 S2 S3 : ℚ, S1 ≤ -10 ∧
    S2 ≤ max (2 + 2 * ρ) (max (τ + 1 + (2 - 1 / k) * ρ) (2 + 2 * ρ + (τ / 2 - 3 * ρ / 4) / k)) ∧
    S3 ≤ B ∧ S3 ≤ max (2 * τ + 3 * ρ / 2) (τ + 1 + ρ / 2 + ρs / 2) ∧
    ρ ≤ max (2 - 2 * σ) (1 - 2 * σ + max S1 (max S2 S3) / 3)

/-- The relation without the auxiliary numbers. -/
theorem gm_iff (B : ℚ) (k : ℕ) (σ τ ρ ρs : ℚ) : GMRelation B k σ τ ρ ρs ↔
    (ρ ≤ 2 - 2 * σ ∨ 3 * ρ ≤ 3 - 6 * σ + -10 ∨ 3 * ρ ≤ 3 - 6 * σ + (2 + 2 * ρ) ∨
      3 * ρ ≤ 3 - 6 * σ + (τ + 1 + (2 - 1 / k) * ρ) ∨ 3 * ρ ≤ 3 - 6 * σ + (2 + 2 * ρ + (τ / 2 - 3 * ρ / 4) / k)) ∨
    (3 * ρ ≤ 3 - 6 * σ + B ∧ (3 * ρ ≤ 3 - 6 * σ + (2 * τ + 3 * ρ / 2) ∨ 3 * ρ ≤ 3 - 6 * σ + (τ + 1 + ρ / 2 + ρs / 2))) := by
  unfold GMRelation
  constructor
  · rintro ⟨S1, S2, S3, h1, h2, h3, h4, h5⟩
    simp only [le_max_iff] at h2 h4 h5
    rcases h5 with h5 | h5
    · exact Or.inl (Or.inl h5)
    · rcases max_choice S1 (max S2 S3) with e | e <;> rw [e] at h5
      · left; right; left; linarith
      · rcases max_choice S2 S3 with e | e <;> rw [e] at h5
        · rcases h2 with h2 | h2 | h2
          · left; right; right; left; linarith
          · left; right; right; right; left; linarith
          · left; right; right; right; right; linarith
        · right
          refine ⟨by linarith, ?_⟩
          rcases h4 with h4 | h4
          · left; linarith
          · right; linarith
  · intro h
    set M2 := max (2 + 2 * ρ) (max (τ + 1 + (2 - 1 / k) * ρ) (2 + 2 * ρ + (τ / 2 - 3 * ρ / 4) / k)) with hM2
    set M3 := max (2 * τ + 3 * ρ / 2) (τ + 1 + ρ / 2 + ρs / 2) with hM3
    have a1 : 2 + 2 * ρ ≤ M2 := le_max_left _ _
    have a2 : τ + 1 + (2 - 1 / k) * ρ ≤ M2 := (le_max_left _ _).trans (le_max_right _ _)
    have a3 : 2 + 2 * ρ + (τ / 2 - 3 * ρ / 4) / k ≤ M2 := (le_max_right _ _).trans (le_max_right _ _)
    have b1 : 2 * τ + 3 * ρ / 2 ≤ M3 := le_max_left _ _
    have b2 : τ + 1 + ρ / 2 + ρs / 2 ≤ M3 := le_max_right _ _
    refine ⟨-10, M2, min B M3, le_rfl, le_rfl, min_le_left _ _, min_le_right _ _, ?_⟩
    have c1 : (-10 : ℚ) ≤ max (-10) (max M2 (min B M3)) := le_max_left _ _
    have c2 : M2 ≤ max (-10) (max M2 (min B M3)) := (le_max_left _ _).trans (le_max_right _ _)
    have c3 : min B M3 ≤ max (-10) (max M2 (min B M3)) := (le_max_right _ _).trans (le_max_right _ _)
    rw [le_max_iff]
    rcases h with (h | h | h | h | h) | ⟨h, h'⟩
    · exact Or.inl h
    · right; linarith
    · right; linarith
    · right; linarith
    · right; linarith
    · right
      have : 3 * ρ - 3 + 6 * σ ≤ min B M3 := by
        rw [le_min_iff]
        refine ⟨by linarith, ?_⟩
        rcases h' with h' | h' <;> linarith
      linarith

/-- What the region of the code is, for `k ≥ 1`: the relation with the bound `2τ + 7ρ/2 - 5ρ*/2` on `S3`. -/
theorem gm1_raw (canon : Mat → Mat) (hc : Mat.CanonSpec canon) (k : ℕ) (hk : 1 ≤ k) : ∃ r : Region L, lverGM1 canon k = .ok r ∧
    ∀ σ τ ρ ρs s, r.Contains [σ, τ, ρ, ρs, s] ↔ InEnergyBox σ τ ρ ρs s ∧
      GMRelation (2 * τ + 7 * ρ / 2 - 5 * ρs / 2) k σ τ ρ ρs := by
  obtain ⟨rs, h1, h2, h3⟩ := halfplanes5 (L := L) canon hc (gmCommon k ++ [[1, -2, 2 / 3, 1 / 6, -(5 / 6), 0]]) []
    (by simp [gmCommon]) (by simp)
  obtain ⟨rs', g1, g2, g3⟩ := halfplanes5 (L := L) canon hc
    (gmCommon k ++ [[1, -2, 2 / 3, -(1 / 2), 0, 0], [4 / 3, -2, 1 / 3, -(5 / 6), 1 / 6, 0]]) [] (by simp [gmCommon]) (by simp)
  refine ⟨.intersect [.disjoint rs, .disjoint rs'], ?_, fun σ τ ρ ρs s => ?_⟩
  · unfold lverGM1
    rw [List.map_nil, List.append_nil] at h1 g1
    rw [h1, g1]
    rfl
  have hk' : (0 : ℚ) < k := by exact_mod_cast hk
  have hcont : (Region.intersect [.disjoint rs, .disjoint rs'] : Region L).Contains [σ, τ, ρ, ρs, s] ↔
      Region.MemAny rs [σ, τ, ρ, ρs, s] ∧ Region.MemAny rs' [σ, τ, ρ, ρs, s] := by
    rw [contains_iff_mem]
    · unfold Region.Mem Region.MemAll Region.MemAll Region.MemAll Region.Mem
      simp
    · unfold Region.AllMat Region.AllMatList Region.AllMatList Region.AllMatList Region.AllMat
      refine ⟨?_, ?_, trivial⟩ <;> rw [Region.allMatList_iff] at *
      · intro r hr
        exact Region.allMat_imp (fun m hm => by rw [hm]; rfl) r (h2 r hr)
      · intro r hr
        exact Region.allMat_imp (fun m hm => by rw [hm]; rfl) r (g2 r hr)
  have hcommon : ∀ extra : List (List ℚ), (∃ h ∈ gmCommon k ++ extra, (rowOf h).Holds [σ, τ, ρ, ρs, s]) ↔
      (ρ ≤ 2 - 2 * σ ∨ 3 * ρ ≤ 3 - 6 * σ + -10 ∨ 3 * ρ ≤ 3 - 6 * σ + (2 + 2 * ρ) ∨
        3 * ρ ≤ 3 - 6 * σ + (τ + 1 + (2 - 1 / k) * ρ) ∨ 3 * ρ ≤ 3 - 6 * σ + (2 + 2 * ρ + (τ / 2 - 3 * ρ / 4) / k)) ∨
      ∃ h ∈ extra, (rowOf h).Holds [σ, τ, ρ, ρs, s] := by
    intro extra
    simp only [List.mem_append, or_and_right, exists_or]
    refine or_congr ?_ Iff.rfl
    simp only [gmCommon, List.exists_mem_cons_iff, List.not_mem_nil, false_and, exists_false, or_false, rowOf_holds6]
    have e1 : (2 - 1 / (k : ℚ)) * ρ = 2 * ρ - ρ / k := by ring
    have e2 : -(((k : ℚ) + 1) / k) * ρ = -ρ - ρ / k := by field_simp; ring
    have e3 : (τ / 2 - 3 * ρ / 4) / k = τ / k / 2 - 3 / 4 * (ρ / k) := by ring
    have e4 : 1 / (6 * (k : ℚ)) * τ = τ / k / 6 := by field_simp
    have e5 : (-(1 / 3) - 1 / (4 * (k : ℚ))) * ρ = -(1 / 3) * ρ - ρ / k / 4 := by field_simp
    rw [e1, e2, e3, e4, e5]
    refine or_congr ?_ (or_congr ?_ (or_congr ?_ (or_congr ?_ ?_))) <;> constructor <;> intro h <;> linarith
  rw [hcont, h3, g3, hcommon, hcommon, gm_iff]
  simp only [List.exists_mem_cons_iff, List.not_mem_nil, false_and, exists_false, or_false, rowOf_holds6,
    false_imp_iff, forall_const, true_and]
  rw [← and_and_left, ← or_and_left]
  refine and_congr_right fun _ => or_congr Iff.rfl (and_congr ?_ (or_congr ?_ ?_)) <;> constructor <;> intro h <;> linarith

/-- **C73** (the Guth–Maynard relation, partial: only tuples with `ρ* ≤ ρ` are shown to be kept, and the region is never larger than the
box) The full statement is that the region of the code is the set of the tuples of the box with
`GMRelation (2τ + ρ/2 + ρ*/2) k`. It is false by `C73_gm1_counterexample`, since the coefficients of `ρ` and `ρ*` in one row are
interchanged: the code uses the bound `2τ + 7ρ/2 - 5ρ*/2` for `S3` instead of `2τ + ρ/2 + ρ*/2`. -/
theorem C73_gm1_partial (canon : Mat → Mat) (hc : Mat.CanonSpec canon) (k : ℕ) (hk : 1 ≤ k) : ∃ r : Region L, lverGM1 canon k = .ok r ∧
    (∀ σ τ ρ ρs s, r.Contains [σ, τ, ρ, ρs, s] ↔ InEnergyBox σ τ ρ ρs s ∧
      GMRelation (2 * τ + 7 * ρ / 2 - 5 * ρs / 2) k σ τ ρ ρs) ∧
    (∀ σ τ ρ ρs s, ρs ≤ ρ → InEnergyBox σ τ ρ ρs s → GMRelation (2 * τ + ρ / 2 + ρs / 2) k σ τ ρ ρs → r.Contains [σ, τ, ρ, ρs, s]) ∧
    ∀ σ τ ρ ρs s, ρ ≤ ρs → r.Contains [σ, τ, ρ, ρs, s] → GMRelation (2 * τ + ρ / 2 + ρs / 2) k σ τ ρ ρs := by
  obtain ⟨r, h1, h2⟩ := gm1_raw (L := L) canon hc k hk
  refine ⟨r, h1, h2, fun σ τ ρ ρs s h hb ⟨S1, S2, S3, k1, k2, k3, k4, k5⟩ =>
    (h2 σ τ ρ ρs s).mpr ⟨hb, S1, S2, S3, k1, k2, by linarith, k4, k5⟩, fun σ τ ρ ρs s h hr => ?_⟩
  obtain ⟨_, S1, S2, S3, k1, k2, k3, k4, k5⟩ := (h2 σ τ ρ ρs s).mp hr
  exact ⟨S1, S2, S3, k1, k2, by linarith, k4, k5⟩

/-- Finding: the row `[1, -2, 2/3, 1/6, -5/6, 0]` (literature.py:1017) has the coefficients of `ρ` and `ρ*` interchanged; the bound
`S3 ≤ 2τ + ρ/2 + ρ*/2` gives `[1, -2, 2/3, -5/6, 1/6, 0]`. The region of the code excludes the tuple `(3/4, 6/5, 16/25, 19/10, 2)`, which
the relation allows (and which satisfies `2ρ ≤ ρ* ≤ 3ρ`), so the estimate claims more than the cited theorem. -/
theorem C73_gm1_counterexample (canon : Mat → Mat) (hc : Mat.CanonSpec canon) : ∃ r : Region L, lverGM1 canon 1 = .ok r ∧
    InEnergyBox (3 / 4) (6 / 5) (16 / 25) (19 / 10) 2 ∧
    GMRelation (2 * (6 / 5) + 16 / 25 / 2 + 19 / 10 / 2) 1 (3 / 4) (6 / 5) (16 / 25) (19 / 10) ∧
    ¬ r.Contains [3 / 4, 6 / 5, 16 / 25, 19 / 10, 2] := by
  obtain ⟨r, h1, h2⟩ := gm1_raw (L := L) canon hc 1 le_rfl
  refine ⟨r, h1, by unfold InEnergyBox InBox; norm_num, ?_, ?_⟩
  · rw [gm_iff]; norm_num
  · rw [h2, gm_iff]
    rintro ⟨_, h⟩
    norm_num at h

/-! Non-vacuity: tuples inside and outside the regions. -/

theorem canon_id : Mat.CanonSpec id := fun _ h => ⟨rfl, h, fun _ _ => Iff.rfl⟩

example : ∃ r : Region ℕ, lverHB1 id = .ok r ∧ r.Contains [3 / 4, 1, 1 / 2, 1, 5 / 2] ∧ ¬ r.Contains [3 / 4, 1, 1 / 2, 1, 3] := by
  obtain ⟨r, h1, h2⟩ := C73_hb1 (L := ℕ) id canon_id
  refine ⟨r, h1, ?_, ?_⟩ <;> rw [h2] <;> unfold InEnergyBox InBox DoubleZeta <;> norm_num

example : ∃ r : Region ℕ, lverIvic id = .ok r ∧ r.Contains [3 / 4, 1 / 2, 1 / 2, 1, 5 / 2] ∧ ¬ r.Contains [3 / 4, 1 / 2, 1 / 2, 1, 3] := by
  obtain ⟨r, h1, h2⟩ := C73_ivic (L := ℕ) id canon_id
  refine ⟨r, h1, ?_, ?_⟩ <;> rw [h2] <;> unfold InEnergyBox InBox <;> norm_num

example : ∃ r : Region ℕ, lverHB2a id = .ok r ∧ r.Contains [3 / 4, 1, 1 / 2, 1, 0] ∧ ¬ r.Contains [3 / 4, 1, 1 / 2, 3, 0] := by
  obtain ⟨r, h1, h2⟩ := C73_hb2a (L := ℕ) id canon_id
  refine ⟨r, h1, ?_, ?_⟩ <;> rw [h2] <;> unfold InEnergyBox InBox HBRelation <;> norm_num [max_def]

example : ∃ r : Region ℕ, lverHB2b id = .ok r ∧ r.Contains [3 / 4, 1, 1 / 2, 1, 0] ∧ ¬ r.Contains [3 / 4, 1, 1 / 2, 2, 0] := by
  obtain ⟨r, h1, h2⟩ := C73_hb2b (L := ℕ) id canon_id
  refine ⟨r, h1, ?_, ?_⟩ <;> rw [h2] <;> unfold InEnergyBox InBox <;> norm_num

example : ∃ r : Region ℕ, lverHB3 id 2 = .ok r ∧ r.Contains [3 / 4, 1, 1 / 2, 1, 0] ∧ ¬ r.Contains [3 / 4, 1, 1, 2, 0] := by
  obtain ⟨r, h1, h2⟩ := C73_hb3 (L := ℕ) id canon_id 2
  refine ⟨r, h1, ?_, ?_⟩ <;> rw [h2] <;> unfold InEnergyBox InBox <;> norm_num

example : ∃ r : Region ℕ, lverGM2 id = .ok r ∧ r.Contains [3 / 4, 1, 1 / 2, 1, 0] ∧ ¬ r.Contains [3 / 4, 1, 1 / 2, 2, 0] := by
  obtain ⟨r, h1, h2⟩ := C73_gm2 (L := ℕ) id canon_id
  refine ⟨r, h1, ?_, ?_⟩ <;> rw [h2] <;> unfold InEnergyBox InBox <;> norm_num

example : ∃ r : Region ℕ, lverGM3 id = .ok r ∧ r.Contains [3 / 4, 6 / 5, 1 / 2, 1, 0] ∧ ¬ r.Contains [3 / 4, 6 / 5, 1 / 2, 2, 0] := by
  obtain ⟨r, h1, h2⟩ := C73_gm3 (L := ℕ) id canon_id
  refine ⟨r, h1, ?_, ?_⟩ <;> rw [h2] <;> unfold InEnergyBox InBox <;> norm_num

example : ∃ r : Region ℕ, lverGM1 id 2 = .ok r ∧ r.Contains [3 / 4, 1, 1 / 2, 1 / 2, 0] := by
  obtain ⟨r, h1, _, h2, _⟩ := C73_gm1_partial (L := ℕ) id canon_id 2 (by norm_num)
  refine ⟨r, h1, h2 _ _ _ _ _ le_rfl (by unfold InEnergyBox InBox; norm_num) ?_⟩
  rw [gm_iff]
  norm_num

end Literature
end Expdb
