import Verif.Model.LargeValues
import Verif.Props.Region
import Verif.Props.RegionDisjoint

/-!
# Properties C38, C39, C40 and C50: large value regions
-/

namespace Expdb
namespace LargeValues

open Region (Contains contains_iff_mem)

variable {L : Type}

theorem rowOf_lin (c : List ℚ) : (rowOf c).lin = false := by cases c <;> rfl

theorem rowOf_length (c : List ℚ) : (rowOf c).cs.length = c.length - 1 := by cases c <;> simp [rowOf]

/-- The inequality `c0 + c1 x1 + … ≥ 0` of a list of four coefficients. -/
theorem rowOf_holds4 (a b c d x y z : ℚ) : (rowOf [a, b, c, d]).Holds [x, y, z] ↔ 0 ≤ a + b * x + c * y + d * z := by
  simp only [rowOf, Row.Holds, dot, Bool.false_eq_true, false_imp_iff, true_and, forall_const]
  have e : a + (b * x + (c * y + (d * z + 0))) = a + b * x + c * y + d * z := by ring
  rw [e]

/-- The default box in the variables `(σ, τ, ρ)`. -/
def InBox (σ τ ρ : ℚ) : Prop := 1 / 2 ≤ σ ∧ σ ≤ 1 ∧ 0 ≤ τ ∧ τ ≤ 1000000 ∧ 0 ≤ ρ ∧ ρ ≤ 1000000

theorem lvBox_holds (σ τ ρ : ℚ) : (∀ r ∈ lvBox, r.Holds [σ, τ, ρ]) ↔ InBox σ τ ρ := by
  unfold lvBox InBox tauLimit lvLimit
  simp only [List.mem_cons, List.not_mem_nil, or_false, forall_eq_or_imp, forall_eq, rowOf_holds4]
  constructor
  · rintro ⟨h1, h2, h3, h4, h5, h6⟩
    refine ⟨?_, ?_, ?_, ?_, ?_, ?_⟩ <;> linarith
  · rintro ⟨h1, h2, h3, h4, h5, h6⟩
    refine ⟨?_, ?_, ?_, ?_, ?_, ?_⟩ <;> linarith

/-- **C38** The region of a list of bounds contains a point exactly when the point lies in the default box and `ρ` is at
most one of (equivalently, the maximum of) the bounds `c0 + c1 σ + c2 τ`. -/
theorem C38_convertBounds (canon : Mat → Mat) (hc : Mat.CanonSpec canon) (bounds : List (ℚ × ℚ × ℚ)) (hne : bounds ≠ []) :
    ∃ r : Region L, convertBounds canon (bounds.map (fun b => [b.1, b.2.1, b.2.2])) = .ok r ∧
      ∀ σ τ ρ, r.Contains [σ, τ, ρ] ↔ InBox σ τ ρ ∧ ∃ b ∈ bounds, ρ ≤ b.1 + b.2.1 * σ + b.2.2 * τ := by
  set hs := (bounds.map (fun b => [b.1, b.2.1, b.2.2])).map (fun b => rowOf (b ++ [-1])) with hhs
  obtain ⟨ps, h1, h2, _⟩ := Region.C20_fromHalfplanes (L := L) canon hc hs lvBox 3 (by
      intro r hr
      unfold lvBox at hr
      simp only [List.mem_cons, List.not_mem_nil, or_false] at hr
      rcases hr with rfl | rfl | rfl | rfl | rfl | rfl <;> rfl)
    ⟨_, List.mem_cons_self, by decide +kernel⟩ (by
      intro r hr
      rw [hhs] at hr
      obtain ⟨b, hb, rfl⟩ := List.mem_map.mp hr
      obtain ⟨c, _, rfl⟩ := List.mem_map.mp hb
      exact ⟨rfl, rfl⟩)
  refine ⟨.disjoint (ps.map (fun m => .polytope m none)), ?_, fun σ τ ρ => ?_⟩
  · unfold convertBounds
    rw [← hhs, h1]
    show (if _ then _ else _) = _
    rw [if_neg (by simpa using hne)]
  · rw [h2 [σ, τ, ρ] rfl, lvBox_holds]
    refine and_congr_right (fun _ => ?_)
    constructor
    · rintro ⟨h, hh, hx⟩
      rw [hhs] at hh
      obtain ⟨b, hb, rfl⟩ := List.mem_map.mp hh
      obtain ⟨c, hc', rfl⟩ := List.mem_map.mp hb
      have := (rowOf_holds4 c.1 c.2.1 c.2.2 (-1) σ τ ρ).mp hx
      exact ⟨c, hc', by linarith⟩
    · rintro ⟨c, hc', hx⟩
      refine ⟨rowOf [c.1, c.2.1, c.2.2, -1], ?_, (rowOf_holds4 c.1 c.2.1 c.2.2 (-1) σ τ ρ).mpr (by linarith)⟩
      rw [hhs, List.map_map]
      exact List.mem_map.mpr ⟨c, hc', rfl⟩

/-- The mean value estimate `ρ ≤ max(2 - 2σ, 1 - 2σ + τ)` at `σ = 3/4`, `τ = 1`. -/
example : ∃ r : Region ℕ, convertBounds id [[2, -2, 0], [1, -2, 1]] = .ok r ∧ r.Contains [3 / 4, 1, 1 / 2] ∧
    ¬ r.Contains [3 / 4, 1, 3 / 4] ∧ r.Contains [3 / 4, 2, 3 / 2] := by
  obtain ⟨r, h1, h2⟩ := C38_convertBounds (L := ℕ) id (fun _ h => ⟨rfl, h, fun _ _ => Iff.rfl⟩) [(2, -2, 0), (1, -2, 1)] (by simp)
  refine ⟨r, h1, ?_, ?_, ?_⟩ <;> rw [h2] <;> unfold InBox <;> norm_num

/-- An empty list of bounds raises `IndexError`. -/
theorem C38_empty (canon : Mat → Mat) : convertBounds (L := L) canon [] = .error .indexError := rfl

/-! ### C39: raising to a power -/

/-- The polytopes of the region have `d` variables and at least one constraint. -/
def Shaped (d : ℕ) (r : Region L) : Prop := r.AllMat (fun m => m.WF ∧ d + 1 = m.cols ∧ m.rows ≠ [])

/-- **C39** The region raised to the power `k` contains `(σ, τ, ρ)` exactly when the original region contains
`(σ, τ/k, ρ/k)`; this includes complements. -/
theorem C39_raiseToPower (r : Region L) (hr : Shaped 3 r) (k : ℚ) (hk : k ≠ 0) :
    ∃ r', raiseToPower k r = .ok r' ∧ ∀ σ τ ρ, r'.Contains [σ, τ, ρ] ↔ r.Contains [σ, τ / k, ρ / k] := by
  obtain ⟨r', h1, h2⟩ := Region.C23_scaleAll r [1, k, k] (by
    intro f hf
    simp only [List.mem_cons, List.not_mem_nil, or_false] at hf
    rcases hf with rfl | rfl | rfl
    · norm_num
    · exact hk
    · exact hk) hr
  refine ⟨r', h1, fun σ τ ρ => ?_⟩
  rw [h2 [σ, τ, ρ] rfl]
  simp

/-- **C39** (large value energy regions) The same in the variables `(σ, τ, ρ, ρ*, s)`. -/
theorem C39_raiseToPowerEnergy (r : Region L) (hr : Shaped 5 r) (k : ℚ) (hk : k ≠ 0) :
    ∃ r', raiseToPowerEnergy k r = .ok r' ∧ ∀ σ τ ρ ρs s,
      r'.Contains [σ, τ, ρ, ρs, s] ↔ r.Contains [σ, τ / k, ρ / k, ρs / k, s / k] := by
  obtain ⟨r', h1, h2⟩ := Region.C23_scaleAll r [1, k, k, k, k] (by
    intro f hf
    simp only [List.mem_cons, List.not_mem_nil, or_false] at hf
    rcases hf with rfl | rfl | rfl | rfl | rfl
    · norm_num
    all_goals exact hk) hr
  refine ⟨r', h1, fun σ τ ρ ρs s => ?_⟩
  rw [h2 [σ, τ, ρ, ρs, s] rfl]
  simp

/-- Non-vacuity: `ρ ≤ τ` with `τ` in `[1, 2]`, raised to the second power. -/
example : Shaped 3 (.polytope ⟨4, [rowOf [-1, 0, 1, 0], rowOf [2, 0, -1, 0], rowOf [0, 0, 1, -1]]⟩ none : Region ℕ) ∧
    ∃ r', raiseToPower 2 (.polytope ⟨4, [rowOf [-1, 0, 1, 0], rowOf [2, 0, -1, 0], rowOf [0, 0, 1, -1]]⟩ none : Region ℕ) = .ok r' ∧
      r'.Contains [0, 4, 4] ∧ ¬ r'.Contains [0, 1, 1] := by
  refine ⟨?_, _, rfl, ?_, ?_⟩
  · unfold Shaped Region.AllMat
    refine ⟨?_, rfl, by simp⟩
    intro r hr
    simp only [List.mem_cons, List.not_mem_nil, or_false] at hr
    rcases hr with rfl | rfl | rfl <;> rfl
  · unfold Region.Contains; decide +kernel
  · unfold Region.Contains; decide +kernel

/-! ### C40: zeta large value regions -/

theorem polyRegions_spec (d : ℕ) (ps : List (List (List ℚ))) (hlen : ∀ p ∈ ps, ∀ c ∈ p, c.length = d + 1)
    (hnz : ∀ p ∈ ps, ∃ c ∈ p, (rowOf c).isZero = false) :
    ∃ rs : List (Region L), polyRegions ps = .ok rs ∧ Region.AllMatList (fun m => m.cols = d + 1) rs ∧
      ∀ x : Pt, x.length = d → (Region.MemAny rs x ↔ ∃ p ∈ ps, ∀ c ∈ p, (rowOf c).Holds x) := by
  induction ps with
  | nil => exact ⟨[], rfl, trivial, fun x _ => by simp [Region.MemAny]⟩
  | cons p ps ih =>
    obtain ⟨rs, h1, h2, h3⟩ := ih (fun q hq => hlen q (by simp [hq])) (fun q hq => hnz q (by simp [hq]))
    obtain ⟨c, hc, hcz⟩ := hnz p (by simp)
    obtain ⟨m, e1, e2, e3, e4, e5⟩ := Region.ofConstraints_exact (p.map rowOf) d (by
        intro r hr
        obtain ⟨c, hc, rfl⟩ := List.mem_map.mp hr
        rw [rowOf_length, hlen p (by simp) c hc]
        rfl) ⟨_, List.mem_map.mpr ⟨c, hc, rfl⟩, hcz⟩
    refine ⟨.polytope m none :: rs, ?_, ⟨?_, h2⟩, fun x hx => ?_⟩
    · unfold polyRegions
      rw [e1, h1]
      rfl
    · unfold Region.AllMat
      exact e2
    · unfold Region.MemAny Region.Mem
      rw [h3 x hx, Mat.contains_iff_holds m x (by omega), e5]
      simp

theorem disjoint_contains {d : ℕ} {rs : List (Region L)} (h : Region.AllMatList (fun m => m.cols = d + 1) rs) (x : Pt)
    (hx : x.length = d) : (Region.disjoint rs).Contains x ↔ Region.MemAny rs x := by
  rw [contains_iff_mem]
  · unfold Region.Mem; rfl
  · unfold Region.AllMat
    rw [Region.allMatList_iff] at h ⊢
    intro r hr
    exact Region.allMat_imp (fun m hm => by omega) r (h r hr)

/-- The trivial zeta large value region: `1/2 ≤ σ ≤ 1`, `2 ≤ τ ≤ 1000000`, `0 ≤ ρ ≤ τ`. -/
def Trivial (σ τ ρ : ℚ) : Prop := 1 / 2 ≤ σ ∧ σ ≤ 1 ∧ 2 ≤ τ ∧ τ ≤ 1000000 ∧ 0 ≤ ρ ∧ ρ ≤ τ

/-- **C40** (bounds on mu) The region of `mu(σ0) ≤ mu0` is the trivial region without the points with `ρ > 0` and
`σ > σ0 + τ mu0`. -/
theorem C40_mu (sigma0 mu0 : ℚ) : ∃ r : Region L, muRegion sigma0 mu0 = .ok r ∧
    ∀ σ τ ρ, r.Contains [σ, τ, ρ] ↔ Trivial σ τ ρ ∧ (σ > sigma0 + τ * mu0 → ρ = 0) := by
  obtain ⟨rs, h1, h2, h3⟩ := polyRegions_spec (L := L) 3
    [[[0, 0, 0, 1], [0, 0, 0, -1], [1, -1, 0, 0], [-(1 / 2), 1, 0, 0], [-2, 0, 1, 0], [tauLimit, 0, -1, 0],
      [-sigma0, 1, -mu0, 0]],
     [[0, 0, 1, -1], [0, 0, 0, 1], [1, -1, 0, 0], [-(1 / 2), 1, 0, 0], [-2, 0, 1, 0], [tauLimit, 0, -1, 0],
      [sigma0, -1, mu0, 0]]] (by simp) (by
        intro p hp
        simp only [List.mem_cons, List.not_mem_nil, or_false] at hp
        rcases hp with rfl | rfl
        · exact ⟨[0, 0, 0, 1], by simp, by decide +kernel⟩
        · exact ⟨[0, 0, 1, -1], by simp, by decide +kernel⟩)
  refine ⟨.disjoint rs, ?_, fun σ τ ρ => ?_⟩
  · unfold muRegion
    rw [h1]
  · rw [disjoint_contains h2 _ rfl, h3 _ rfl]
    unfold Trivial tauLimit
    simp only [List.mem_cons, List.not_mem_nil, or_false, forall_eq_or_imp, forall_eq, exists_eq_or_imp, exists_eq_left,
      rowOf_holds4]
    constructor
    · rintro (⟨k1, k2, k3, k4, k5, k6, k7⟩ | ⟨k1, k2, k3, k4, k5, k6, k7⟩)
      · refine ⟨⟨?_, ?_, ?_, ?_, ?_, ?_⟩, fun _ => ?_⟩ <;> linarith
      · refine ⟨⟨?_, ?_, ?_, ?_, ?_, ?_⟩, fun h => ?_⟩ <;> linarith
    · rintro ⟨⟨k1, k2, k3, k4, k5, k6⟩, k7⟩
      rcases le_or_gt σ (sigma0 + τ * mu0) with h | h
      · right
        refine ⟨?_, ?_, ?_, ?_, ?_, ?_, ?_⟩ <;> linarith
      · left
        have := k7 h
        refine ⟨?_, ?_, ?_, ?_, ?_, ?_, ?_⟩ <;> linarith

/-- The bound `mu(1/2) ≤ 1/6` excludes `ρ > 0` at `τ = 2`, `σ = 9/10`. -/
example : ∃ r : Region ℕ, muRegion (1 / 2) (1 / 6) = .ok r ∧ r.Contains [9 / 10, 2, 0] ∧ ¬ r.Contains [9 / 10, 2, 1] ∧
    r.Contains [3 / 4, 2, 1] := by
  obtain ⟨r, h1, h2⟩ := C40_mu (L := ℕ) (1 / 2) (1 / 6)
  refine ⟨r, h1, ?_, ?_, ?_⟩ <;> rw [h2] <;> unfold Trivial <;> norm_num

theorem beta_raw (b : Affine (Option ℕ)) : ∃ r : Region L, betaRegion b = .ok r ∧
    ∀ σ τ ρ, r.Contains [σ, τ, ρ] ↔ (1 / 2 ≤ σ ∧ σ ≤ 1 ∧ 0 ≤ ρ) ∧
      ((ρ ≤ 0 ∧ tauLower b.dom.x1 ≤ τ ∧ τ ≤ tauUpper b.dom.x0 ∧ b.c * τ + b.m ≤ σ) ∨
        (ρ ≤ τ ∧ tauLower b.dom.x1 ≤ τ ∧ τ ≤ tauUpper b.dom.x0 ∧ σ ≤ b.c * τ + b.m) ∨
        (ρ ≤ τ ∧ 2 ≤ τ ∧ τ ≤ tauLower b.dom.x1) ∨ (ρ ≤ τ ∧ tauUpper b.dom.x0 ≤ τ ∧ τ ≤ 1000000)) := by
  obtain ⟨rs, h1, h2, h3⟩ := polyRegions_spec (L := L) 3
    [[[0, 0, 0, -1], [0, 0, 0, 1], [1, -1, 0, 0], [-(1 / 2), 1, 0, 0], [-tauLower b.dom.x1, 0, 1, 0], [tauUpper b.dom.x0, 0, -1, 0], [-b.m, 1, -b.c, 0]],
     [[0, 0, 1, -1], [0, 0, 0, 1], [1, -1, 0, 0], [-(1 / 2), 1, 0, 0], [-tauLower b.dom.x1, 0, 1, 0], [tauUpper b.dom.x0, 0, -1, 0], [b.m, -1, b.c, 0]],
     [[0, 0, 1, -1], [0, 0, 0, 1], [1, -1, 0, 0], [-(1 / 2), 1, 0, 0], [tauLower b.dom.x1, 0, -1, 0], [-2, 0, 1, 0]],
     [[0, 0, 1, -1], [0, 0, 0, 1], [1, -1, 0, 0], [-(1 / 2), 1, 0, 0], [-tauUpper b.dom.x0, 0, 1, 0], [tauLimit, 0, -1, 0]]]
    (by simp) (by
      intro p hp
      simp only [List.mem_cons, List.not_mem_nil, or_false] at hp
      rcases hp with rfl | rfl | rfl | rfl <;> exact ⟨[0, 0, 0, 1], by simp, by decide +kernel⟩)
  refine ⟨.disjoint rs, ?_, fun σ τ ρ => ?_⟩
  · unfold betaRegion
    simp only
    rw [h1]
  · rw [disjoint_contains h2 _ rfl, h3 _ rfl]
    generalize tauLower b.dom.x1 = tl
    generalize tauUpper b.dom.x0 = tu
    unfold tauLimit
    simp only [List.mem_cons, List.not_mem_nil, or_false, forall_eq_or_imp, forall_eq, exists_eq_or_imp, exists_eq_left,
      rowOf_holds4]
    constructor
    · rintro (⟨k1, k2, k3, k4, k5, k6, k7⟩ | ⟨k1, k2, k3, k4, k5, k6, k7⟩ | ⟨k1, k2, k3, k4, k5, k6⟩ | ⟨k1, k2, k3, k4, k5, k6⟩)
      · refine ⟨⟨?_, ?_, ?_⟩, Or.inl ⟨?_, ?_, ?_, ?_⟩⟩ <;> linarith
      · refine ⟨⟨?_, ?_, ?_⟩, Or.inr (Or.inl ⟨?_, ?_, ?_, ?_⟩)⟩ <;> linarith
      · refine ⟨⟨?_, ?_, ?_⟩, Or.inr (Or.inr (Or.inl ⟨?_, ?_, ?_⟩))⟩ <;> linarith
      · refine ⟨⟨?_, ?_, ?_⟩, Or.inr (Or.inr (Or.inr ⟨?_, ?_, ?_⟩))⟩ <;> linarith
    · rintro ⟨⟨j1, j2, j3⟩, ⟨k1, k2, k3, k4⟩ | ⟨k1, k2, k3, k4⟩ | ⟨k1, k2, k3⟩ | ⟨k1, k2, k3⟩⟩
      · left; refine ⟨?_, ?_, ?_, ?_, ?_, ?_, ?_⟩ <;> linarith
      · right; left; refine ⟨?_, ?_, ?_, ?_, ?_, ?_, ?_⟩ <;> linarith
      · right; right; left; refine ⟨?_, ?_, ?_, ?_, ?_, ?_⟩ <;> linarith
      · right; right; right; refine ⟨?_, ?_, ?_, ?_, ?_, ?_⟩ <;> linarith

/-- **C40** (bounds on beta) The region of `beta(α) ≤ A + B α` for `α` in an interval with end points `0 ≤ x0 ≤ x1` is the
trivial region without the points with `ρ > 0`, `2 < τ < 1000000`, `x0 < 1/τ < x1` and `σ > A τ + B`. Missing: intervals with
`0 < x1 < 1/1000000`, for which the region also contains points with `τ > 1000000`
(`C40_beta_limit_counterexample`). -/
theorem C40_beta_partial (b : Affine (Option ℕ)) (h0 : 0 ≤ b.dom.x0) (h01 : b.dom.x0 ≤ b.dom.x1) (h02 : b.dom.x0 ≤ 1 / 2)
    (h1 : b.dom.x1 = 0 ∨ 1 / 1000000 ≤ b.dom.x1) :
    ∃ r : Region L, betaRegion b = .ok r ∧ ∀ σ τ ρ, r.Contains [σ, τ, ρ] ↔ Trivial σ τ ρ ∧
      (2 < τ → τ < 1000000 → b.dom.x0 < 1 / τ → 1 / τ < b.dom.x1 → σ > b.c * τ + b.m → ρ = 0) := by
  obtain ⟨r, e1, e2⟩ := beta_raw (L := L) b
  refine ⟨r, e1, fun σ τ ρ => ?_⟩
  rw [e2]
  have htu : ∀ t : ℚ, 0 < t → (t < tauUpper b.dom.x0 ↔ t < 1000000 ∧ b.dom.x0 < 1 / t) := by
    intro t ht
    unfold tauUpper tauLimit
    split
    · rename_i h
      rw [h]
      have : (0 : ℚ) < 1 / t := by positivity
      tauto
    · rename_i h
      have hpos : 0 < b.dom.x0 := lt_of_le_of_ne h0 (Ne.symm h)
      rw [lt_min_iff, lt_div_iff₀ hpos, lt_div_iff₀ ht, mul_comm]
  have htl : ∀ t : ℚ, t < 1000000 → 0 < t → (tauLower b.dom.x1 < t ↔ 2 < t ∧ 1 / t < b.dom.x1) := by
    intro t ht' ht
    unfold tauLower tauLimit
    split
    · rename_i h
      rw [h]
      have : (0 : ℚ) < 1 / t := by positivity
      constructor
      · intro h; linarith
      · rintro ⟨_, h⟩; linarith
    · rename_i h
      have hpos : 0 < b.dom.x1 := lt_of_le_of_ne (h0.trans h01) (Ne.symm h)
      rw [max_lt_iff, div_lt_iff₀ hpos, div_lt_iff₀ ht, mul_comm]
  have hl2 : 2 ≤ tauLower b.dom.x1 := by
    unfold tauLower tauLimit
    split
    · norm_num
    · exact le_max_left _ _
  have hl3 : tauLower b.dom.x1 ≤ 1000000 := by
    unfold tauLower tauLimit
    split
    · exact le_refl _
    · rename_i h
      rcases h1 with h1 | h1
      · exact absurd h1 h
      · refine max_le (by norm_num) ?_
        rw [div_le_iff₀ (by linarith)]
        linarith
  have hu : tauUpper b.dom.x0 ≤ 1000000 := by
    unfold tauUpper tauLimit
    split
    · exact le_refl _
    · exact min_le_left _ _
  have hu2 : 2 ≤ tauUpper b.dom.x0 := by
    unfold tauUpper tauLimit
    split
    · norm_num
    · rename_i h
      have hpos : 0 < b.dom.x0 := lt_of_le_of_ne h0 (Ne.symm h)
      refine le_min (by norm_num) ?_
      rw [le_div_iff₀ hpos]
      linarith
  unfold Trivial
  constructor
  · rintro ⟨⟨j1, j2, j3⟩, ⟨k1, k2, k3, k4⟩ | ⟨k1, k2, k3, k4⟩ | ⟨k1, k2, k3⟩ | ⟨k1, k2, k3⟩⟩
    · exact ⟨⟨j1, j2, by linarith, by linarith, j3, by linarith⟩, fun _ _ _ _ _ => by linarith⟩
    · exact ⟨⟨j1, j2, by linarith, by linarith, j3, k1⟩, fun _ _ _ _ h => by linarith⟩
    · refine ⟨⟨j1, j2, k2, by linarith, j3, k1⟩, fun l1 l2 l3 l4 _ => ?_⟩
      have := (htl τ l2 (by linarith)).mpr ⟨l1, l4⟩
      linarith
    · refine ⟨⟨j1, j2, by linarith, k3, j3, k1⟩, fun l1 l2 l3 l4 _ => ?_⟩
      have := (htu τ (by linarith)).mpr ⟨l2, l3⟩
      linarith
  · rintro ⟨⟨j1, j2, j3, j4, j5, j6⟩, k⟩
    refine ⟨⟨j1, j2, j5⟩, ?_⟩
    rcases le_or_gt τ (tauLower b.dom.x1) with h | h
    · exact Or.inr (Or.inr (Or.inl ⟨j6, j3, h⟩))
    rcases le_or_gt (tauUpper b.dom.x0) τ with h' | h'
    · exact Or.inr (Or.inr (Or.inr ⟨j6, h', j4⟩))
    rcases le_or_gt σ (b.c * τ + b.m) with h'' | h''
    · exact Or.inr (Or.inl ⟨j6, h.le, h'.le, h''⟩)
    · obtain ⟨m1, m2⟩ := (htu τ (by linarith)).mp h'
      obtain ⟨m3, m4⟩ := (htl τ m1 (by linarith)).mp h
      exact Or.inl ⟨(k m3 m1 m2 m4 h'').le, h.le, h'.le, h''.le⟩

/-- The bound `beta(α) ≤ 1/6 + 2/3 α` on `[0, 1/2]` excludes `ρ > 0` at `τ = 3`, `σ > 7/6`; the bound
`beta(α) ≤ 1/20 + 1/2 α` excludes `ρ > 0` at `τ = 3`, `σ = 9/10`. -/
example : ∃ r : Region ℕ, betaRegion ⟨1 / 2, 1 / 20, ⟨0, 1 / 2, true, true⟩, none⟩ = .ok r ∧ r.Contains [9 / 10, 3, 0] ∧
    ¬ r.Contains [9 / 10, 3, 1] ∧ r.Contains [13 / 20, 3, 1] := by
  obtain ⟨r, h1, h2⟩ := C40_beta_partial (L := ℕ) ⟨1 / 2, 1 / 20, ⟨0, 1 / 2, true, true⟩, none⟩ (by norm_num) (by norm_num)
    (by norm_num) (by norm_num)
  refine ⟨r, h1, ?_, ?_, ?_⟩ <;> rw [h2] <;> unfold Trivial <;> norm_num

/-- Finding: for a bound on an interval `[0, x1]` with `0 < x1 < 1/1000000` the third polytope is not cut off at the limit
`τ ≤ 1000000` (zeta_large_values.py:150-158): the region has points with `τ` above it. -/
theorem C40_beta_limit_counterexample : ∃ r : Region L, betaRegion ⟨1 / 2, 1 / 20, ⟨0, 1 / 2000000, true, true⟩, none⟩ = .ok r ∧
    r.Contains [1, 1500000, 1] := by
  obtain ⟨r, h1, h2⟩ := beta_raw (L := L) ⟨1 / 2, 1 / 20, ⟨0, 1 / 2000000, true, true⟩, none⟩
  refine ⟨r, h1, ?_⟩
  rw [h2]
  refine ⟨by norm_num, Or.inr (Or.inr (Or.inl ?_))⟩
  unfold tauLower
  norm_num

/-! ### C40: zeta large value estimates from large value estimates -/

theorem intersect_contains {m : Mat} (r : Region L) (x : Pt) (b : Bool) (h : m.contains x = .ok b) :
    (Region.intersect [.polytope m none, r]).Contains x ↔ b = true ∧ r.Contains x := by
  have e : (Region.intersect [.polytope m none, r]).contains x = (do
      if (← m.contains x) then (do if (← r.contains x) then return true else return false) else return false) := by
    conv_lhs => unfold Region.contains
    conv_lhs => unfold Region.containsAll
    conv_lhs => rw [show (Region.polytope m none : Region L).contains x = m.contains x by unfold Region.contains; rfl]
    conv_lhs => rw [show Region.containsAll [r] x = (do if (← r.contains x) then return true else return false : Py Bool) by
      rw [Region.containsAll.eq_2]; simp only [Region.containsAll.eq_1]; rfl]
  unfold Region.Contains
  rw [e, h]
  cases b with
  | false => simp [bind, Except.bind, pure, Except.pure]
  | true =>
    simp only [bind, Except.bind, pure, Except.pure, if_true, true_and]
    cases r.contains x with
    | error e => simp
    | ok c => cases c <;> simp

theorem applyAll_ok (f : Region L → Py (Region L)) (R : Region L → Region L → Prop) (rs : List (Region L))
    (h : ∀ r ∈ rs, ∃ r', f r = .ok r' ∧ R r r') : ∃ rs', applyAll f rs = .ok rs' ∧ List.Forall₂ R rs rs' := by
  induction rs with
  | nil => exact ⟨[], rfl, .nil⟩
  | cons r rs ih =>
    obtain ⟨r', h1, h2⟩ := h r (by simp)
    obtain ⟨rs', h3, h4⟩ := ih (fun q hq => h q (by simp [hq]))
    refine ⟨r' :: rs', ?_, .cons h2 h4⟩
    unfold applyAll
    rw [h1, h3]
    rfl

/-- **C40** (large value estimates) From large value regions and the power transforms `k ∈ ks`, `lv_to_zlv` makes one region
for each given region and one for each pair of a transform and a region, in this order. The region made from `r` and `k`
(`k = 1` for the untransformed ones) contains `(σ, τ, ρ)` exactly when `τ ≥ 2` and `r` contains `(σ, τ/k, ρ/k)`. -/
theorem C40_lv (lvs : List (Region L)) (hlv : ∀ r ∈ lvs, Shaped 3 r) (ks : List ℚ) (hk : ∀ k ∈ ks, k ≠ 0) :
    ∃ zs, lvToZlv lvs (ks.map raiseToPower) = .ok zs ∧
      List.Forall₂ (fun (s : Region L × ℚ) z => ∀ σ τ ρ, z.Contains [σ, τ, ρ] ↔ 2 ≤ τ ∧ s.1.Contains [σ, τ / s.2, ρ / s.2])
        (lvs.map (fun r => (r, 1)) ++ ks.flatMap (fun k => lvs.map (fun r => (r, k)))) zs := by
  have htr : ∃ ts, applyTransforms lvs (ks.map raiseToPower) = .ok ts ∧
      List.Forall₂ (fun (s : Region L × ℚ) z => ∀ σ τ ρ, z.Contains [σ, τ, ρ] ↔ s.1.Contains [σ, τ / s.2, ρ / s.2])
        (ks.flatMap (fun k => lvs.map (fun r => (r, k)))) ts := by
    induction ks with
    | nil => exact ⟨[], rfl, .nil⟩
    | cons k ks ih =>
      obtain ⟨ts, h1, h2⟩ := ih (fun q hq => hk q (by simp [hq]))
      obtain ⟨rs, h3, h4⟩ := applyAll_ok (raiseToPower k)
        (fun r r' => ∀ σ τ ρ, r'.Contains [σ, τ, ρ] ↔ r.Contains [σ, τ / k, ρ / k]) lvs
        (fun r hr => C39_raiseToPower r (hlv r hr) k (hk k (by simp)))
      refine ⟨rs ++ ts, ?_, ?_⟩
      · rw [List.map_cons]
        unfold applyTransforms
        rw [h3, h1]
        rfl
      · rw [List.flatMap_cons]
        refine List.rel_append ?_ h2
        rw [List.forall₂_map_left_iff]
        exact h4
  obtain ⟨ts, h1, h2⟩ := htr
  obtain ⟨m, e1, e2, e3, e4, e5⟩ := Region.ofConstraints_exact [rowOf [-2, 0, 1, 0]] 3 (by simp [rowOf])
    ⟨_, List.mem_singleton.mpr rfl, by decide +kernel⟩
  refine ⟨(lvs ++ ts).map (fun r => .intersect [.polytope m none, r]), ?_, ?_⟩
  · unfold lvToZlv
    rw [h1, e1]
    rfl
  · rw [List.forall₂_map_right_iff]
    have key : ∀ (r : Region L) (σ τ ρ : ℚ), (Region.intersect [.polytope m none, r]).Contains [σ, τ, ρ] ↔
        2 ≤ τ ∧ r.Contains [σ, τ, ρ] := by
      intro r σ τ ρ
      obtain ⟨b, hb, hb'⟩ := Mat.contains_eq m [σ, τ, ρ] (by rw [e2]; rfl)
      rw [intersect_contains r _ b hb, hb', e5]
      simp only [List.mem_singleton, forall_eq, rowOf_holds4]
      refine and_congr_left (fun _ => ?_)
      constructor <;> intro h <;> linarith
    refine List.rel_append ?_ (h2.imp (fun s z h σ τ ρ => by rw [key, h]))
    rw [List.forall₂_map_left_iff]
    refine List.forall₂_same.mpr (fun r _ σ τ ρ => ?_)
    rw [key]
    simp

/-- Non-vacuity: two regions and the powers 2 and 3. -/
example : ∀ r ∈ ([.polytope ⟨4, [rowOf [-1, 0, 1, 0]]⟩ none, .complement (.polytope ⟨4, [rowOf [2, 0, -1, 0]]⟩ none)] : List (Region ℕ)),
    Shaped 3 r := by
  intro r hr
  simp only [List.mem_cons, List.not_mem_nil, or_false] at hr
  rcases hr with rfl | rfl <;> simp [Shaped, Region.AllMat, Mat.WF, rowOf]

/-! ### C50: large value energy regions -/

/-- **C50** (large value estimates) For regions without complements: the large value energy region contains
`(σ, τ, ρ, ρ*, s)` exactly when the large value region contains `(σ, τ, ρ)` and `ρ*`, `s` lie in `[0, 1000000]`. Missing:
complements, for which it is false (`Region.C23_lift_complement_counterexample`). -/
theorem C50_lv_partial (r : Region L) (hl : r.liftable) (hr : r.AllMat (fun m => m.WF ∧ m.cols = 4)) :
    ∃ r', lvToLver r = .ok r' ∧ ∀ σ τ ρ ρs s, r'.Contains [σ, τ, ρ, ρs, s] ↔
      r.Contains [σ, τ, ρ] ∧ 0 ≤ ρs ∧ ρs ≤ 1000000 ∧ 0 ≤ s ∧ s ≤ 1000000 := by
  obtain ⟨r', h1, h2⟩ := Region.C23_lift_partial r 3
    [.dim 0, .dim 1, .dim 2, .range 0 lvLimit, .range 0 lvLimit] (by decide) hl
    (Region.allMat_imp (fun m hm => ⟨hm.1, hm.2, Or.inr ⟨0, lvLimit, by simp⟩⟩) r hr)
  refine ⟨r', h1, fun σ τ ρ ρs s => ?_⟩
  rw [h2 [σ, τ, ρ, ρs, s] [σ, τ, ρ] rfl rfl (by
    intro j i hj
    match j with
    | 0 => simp at hj; subst hj; rfl
    | 1 => simp at hj; subst hj; rfl
    | 2 => simp at hj; subst hj; rfl
    | 3 => simp at hj
    | 4 => simp at hj
    | (n + 5) => simp at hj)]
  refine and_congr_right (fun _ => ?_)
  constructor
  · intro h
    obtain ⟨c, hc, a1, a2⟩ := h 3 0 lvLimit rfl
    obtain ⟨d, hd, b1, b2⟩ := h 4 0 lvLimit rfl
    simp at hc hd
    subst hc hd
    exact ⟨a1, a2, b1, b2⟩
  · rintro ⟨a1, a2, b1, b2⟩ j lo hi hj
    match j with
    | 0 => simp at hj
    | 1 => simp at hj
    | 2 => simp at hj
    | 3 =>
      simp at hj
      obtain ⟨rfl, rfl⟩ := hj
      exact ⟨ρs, rfl, a1, a2⟩
    | 4 =>
      simp at hj
      obtain ⟨rfl, rfl⟩ := hj
      exact ⟨s, rfl, b1, b2⟩
    | (n + 5) => simp at hj

/-- Non-vacuity: a disjoint union inside an intersection. -/
example : (Region.intersect [.disjoint [.polytope ⟨4, [rowOf [-1, 0, 1, 0]]⟩ none, .polytope ⟨4, [rowOf [2, 0, -1, 0]]⟩ none],
      .polytope ⟨4, [rowOf [2, 0, -1, 1]]⟩ none] : Region ℕ).liftable ∧
    (Region.intersect [.disjoint [.polytope ⟨4, [rowOf [-1, 0, 1, 0]]⟩ none, .polytope ⟨4, [rowOf [2, 0, -1, 0]]⟩ none],
      .polytope ⟨4, [rowOf [2, 0, -1, 1]]⟩ none] : Region ℕ).AllMat (fun m => m.WF ∧ m.cols = 4) := by
  simp [Region.liftable, Region.liftableList, Region.AllMat, Region.AllMatList, Mat.WF, rowOf]

/-- The default box in the variables `(σ, τ, ρ, ρ*, s)`. -/
def InEnergyBox (σ τ ρ ρs s : ℚ) : Prop := InBox σ τ ρ ∧ 0 ≤ ρs ∧ ρs ≤ 1000000 ∧ 0 ≤ s ∧ s ≤ 1000000

theorem energyBox_holds (σ τ ρ ρs s : ℚ) : (∀ r ∈ energyBox, r.Holds [σ, τ, ρ, ρs, s]) ↔ InEnergyBox σ τ ρ ρs s := by
  unfold energyBox InEnergyBox InBox tauLimit lvLimit
  simp only [List.zipIdx_cons, List.zipIdx_nil, List.flatMap_cons, List.flatMap_nil, List.append_nil, List.mem_append,
    or_imp, forall_and]
  rw [Mat.rangeRows_holds 5 _ _ _ _ (by norm_num) rfl, Mat.rangeRows_holds 5 _ _ _ _ (by norm_num) rfl,
    Mat.rangeRows_holds 5 _ _ _ _ (by norm_num) rfl, Mat.rangeRows_holds 5 _ _ _ _ (by norm_num) rfl,
    Mat.rangeRows_holds 5 _ _ _ _ (by norm_num) rfl]
  simp
  tauto

/-- The documented bound on `ρ*` from an exponent pair `(k, l)` (additive_energy.tex, large value energy region from exponent
pairs). -/
def PairBound (k l σ τ ρ ρs : ℚ) : Prop :=
  ρs ≤ 1 - 2 * σ +
    1 / 2 * max (ρ + 1) (max (5 / 3 * ρ + τ / 3) (((2 + 3 * k + 4 * l) * ρ + (k + l) * τ) / (1 + 2 * k + 2 * l))) +
    1 / 2 * max (ρs + 1) (max (4 * ρ) (3 / 4 * ρs + ρ + τ / 2))

theorem normaliseAll_spec (cs : List (List ℚ)) (h : ∀ c ∈ cs, ∃ d, c[4]? = some d ∧ d < 0) :
    ∃ cs', normaliseAll cs = .ok cs' ∧ List.Forall₂ (fun c c' => ∃ f : ℚ, 0 < f ∧ c' = c.map (fun x => x * f)) cs cs' := by
  induction cs with
  | nil => exact ⟨[], rfl, .nil⟩
  | cons c cs ih =>
    obtain ⟨cs', h1, h2⟩ := ih (fun q hq => h q (by simp [hq]))
    obtain ⟨d, h3, h4⟩ := h c (by simp)
    refine ⟨c.map (fun x => x * (-(1 / d))) :: cs', ?_, .cons ⟨_, ?_, rfl⟩ h2⟩
    · unfold normaliseAll normalise
      rw [h3]
      simp only
      rw [if_neg h4.ne, h1]
      rfl
    · rw [neg_pos]
      exact div_neg_of_pos_of_neg one_pos h4

theorem rowOf_scale (c : List ℚ) (f : ℚ) (hf : 0 < f) (x : Pt) : (rowOf (c.map (fun x => x * f))).Holds x ↔ (rowOf c).Holds x := by
  have hd : ∀ (a : List ℚ) (x : Pt), dot (a.map (fun x => x * f)) x = f * dot a x := by
    intro a
    induction a with
    | nil => intro x; simp [dot]
    | cons u a ih =>
      intro x
      cases x with
      | nil => simp [dot]
      | cons v x => simp only [List.map_cons, dot, ih]; ring
  cases c with
  | nil => simp [rowOf]
  | cons a c =>
    simp only [List.map_cons, rowOf, Row.Holds, Bool.false_eq_true, false_imp_iff, true_and, forall_const, hd]
    rw [show a * f + f * dot c x = f * (a + dot c x) by ring]
    exact mul_nonneg_iff_of_pos_left hf

theorem norm_rows (n : ℕ) {cs cs' : List (List ℚ)}
    (h : List.Forall₂ (fun c c' => ∃ f : ℚ, 0 < f ∧ c' = c.map (fun x => x * f)) cs cs') (hlen : ∀ c ∈ cs, c.length = n) :
    (∀ c ∈ cs', c.length = n) ∧ ∀ x, (∃ r ∈ cs'.map rowOf, r.Holds x) ↔ ∃ c ∈ cs, (rowOf c).Holds x := by
  induction h with
  | nil => simp
  | cons h1 _ ih =>
    obtain ⟨f, hf, rfl⟩ := h1
    obtain ⟨i1, i2⟩ := ih (fun c hc => hlen c (by simp [hc]))
    refine ⟨?_, fun x => ?_⟩
    · intro c hc
      rcases List.mem_cons.mp hc with rfl | hc
      · rw [List.length_map]; exact hlen _ (by simp)
      · exact i1 c hc
    · rw [List.map_cons, List.exists_mem_cons_iff, List.exists_mem_cons_iff, i2, rowOf_scale _ _ hf]

theorem rowOf_holds6 (a b c d e f x y z u v : ℚ) : (rowOf [a, b, c, d, e, f]).Holds [x, y, z, u, v] ↔
    0 ≤ a + b * x + c * y + d * z + e * u + f * v := by
  simp only [rowOf, Row.Holds, dot, Bool.false_eq_true, false_imp_iff, true_and, forall_const]
  rw [show a + (b * x + (c * y + (d * z + (e * u + (f * v + 0))))) = a + b * x + c * y + d * z + e * u + f * v by ring]

/-- A sum of two maxima is at least `t` exactly when a sum of two of the numbers is. -/
theorem max_sum (t a1 a2 a3 b1 b2 b3 : ℚ) : t ≤ max a1 (max a2 a3) + max b1 (max b2 b3) ↔
    t ≤ a1 + b1 ∨ t ≤ a1 + b2 ∨ t ≤ a1 + b3 ∨ t ≤ a2 + b1 ∨ t ≤ a2 + b2 ∨ t ≤ a2 + b3 ∨ t ≤ a3 + b1 ∨ t ≤ a3 + b2 ∨
      t ≤ a3 + b3 := by
  constructor
  · intro h
    rcases max_choice a1 (max a2 a3) with ha | ha <;> rcases max_choice b1 (max b2 b3) with hb | hb <;>
      rcases max_choice a2 a3 with ha' | ha' <;> rcases max_choice b2 b3 with hb' | hb' <;>
      rw [ha, hb] at h <;> (try rw [ha'] at h) <;> (try rw [hb'] at h) <;> tauto
  · have p1 : a1 ≤ max a1 (max a2 a3) := le_max_left _ _
    have p2 : a2 ≤ max a1 (max a2 a3) := (le_max_left _ _).trans (le_max_right _ _)
    have p3 : a3 ≤ max a1 (max a2 a3) := (le_max_right _ _).trans (le_max_right _ _)
    have q1 : b1 ≤ max b1 (max b2 b3) := le_max_left _ _
    have q2 : b2 ≤ max b1 (max b2 b3) := (le_max_left _ _).trans (le_max_right _ _)
    have q3 : b3 ≤ max b1 (max b2 b3) := (le_max_right _ _).trans (le_max_right _ _)
    rintro (h | h | h | h | h | h | h | h | h) <;> linarith

/-- **C50** (exponent pairs) The region of an exponent pair contains a point exactly when it lies in the default box and
satisfies the documented inequality. -/
theorem C50_pair (canon : Mat → Mat) (hc : Mat.CanonSpec canon) (k l : ℚ) (hkl : 1 + 2 * k + 2 * l ≠ 0) :
    ∃ r : Region L, epToLver canon k l = .ok r ∧
      ∀ σ τ ρ ρs s, r.Contains [σ, τ, ρ, ρs, s] ↔ InEnergyBox σ τ ρ ρs s ∧ PairBound k l σ τ ρ ρs := by
  set cs := (firstMax k l).flatMap (fun m1 => secondMax.map (fun m2 => epConstraint m1 m2)) with hcs
  have hexp : cs = [epConstraint [1, 0, 0, 1, 0, 0] [1, 0, 0, 0, 1, 0], epConstraint [1, 0, 0, 1, 0, 0] [0, 0, 0, 4, 0, 0],
      epConstraint [1, 0, 0, 1, 0, 0] [0, 0, 1 / 2, 1, 3 / 4, 0], epConstraint [0, 0, 1 / 3, 5 / 3, 0, 0] [1, 0, 0, 0, 1, 0],
      epConstraint [0, 0, 1 / 3, 5 / 3, 0, 0] [0, 0, 0, 4, 0, 0], epConstraint [0, 0, 1 / 3, 5 / 3, 0, 0] [0, 0, 1 / 2, 1, 3 / 4, 0],
      epConstraint [0, 0, (k + l) / (1 + 2 * k + 2 * l), (2 + 3 * k + 4 * l) / (1 + 2 * k + 2 * l), 0, 0] [1, 0, 0, 0, 1, 0],
      epConstraint [0, 0, (k + l) / (1 + 2 * k + 2 * l), (2 + 3 * k + 4 * l) / (1 + 2 * k + 2 * l), 0, 0] [0, 0, 0, 4, 0, 0],
      epConstraint [0, 0, (k + l) / (1 + 2 * k + 2 * l), (2 + 3 * k + 4 * l) / (1 + 2 * k + 2 * l), 0, 0] [0, 0, 1 / 2, 1, 3 / 4, 0]] := rfl
  obtain ⟨cs', h1, h2⟩ := normaliseAll_spec cs (by
    rw [hexp]
    intro c hc
    simp only [List.mem_cons, List.not_mem_nil, or_false] at hc
    rcases hc with rfl | rfl | rfl | rfl | rfl | rfl | rfl | rfl | rfl <;> refine ⟨_, rfl, ?_⟩ <;> norm_num)
  obtain ⟨n1, n2⟩ := norm_rows 6 h2 (by
    rw [hexp]
    intro c hc
    simp only [List.mem_cons, List.not_mem_nil, or_false] at hc
    rcases hc with rfl | rfl | rfl | rfl | rfl | rfl | rfl | rfl | rfl <;> rfl)
  obtain ⟨ps, e1, e2, _⟩ := Region.C20_fromHalfplanes (L := L) canon hc (cs'.map rowOf) energyBox 5 (by decide)
    ⟨_, List.mem_cons_self, by decide +kernel⟩ (by
      intro r hr
      obtain ⟨c', hc', rfl⟩ := List.mem_map.mp hr
      exact ⟨by rw [rowOf_length, n1 c' hc'], rowOf_lin c'⟩)
  refine ⟨.disjoint (ps.map (fun m => .polytope m none)), ?_, fun σ τ ρ ρs s => ?_⟩
  · unfold epToLver
    rw [if_neg hkl, ← hcs, h1]
    exact e1
  · rw [e2 _ rfl, energyBox_holds]
    refine and_congr_right (fun _ => ?_)
    rw [n2, hexp]
    have hb : PairBound k l σ τ ρ ρs ↔ 2 * ρs - 2 + 4 * σ ≤
        max (ρ + 1) (max (5 / 3 * ρ + τ / 3) (((2 + 3 * k + 4 * l) * ρ + (k + l) * τ) / (1 + 2 * k + 2 * l))) +
        max (ρs + 1) (max (4 * ρ) (3 / 4 * ρs + ρ + τ / 2)) := by
      unfold PairBound
      constructor <;> intro h <;> linarith
    rw [hb, max_sum]
    have hk : ((2 + 3 * k + 4 * l) * ρ + (k + l) * τ) / (1 + 2 * k + 2 * l) =
        (k + l) / (1 + 2 * k + 2 * l) * τ + (2 + 3 * k + 4 * l) / (1 + 2 * k + 2 * l) * ρ := by
      field_simp
      ring
    rw [hk]
    simp only [List.exists_mem_cons_iff, epConstraint, List.zipWith_cons_cons, List.zipWith_nil_left, rowOf_holds6,
      List.not_mem_nil, false_and, exists_false, or_false]
    refine or_congr ?_ (or_congr ?_ (or_congr ?_ (or_congr ?_ (or_congr ?_ (or_congr ?_ (or_congr ?_ (or_congr ?_ ?_))))))) <;>
      constructor <;> intro h <;> linarith

/-- The pair `(0, 1)` at `σ = 3/4`, `τ = 1`, `ρ = 1/2`: the bound is `ρ* ≤ 1/2 + ρ*/2 + …`, so `ρ* = 1` is allowed and `ρ* = 3` is
not. -/
example : ∃ r : Region ℕ, epToLver id 0 1 = .ok r ∧ r.Contains [3 / 4, 1, 1 / 2, 1, 0] ∧ ¬ r.Contains [3 / 4, 1, 1 / 2, 3, 0] := by
  obtain ⟨r, h1, h2⟩ := C50_pair (L := ℕ) id (fun _ h => ⟨rfl, h, fun _ _ => Iff.rfl⟩) 0 1 (by norm_num)
  refine ⟨r, h1, ?_, ?_⟩ <;> rw [h2] <;> unfold InEnergyBox InBox PairBound <;> norm_num [max_def]

/-- A zero denominator raises `ZeroDivisionError`; it does not occur for pairs with `k, l ≥ 0`. -/
theorem C50_pair_zero (canon : Mat → Mat) (k l : ℚ) :
    (1 + 2 * k + 2 * l = 0 → epToLver (L := L) canon k l = .error .zeroDivision) ∧ (0 ≤ k → 0 ≤ l → 1 + 2 * k + 2 * l ≠ 0) := by
  constructor
  · intro h
    unfold epToLver
    rw [if_pos h]
  · intro hk hl h
    linarith

end LargeValues
end Expdb
