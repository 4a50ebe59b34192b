import Verif.Model.Literature
import Verif.Props.LargeValues
import Verif.Props.LargeValueRegion

/-!
# Properties C71 and C72: the large value estimates of the literature
-/

namespace Expdb
namespace Literature

open LargeValues
open Region (Contains contains_iff_mem)

variable {L : Type}

/-! ### C71: Bourgain's large value theorem with optimised parameters -/

/-- The right side of the simplified large value theorem of Bourgain with parameters `a1, a2` (additive_energy.tex, Bourgain large
values theorem, simplified version). -/
def bourgainMax (σ τ a1 a2 : ℚ) : ℚ :=
  max (a2 + 2 - 2 * σ) (max (a1 + a2 / 2 + 2 - 2 * σ) (max (-a2 + 2 * τ + 4 - 8 * σ)
    (max (-2 * a1 + τ + 12 - 16 * σ) (4 * a1 + 2 + max 1 (2 * τ - 2) - 4 * σ))))

/-- `ρ` satisfies the theorem for all parameters. -/
def Allowed (σ τ ρ : ℚ) : Prop := ∀ a1 a2, 0 ≤ a1 → 0 ≤ a2 → ρ ≤ bourgainMax σ τ a1 a2

theorem bourgain_lt {σ τ a1 a2 ρ : ℚ} (h : bourgainMax σ τ a1 a2 < ρ) :
    a2 + 2 - 2 * σ < ρ ∧ a1 + a2 / 2 + 2 - 2 * σ < ρ ∧ -a2 + 2 * τ + 4 - 8 * σ < ρ ∧ -2 * a1 + τ + 12 - 16 * σ < ρ ∧
      4 * a1 + 2 + 1 - 4 * σ < ρ ∧ 4 * a1 + 2 + (2 * τ - 2) - 4 * σ < ρ := by
  unfold bourgainMax at h
  simp only [max_lt_iff] at h
  obtain ⟨h1, h2, h3, h4, h5⟩ := h
  have m1 := le_max_left (1 : ℚ) (2 * τ - 2)
  have m2 := le_max_right (1 : ℚ) (2 * τ - 2)
  refine ⟨h1, h2, h3, h4, ?_, ?_⟩ <;> linarith

theorem bourgain_le {σ τ a1 a2 ρ : ℚ} (h1 : a2 + 2 - 2 * σ ≤ ρ) (h2 : a1 + a2 / 2 + 2 - 2 * σ ≤ ρ) (h3 : -a2 + 2 * τ + 4 - 8 * σ ≤ ρ)
    (h4 : -2 * a1 + τ + 12 - 16 * σ ≤ ρ) (h5 : 4 * a1 + 2 + 1 - 4 * σ ≤ ρ) (h6 : 4 * a1 + 2 + (2 * τ - 2) - 4 * σ ≤ ρ) :
    bourgainMax σ τ a1 a2 ≤ ρ := by
  unfold bourgainMax
  simp only [max_le_iff]
  refine ⟨h1, h2, h3, h4, ?_⟩
  rcases max_choice (1 : ℚ) (2 * τ - 2) with h | h <;> rw [h] <;> linarith

/-- The optimum for given parameters, as a two-sided certificate. -/
theorem allowed_iff {σ τ ρ0 : ℚ} (a1 a2 : ℚ) (h1 : 0 ≤ a1) (h2 : 0 ≤ a2) (hle : bourgainMax σ τ a1 a2 ≤ ρ0)
    (hge : ∀ b1 b2, 0 ≤ b1 → 0 ≤ b2 → ρ0 ≤ bourgainMax σ τ b1 b2) (ρ : ℚ) : Allowed σ τ ρ ↔ ρ ≤ ρ0 :=
  ⟨fun h => (h a1 a2 h1 h2).trans hle, fun h b1 b2 k1 k2 => h.trans (hge b1 b2 k1 k2)⟩

/-- The sets of the rows of the optimised table, for `1/2 ≤ σ ≤ 1` and `τ ≥ 1` (additive_energy.tex, table of the optimised Bourgain
large values theorem; the code bounds `τ` by 1000000). -/
def InRow : ℕ → ℚ → ℚ → Prop
  | 1, σ, τ => 0 ≤ 10 - 14 * σ + τ ∧ 1 ≤ τ ∧ 0 ≤ 4 + 4 * σ - 5 * τ ∧ 0 ≤ -11 + 16 * σ - τ
  | 2, σ, τ => 0 ≤ 8 - 8 * σ - τ ∧ 0 ≤ -16 + 20 * σ + τ / 3 ∧ 0 ≤ -6 + 10 * σ - 7 * τ / 6 ∧ 0 ≤ -4 - 4 * σ + 5 * τ
  | 3, σ, τ => 0 ≤ -8 + 8 * σ + τ ∧ 0 ≤ 2 - 6 * σ + 2 * τ ∧ 0 ≤ -10 + 14 * σ - 2 * τ / 3 ∧ 0 ≤ 6 - 2 * σ - 2 * τ
  | 4, σ, τ => 0 ≤ -6 + 2 * σ + 2 * τ ∧ 0 ≤ -12 + 12 * σ + τ ∧ τ ≤ 1000000 ∧ σ ≤ 1 ∧ 1 / 2 ≤ σ
  | 5, σ, τ => 1 / 2 ≤ σ ∧ 0 ≤ 15 - 21 * σ + τ ∧ 0 ≤ 12 - 12 * σ - τ ∧ 3 / 2 ≤ τ ∧ 0 ≤ 6 - 10 * σ + 7 * τ / 6
  | 6, σ, τ => σ ≤ 1 ∧ 1 / 2 ≤ σ ∧ 0 ≤ -10 + 14 * σ - τ ∧ 1 ≤ τ ∧ τ ≤ 1000000 ∧ 0 ≤ -2 + 6 * σ - 2 * τ
  | 7, σ, τ => τ ≤ 3 / 2 ∧ 1 / 2 ≤ σ ∧ 1 ≤ τ ∧ 0 ≤ 11 - 16 * σ + τ ∧ 0 ≤ 16 - 20 * σ - τ / 3
  | _, _, _ => False

/-- The bounds of the rows of the table. -/
def rowBound : ℕ → ℚ → ℚ → ℚ
  | 1, σ, τ => 16 / 3 - 20 / 3 * σ + τ / 3
  | 2, σ, τ => 5 - 7 * σ + 3 / 4 * τ
  | 3, σ, τ => 3 - 5 * σ + τ
  | 4, σ, τ => -4 * σ + 2 * τ
  | 5, σ, τ => 8 - 12 * σ + 4 / 3 * τ
  | 6, σ, _ => 2 - 2 * σ
  | 7, σ, τ => 9 - 12 * σ + 2 / 3 * τ
  | _, _, _ => 0

/-- **C71** (the table is optimal) On the set of each row of the table, the bound of the row is exactly the best bound that the
theorem gives, over all choices of its parameters. -/
theorem C71_table (i : ℕ) (σ τ ρ : ℚ) (h : InRow i σ τ) : Allowed σ τ ρ ↔ ρ ≤ rowBound i σ τ := by
  match i, h with
  | 1, ⟨p1, p2, p3, p4⟩ =>
    show Allowed σ τ ρ ↔ ρ ≤ 16 / 3 - 20 / 3 * σ + τ / 3
    refine allowed_iff (10 / 3 - 14 / 3 * σ + τ / 3) 0 ?_ le_rfl (bourgain_le ?_ ?_ ?_ ?_ ?_ ?_) (fun b1 b2 k1 k2 => ?_) ρ
    iterate 7 linarith
    by_contra hlt
    obtain ⟨q1, q2, q3, q4, q5, q6⟩ := bourgain_lt (not_le.mp hlt)
    linarith
  | 2, ⟨p1, p2, p3, p4⟩ =>
    show Allowed σ τ ρ ↔ ρ ≤ 5 - 7 * σ + 3 / 4 * τ
    refine allowed_iff (7 / 2 - 9 / 2 * σ + τ / 8) (-1 - σ + 5 / 4 * τ) ?_ ?_ (bourgain_le ?_ ?_ ?_ ?_ ?_ ?_)
      (fun b1 b2 k1 k2 => ?_) ρ
    iterate 8 linarith
    by_contra hlt
    obtain ⟨q1, q2, q3, q4, q5, q6⟩ := bourgain_lt (not_le.mp hlt)
    linarith
  | 3, ⟨p1, p2, p3, p4⟩ =>
    show Allowed σ τ ρ ↔ ρ ≤ 3 - 5 * σ + τ
    have m1 := le_max_left (0 : ℚ) (9 / 2 - 11 / 2 * σ)
    refine allowed_iff (max 0 (9 / 2 - 11 / 2 * σ)) (1 - 3 * σ + τ) m1 ?_ (bourgain_le ?_ ?_ ?_ ?_ ?_ ?_)
      (fun b1 b2 k1 k2 => ?_) ρ
    iterate 7 (rcases le_total (0 : ℚ) (9 / 2 - 11 / 2 * σ) with e | e <;> (try simp only [max_eq_left e, max_eq_right e]) <;> linarith)
    by_contra hlt
    obtain ⟨q1, q2, q3, q4, q5, q6⟩ := bourgain_lt (not_le.mp hlt)
    linarith
  | 4, ⟨p1, p2, p3, p4, p5⟩ =>
    show Allowed σ τ ρ ↔ ρ ≤ -4 * σ + 2 * τ
    refine allowed_iff 0 (1 - 3 * σ + τ) le_rfl ?_ (bourgain_le ?_ ?_ ?_ ?_ ?_ ?_) (fun b1 b2 k1 k2 => ?_) ρ
    iterate 7 linarith
    by_contra hlt
    obtain ⟨q1, q2, q3, q4, q5, q6⟩ := bourgain_lt (not_le.mp hlt)
    linarith
  | 5, ⟨p1, p2, p3, p4, p5⟩ =>
    show Allowed σ τ ρ ↔ ρ ≤ 8 - 12 * σ + 4 / 3 * τ
    have m1 := le_max_left (0 : ℚ) (2 / 3 * τ - 4 + 4 * σ)
    refine allowed_iff (2 - 2 * σ - τ / 6) (max 0 (2 / 3 * τ - 4 + 4 * σ)) ?_ m1 (bourgain_le ?_ ?_ ?_ ?_ ?_ ?_)
      (fun b1 b2 k1 k2 => ?_) ρ
    iterate 7 (rcases le_total (0 : ℚ) (2 / 3 * τ - 4 + 4 * σ) with e | e <;> (try simp only [max_eq_left e, max_eq_right e]) <;> linarith)
    by_contra hlt
    obtain ⟨q1, q2, q3, q4, q5, q6⟩ := bourgain_lt (not_le.mp hlt)
    linarith
  | 6, ⟨p1, p2, p3, p4, p5, p6⟩ =>
    show Allowed σ τ ρ ↔ ρ ≤ 2 - 2 * σ
    refine allowed_iff 0 0 le_rfl le_rfl (bourgain_le ?_ ?_ ?_ ?_ ?_ ?_) (fun b1 b2 k1 k2 => ?_) ρ
    iterate 6 linarith
    by_contra hlt
    obtain ⟨q1, q2, q3, q4, q5, q6⟩ := bourgain_lt (not_le.mp hlt)
    linarith
  | 7, ⟨p1, p2, p3, p4, p5⟩ =>
    show Allowed σ τ ρ ↔ ρ ≤ 9 - 12 * σ + 2 / 3 * τ
    have m1 := le_max_left (0 : ℚ) (4 / 3 * τ - 5 + 4 * σ)
    refine allowed_iff (3 / 2 - 2 * σ + τ / 6) (max 0 (4 / 3 * τ - 5 + 4 * σ)) ?_ m1 (bourgain_le ?_ ?_ ?_ ?_ ?_ ?_)
      (fun b1 b2 k1 k2 => ?_) ρ
    iterate 7 (rcases le_total (0 : ℚ) (4 / 3 * τ - 5 + 4 * σ) with e | e <;> (try simp only [max_eq_left e, max_eq_right e]) <;> linarith)
    by_contra hlt
    obtain ⟨q1, q2, q3, q4, q5, q6⟩ := bourgain_lt (not_le.mp hlt)
    linarith
  | 0, h => exact h.elim
  | _ + 8, h => exact h.elim

/-- **C71** (the table is complete) Every `(σ, τ)` with `1/2 ≤ σ ≤ 1` and `1 ≤ τ ≤ 1000000` belongs to a row. -/
theorem C71_cover (σ τ : ℚ) (h1 : 1 / 2 ≤ σ) (h2 : σ ≤ 1) (h3 : 1 ≤ τ) (h4 : τ ≤ 1000000) : ∃ i, InRow i σ τ := by
  rcases le_total 0 (8 - 8 * σ - τ) with a | a
  · rcases le_total 0 (4 + 4 * σ - 5 * τ) with b | b
    · rcases le_total 0 (10 - 14 * σ + τ) with c | c
      · rcases le_total 0 (-11 + 16 * σ - τ) with d | d
        · refine ⟨1, ?_, ?_, ?_, ?_⟩ <;> linarith
        · refine ⟨7, ?_, ?_, ?_, ?_, ?_⟩ <;> linarith
      · refine ⟨6, ?_, ?_, ?_, ?_, ?_, ?_⟩ <;> linarith
    · rcases le_total 0 (48 - 60 * σ - τ) with c | c
      · rcases le_total (3 / 2) τ with d | d
        · refine ⟨5, ?_, ?_, ?_, ?_, ?_⟩ <;> linarith
        · refine ⟨7, ?_, ?_, ?_, ?_, ?_⟩ <;> linarith
      · rcases le_total 0 (-36 + 60 * σ - 7 * τ) with d | d
        · refine ⟨2, ?_, ?_, ?_, ?_⟩ <;> linarith
        · refine ⟨5, ?_, ?_, ?_, ?_, ?_⟩ <;> linarith
  · rcases le_total 0 (10 - 14 * σ + τ) with b | b
    · rcases le_total 0 (15 - 21 * σ + τ) with c | c
      · rcases le_total 0 (12 - 12 * σ - τ) with d | d
        · refine ⟨5, ?_, ?_, ?_, ?_, ?_⟩ <;> linarith
        · refine ⟨4, ?_, ?_, ?_, ?_, ?_⟩ <;> linarith
      · rcases le_total 0 (3 - σ - τ) with d | d
        · refine ⟨3, ?_, ?_, ?_, ?_⟩ <;> linarith
        · refine ⟨4, ?_, ?_, ?_, ?_, ?_⟩ <;> linarith
    · rcases le_total 0 (1 - 3 * σ + τ) with c | c
      · rcases le_total 0 (3 - σ - τ) with d | d
        · refine ⟨3, ?_, ?_, ?_, ?_⟩ <;> linarith
        · refine ⟨4, ?_, ?_, ?_, ?_, ?_⟩ <;> linarith
      · refine ⟨6, ?_, ?_, ?_, ?_, ?_, ?_⟩ <;> linarith

/-- Non-vacuity: the points `(3/4, 8/5)` and `(9/10, 3/2)` lie in the rows 5 and 6. -/
example : (Allowed (3 / 4) (8 / 5) (17 / 15) ∧ ¬ Allowed (3 / 4) (8 / 5) (18 / 15)) ∧ ∃ i, InRow i (9 / 10) (3 / 2) := by
  have h : InRow 5 (3 / 4) (8 / 5) := by simp only [InRow]; norm_num
  rw [C71_table 5 _ _ _ h, C71_table 5 _ _ _ h]
  exact ⟨by simp only [rowBound]; norm_num, C71_cover _ _ (by norm_num) (by norm_num) (by norm_num) (by norm_num)⟩

/-- The sets of the rows lie in the strip `1/2 ≤ σ ≤ 1`, `1 ≤ τ ≤ 1000000`. -/
theorem inRow_box (i : ℕ) (σ τ : ℚ) (h : InRow i σ τ) : 1 / 2 ≤ σ ∧ σ ≤ 1 ∧ 1 ≤ τ ∧ τ ≤ 1000000 := by
  match i, h with
  | 1, ⟨p1, p2, p3, p4⟩ => refine ⟨?_, ?_, ?_, ?_⟩ <;> linarith
  | 2, ⟨p1, p2, p3, p4⟩ => refine ⟨?_, ?_, ?_, ?_⟩ <;> linarith
  | 3, ⟨p1, p2, p3, p4⟩ => refine ⟨?_, ?_, ?_, ?_⟩ <;> linarith
  | 4, ⟨p1, p2, p3, p4, p5⟩ => refine ⟨?_, ?_, ?_, ?_⟩ <;> linarith
  | 5, ⟨p1, p2, p3, p4, p5⟩ => refine ⟨?_, ?_, ?_, ?_⟩ <;> linarith
  | 6, ⟨p1, p2, p3, p4, p5, p6⟩ => refine ⟨?_, ?_, ?_, ?_⟩ <;> linarith
  | 7, ⟨p1, p2, p3, p4, p5⟩ => refine ⟨?_, ?_, ?_, ?_⟩ <;> linarith
  | 0, h => exact h.elim
  | _ + 8, h => exact h.elim

theorem bourgain_raw : ∃ r : Region L, bourgainRegion = .ok r ∧ ∀ σ τ ρ, r.Contains [σ, τ, ρ] ↔
    ((1 / 2 ≤ σ ∧ σ ≤ 1) ∧ (0 ≤ τ ∧ τ ≤ 1) ∧ 0 ≤ ρ ∧ ρ ≤ 1000000) ∨ ∃ p ∈ bourgainPolys, ∀ c ∈ p, (rowOf c).Holds [σ, τ, ρ] := by
  obtain ⟨rs, h1, h2, h3⟩ := polyRegions_spec (L := L) 3 bourgainPolys (by decide) (by
    intro p hp
    simp only [bourgainPolys, List.mem_cons, List.not_mem_nil, or_false] at hp
    rcases hp with rfl | rfl | rfl | rfl | rfl | rfl | rfl <;> exact ⟨[0, 0, 0, 1], by simp, by decide +kernel⟩)
  refine ⟨.disjoint (.polytope (ZeroDensity.box3 (1 / 2) 1 0 1 0 1000000) none :: rs), ?_, fun σ τ ρ => ?_⟩
  · unfold bourgainRegion
    rw [show lvLimit = 1000000 from rfl, ZeroDensity.box3_rect, h1]
    rfl
  · rw [disjoint_contains (d := 3) ?_ _ rfl]
    · rw [Region.MemAny, h3 _ rfl, Region.Mem]
      refine or_congr ?_ Iff.rfl
      have := ZeroDensity.box3_contains (1 / 2) 1 0 1 0 1000000 [σ, τ, ρ]
      rw [this]
      constructor
      · rintro ⟨s, t, r, he, h⟩
        simp only [List.cons.injEq, and_true] at he
        obtain ⟨rfl, rfl, rfl⟩ := he
        exact h
      · intro h
        exact ⟨σ, τ, ρ, rfl, h⟩
    · unfold Region.AllMatList Region.AllMat
      exact ⟨rfl, h2⟩

/-- The polytopes of the code, in the strip `1/2 ≤ σ`: the rows of the table with `0 ≤ ρ ≤` the bound of the row, except that row 5 has no
bound on `ρ`. -/
theorem bourgain_rows (σ τ ρ : ℚ) (hσ : 1 / 2 ≤ σ) : (∃ p ∈ bourgainPolys, ∀ c ∈ p, (rowOf c).Holds [σ, τ, ρ]) ↔
    0 ≤ ρ ∧ ∃ i, InRow i σ τ ∧ (i = 5 ∨ ρ ≤ rowBound i σ τ) := by
  unfold bourgainPolys tauLimit
  simp only [List.mem_cons, List.not_mem_nil, or_false, forall_eq_or_imp, forall_eq, exists_eq_or_imp, exists_eq_left,
    rowOf_holds4]
  constructor
  · rintro (⟨p1, p2, p3, p4, p5, p6⟩ | ⟨p1, p2, p3, p4, p5, p6⟩ | ⟨p1, p2, p3, p4, p5, p6⟩ | ⟨p1, p2, p3, p4, p5, p6⟩ |
      ⟨p1, p2, p3, p4, p5, p6, p7⟩ | ⟨p1, p2, p3, p4, p5, p6, p7, p8⟩ | ⟨p1, p2, p3, p4, p5, p6, p7⟩)
    · refine ⟨by linarith, 1, ⟨?_, ?_, ?_, ?_⟩, Or.inr ?_⟩ <;> (try simp only [rowBound]) <;> linarith
    · refine ⟨by linarith, 2, ⟨?_, ?_, ?_, ?_⟩, Or.inr ?_⟩ <;> (try simp only [rowBound]) <;> linarith
    · refine ⟨by linarith, 3, ⟨?_, ?_, ?_, ?_⟩, Or.inr ?_⟩ <;> (try simp only [rowBound]) <;> linarith
    · refine ⟨by linarith, 4, ⟨?_, ?_, ?_, ?_, ?_⟩, Or.inr ?_⟩ <;> (try simp only [rowBound]) <;> linarith
    · refine ⟨by linarith, 5, ⟨?_, ?_, ?_, ?_, ?_⟩, Or.inl rfl⟩ <;> linarith
    · refine ⟨by linarith, 6, ⟨?_, ?_, ?_, ?_, ?_, ?_⟩, Or.inr ?_⟩ <;> (try simp only [rowBound]) <;> linarith
    · refine ⟨by linarith, 7, ⟨?_, ?_, ?_, ?_, ?_⟩, Or.inr ?_⟩ <;> (try simp only [rowBound]) <;> linarith
  · rintro ⟨h0, i, h, hb⟩
    match i, h, hb with
    | 1, ⟨p1, p2, p3, p4⟩, Or.inr hb =>
      have hb : ρ ≤ 16 / 3 - 20 / 3 * σ + τ / 3 := hb
      refine Or.inl ⟨?_, ?_, ?_, ?_, ?_, ?_⟩ <;> linarith
    | 2, ⟨p1, p2, p3, p4⟩, Or.inr hb =>
      have hb : ρ ≤ 5 - 7 * σ + 3 / 4 * τ := hb
      refine Or.inr (Or.inl ⟨?_, ?_, ?_, ?_, ?_, ?_⟩) <;> linarith
    | 3, ⟨p1, p2, p3, p4⟩, Or.inr hb =>
      have hb : ρ ≤ 3 - 5 * σ + τ := hb
      refine Or.inr (Or.inr (Or.inl ⟨?_, ?_, ?_, ?_, ?_, ?_⟩)) <;> linarith
    | 4, ⟨p1, p2, p3, p4, p5⟩, Or.inr hb =>
      have hb : ρ ≤ -4 * σ + 2 * τ := hb
      refine Or.inr (Or.inr (Or.inr (Or.inl ⟨?_, ?_, ?_, ?_, ?_, ?_⟩))) <;> linarith
    | 5, ⟨p1, p2, p3, p4, p5⟩, _ =>
      refine Or.inr (Or.inr (Or.inr (Or.inr (Or.inl ⟨?_, ?_, ?_, ?_, ?_, ?_, ?_⟩)))) <;> linarith
    | 6, ⟨p1, p2, p3, p4, p5, p6⟩, Or.inr hb =>
      have hb : ρ ≤ 2 - 2 * σ := hb
      refine Or.inr (Or.inr (Or.inr (Or.inr (Or.inr (Or.inl ⟨?_, ?_, ?_, ?_, ?_, ?_, ?_, ?_⟩))))) <;> linarith
    | 7, ⟨p1, p2, p3, p4, p5⟩, Or.inr hb =>
      have hb : ρ ≤ 9 - 12 * σ + 2 / 3 * τ := hb
      refine Or.inr (Or.inr (Or.inr (Or.inr (Or.inr (Or.inr ⟨?_, ?_, ?_, ?_, ?_, ?_, ?_⟩))))) <;> linarith
    | 0, h, _ => exact h.elim
    | _ + 8, h, _ => exact h.elim

/-- **C71** (nothing allowed is excluded) The region of the code contains every point of the box that the theorem allows for all
parameters; for `τ ≤ 1` it contains the whole box. -/
theorem C71_sound : ∃ r : Region L, bourgainRegion = .ok r ∧
    ∀ σ τ ρ, InBox σ τ ρ → (1 ≤ τ → Allowed σ τ ρ) → r.Contains [σ, τ, ρ] := by
  obtain ⟨r, h1, h2⟩ := bourgain_raw (L := L)
  refine ⟨r, h1, fun σ τ ρ ⟨b1, b2, b3, b4, b5, b6⟩ ha => (h2 σ τ ρ).mpr ?_⟩
  rcases le_total τ 1 with h | h
  · exact Or.inl ⟨⟨b1, b2⟩, ⟨b3, h⟩, b5, b6⟩
  · obtain ⟨i, hi⟩ := C71_cover σ τ b1 b2 h b4
    exact Or.inr ((bourgain_rows σ τ ρ b1).mpr ⟨b5, i, hi, Or.inr ((C71_table i σ τ ρ hi).mp (ha h))⟩)

/-- Non-vacuity: a point with `τ < 1`, and a point that the theorem allows. -/
example : ∃ r : Region ℕ, bourgainRegion = .ok r ∧ r.Contains [3 / 4, 1 / 2, 7] ∧ r.Contains [3 / 4, 8 / 5, 1] := by
  obtain ⟨r, h1, h2⟩ := C71_sound (L := ℕ)
  refine ⟨r, h1, h2 _ _ _ (by unfold InBox; norm_num) (fun h => by norm_num at h), h2 _ _ _ (by unfold InBox; norm_num) fun _ => ?_⟩
  have h : InRow 5 (3 / 4) (8 / 5) := by simp only [InRow]; norm_num
  rw [C71_table 5 _ _ _ h]
  simp only [rowBound]
  norm_num

/-- **C71** (partial: for `σ ≥ 1/2` and outside the set of row 5 of the table) For `τ > 1` the region of the code contains a point exactly
when the point lies in the strip and satisfies the theorem for all parameters. Full statement: the same for all points with `τ > 1`;
false by `C71_row5_counterexample` and `C71_row4_counterexample`. -/
theorem C71_bourgain_partial : ∃ r : Region L, bourgainRegion = .ok r ∧
    ∀ σ τ ρ, 1 / 2 ≤ σ → 1 < τ → ¬ InRow 5 σ τ →
      (r.Contains [σ, τ, ρ] ↔ σ ≤ 1 ∧ τ ≤ 1000000 ∧ 0 ≤ ρ ∧ Allowed σ τ ρ) := by
  obtain ⟨r, h1, h2⟩ := bourgain_raw (L := L)
  refine ⟨r, h1, fun σ τ ρ hσ hτ h5 => (h2 σ τ ρ).trans ?_⟩
  rw [bourgain_rows σ τ ρ hσ]
  constructor
  · rintro (⟨_, ⟨_, h⟩, _⟩ | ⟨h0, i, hi, hb⟩)
    · linarith
    · obtain ⟨_, b2, _, b4⟩ := inRow_box i σ τ hi
      rcases hb with rfl | hb
      · exact absurd hi h5
      · exact ⟨b2, b4, h0, (C71_table i σ τ ρ hi).mpr hb⟩
  · rintro ⟨b2, b4, h0, ha⟩
    obtain ⟨i, hi⟩ := C71_cover σ τ hσ b2 hτ.le b4
    exact Or.inr ⟨h0, i, hi, Or.inr ((C71_table i σ τ ρ hi).mp ha)⟩

/-- Non-vacuity: at `σ = 9/10`, `τ = 3/2` the theorem gives `ρ ≤ 2 - 2σ = 1/5`. -/
example : ∃ r : Region ℕ, bourgainRegion = .ok r ∧ ¬ InRow 5 (9 / 10) (3 / 2) ∧ r.Contains [9 / 10, 3 / 2, 1 / 5] ∧
    ¬ r.Contains [9 / 10, 3 / 2, 1 / 4] := by
  have h6 : InRow 6 (9 / 10) (3 / 2) := by simp only [InRow]; norm_num
  have h5 : ¬ InRow 5 (9 / 10) (3 / 2) := by simp only [InRow]; norm_num
  obtain ⟨r, h1, h2⟩ := C71_bourgain_partial (L := ℕ)
  refine ⟨r, h1, h5, ?_, ?_⟩ <;> rw [h2 _ _ _ (by norm_num) (by norm_num) h5, C71_table 6 _ _ _ h6] <;> simp only [rowBound] <;> norm_num

/-- Finding: literature.py:786 is `[8, -12, 4/3, 0]`, without the coefficient `-1` of `ρ` that the comment beside it asks for. The
polytope of row 5 therefore puts no bound on `ρ`: at `σ = 3/4`, `τ = 8/5` the theorem gives `ρ ≤ 17/15`, the region contains
`ρ = 10^9`. The polytope is unbounded, so it also violates what later computations with vertices assume. -/
theorem C71_row5_counterexample : ∃ r : Region L, bourgainRegion = .ok r ∧
    (∀ ρ, 0 ≤ ρ → r.Contains [3 / 4, 8 / 5, ρ]) ∧ ∀ ρ, Allowed (3 / 4) (8 / 5) ρ ↔ ρ ≤ 17 / 15 := by
  obtain ⟨r, h1, h2⟩ := bourgain_raw (L := L)
  have h5 : InRow 5 (3 / 4) (8 / 5) := by simp only [InRow]; norm_num
  refine ⟨r, h1, fun ρ h0 => (h2 _ _ _).mpr (Or.inr ((bourgain_rows _ _ _ (by norm_num)).mpr ⟨h0, 5, h5, Or.inl rfl⟩)), fun ρ => ?_⟩
  rw [C71_table 5 _ _ ρ h5]
  simp only [rowBound]
  norm_num

/-- Finding: the polytope of row 4 (literature.py:777-784) has no constraint `σ ≥ 1/2`; the estimate has points with `σ < 0`, which the
other estimates exclude. -/
theorem C71_row4_counterexample : ∃ r : Region L, bourgainRegion = .ok r ∧ r.Contains [-5, 100, 0] := by
  obtain ⟨r, h1, h2⟩ := bourgain_raw (L := L)
  refine ⟨r, h1, (h2 _ _ _).mpr (Or.inr ⟨[[0, -4, 2, -1], [0, 0, 0, 1], [-6, 2, 2, 0], [-12, 12, 1, 0], [tauLimit, 0, -1, 0],
    [1, -1, 0, 0]], by simp [bourgainPolys], ?_⟩)⟩
  simp only [List.mem_cons, List.not_mem_nil, or_false, forall_eq_or_imp, forall_eq, rowOf_holds4, tauLimit]
  norm_num

/-! ### C72: the other large value estimates -/

/-- **C72** (Huxley) -/
theorem C72_huxley (canon : Mat → Mat) (hc : Mat.CanonSpec canon) : ∃ r : Region L, convertBounds canon huxley = .ok r ∧
    ∀ σ τ ρ, r.Contains [σ, τ, ρ] ↔ InBox σ τ ρ ∧ ρ ≤ max (2 - 2 * σ) (4 - 6 * σ + τ) := by
  obtain ⟨r, h1, h2⟩ := C38_convertBounds (L := L) canon hc [(2, -2, 0), (4, -6, 1)] (by simp)
  refine ⟨r, h1, fun σ τ ρ => (h2 σ τ ρ).trans (and_congr_right fun _ => ?_)⟩
  simp only [List.exists_mem_cons_iff, List.not_mem_nil, false_and, exists_false, or_false, le_max_iff]
  refine or_congr ?_ ?_ <;> constructor <;> intro h <;> linarith

/-- **C72** (Heath-Brown) -/
theorem C72_heathBrown (canon : Mat → Mat) (hc : Mat.CanonSpec canon) : ∃ r : Region L, convertBounds canon heathBrown = .ok r ∧
    ∀ σ τ ρ, r.Contains [σ, τ, ρ] ↔ InBox σ τ ρ ∧ ρ ≤ max (2 - 2 * σ) (10 - 13 * σ + τ) := by
  obtain ⟨r, h1, h2⟩ := C38_convertBounds (L := L) canon hc [(2, -2, 0), (10, -13, 1)] (by simp)
  refine ⟨r, h1, fun σ τ ρ => (h2 σ τ ρ).trans (and_congr_right fun _ => ?_)⟩
  simp only [List.exists_mem_cons_iff, List.not_mem_nil, false_and, exists_false, or_false, le_max_iff]
  refine or_congr ?_ ?_ <;> constructor <;> intro h <;> linarith

/-- **C72** (Jutila, for every `k`) -/
theorem C72_jutila (canon : Mat → Mat) (hc : Mat.CanonSpec canon) (k : ℕ) : ∃ r : Region L, convertBounds canon (jutila k) = .ok r ∧
    ∀ σ τ ρ, r.Contains [σ, τ, ρ] ↔ InBox σ τ ρ ∧
      ρ ≤ max (2 - 2 * σ) (max (4 - 2 / k - (6 - 2 / k) * σ + τ) (6 * k - 8 * k * σ + τ)) := by
  obtain ⟨r, h1, h2⟩ := C38_convertBounds (L := L) canon hc
    [(2, -2, 0), (4 - 2 / (k : ℚ), -(6 - 2 / (k : ℚ)), 1), (6 * (k : ℚ), -8 * (k : ℚ), 1)] (by simp)
  refine ⟨r, h1, fun σ τ ρ => (h2 σ τ ρ).trans (and_congr_right fun _ => ?_)⟩
  simp only [List.exists_mem_cons_iff, List.not_mem_nil, false_and, exists_false, or_false, le_max_iff]
  refine or_congr ?_ (or_congr ?_ ?_) <;> constructor <;> intro h <;> linarith

/-- **C72** (Guth–Maynard) -/
theorem C72_guthMaynard (canon : Mat → Mat) (hc : Mat.CanonSpec canon) : ∃ r : Region L, convertBounds canon guthMaynard = .ok r ∧
    ∀ σ τ ρ, r.Contains [σ, τ, ρ] ↔ InBox σ τ ρ ∧ ρ ≤ max (2 - 2 * σ) (max (18 / 5 - 4 * σ) (τ + 12 / 5 - 4 * σ)) := by
  obtain ⟨r, h1, h2⟩ := C38_convertBounds (L := L) canon hc [(2, -2, 0), (18 / 5, -4, 0), (12 / 5, -4, 1)] (by simp)
  refine ⟨r, h1, fun σ τ ρ => (h2 σ τ ρ).trans (and_congr_right fun _ => ?_)⟩
  simp only [List.exists_mem_cons_iff, List.not_mem_nil, false_and, exists_false, or_false, le_max_iff]
  refine or_congr ?_ (or_congr ?_ ?_) <;> constructor <;> intro h <;> linarith

/-- **C72** (Heath-Brown's estimate for zeta) -/
theorem C72_twelfth (canon : Mat → Mat) (hc : Mat.CanonSpec canon) : ∃ r : Region L, convertBounds canon heathBrownTwelfth = .ok r ∧
    ∀ σ τ ρ, r.Contains [σ, τ, ρ] ↔ InBox σ τ ρ ∧ ρ ≤ 2 * τ - 12 * (σ - 1 / 2) := by
  obtain ⟨r, h1, h2⟩ := C38_convertBounds (L := L) canon hc [(6, -12, 2)] (by simp)
  refine ⟨r, h1, fun σ τ ρ => (h2 σ τ ρ).trans (and_congr_right fun _ => ?_)⟩
  simp only [List.exists_mem_cons_iff, List.not_mem_nil, false_and, exists_false, or_false]
  constructor <;> intro h <;> linarith

/-- **C72** (the lower bound) None of the estimates for general Dirichlet polynomials, for any parameter, excludes a point of the box with
`ρ ≤ 2 - 2σ`, which are known to occur for `τ ≥ 2 - 2σ` (large_values.tex, lower bounds). -/
theorem C72_lower (canon : Mat → Mat) (hc : Mat.CanonSpec canon) (bounds : List (List ℚ))
    (hb : bounds = huxley ∨ bounds = heathBrown ∨ (∃ k, bounds = jutila k) ∨ bounds = guthMaynard) :
    ∃ r : Region L, convertBounds canon bounds = .ok r ∧ ∀ σ τ ρ, InBox σ τ ρ → ρ ≤ 2 - 2 * σ → r.Contains [σ, τ, ρ] := by
  rcases hb with rfl | rfl | ⟨k, rfl⟩ | rfl
  · obtain ⟨r, h1, h2⟩ := C72_huxley (L := L) canon hc
    exact ⟨r, h1, fun σ τ ρ hx h => (h2 σ τ ρ).mpr ⟨hx, h.trans (le_max_left _ _)⟩⟩
  · obtain ⟨r, h1, h2⟩ := C72_heathBrown (L := L) canon hc
    exact ⟨r, h1, fun σ τ ρ hx h => (h2 σ τ ρ).mpr ⟨hx, h.trans (le_max_left _ _)⟩⟩
  · obtain ⟨r, h1, h2⟩ := C72_jutila (L := L) canon hc k
    exact ⟨r, h1, fun σ τ ρ hx h => (h2 σ τ ρ).mpr ⟨hx, h.trans (le_max_left _ _)⟩⟩
  · obtain ⟨r, h1, h2⟩ := C72_guthMaynard (L := L) canon hc
    exact ⟨r, h1, fun σ τ ρ hx h => (h2 σ τ ρ).mpr ⟨hx, h.trans (le_max_left _ _)⟩⟩

/-- Non-vacuity: the estimate of Huxley at `σ = 3/4`, `τ = 6/5`. -/
example : ∃ r : Region ℕ, convertBounds id huxley = .ok r ∧ r.Contains [3 / 4, 6 / 5, 7 / 10] ∧ ¬ r.Contains [3 / 4, 6 / 5, 4 / 5] := by
  obtain ⟨r, h1, h2⟩ := C72_huxley (L := ℕ) id (fun _ h => ⟨rfl, h, fun _ _ => Iff.rfl⟩)
  refine ⟨r, h1, ?_, ?_⟩ <;> rw [h2] <;> unfold InBox <;> norm_num

/-- Non-vacuity: the estimate of Heath-Brown at `σ = 9/10`, `τ = 2`. -/
example : ∃ r : Region ℕ, convertBounds id heathBrown = .ok r ∧ r.Contains [9 / 10, 2, 3 / 10] ∧ ¬ r.Contains [9 / 10, 2, 2 / 5] := by
  obtain ⟨r, h1, h2⟩ := C72_heathBrown (L := ℕ) id (fun _ h => ⟨rfl, h, fun _ _ => Iff.rfl⟩)
  refine ⟨r, h1, ?_, ?_⟩ <;> rw [h2] <;> unfold InBox <;> norm_num

/-- Non-vacuity: the estimate of Heath-Brown for zeta at `σ = 3/4`, `τ = 2`. -/
example : ∃ r : Region ℕ, convertBounds id heathBrownTwelfth = .ok r ∧ r.Contains [3 / 4, 2, 1] ∧ ¬ r.Contains [3 / 4, 2, 2] := by
  obtain ⟨r, h1, h2⟩ := C72_twelfth (L := ℕ) id (fun _ h => ⟨rfl, h, fun _ _ => Iff.rfl⟩)
  refine ⟨r, h1, ?_, ?_⟩ <;> rw [h2] <;> unfold InBox <;> norm_num

/-- Non-vacuity: the lower bound for Jutila's estimate with `k = 5`. -/
example : ∃ r : Region ℕ, convertBounds id (jutila 5) = .ok r ∧ r.Contains [3 / 4, 2, 1 / 2] := by
  obtain ⟨r, h1, h2⟩ := C72_lower (L := ℕ) id (fun _ h => ⟨rfl, h, fun _ _ => Iff.rfl⟩) (jutila 5) (Or.inr (Or.inr (Or.inl ⟨5, rfl⟩)))
  exact ⟨r, h1, h2 _ _ _ (by unfold InBox; norm_num) (by norm_num)⟩

/-- Non-vacuity: the estimate of Jutila with `k = 3` at `σ = 9/10`, `τ = 2`. -/
example : ∃ r : Region ℕ, convertBounds id (jutila 3) = .ok r ∧ r.Contains [9 / 10, 2, 1 / 2] ∧ ¬ r.Contains [9 / 10, 2, 3 / 5] := by
  obtain ⟨r, h1, h2⟩ := C72_jutila (L := ℕ) id (fun _ h => ⟨rfl, h, fun _ _ => Iff.rfl⟩) 3
  refine ⟨r, h1, ?_, ?_⟩ <;> rw [h2] <;> unfold InBox <;> norm_num

/-- Non-vacuity: the estimate of Guth and Maynard at `σ = 3/4`, `τ = 6/5`. -/
example : ∃ r : Region ℕ, convertBounds id guthMaynard = .ok r ∧ r.Contains [3 / 4, 6 / 5, 3 / 5] ∧ ¬ r.Contains [3 / 4, 6 / 5, 7 / 10] := by
  obtain ⟨r, h1, h2⟩ := C72_guthMaynard (L := ℕ) id (fun _ h => ⟨rfl, h, fun _ _ => Iff.rfl⟩)
  refine ⟨r, h1, ?_, ?_⟩ <;> rw [h2] <;> unfold InBox <;> norm_num

end Literature
end Expdb
