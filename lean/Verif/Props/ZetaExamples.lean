import Verif.Model.ZetaExamples
import Verif.Props.LiteratureLV
import Verif.Props.LiteratureBeta
import Verif.Props.MuExamples
import Verif.Props.LiteratureMu

/-!
# Property C109: the worked example for zeta large value estimates

The triples `(σ, τ, ρ)` that none of the estimates printed by `zeta_large_values_examples` (examples.py:244-261) excludes.
-/

namespace Expdb
namespace ZetaExamples

open LargeValues Literature
open Affine Interval
open Region (Contains)

/-- The least value at `x` of the bounds on beta of the literature. -/
def LeastBeta (K : ℕ) (x v : ℚ) : Prop := ∃ bs, LitBeta.all K = .ok bs ∧ HasValue bs x v ∧ ∀ w, HasValue bs x w → v ≤ w

/-- What the large value estimates of the literature allow for `τ ≥ 1`; the last condition is Bourgain's table as the code has it, where row 5
has no bound on `ρ` (`C71_row5_counterexample`). -/
def AllowedLV (T : ℕ) (σ τ ρ : ℚ) : Prop :=
  ρ ≤ max (2 - 2 * σ) (4 - 6 * σ + τ) ∧ ρ ≤ max (2 - 2 * σ) (10 - 13 * σ + τ) ∧
  (∀ k : ℕ, 1 ≤ k → k < T → ρ ≤ max (2 - 2 * σ) (max (4 - 2 / k - (6 - 2 / k) * σ + τ) (6 * k - 8 * k * σ + τ))) ∧
  ρ ≤ max (2 - 2 * σ) (max (18 / 5 - 4 * σ) (τ + 12 / 5 - 4 * σ)) ∧
  ∃ i, InRow i σ τ ∧ (i = 5 ∨ ρ ≤ rowBound i σ τ)

/-- What the literature allows, for `2 ≤ τ ≤ 1000000` as in the code: a bound on beta excludes `ρ > 0` for `σ > τ β(1/τ)`, a bound on
mu for `σ > σ0 + τ μ(σ0)`. -/
structure Expected (K N T : ℕ) (σ τ ρ : ℚ) : Prop where
  triv : Trivial σ τ ρ
  beta : 2 < τ → τ < 1000000 → ∀ v, LeastBeta K (1 / τ) v → σ > τ * v → ρ = 0
  mu : ∀ mus, LitMu.allMu N = .ok mus → ∀ b ∈ mus, σ > b.sigma + τ * b.mu → ρ = 0
  lv : AllowedLV T σ τ ρ

theorem beta_limit (b : Affine (Option ℕ)) (h0 : 0 ≤ b.dom.x0) (h01 : b.dom.x0 ≤ b.dom.x1) (h02 : b.dom.x0 ≤ 1 / 2) :
    ∃ r : Region ℕ, betaRegion b = .ok r ∧ ∀ σ τ ρ, τ ≤ 1000000 → (r.Contains [σ, τ, ρ] ↔ Trivial σ τ ρ ∧
      (2 < τ → τ < 1000000 → b.dom.x0 < 1 / τ → 1 / τ < b.dom.x1 → σ > b.c * τ + b.m → ρ = 0)) := by
  by_cases hx : b.dom.x1 = 0 ∨ 1 / 1000000 ≤ b.dom.x1
  · obtain ⟨r, h1, h2⟩ := C40_beta_partial (L := ℕ) b h0 h01 h02 hx
    exact ⟨r, h1, fun σ τ ρ _ => h2 σ τ ρ⟩
  · push Not at hx
    have hpos : 0 < b.dom.x1 := lt_of_le_of_ne (h0.trans h01) (Ne.symm hx.1)
    obtain ⟨r, h1, h2⟩ := beta_raw (L := ℕ) b
    refine ⟨r, h1, fun σ τ ρ hτ => ?_⟩
    have tl : 1000000 ≤ tauLower b.dom.x1 := by
      unfold tauLower
      rw [if_neg hx.1]
      refine le_max_of_le_right ?_
      rw [le_div_iff₀ hpos]
      linarith [hx.2]
    have tu : 2 ≤ tauUpper b.dom.x0 := by
      unfold tauUpper tauLimit
      split
      · norm_num
      · rename_i h
        have hp : 0 < b.dom.x0 := lt_of_le_of_ne h0 (Ne.symm h)
        refine le_min (by norm_num) ?_
        rw [le_div_iff₀ hp]
        linarith
    rw [h2]
    unfold Trivial
    constructor
    · rintro ⟨⟨j1, j2, j3⟩, h⟩
      refine ⟨⟨j1, j2, ?_, hτ, j3, ?_⟩, fun l1 l2 l3 l4 _ => ?_⟩
      · rcases h with h | h | h | h
        · linarith [h.2.1]
        · linarith [h.2.1]
        · exact h.2.1
        · linarith [h.2.1]
      · rcases h with h | h | h | h
        · linarith [h.1, h.2.1]
        · exact h.1
        · exact h.1
        · exact h.1
      · exfalso
        rw [div_lt_iff₀ (by linarith)] at l4
        nlinarith [hx.2]
    · rintro ⟨⟨j1, j2, j3, j4, j5, j6⟩, _⟩
      exact ⟨⟨j1, j2, j5⟩, Or.inr (Or.inr (Or.inl ⟨j6, j3, hτ.trans tl⟩))⟩

theorem betaRegions_spec (bs : List (Affine (Option ℕ))) (h : ∀ b ∈ bs, 0 ≤ b.dom.x0 ∧ b.dom.x0 ≤ b.dom.x1 ∧ b.dom.x0 ≤ 1 / 2) :
    ∃ rs : List (Region ℕ), betaRegions bs = .ok rs ∧ ∀ σ τ ρ, τ ≤ 1000000 → ((∀ r ∈ rs, r.Contains [σ, τ, ρ]) ↔
      ∀ b ∈ bs, Trivial σ τ ρ ∧ (2 < τ → τ < 1000000 → b.dom.x0 < 1 / τ → 1 / τ < b.dom.x1 → σ > b.c * τ + b.m → ρ = 0)) := by
  induction bs with
  | nil => exact ⟨[], rfl, by simp⟩
  | cons b bs ih =>
    obtain ⟨rs, h1, h2⟩ := ih (fun c hc => h c (by simp [hc]))
    obtain ⟨k1, k2, k3⟩ := h b (by simp)
    obtain ⟨r, h3, h4⟩ := beta_limit b k1 k2 k3
    refine ⟨r :: rs, ?_, fun σ τ ρ hτ => ?_⟩
    · unfold betaRegions
      rw [h3, h1]
      rfl
    · rw [List.forall_mem_cons, List.forall_mem_cons, h4 σ τ ρ hτ, h2 σ τ ρ hτ]

theorem muToZlv_spec (ps : List (ℚ × ℚ)) : ∃ rs : List (Region ℕ), muToZlv ps = .ok rs ∧ rs.length = ps.length ∧
    ∀ σ τ ρ, (∀ r ∈ rs, r.Contains [σ, τ, ρ]) ↔ ∀ p ∈ ps, Trivial σ τ ρ ∧ (σ > p.1 + τ * p.2 → ρ = 0) := by
  induction ps with
  | nil => exact ⟨[], rfl, rfl, by simp⟩
  | cons p ps ih =>
    obtain ⟨rs, h1, h5, h2⟩ := ih
    obtain ⟨r, h3, h4⟩ := C40_mu (L := ℕ) p.1 p.2
    refine ⟨r :: rs, ?_, by simp [h5], fun σ τ ρ => ?_⟩
    · unfold muToZlv
      rw [h3, h1]
      rfl
    · rw [List.forall_mem_cons, List.forall_mem_cons, h4, h2]

theorem lvToZlv_spec (lvs : List (Region ℕ)) : ∃ rs : List (Region ℕ), lvToZlv lvs [] = .ok rs ∧ rs.length = lvs.length ∧
    ∀ σ τ ρ, (∀ r ∈ rs, r.Contains [σ, τ, ρ]) ↔ ∀ r ∈ lvs, 2 ≤ τ ∧ r.Contains [σ, τ, ρ] := by
  obtain ⟨m, e1, e2, e3, e4, e5⟩ := Region.ofConstraints_exact [rowOf [-2, 0, 1, 0]] 3 (by simp [rowOf])
    ⟨_, List.mem_singleton.mpr rfl, by decide +kernel⟩
  refine ⟨lvs.map (fun r => .intersect [.polytope m none, r]), ?_, by simp, fun σ τ ρ => ?_⟩
  · unfold lvToZlv applyTransforms
    rw [e1]
    simp [bind, Except.bind, pure, Except.pure]
  · rw [List.forall_mem_map]
    refine forall₂_congr fun r _ => ?_
    obtain ⟨b, hb, hb'⟩ := Mat.contains_eq m [σ, τ, ρ] (by rw [e2]; rfl)
    rw [intersect_contains r _ b hb, hb', e5]
    simp only [List.mem_singleton, forall_eq, rowOf_holds4]
    refine and_congr_left (fun _ => ?_)
    constructor <;> intro h <;> linarith

theorem mapM_range (canon : Mat → Mat) (hc : Mat.CanonSpec canon) (l : List ℕ) :
    ∃ js : List (Region ℕ), l.mapM (fun k => convertBounds canon (jutila k)) = .ok js ∧ js.length = l.length ∧
      ∀ σ τ ρ, (∀ r ∈ js, r.Contains [σ, τ, ρ]) ↔ ∀ k ∈ l, InBox σ τ ρ ∧
        ρ ≤ max (2 - 2 * σ) (max (4 - 2 / (k : ℚ) - (6 - 2 / (k : ℚ)) * σ + τ) (6 * (k : ℚ) - 8 * (k : ℚ) * σ + τ)) := by
  induction l with
  | nil => exact ⟨[], rfl, rfl, by simp⟩
  | cons k l ih =>
    obtain ⟨js, h1, h2, h3⟩ := ih
    obtain ⟨r, h4, h5⟩ := C72_jutila (L := ℕ) canon hc k
    refine ⟨r :: js, ?_, by simp [h2], fun σ τ ρ => ?_⟩
    · rw [List.mapM_cons, h4, h1]
      rfl
    · rw [List.forall_mem_cons, List.forall_mem_cons, h5, h3]

theorem literatureLV_spec (canon : Mat → Mat) (hc : Mat.CanonSpec canon) (T : ℕ) : ∃ lvs, literatureLV canon T = .ok lvs ∧
    lvs.length = 4 + (T - 1) ∧ ∀ σ τ ρ, Trivial σ τ ρ → ((∀ r ∈ lvs, r.Contains [σ, τ, ρ]) ↔ AllowedLV T σ τ ρ) := by
  obtain ⟨r1, a1, b1⟩ := C72_huxley (L := ℕ) canon hc
  obtain ⟨r2, a2, b2⟩ := C72_heathBrown (L := ℕ) canon hc
  obtain ⟨js, a3, l3, b3⟩ := mapM_range canon hc (List.range' 1 (T - 1))
  obtain ⟨r4, a4, b4⟩ := bourgain_raw (L := ℕ)
  obtain ⟨r5, a5, b5⟩ := C72_guthMaynard (L := ℕ) canon hc
  refine ⟨[r1, r2] ++ js ++ [r4, r5], ?_, ?_, fun σ τ ρ ht => ?_⟩
  · unfold literatureLV
    rw [a1, a2, a3, a4, a5]
    rfl
  · simp [l3]; omega
  · obtain ⟨t1, t2, t3, t4, t5, t6⟩ := ht
    have hbox : InBox σ τ ρ := ⟨t1, t2, by linarith, t4, t5, by linarith⟩
    have hb4 : r4.Contains [σ, τ, ρ] ↔ ∃ i, InRow i σ τ ∧ (i = 5 ∨ ρ ≤ rowBound i σ τ) := by
      rw [b4, bourgain_rows σ τ ρ t1]
      constructor
      · rintro (⟨_, ⟨_, h⟩, _⟩ | ⟨_, h⟩)
        · linarith
        · exact h
      · exact fun h => Or.inr ⟨t5, h⟩
    unfold AllowedLV
    constructor
    · intro h
      refine ⟨((b1 _ _ _).mp (h r1 (by simp))).2, ((b2 _ _ _).mp (h r2 (by simp))).2, fun k hk hk' => ?_,
        ((b5 _ _ _).mp (h r5 (by simp))).2, hb4.mp (h r4 (by simp))⟩
      exact ((b3 _ _ _).mp (fun r hr => h r (by simp [hr])) k (by rw [List.mem_range'_1]; omega)).2
    · rintro ⟨c1, c2, c3, c5, c4⟩ r hr
      simp only [List.mem_append, List.mem_cons, List.not_mem_nil, or_false] at hr
      rcases hr with ((rfl | rfl) | hr) | rfl | rfl
      · exact (b1 _ _ _).mpr ⟨hbox, c1⟩
      · exact (b2 _ _ _).mpr ⟨hbox, c2⟩
      · refine (b3 _ _ _).mpr (fun k hk => ⟨hbox, c3 k ?_ ?_⟩) r hr
        · rw [List.mem_range'_1] at hk; omega
        · rw [List.mem_range'_1] at hk; omega
      · exact hb4.mpr c4
      · exact (b5 _ _ _).mpr ⟨hbox, c5⟩

/-- A nonempty interval all of whose points are in `[0, 1/2]` has its ends there. -/
theorem ends (I : Interval) (hI : ∃ x, Mem I.x0 I.x1 I.incL I.incU x) (h : ∀ x, Mem I.x0 I.x1 I.incL I.incU x → 0 ≤ x ∧ x ≤ 1 / 2) :
    0 ≤ I.x0 ∧ I.x0 ≤ I.x1 ∧ I.x0 ≤ 1 / 2 := by
  obtain ⟨x, hx⟩ := hI
  have h01 : I.x0 ≤ x ∧ x ≤ I.x1 := by
    unfold Mem at hx
    exact ⟨by rcases hx.1 with h | ⟨_, h⟩ <;> linarith, by rcases hx.2 with h | ⟨_, h⟩ <;> linarith⟩
  obtain ⟨k1, k2⟩ := h x hx
  refine ⟨?_, h01.1.trans h01.2, h01.1.trans k2⟩
  rcases eq_or_lt_of_le h01.1 with e | e
  · rw [e]; exact k1
  · by_contra hcon
    push Not at hcon
    -- a point between `x0` and `min 0 x`
    have hm : I.x0 < min 0 x := lt_min hcon e
    have := (h ((I.x0 + min 0 x) / 2) (by
      unfold Mem
      refine ⟨Or.inl (by linarith), Or.inl ?_⟩
      have := min_le_right 0 x
      linarith [h01.2])).1
    have := min_le_left 0 x
    linarith

theorem zipIdx_bounds (l : List LitBeta.Bd) :
    (l.zipIdx.map (fun e => (⟨e.2, e.1⟩ : Beta.Hyp))).map Beta.Hyp.bound = l := by
  rw [List.map_map]
  exact List.zipIdx_map_fst 0 l

theorem hasValue_perm {l l' : List LitBeta.Bd} (h : l.Perm l') (x v : ℚ) : HasValue l x v ↔ HasValue l' x v := by
  unfold HasValue
  constructor
  · rintro ⟨f, hf, k⟩; exact ⟨f, h.mem_iff.mp hf, k⟩
  · rintro ⟨f, hf, k⟩; exact ⟨f, h.mem_iff.mpr hf, k⟩

/-- The best bounds on beta from the literature, in any order. -/
theorem best_lit (K : ℕ) (bs : List LitBeta.Bd) (hbs : LitBeta.all K = .ok bs) (l : List LitBeta.Bd) (hl : l.Perm bs) :
    ∃ out, Beta.computeBest (l.zipIdx.map (fun e => ⟨e.2, e.1⟩)) BetaPairs.half = .ok out ∧
      (∀ b ∈ out.map Beta.Best.bound, 0 ≤ b.dom.x0 ∧ b.dom.x0 ≤ b.dom.x1 ∧ b.dom.x0 ≤ 1 / 2) ∧ out ≠ [] ∧
      ∀ x v, HasValue (out.map Beta.Best.bound) x v ↔ (0 ≤ x ∧ x ≤ 1 / 2) ∧ LeastBeta K x v := by
  have hD : ∀ x, InDomain (some BetaPairs.half) x ↔ 0 ≤ x ∧ x ≤ 1 / 2 := by
    intro x
    unfold InDomain
    simp only [Option.some.injEq, forall_eq']
    exact LitBeta.mem_cc 0 (1 / 2) x
  obtain ⟨bs', b1, b2⟩ := LitBeta.C75_sane K
  rw [hbs] at b1
  cases b1
  set hyps : List Beta.Hyp := l.zipIdx.map (fun e => ⟨e.2, e.1⟩) with hh
  have hb : hyps.map Beta.Hyp.bound = l := zipIdx_bounds l
  have hcon : ∀ h ∈ hyps, h.bound.dom.Constructible := by
    intro h hm
    refine (b2 h.bound (hl.mem_iff.mp ?_)).1
    rw [← hb]
    exact List.mem_map_of_mem hm
  have hcov : ∀ b x, 0 ≤ x → x ≤ 1 / 2 → ∃ f ∈ hyps.map Beta.Hyp.bound, f ≠ b ∧ ∃ v, HasValue [f] x v := by
    intro b x hx hx'
    obtain ⟨f, hf, k⟩ := LitBeta.cover_twice K bs hbs b x hx hx'
    exact ⟨f, by rw [hb]; exact hl.mem_iff.mpr hf, k⟩
  obtain ⟨init, last, e⟩ : ∃ init last, hyps = init ++ [last] := by
    rcases List.eq_nil_or_concat' hyps with e | h
    · obtain ⟨f, hf, _⟩ := hcov LitBeta.trivial1 0 le_rfl (by norm_num)
      rw [e] at hf
      cases hf
    · exact h
  obtain ⟨out, e1, _, e3, e4⟩ := Beta.C51_any_order_partial init last BetaPairs.half ⟨0, (hD 0).mpr ⟨le_rfl, by norm_num⟩⟩
    ((constructible_iff _).mpr (by simp only [BetaPairs.half]; norm_num)) (by rw [← e]; exact hcon) (fun x hx => by
      obtain ⟨f, hf, hne, v, g, hg, hm, hv⟩ := hcov last.bound x ((hD x).mp hx).1 ((hD x).mp hx).2
      rw [List.mem_singleton.mp hg] at hm hv
      rw [e, List.map_append, List.mem_append] at hf
      rcases hf with h | h
      · exact ⟨v, f, h, hm, hv⟩
      · exact absurd (List.mem_singleton.mp h) hne)
  rw [← e] at e1 e3
  have key : ∀ x v, HasValue (out.map Beta.Best.bound) x v ↔ (0 ≤ x ∧ x ≤ 1 / 2) ∧ LeastBeta K x v := by
    intro x v
    rw [e3, hD, hb, hasValue_perm hl]
    refine and_congr_right fun _ => ?_
    constructor
    · rintro ⟨k1, k2⟩
      exact ⟨bs, hbs, k1, fun w hw => k2 w ((hasValue_perm hl x w).mpr hw)⟩
    · rintro ⟨bs', k0, k1, k2⟩
      rw [hbs] at k0
      cases k0
      exact ⟨k1, fun w hw => k2 w ((hasValue_perm hl x w).mp hw)⟩
  have hne : out ≠ [] := by
    rintro rfl
    obtain ⟨out', f1, f2, _⟩ := LitBeta.C75_best K hyps hcon (fun bs' h b hb' => by
      rw [hbs] at h; cases h; rw [hb]; exact hl.mem_iff.mpr hb')
    rw [show LitBeta.cc 0 (1 / 2) = BetaPairs.half from rfl, e1] at f1
    cases f1
    obtain ⟨v, ⟨f, hf, _⟩, _⟩ := f2 0 le_rfl (by norm_num)
    cases hf
  refine ⟨out, e1, fun b hb' => ?_, hne, key⟩
  obtain ⟨o, ho, rfl⟩ := List.mem_map.mp hb'
  obtain ⟨_, ⟨x, v, f, hf, hm, hv⟩, _⟩ := e4 o ho
  rw [List.mem_singleton.mp hf] at hm
  exact ends _ ⟨x, hm⟩ (fun y hy => ((key y _).mp ⟨o.bound, hb', hy, rfl⟩).1)

/-- **C109** `zeta_large_values_examples` runs without an exception, in whatever order the sets are listed. No printed estimate excludes a triple
that the literature allows, and outside finitely many values of `τ` (those where the bound on beta changes its form, and the limits 2 and
1000000) a triple that all printed estimates allow is allowed by the literature. -/
theorem C109_zeta (canon : Mat → Mat) (hc : Mat.CanonSpec canon) (K N T : ℕ) (orderB : List LitBeta.Bd → List LitBeta.Bd)
    (hB : ∀ l, (orderB l).Perm l) (orderM : List EP.Mu → List EP.Mu) (hM : ∀ l, (orderM l).Perm l)
    (orderL : List (Region ℕ) → List (Region ℕ)) (hL : ∀ l, (orderL l).Perm l) :
    ∃ rs, zetaLargeValuesExamples canon K N T orderB orderM orderL = .ok rs ∧
      (∀ σ τ ρ, Expected K N T σ τ ρ → ∀ r ∈ rs, r.Contains [σ, τ, ρ]) ∧
      ∃ breaks : List ℚ, ∀ σ τ ρ, τ ∉ breaks → (∀ r ∈ rs, r.Contains [σ, τ, ρ]) → Expected K N T σ τ ρ := by
  obtain ⟨bs, hbs, _⟩ := LitBeta.C75_sane K
  obtain ⟨lit, mus, _, hmus, _, hHL, _⟩ := MuExamples.lit_ok N
  obtain ⟨lvs, hlvs, hlen, hlv⟩ := literatureLV_spec canon hc T
  obtain ⟨out, ho, hends, hne, hval⟩ := best_lit K bs hbs _ (hB bs)
  obtain ⟨ra, ha, ca⟩ := betaRegions_spec (out.map Beta.Best.bound) hends
  obtain ⟨rb, hb, lb, cb⟩ := muToZlv_spec ((orderM mus).map (fun m => (m.sigma, m.mu)))
  obtain ⟨rc, hc', lc, cc⟩ := lvToZlv_spec (orderL lvs)
  refine ⟨ra ++ rb ++ rc, ?_, ?_, ?_⟩
  · unfold zetaLargeValuesExamples betaToZlv
    simp only [bind, Except.bind, pure, Except.pure, hbs, hmus, hlvs, ho, ha, hb, hc']
  · rintro σ τ ρ ⟨e1, e2, e3, e4⟩ r hr
    rw [List.mem_append, List.mem_append] at hr
    rcases hr with (hr | hr) | hr
    · refine (ca σ τ ρ e1.2.2.2.1).mpr (fun b hb => ⟨e1, fun l1 l2 l3 l4 l5 => ?_⟩) r hr
      have : HasValue (out.map Beta.Best.bound) (1 / τ) (b.m * (1 / τ) + b.c) :=
        ⟨b, hb, ⟨Or.inl l3, Or.inl l4⟩, rfl⟩
      refine e2 l1 l2 _ ((hval _ _).mp this).2 ?_
      have : τ * (b.m * (1 / τ) + b.c) = b.c * τ + b.m := by
        have : τ ≠ 0 := by linarith
        field_simp
        ring
      linarith
    · refine (cb σ τ ρ).mpr (fun p hp => ⟨e1, fun h => ?_⟩) r hr
      obtain ⟨m, hm, rfl⟩ := List.mem_map.mp hp
      exact e3 mus hmus m ((hM mus).mem_iff.mp hm) h
    · refine (cc σ τ ρ).mpr (fun q hq => ⟨e1.2.2.1, ?_⟩) r hr
      exact (hlv σ τ ρ e1).mpr e4 q ((hL lvs).mem_iff.mp hq)
  · refine ⟨(out.map Beta.Best.bound).flatMap (fun b => [1 / b.dom.x0, 1 / b.dom.x1]), fun σ τ ρ hτ hr => ?_⟩
    have kb := (cb σ τ ρ).mp (fun r h => hr r (by simp [h]))
    have kc := (cc σ τ ρ).mp (fun r h => hr r (by simp [h]))
    have triv : Trivial σ τ ρ := (kb _ (List.mem_map.mpr ⟨_, (hM mus).mem_iff.mpr hHL, rfl⟩)).1
    have ka := (ca σ τ ρ triv.2.2.2.1).mp (fun r h => hr r (by simp [h]))
    refine ⟨triv, fun l1 l2 v hv hs => ?_, fun mus' h b hb => ?_, (hlv σ τ ρ triv).mp fun r h => (kc r ((hL lvs).mem_iff.mpr h)).2⟩
    · have hpos : (0 : ℚ) < 1 / τ := by positivity
      have hhalf : 1 / τ ≤ 1 / 2 := by
        rw [div_le_div_iff₀ (by linarith) (by norm_num)]; linarith
      obtain ⟨b, hb, hm, hv'⟩ := (hval _ _).mpr ⟨⟨hpos.le, hhalf⟩, hv⟩
      have inv : ∀ x : ℚ, 1 / τ = x → τ = 1 / x := fun x h => by rw [← h, one_div_one_div]
      have n0 : 1 / τ ≠ b.dom.x0 := fun h => hτ (List.mem_flatMap.mpr ⟨b, hb, by simp [inv _ h]⟩)
      have n1 : 1 / τ ≠ b.dom.x1 := fun h => hτ (List.mem_flatMap.mpr ⟨b, hb, by simp [inv _ h]⟩)
      unfold Mem at hm
      have m0 : b.dom.x0 < 1 / τ := by
        rcases hm.1 with h | ⟨_, h⟩
        · exact h
        · exact absurd h n0
      have m1 : 1 / τ < b.dom.x1 := by
        rcases hm.2 with h | ⟨_, h⟩
        · exact h
        · exact absurd h n1
      refine (ka b hb).2 l1 l2 m0 m1 ?_
      have : τ * (b.m * (1 / τ) + b.c) = b.c * τ + b.m := by
        have : τ ≠ 0 := by linarith
        field_simp
        ring
      rw [← hv'] at hs
      linarith
    · rw [hmus] at h
      cases h
      exact (kb _ (List.mem_map.mpr ⟨b, (hM mus).mem_iff.mpr hb, rfl⟩)).2

/-- `(3/4, 3, 0)` is allowed; `(19/20, 5/2, 1/100)` is excluded by the bound `μ(1/2) ≤ 1/6`. -/
example (K N T : ℕ) : Expected K N T (3 / 4) 3 0 ∧ ¬ Expected K N T (19 / 20) (5 / 2) (1 / 100) := by
  refine ⟨⟨by unfold Trivial; norm_num, fun _ _ _ _ _ => rfl, fun _ _ _ _ _ => rfl, by norm_num, by norm_num, fun k h1 h2 => ?_,
    by norm_num, 5, by simp only [InRow]; norm_num, Or.inl rfl⟩, fun h => ?_⟩
  · exact le_max_of_le_left (by norm_num)
  · obtain ⟨_, mus, _, hmus, _, hHL, _⟩ := MuExamples.lit_ok N
    have := h.mu mus hmus _ hHL (by simp only [MuExamples.hardyLittlewood, EP.Mu.sigma, EP.Mu.mu]; norm_num)
    norm_num at this

example : ∃ rs, zetaLargeValuesExamples id 20 20 3 id List.reverse id = .ok rs ∧ ∀ r ∈ rs, r.Contains [3 / 4, 3, 0] := by
  obtain ⟨rs, h1, h2, _⟩ := C109_zeta id (fun _ h => ⟨rfl, h, fun _ _ => Iff.rfl⟩) 20 20 3 id (fun _ => .refl _) List.reverse (fun l => l.reverse_perm) id (fun _ => .refl _)
  refine ⟨rs, h1, h2 _ _ _ ⟨by unfold Trivial; norm_num, fun _ _ _ _ _ => rfl, fun _ _ _ _ _ => rfl, by norm_num, by norm_num,
    fun k _ _ => le_max_of_le_left (by norm_num), by norm_num, 5, by simp only [InRow]; norm_num, Or.inl rfl⟩⟩

end ZetaExamples
end Expdb
