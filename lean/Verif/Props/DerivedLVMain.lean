import Verif.Props.DerivedLV
import Verif.Props.Printing
import Verif.Props.LiteratureLV

/-!
# Property C88: what the derivation of the Guth--Maynard large values theorem finds and prints
-/

namespace Expdb
namespace DerivedLV

open Mat Region ZeroDensity LargeValues

/-- **C88** The polytope found by `prove_guth_maynard_large_values_theorem` exists (no exception is raised and the union of the pieces is
recognised as convex), and its points are the `(σ, ρ)` with `7/10 ≤ σ ≤ 4/5` and `0 ≤ ρ ≤ 18/5 - 4σ`, for every behaviour of the
external libraries that meets the contracts and for every order of the hypotheses. -/
theorem C88_polytope {eng : Engine} (heng : EngineSpec eng) (hcl : CanonClean eng.canon) {hrep : List Pt → Mat} (hh : HRepSpec hrep)
    (hz : HRepNoZero hrep) (order : List (Region ℕ) → List (Region ℕ)) (ho : ∀ l, (order l).Perm l) :
    ∃ U : Mat, guthMaynard eng hrep order = .ok (some U) ∧ U.WF ∧ U.cols = 3 ∧
      ∀ s a, U.Contains [s, a] ↔ (7 / 10 ≤ s ∧ s ≤ 4 / 5) ∧ 0 ≤ a ∧ a ≤ 18 / 5 - 4 * s := by
  obtain ⟨qs, h1, h2, h3, h4⟩ := projected_spec heng hh hz order ho
  obtain ⟨qs', ms, e1, e2, e3⟩ := slice_all heng hcl qs h2
  -- the pieces
  have hms : ∀ m ∈ ms, m.WF ∧ m.cols = 3 ∧ (HasInner 3 m → m.NoZero) ∧ ∀ x, m.Contains x → target.Contains x := by
    intro m hm
    obtain ⟨q, hq, hs⟩ : ∃ q ∈ qs, Slice q m := by
      obtain ⟨i, hi, hm⟩ := List.mem_iff_getElem.mp hm
      obtain ⟨hl, hf⟩ := List.forall₂_iff_get.mp e3
      exact ⟨qs[i]'(by omega), List.getElem_mem _, by rw [← hm]; exact hf i (by omega) hi⟩
    refine ⟨hs.wf, hs.cols, hs.clean, fun x hx => ?_⟩
    obtain ⟨s, a, rfl⟩ := two m hs.cols x hx
    obtain ⟨k1, k2⟩ := (hs.mem s a).mp hx
    obtain ⟨s', t', a', b, c, e, k3, k4⟩ := h3 q hq _ k2
    simp only [List.cons.injEq, and_true] at e
    obtain ⟨rfl, rfl, rfl⟩ := e
    exact (target_contains s a).mpr ⟨k1, k3.1.2.2.2.2.1, slice_upper k1.1 k1.2 k4⟩
  have hcov : ∀ s a, target.Contains [s, a] → ∃ m ∈ ms, m.Contains [s, a] := by
    intro s a h
    obtain ⟨k1, k2, k3⟩ := (target_contains s a).mp h
    obtain ⟨q, hq, hc⟩ := h4 _ _ _ _ _ (slice_inner k1.1 k1.2 k2 k3)
    obtain ⟨m, hm, hs⟩ : ∃ m ∈ ms, Slice q m := by
      obtain ⟨i, hi, hq⟩ := List.mem_iff_getElem.mp hq
      obtain ⟨hl, hf⟩ := List.forall₂_iff_get.mp e3
      exact ⟨ms[i]'(by omega), List.getElem_mem _, by rw [← hq]; exact hf i hi (by omega)⟩
    exact ⟨m, hm, (hs.mem s a).mpr ⟨k1, hc⟩⟩
  set fs := ms.filter (fun m => !Mat.isEmptyExcl eng.lp m) with hfs
  have hfat : ∀ m ∈ ms, (m ∈ fs ↔ HasInner 3 m) := by
    intro m hm
    obtain ⟨w, c, cl, _⟩ := hms m hm
    rw [hfs, List.mem_filter]
    simp only [hm, true_and, Bool.not_eq_true', Bool.eq_false_iff, ne_eq]
    rw [C14_isEmptyExcl_strict eng.lp heng.lp m w (by omega)]
    push Not
    constructor
    · rintro ⟨x, hx1, hx2⟩
      exact ⟨x, by rw [← c]; exact hx1, hx2.interior⟩
    · rintro ⟨x, hx1, hx2⟩
      exact ⟨x, by rw [c]; exact hx1, hx2.strict w (cl ⟨x, hx1, hx2⟩) (by rw [c]; exact hx1)⟩
  have hfd : ∀ m ∈ fs, FullDim 3 m := by
    intro m hm
    have hm' := (List.mem_filter.mp hm).1
    obtain ⟨w, c, cl, sub⟩ := hms m hm'
    have hi := (hfat m hm').mp hm
    refine ⟨w, c, cl hi, ⟨2, fun x hx v hv => ?_⟩, hi⟩
    obtain ⟨s, a, rfl⟩ := two m c x hx
    obtain ⟨⟨k1, k2⟩, k3, k4⟩ := (target_contains s a).mp (sub _ hx)
    simp only [List.mem_cons, List.not_mem_nil, or_false] at hv
    rcases hv with rfl | rfl <;> rw [abs_le] <;> constructor <;> linarith
  -- dropping the thin pieces loses nothing
  have hunion : ∀ x, target.Contains x ↔ ∃ m ∈ fs, m.Contains x := by
    intro x
    constructor
    · intro hx
      have hl : x.length = 2 := by have := contains_length hx; simpa [target] using this
      have hxh := (contains_iff_holds _ _ (contains_length hx)).mp hx
      obtain ⟨m, hm, hmx⟩ := union_closed fs x (by
        intro ε hε
        obtain ⟨δ, hδ, hseg⟩ := seg_near x [3 / 4, 1 / 5] (by simp [hl]) (show 0 < ε / 2 by linarith)
        set t := min (δ / 2) (1 / 2) with ht
        have ht0 : 0 < t := lt_min (by linarith) (by norm_num)
        have hy := hseg t ht0.le ((min_le_left _ _).trans_lt (by linarith))
        have hs := seg_strict (m := target) (s := [3 / 4, 1 / 5]) (x := x) (by simp [hl]) target_strict hxh ht0
          ((min_le_right _ _).trans (by norm_num))
        obtain ⟨η, hη, hball⟩ := hs.interior
        set y := seg x t [3 / 4, 1 / 5] with hyd
        have hyl : y.length = 2 := by rw [hy.length, hl]
        obtain ⟨z, hz, hg⟩ := exists_generic (ms.flatMap (fun m => (dropZero m).rows)) y (by
          intro g hg
          obtain ⟨m, hm, hg⟩ := List.mem_flatMap.mp hg
          obtain ⟨hg, hz⟩ := List.mem_filter.mp hg
          have w := (hms m hm).1 g hg
          have c := (hms m hm).2.1
          exact ⟨by simpa using hz, by omega⟩) (lt_min hη (show 0 < ε / 2 by linarith))
        have hzl : z.length = 2 := by rw [hz.length, hyl]
        have hzt : target.Contains z := (contains_iff_holds _ _ (by rw [hzl]; rfl)).mpr (hball z (hz.mono (min_le_left _ _)))
        obtain ⟨s, a, rfl⟩ := two target rfl z hzt
        obtain ⟨m, hm, hmz⟩ := hcov s a hzt
        have hmh := (contains_iff_holds _ _ (contains_length hmz)).mp hmz
        refine ⟨[s, a], (hy.trans (hz.mono (min_le_right _ _))).mono (by linarith), m, ?_, hmh⟩
        refine (hfat m hm).mpr ⟨[s, a], rfl, ?_⟩
        rw [interior_congr 3 (m' := dropZero m) (fun x _ => (dropZero_holds m x).symm) _ rfl]
        apply Strict.interior
        intro r hr
        have hrh := (dropZero_holds m _).mpr hmh r hr
        have hne := hg r (List.mem_flatMap.mpr ⟨m, hm, hr⟩)
        cases hlin : r.lin with
        | true => exact absurd (hrh.1 hlin) hne
        | false => exact ⟨hlin, lt_of_le_of_ne (hrh.2 hlin) (Ne.symm hne)⟩)
      exact ⟨m, hm, (contains_iff_holds _ _ (by rw [(hfd m hm).cols, hl])).mpr hmx⟩
    · rintro ⟨m, hm, hx⟩
      exact (hms m (List.mem_filter.mp hm).1).2.2.2 x hx
  have hne : ∃ m, m ∈ fs := by
    obtain ⟨m, hm, _⟩ := (hunion [3 / 4, 1 / 5]).mp ((target_contains _ _).mpr (by norm_num))
    exact ⟨m, hm⟩
  obtain ⟨p, hp⟩ := hne
  have H : UnionHyp eng.verts fs 3 := ⟨fun m hm => (hfd m hm).wf, fun m hm => (hfd m hm).cols, fun m hm => (hfd m hm).noLin,
    fun m hm => (hfd m hm).noZero, fun m hm => heng.verts m (by rw [(hfd m hm).cols]; omega) (hfd m hm).bounded, by norm_num⟩
  obtain ⟨s0, i1, i2⟩ := (hfd p hp).inner
  obtain ⟨res, u1, u2, u3⟩ := C17_tryUnion_partial eng.canon heng.canon eng.lp heng.lp eng.verts fs 3 H (fun m hm => (hfd m hm).nonempty)
    p hp s0 i1 i2
  have hres := u3 ⟨target, target_wf, rfl, hunion⟩
  cases res with
  | none => exact absurd rfl hres
  | some U =>
    obtain ⟨v1, v2, v3, _⟩ := u2 U rfl
    refine ⟨U, ?_, v3, v1, fun s a => ?_⟩
    · unfold guthMaynard
      rw [h1, domain_eq]
      simp only [bind, Except.bind]
      rw [show Region.substitute (.union (qs.map (fun m => .polytope m none))) [(1, 6 / 5)] =
        .ok (.union (qs'.map (fun m => (.polytope m none : Region ℕ)))) by
          unfold Region.substitute mapMat
          rw [e1]
          rfl]
      simp only [childList]
      rw [show (⟨3, [⟨false, -(7 / 10), [1, 0]⟩, ⟨false, 8 / 10, [-1, 0]⟩]⟩ : Mat) = dom from rfl, e2]
      exact u1
    · rw [v2, ← hunion, target_contains]

/-- **C88** The set found is the part with `τ = 6/5` and `7/10 ≤ σ ≤ 4/5` of the region of the Guth--Maynard large values theorem in the
literature list (`LV(σ, τ) ≤ max(2 - 2σ, 18/5 - 4σ, τ + 12/5 - 4σ)`, literature.py). -/
theorem C88_literature {eng : Engine} (heng : EngineSpec eng) (hcl : CanonClean eng.canon) {hrep : List Pt → Mat} (hh : HRepSpec hrep)
    (hz : HRepNoZero hrep) (order : List (Region ℕ) → List (Region ℕ)) (ho : ∀ l, (order l).Perm l) :
    ∃ (U : Mat) (R : Region ℕ), guthMaynard eng hrep order = .ok (some U) ∧ convertBounds eng.canon Literature.guthMaynard = .ok R ∧
      ∀ s a, U.Contains [s, a] ↔ (7 / 10 ≤ s ∧ s ≤ 4 / 5) ∧ R.Contains [s, 6 / 5, a] := by
  obtain ⟨U, h1, _, _, h2⟩ := C88_polytope heng hcl hh hz order ho
  obtain ⟨R, h3, h4⟩ := Literature.C72_guthMaynard (L := ℕ) eng.canon heng.canon
  refine ⟨U, R, h1, h3, fun s a => ?_⟩
  rw [h2, h4]
  refine and_congr_right fun ⟨k1, k2⟩ => ?_
  unfold InBox
  constructor
  · rintro ⟨k3, k4⟩
    refine ⟨⟨by linarith, by linarith, by norm_num, by norm_num, k3, by linarith⟩, le_max_of_le_right (le_max_of_le_left k4)⟩
  · rintro ⟨k3, k4⟩
    refine ⟨by tauto, ?_⟩
    rw [le_max_iff, le_max_iff] at k4
    rcases k4 with k4 | k4 | k4 <;> linarith

/-- The conditions of the three regions as they are stated in the text. -/
def FeasibleText (s t a b : ℚ) : Prop :=
  Literature.GMRelation (2 * t + a / 2 + b / 2) 2 s t a b ∧
    (t < 3 / 2 → b ≤ max (3 * a + 1 - 2 * s) (2 * a + 2 - 2 * s)) ∧
    (1 < t → t < 4 / 3 → b ≤ max (a + 4 - 4 * s) (max (21 * a / 8 + t / 4 + 1 - 2 * s) (3 * a + 1 - 2 * s)))

/-- **C88** The conditions of the text (with the bound for `S3` that the code has with two coefficients interchanged) give the same set:
for `τ = 6/5` and `7/10 ≤ σ ≤ 4/5`, some `ρ* ≥ 0` meets them together with `ρ ≥ 0` exactly if `ρ ≤ 18/5 - 4σ`. -/
theorem C88_text (s a : ℚ) (h1 : 7 / 10 ≤ s) (h2 : s ≤ 4 / 5) (h3 : 0 ≤ a) :
    (∃ b, 0 ≤ b ∧ FeasibleText s (6 / 5) a b) ↔ a ≤ 18 / 5 - 4 * s := by
  constructor
  · rintro ⟨b, hb, h4, _, h6⟩
    rw [Literature.gm_iff] at h4
    push_cast at h4
    have h6 := h6 (by norm_num) (by norm_num)
    rw [le_max_iff, le_max_iff] at h6
    rcases h4 with (h | h | h | h | h) | ⟨h4, h | h⟩
    all_goals first
      | linarith
      | (rcases h6 with h6 | h6 | h6 <;> linarith)
  · intro h
    refine ⟨2 * a, by linarith, ?_, ?_, ?_⟩
    · rw [Literature.gm_iff]
      right
      exact ⟨by linarith, .inl (by linarith)⟩
    · intro _; exact le_max_of_le_right (by linarith)
    · intro _ _; exact le_max_of_le_left (by linarith)

/-! ### What is printed -/

open Printing in
/-- What the printed list of constraints says about values of the names. -/
def Says (vs : List Str) (ss : List Str) (xs : List ℚ) : Prop :=
  ∀ s ∈ ss, ∃ k f v, readConstraint s = some (k, f) ∧ evalText (linEnv vs xs) f = some v ∧
    (k = .equals ∧ v = 0 ∨ k = .greaterEquals ∧ 0 ≤ v)

theorem says_iff {vs ss : List Printing.Str} {rs : List Row} (h : List.Forall₂ (Printing.Shows vs) rs ss) {xs : List ℚ}
    (hx : xs.length = vs.length) : Says vs ss xs ↔ ∀ r ∈ rs, r.Holds xs := by
  unfold Says
  induction h with
  | nil => simp
  | cons hab _ ih =>
    rename_i r s rs ss _
    simp only [List.mem_cons, forall_eq_or_imp, ih]
    refine and_congr_left fun _ => ?_
    obtain ⟨f, g1, g2⟩ := hab
    unfold Row.Holds
    constructor
    · rintro ⟨k, f', v, k1, k2, k3⟩
      rw [g1] at k1
      simp only [Option.some.injEq, Prod.mk.injEq] at k1
      obtain ⟨rfl, rfl⟩ := k1
      rw [g2 xs hx] at k2
      simp only [Option.some.injEq] at k2
      subst k2
      cases hl : r.lin <;> simp_all
    · intro hr
      refine ⟨_, f, _, g1, g2 xs hx, ?_⟩
      cases hl : r.lin <;> simp_all

theorem greek_isName : ∀ v ∈ Printing.names "στρ", Printing.IsName v := by
  intro v hv
  simp only [Printing.names, List.mem_map] at hv
  obtain ⟨c, hc, rfl⟩ := hv
  have : c ∈ ['σ', 'τ', 'ρ'] := hc
  simp only [List.mem_cons, List.not_mem_nil, or_false] at this
  rcases this with rfl | rfl | rfl <;> exact ⟨⟨_, [], rfl, by decide⟩, by decide⟩

theorem greek_plain : ∀ v ∈ Printing.names "στρ", ∀ d ∈ v, Printing.Plain d := by
  intro v hv
  simp only [Printing.names, List.mem_map] at hv
  obtain ⟨c, hc, rfl⟩ := hv
  have : c ∈ ['σ', 'τ', 'ρ'] := hc
  simp only [List.mem_cons, List.not_mem_nil, or_false] at this
  intro d hd
  rw [List.mem_singleton.mp hd]
  rcases this with rfl | rfl | rfl <;> exact ⟨by decide, by decide⟩

/-- Finding: the polytope found has the two variables `σ` and `ρ`, but is printed with the names `σ`, `τ`, `ρ` (derived.py:268), so the
bound is printed for `τ`: the text says `7/10 ≤ σ ≤ 4/5` and `0 ≤ τ ≤ 18/5 - 4σ`, and nothing about `ρ`. -/
theorem C88_print_counterexample {eng : Engine} (heng : EngineSpec eng) (hcl : CanonClean eng.canon) {hrep : List Pt → Mat}
    (hh : HRepSpec hrep) (hz : HRepNoZero hrep) (order : List (Region ℕ) → List (Region ℕ)) (ho : ∀ l, (order l).Perm l) :
    ∃ ss : List Printing.Str, proveGuthMaynard eng hrep order =
        .ok ("Proved feasible region for (σ, τ, ρ): ".toList ++ Printing.listRepr ss) ∧
      ∀ s t a : ℚ, Says ["σ".toList, "τ".toList, "ρ".toList] ss [s, t, a] ↔ (7 / 10 ≤ s ∧ s ≤ 4 / 5) ∧ 0 ≤ t ∧ t ≤ 18 / 5 - 4 * s := by
  obtain ⟨U, h1, h2, h3, h4⟩ := C88_polytope heng hcl hh hz order ho
  obtain ⟨ss, g1, g2, _⟩ := Printing.rowStrs_spec (Printing.names "στρ") (by decide) greek_isName greek_plain U.rows (by
    intro r hr
    have := h2 r hr
    have hl : (Printing.names "στρ").length = 3 := by decide
    omega)
  refine ⟨ss, ?_, fun s t a => ?_⟩
  · unfold proveGuthMaynard
    rw [h1]
    simp only [bind, Except.bind]
    unfold Printing.polytopeToStr
    rw [if_neg (by rw [h3]; decide), g1]
    rfl
  · rw [show ["σ".toList, "τ".toList, "ρ".toList] = Printing.names "στρ" by decide, says_iff g2 (by simp [Printing.names]), ← h4,
      contains_iff_holds _ _ (by rw [h3]; rfl)]
    unfold Mat.Holds Row.Holds
    have hd : ∀ r ∈ U.rows, dot r.cs [s, t, a] = dot r.cs [s, t] := by
      intro r hr
      have := h2 r hr
      rw [h3] at this
      match hcs : r.cs, this with
      | [u, v], _ => simp
    refine forall₂_congr fun r hr => ?_
    rw [hd r hr]

/-- The contracts can be met together, so that the theorems apply. -/
theorem canonClean_satisfiable : ∃ eng : Engine, EngineSpec eng ∧ CanonClean eng.canon := by
  obtain ⟨eng, h⟩ := Region.engineSpec_satisfiable
  have hwf : ∀ m : Mat, m.WF → (dropZero m).WF := fun m hm r hr => hm r (List.mem_filter.mp hr).1
  have hnz : ∀ m : Mat, (dropZero m).NoZero := fun m r hr => by simpa using (List.mem_filter.mp hr).2
  refine ⟨{ eng with canon := dropZero }, ⟨fun m hm => ⟨rfl, hwf m hm, fun x _ => dropZero_holds m x⟩, fun m _ _ => hnz m, h.lp, h.verts,
    h.order⟩, fun m _ _ => hnz m⟩

/-- Non-vacuity (C88): a point inside and a point outside the set found, and a run that prints. -/
example : ∃ (eng : Engine) (hrep : List Pt → Mat) (U : Mat) (text : Printing.Str), EngineSpec eng ∧ CanonClean eng.canon ∧ HRepSpec hrep ∧
    HRepNoZero hrep ∧ guthMaynard eng hrep id = .ok (some U) ∧ U.Contains [3 / 4, 3 / 5] ∧ ¬ U.Contains [3 / 4, 61 / 100] ∧
    proveGuthMaynard eng hrep id = .ok text := by
  obtain ⟨eng, heng, hcl⟩ := canonClean_satisfiable
  obtain ⟨hrep, hh, hz⟩ := hRepNoZero_satisfiable
  obtain ⟨U, h1, _, _, h2⟩ := C88_polytope heng hcl hh hz id (fun l => List.Perm.refl l)
  obtain ⟨ss, h3, _⟩ := C88_print_counterexample heng hcl hh hz id (fun l => List.Perm.refl l)
  refine ⟨eng, hrep, U, _, heng, hcl, hh, hz, h1, ?_, ?_, h3⟩ <;> rw [h2] <;> norm_num

example : ∃ b, 0 ≤ b ∧ FeasibleText (3 / 4) (6 / 5) (3 / 5) b := (C88_text _ _ (by norm_num) (by norm_num) (by norm_num)).mpr (by norm_num)

example : ¬ ∃ b, 0 ≤ b ∧ FeasibleText (3 / 4) (6 / 5) (61 / 100) b := by
  rw [C88_text _ _ (by norm_num) (by norm_num) (by norm_num)]; norm_num

end DerivedLV
end Expdb
