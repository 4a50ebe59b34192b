import Verif.Props.PrimeGapRun
import Mathlib.Topology.Order.IntermediateValue

/-!
# The contract `IsBest` can be met (C86)
-/

namespace Expdb
namespace PrimeGap
open Rational (Ival)
open PairZD (bourgainEpToZd bourgainPairs)
open Rational (Expr RootsSpec ConstSpec ZeroSpec)

/-- Two estimates are compared by the sign of a polynomial. -/
theorem compare_poly {g h : Pc} (hg : Kind g) (hh : Kind h) : ∃ R : Polynomial ℝ, ∀ x, g.dom.x0 < x → x < g.dom.x1 → h.dom.x0 < x → x < h.dom.x1 →
    (R.eval x ≤ 0 ↔ g.fn x ≤ h.fn x) := by
  obtain ⟨hg, -, -, g1⟩ := hg
  obtain ⟨hh, -, -, h1⟩ := hh
  rcases hg with ⟨N, D, a1, a2, a3⟩ | ⟨k, k1, k2⟩
  · rcases hh with ⟨M, E, b1, b2, b3⟩ | ⟨l, l1, l2⟩
    · refine ⟨N * E - M * D, fun x x1 x2 x3 x4 => ?_⟩
      rw [a1, b1, div_le_div_iff₀ (a3 x x1 x2) (b3 x x3 x4)]
      simp
    · refine ⟨N ^ 2 - Polynomial.C (l ^ 2) * (1 - Polynomial.X) * D ^ 2, fun x x1 x2 x3 x4 => ?_⟩
      have hD := a3 x x1 x2
      have hN := a2 x x1.le x2.le
      have hs : 0 ≤ 1 - x := by linarith
      have hl : 0 < l := lt_of_lt_of_le (by norm_num) l1
      rw [a1, l2, div_le_iff₀ hD, ← abs_of_pos hN, ← abs_of_nonneg (by positivity : 0 ≤ l * Real.sqrt (1 - x) * D.eval x), ← sq_le_sq, mul_pow, mul_pow,
        Real.sq_sqrt hs]
      simp
  · rcases hh with ⟨M, E, b1, b2, b3⟩ | ⟨l, l1, l2⟩
    · refine ⟨Polynomial.C (k ^ 2) * (1 - Polynomial.X) * E ^ 2 - M ^ 2, fun x x1 x2 x3 x4 => ?_⟩
      have hD := b3 x x3 x4
      have hN := b2 x x3.le x4.le
      have hs : 0 ≤ 1 - x := by linarith
      have hl : 0 < k := lt_of_lt_of_le (by norm_num) k1
      rw [b1, k2, le_div_iff₀ hD, ← abs_of_pos hN, ← abs_of_nonneg (by positivity : 0 ≤ k * Real.sqrt (1 - x) * E.eval x), ← sq_le_sq, mul_pow, mul_pow,
        Real.sq_sqrt hs]
      simp
    · refine ⟨Polynomial.C (k - l), fun x x1 x2 x3 x4 => ?_⟩
      have hs : 0 < Real.sqrt (1 - x) := Real.sqrt_pos.mpr (by linarith)
      rw [k2, l2, mul_le_mul_iff_left₀ hs]
      simp

/-- A polynomial keeps its sign between its roots. -/
theorem sign_const {R : Polynomial ℝ} {c d : ℝ} (h : ∀ z, R ≠ 0 → R.eval z = 0 → z ≤ c ∨ d ≤ z) {x y : ℝ} (hx : c < x ∧ x < d) (hy : c < y ∧ y < d)
    (hle : R.eval x ≤ 0) : R.eval y ≤ 0 := by
  by_contra hn
  push Not at hn
  have hR : R ≠ 0 := by rintro rfl; simp at hn
  obtain ⟨z, hz, hz0⟩ := isPreconnected_Ioo.intermediate_value (s := Set.Ioo c d) (f := fun y => R.eval y) (a := x) (b := y) hx hy
    R.continuous.continuousOn ⟨hle, hn.le⟩
  rcases h z hR hz0 with h | h
  · exact absurd hz.1 (not_lt.mpr h)
  · exact absurd hz.2 (not_lt.mpr h)

/-- The least of finitely many values. -/
theorem exists_least (f : Pc → ℝ) : ∀ l : List Pc, l ≠ [] → ∃ p ∈ l, ∀ q ∈ l, f p ≤ f q
  | [], h => absurd rfl h
  | [p], _ => ⟨p, by simp, by simp⟩
  | p :: q :: l, _ => by
    obtain ⟨r, hr, h⟩ := exists_least f (q :: l) (by simp)
    rcases le_total (f p) (f r) with hle | hle
    · refine ⟨p, by simp, fun s hs => ?_⟩
      rcases List.mem_cons.mp hs with rfl | hs
      · exact le_rfl
      · exact hle.trans (h s hs)
    · refine ⟨r, List.mem_cons_of_mem _ hr, fun s hs => ?_⟩
      rcases List.mem_cons.mp hs with rfl | hs
      · exact hle
      · exact h s hs

/-- **C86 (the contract).** Every list of estimates of the two forms that occur has a minimum in the sense of `IsBest`. -/
theorem exists_best (hs : List Pc) (hk : ∀ h ∈ hs, Kind h) : ∃ ps, IsBest hs ps := by
  classical
  have hR : ∀ g h : Pc, ∃ R : Polynomial ℝ, g ∈ hs → h ∈ hs → ∀ x, g.dom.x0 < x → x < g.dom.x1 → h.dom.x0 < x → x < h.dom.x1 →
      (R.eval x ≤ 0 ↔ g.fn x ≤ h.fn x) := by
    intro g h
    by_cases hc : g ∈ hs ∧ h ∈ hs
    · obtain ⟨R, hR⟩ := compare_poly (hk g hc.1) (hk h hc.2)
      exact ⟨R, fun _ _ => hR⟩
    · exact ⟨0, fun a b => absurd ⟨a, b⟩ hc⟩
  choose R hR using hR
  let cand : List ℝ := [1 / 2, 1] ++ (hs.map (fun h => h.dom.x0) ++ hs.map (fun h => h.dom.x1) ++
    hs.flatMap (fun g => hs.flatMap (fun h => (R g h).roots.toList))).filter (fun x => decide (1 / 2 ≤ x ∧ x ≤ 1))
  let L : List ℝ := List.insertionSort (fun a b => a ≤ b) cand.dedup
  have hmem : ∀ x, x ∈ L ↔ x ∈ cand := fun x => by
    simp only [L]
    rw [List.mem_insertionSort, List.mem_dedup]
  have hsort : L.Pairwise (· < ·) := by
    have h1 : L.Pairwise (· ≤ ·) := List.pairwise_insertionSort _ _
    have h2 : L.Nodup := by
      simp only [L]
      rw [List.Perm.nodup_iff (List.perm_insertionSort _ _)]
      exact List.nodup_dedup _
    exact (h1.and h2).imp (fun h => lt_of_le_of_ne h.1 h.2)
  have hhalf : (1 / 2 : ℝ) ∈ L := (hmem _).mpr (by simp [cand])
  have hone : (1 : ℝ) ∈ L := (hmem _).mpr (by simp [cand])
  have hbd : ∀ x ∈ L, 1 / 2 ≤ x ∧ x ≤ 1 := by
    intro x hx
    have := (hmem x).mp hx
    simp only [cand, List.mem_append, List.mem_cons, List.not_mem_nil, or_false, List.mem_filter, decide_eq_true_eq] at this
    rcases this with (rfl | rfl) | h
    · norm_num
    · norm_num
    · exact h.2
  have hx0 : ∀ h ∈ hs, h.dom.x0 ∈ L ∧ h.dom.x1 ∈ L := by
    intro h hh
    obtain ⟨-, d1, d2, d3⟩ := hk h hh
    constructor
    · rw [hmem]
      simp only [cand, List.mem_append, List.mem_filter, List.mem_map, decide_eq_true_eq]
      exact Or.inr ⟨Or.inl (Or.inl ⟨h, hh, rfl⟩), d1, by linarith⟩
    · rw [hmem]
      simp only [cand, List.mem_append, List.mem_filter, List.mem_map, decide_eq_true_eq]
      exact Or.inr ⟨Or.inl (Or.inr ⟨h, hh, rfl⟩), by linarith, d3⟩
  have hroot : ∀ g ∈ hs, ∀ h ∈ hs, ∀ z, R g h ≠ 0 → (R g h).eval z = 0 → 1 / 2 ≤ z → z ≤ 1 → z ∈ L := by
    intro g hg h hh z h0 hz l u
    rw [hmem]
    simp only [cand, List.mem_append, List.mem_filter, List.mem_flatMap, decide_eq_true_eq]
    exact Or.inr ⟨Or.inr ⟨g, hg, h, hh, by rw [Multiset.mem_toList]; exact (Polynomial.mem_roots h0).mpr hz⟩, l, u⟩
  have hpiece : ∀ t : ℝ × ℝ, ∃ p : Pc, t ∈ L.zip L.tail → p.dom = ⟨t.1, t.2, true, false⟩ ∧
      ((∃ h ∈ hs, p.fn = h.fn ∧ h.dom.x0 ≤ t.1 ∧ t.2 ≤ h.dom.x1) ∨ p.fn = fun _ => 1000000) ∧
      ∀ h ∈ hs, ∀ x, t.1 < x → x < t.2 → h.dom.x0 < x → x < h.dom.x1 → p.fn x ≤ h.fn x := by
    rintro ⟨c, d⟩
    by_cases ht : (c, d) ∈ L.zip L.tail
    swap
    · exact ⟨⟨fun _ => 0, ⟨c, d, true, false⟩⟩, fun h => absurd h ht⟩
    obtain ⟨k1, k2, k3, k4⟩ := PairZD.zip_tail_spec hsort _ ht
    simp only at k1 k2 k3 k4
    have hin : ∀ h ∈ hs, ∀ x, c < x → x < d → h.dom.x0 < x → x < h.dom.x1 → h.dom.x0 ≤ c ∧ d ≤ h.dom.x1 := by
      intro h hh x l u l' u'
      obtain ⟨e0, e1⟩ := hx0 h hh
      constructor
      · rcases k4 _ e0 with h | h
        · exact h
        · linarith
      · rcases k4 _ e1 with h | h
        · linarith
        · exact h
    by_cases hne : hs.filter (fun h => decide (h.dom.x0 ≤ c ∧ d ≤ h.dom.x1)) = []
    · refine ⟨⟨fun _ => 1000000, ⟨c, d, true, false⟩⟩, fun _ => ⟨rfl, Or.inr rfl, fun h hh x l u l' u' => ?_⟩⟩
      have := List.filter_eq_nil_iff.mp hne h hh
      exact absurd (hin h hh x l u l' u') (by simpa using this)
    · obtain ⟨g, hg, hleast⟩ := exists_least (fun h => h.fn ((c + d) / 2)) _ hne
      simp only [List.mem_filter, decide_eq_true_eq] at hg hleast
      refine ⟨⟨g.fn, ⟨c, d, true, false⟩⟩, fun _ => ⟨rfl, Or.inl ⟨g, hg.1, rfl, hg.2⟩, fun h hh x l u l' u' => ?_⟩⟩
      have hc := hin h hh x l u l' u'
      have hmid := hleast h ⟨hh, hc⟩
      have s1 := (hR g h hg.1 hh ((c + d) / 2) (by linarith [hg.2.1]) (by linarith [hg.2.2]) (by linarith [hc.1]) (by linarith [hc.2])).mpr hmid
      refine (hR g h hg.1 hh x (by linarith [hg.2.1]) (by linarith [hg.2.2]) l' u').mp ?_
      refine sign_const (c := c) (d := d) (fun z h0 hz => ?_) (x := (c + d) / 2) ⟨by linarith, by linarith⟩ ⟨l, u⟩ s1
      by_contra hcon
      push Not at hcon
      have hzL := hroot g hg.1 h hh z h0 hz (by linarith [(hbd c k2).1]) (by linarith [(hbd d k3).2])
      rcases k4 z hzL with h | h
      · linarith
      · linarith
  choose f hf using hpiece
  refine ⟨(L.zip L.tail).map f, ⟨?_, ?_, ?_⟩, ?_, ?_⟩
  · intro s l u
    obtain ⟨t, ht, h1, h2⟩ := PairZD.zip_tail_cover hsort hhalf l hone u
    refine ⟨f t, List.mem_map.mpr ⟨t, ht, rfl⟩, ?_⟩
    rw [(hf t ht).1]
    exact ⟨h1, h2⟩
  · intro p hp
    obtain ⟨t, ht, rfl⟩ := List.mem_map.mp hp
    obtain ⟨k1, k2, k3, -⟩ := PairZD.zip_tail_spec hsort _ ht
    rw [(hf t ht).1]
    exact ⟨(hbd _ k2).1, (hbd _ k3).2, k1⟩
  · intro p hp
    obtain ⟨t, ht, rfl⟩ := List.mem_map.mp hp
    rw [(hf t ht).1]
    exact ⟨rfl, rfl⟩
  · intro p hp
    obtain ⟨t, ht, rfl⟩ := List.mem_map.mp hp
    rw [(hf t ht).1]
    exact (hf t ht).2.1
  · intro p hp h hh x
    obtain ⟨t, ht, rfl⟩ := List.mem_map.mp hp
    rw [(hf t ht).1]
    exact (hf t ht).2.2 h hh x

/-- The hypotheses of `C86_code_counterexample` can be met. -/
theorem C86_code_satisfiable (isConstant : Expr ℝ → Bool) (realRoots : Expr ℝ → List ℝ) (hr : RootsSpec isConstant realRoots)
    (hcs : ConstSpec isConstant) (isZero : Expr ℝ → Bool) (hz : ZeroSpec isZero) :
    ∃ best : List Pc → List Pc, ∀ hs, gapZD (bourgainEpToZd isConstant realRoots isZero bourgainPairs) = .ok hs ∨ gapEnergy = .ok hs →
      IsBest hs (best hs) := by
  classical
  obtain ⟨sol, h1, h2⟩ := bourgain_sol isConstant realRoots hr hcs isZero hz
  obtain ⟨es, ns, zd, h3, h4, h5, h6, -⟩ := gapZD_spec h2
  rw [h1]
  have : ∀ hs : List Pc, ∃ ps, (∀ h ∈ hs, Kind h) → IsBest hs ps := by
    intro hs
    by_cases hk : ∀ h ∈ hs, Kind h
    · obtain ⟨ps, hps⟩ := exists_best hs hk
      exact ⟨ps, fun _ => hps⟩
    · exact ⟨[], fun h => absurd h hk⟩
  choose best hb using this
  refine ⟨best, ?_⟩
  rintro hs (h | h)
  · rw [h5] at h
    obtain rfl := Except.ok.inj h
    exact hb _ h6
  · rw [gapEnergy_eq] at h
    obtain rfl := Except.ok.inj h
    exact hb _ energy_kind

end PrimeGap
end Expdb
