import Verif.Props.PrimeGapCode
import Mathlib.Topology.Order.DenselyOrdered

/-!
# The second moment of prime gaps (C86): what `prove_prime_gap2` prints
-/

namespace Expdb
namespace PrimeGap
open Rational (Ival)
open LitZD (Reads Entry)
open Formula (LF)
open PairZD (bourgainEpToZd bourgainPairs IsMinimum)
open Rational (Expr RootsSpec ConstSpec ZeroSpec)

/-- What `best_zero_density_estimate` and `compute_best_energy_bound` should return: pieces `[a, b)` that cover `[1/2, 1)`, each with an
estimate of the list that holds there or with the default, and with the least of the estimates. -/
structure IsBest (hs ps : List Pc) : Prop where
  tiles : Tiles ps
  source : ∀ p ∈ ps, (∃ h ∈ hs, p.fn = h.fn ∧ h.dom.x0 ≤ p.dom.x0 ∧ p.dom.x1 ≤ h.dom.x1) ∨ p.fn = fun _ => 1000000
  least : ∀ p ∈ ps, ∀ h ∈ hs, ∀ x, p.dom.x0 < x → x < p.dom.x1 → h.dom.x0 < x → x < h.dom.x1 → p.fn x ≤ h.fn x

theorem closed_le {f g : ℝ → ℝ} (hf : Continuous f) (hg : Continuous g) {a b : ℝ} (hab : a < b) (h : ∀ x, a < x → x < b → f x ≤ g x) :
    ∀ x, a ≤ x → x ≤ b → f x ≤ g x := by
  intro x l u
  have hc : IsClosed {y | f y ≤ g y} := isClosed_le hf hg
  have : closure (Set.Ioo a b) ⊆ {y | f y ≤ g y} := hc.closure_subset_iff.mpr (fun y hy => h y hy.1 hy.2)
  rw [closure_Ioo hab.ne] at this
  exact this ⟨l, u⟩

/-- A bound inside holds at the ends. -/
theorem closed_bound {h : Pc} (hk : Quot h ∨ Root h) {a b m : ℝ} (ha : h.dom.x0 ≤ a) (hab : a < b) (hb : b ≤ h.dom.x1)
    (hle : ∀ x, a < x → x < b → h.fn x ≤ m) (x : ℝ) (l : a ≤ x) (u : x ≤ b) : h.fn x ≤ m ∧ (x < 1 → 0 < h.fn x) := by
  rcases hk with ⟨N, D, h1, h2, h3⟩ | ⟨k, k1, k2⟩
  · have key := closed_le (f := fun y => N.eval y) (g := fun y => m * D.eval y) N.continuous (continuous_const.mul D.continuous) hab
      (fun y l u => by
        have := hle y l u
        rw [h1, div_le_iff₀ (h3 y (lt_of_le_of_lt ha l) (lt_of_lt_of_le u hb))] at this
        exact this) x l u
    have hn := h2 x (ha.trans l) (u.trans hb)
    have hd0 := closed_le (f := fun _ => 0) (g := fun y => D.eval y) continuous_const D.continuous hab
      (fun y l u => (h3 y (lt_of_le_of_lt ha l) (lt_of_lt_of_le u hb)).le) x l u
    have hd : 0 < D.eval x := by
      refine lt_of_le_of_ne hd0 fun h0 => ?_
      rw [← h0, mul_zero] at key
      linarith
    rw [h1]
    exact ⟨(div_le_iff₀ hd).mpr key, fun _ => div_pos hn hd⟩
  · refine ⟨?_, fun hx => ?_⟩
    · refine closed_le (f := h.fn) (g := fun _ => m) ?_ continuous_const hab hle x l u
      rw [show h.fn = fun x => k * Real.sqrt (1 - x) from funext k2]
      exact continuous_const.mul (Real.continuous_sqrt.comp (continuous_const.sub continuous_id))
    · rw [k2]
      have : 0 < Real.sqrt (1 - x) := Real.sqrt_pos.mpr (by linarith)
      norm_num at k1
      positivity

/-- What is used about the two lists. -/
structure Inputs (zd : List Pc) : Prop where
  kind : ∀ p ∈ zd, Kind p
  m1 : ⟨(⟨3, -1, 2⟩ : LF).val, ⟨1 / 2, 1, true, false⟩⟩ ∈ zd
  m2 : ⟨(⟨15, 5, 3⟩ : LF).val, ⟨1 / 2, 1, true, false⟩⟩ ∈ zd
  m3 : ⟨(⟨4, 30, -25⟩ : LF).val, ⟨15 / 16, 1, true, false⟩⟩ ∈ zd
  m4 : ⟨fun t => 6.42 * Real.sqrt (1 - t), ⟨9 / 10, 1, true, false⟩⟩ ∈ zd

section
variable {zd bzd bze : List Pc} (hi : Inputs zd) (hz : IsBest zd bzd) (he : IsBest energyFns bze)
include hi hz

theorem zd_open {p : Pc} (hp : p ∈ bzd) (x : ℝ) (l : p.dom.x0 < x) (u : x < p.dom.x1) : p.fn x ≤ 30 / 13 := by
  obtain ⟨b1, b2, -⟩ := hz.tiles.inside p hp
  have a := hz.least p hp _ hi.m1 x l u (by simp only; linarith) (by simp only; linarith)
  have b := hz.least p hp _ hi.m2 x l u (by simp only; linarith) (by simp only; linarith)
  simp only [LF.val] at a b
  push_cast at a b
  by_cases c : x ≤ 7 / 10
  · refine a.trans ?_
    rw [div_le_div_iff₀ (by linarith) (by norm_num)]
    linarith
  · push Not at c
    refine b.trans ?_
    rw [div_le_div_iff₀ (by linarith) (by norm_num)]
    linarith

theorem zd_source {p : Pc} (hp : p ∈ bzd) : Quot p ∨ Root p := by
  obtain ⟨b1, b2, b3⟩ := hz.tiles.inside p hp
  rcases hz.source p hp with ⟨h, hh, h1, h2, h3⟩ | h
  · rcases (hi.kind h hh).1 with ⟨N, D, k1, k2, k3⟩ | ⟨k, k1, k2⟩
    · exact Or.inl ⟨N, D, fun x => by rw [h1, k1], fun x l u => k2 x (h2.trans l) (u.trans h3),
        fun x l u => k3 x (lt_of_le_of_lt h2 l) (lt_of_lt_of_le u h3)⟩
    · exact Or.inr ⟨k, k1, fun x => by rw [h1, k2]⟩
  · have := zd_open hi hz hp ((p.dom.x0 + p.dom.x1) / 2) (by linarith) (by linarith)
    rw [h] at this
    norm_num at this

theorem zd_closed {p : Pc} (hp : p ∈ bzd) (x : ℝ) (l : p.dom.x0 ≤ x) (u : x ≤ p.dom.x1) : p.fn x ≤ 30 / 13 ∧ (x < 1 → 0 < p.fn x) :=
  closed_bound (zd_source hi hz hp) le_rfl (hz.tiles.inside p hp).2.2 le_rfl (fun y => zd_open hi hz hp y) x l u

theorem zd_one {p : Pc} (hp : p ∈ bzd) (d : ℝ) (hd : 29 / 30 < d) (l : p.dom.x0 < d) (u : d ≤ p.dom.x1) : p.fn d ≤ 1 := by
  obtain ⟨b1, b2, b3⟩ := hz.tiles.inside p hp
  refine (closed_bound (zd_source hi hz hp) (le_max_left p.dom.x0 (29 / 30)) (max_lt l hd) u (fun y l' u' => ?_) d (max_lt l hd).le le_rfl).1
  have l1 := lt_of_le_of_lt (le_max_left _ _) l'
  have l2 := lt_of_le_of_lt (le_max_right _ _) l'
  refine (hz.least p hp _ hi.m3 y l1 (u'.trans_le u) (by simp only; linarith) (by simp only; linarith)).trans ?_
  simp only [LF.val]
  push_cast
  rw [div_le_one (by linarith)]
  linarith

/-- The piece at 1 is a root. -/
theorem zd_last {p : Pc} (hp : p ∈ bzd) (h1 : p.dom.x1 = 1) : Root p := by
  obtain ⟨b1, b2, b3⟩ := hz.tiles.inside p hp
  rcases zd_source hi hz hp with ⟨N, D, k1, k2, k3⟩ | h
  · exfalso
    have hlt : max p.dom.x0 (9 / 10) < 1 := max_lt (by linarith) (by norm_num)
    have key := closed_le (f := fun y => N.eval y) (g := fun y => 6.42 * Real.sqrt (1 - y) * D.eval y) N.continuous
      ((continuous_const.mul (Real.continuous_sqrt.comp (continuous_const.sub continuous_id))).mul D.continuous) hlt
      (fun y l u => by
        have l1 := lt_of_le_of_lt (le_max_left _ _) l
        have l2 := lt_of_le_of_lt (le_max_right _ _) l
        have := hz.least p hp _ hi.m4 y l1 (by linarith) (by simp only; linarith) (by simp only; linarith)
        rw [k1, div_le_iff₀ (k3 y l1 (by linarith))] at this
        exact this) 1 hlt.le le_rfl
    simp only [sub_self, Real.sqrt_zero, mul_zero, zero_mul] at key
    exact absurd (k2 1 (by linarith) h1.ge) (not_lt.mpr key)
  · exact h

omit hi hz in
include he in
theorem ze_source {q : Pc} (hq : q ∈ bze) (x : ℝ) (l : q.dom.x0 ≤ x) (u : x ≤ q.dom.x1) : 30 / 13 < q.fn x := by
  rcases he.source q hq with ⟨h, hh, h1, h2, h3⟩ | h
  · rw [h1]
    exact energy_large h hh x (h2.trans l) (u.trans h3)
  · rw [h]
    norm_num

omit hi hz in
include he in
theorem ze_end {q : Pc} (hq : q ∈ bze) (h : 29 / 30 < q.dom.x1) : q.fn = fun t => 12 / (4 * t - 1) := by
  obtain ⟨b1, b2, b3⟩ := he.tiles.inside q hq
  obtain ⟨d1, d2, d3, d4⟩ := dec_bounds
  rcases he.source q hq with ⟨k, hk, h1, h2, h3⟩ | h'
  · simp only [energyFns, List.mem_cons, List.not_mem_nil, or_false] at hk
    rcases hk with rfl | rfl | rfl | rfl | rfl | rfl | rfl | rfl <;> simp only at h3
    · linarith
    · linarith
    · exact h1
    · linarith
    · linarith
    · linarith
    · linarith
    · linarith
  · exfalso
    have hlt : max q.dom.x0 (29 / 30) < q.dom.x1 := max_lt b3 h
    obtain ⟨x, l, u⟩ := exists_between hlt
    have l1 := lt_of_le_of_lt (le_max_left _ _) l
    have l2 := lt_of_le_of_lt (le_max_right _ _) l
    have := he.least q hq _ (List.mem_of_getElem? (i := 2) rfl) x l1 u (by simp only; linarith) (by simp only; linarith)
    rw [h'] at this
    simp only at this
    rw [le_div_iff₀ (by linarith)] at this
    linarith

/-- The interval at 1 fails. -/
theorem line_last (solve : (ℝ → ℝ) → List ℝ) (he : IsBest energyFns bze) {c : ℝ}
    (ht : (c, (1 : ℝ)) ∈ (crits bzd bze).zip (crits bzd bze).tail) :
    line solve bzd bze c 1 = .error .typeError ∧ 97 / 100 < c := by
  obtain ⟨k1, k2, -, P, Q, hP, hQ, u1, w1, u3, u4, w3, w4⟩ := interval_spec hz.tiles he.tiles ht
  have hP1 : P.dom.x1 = 1 := le_antisymm (hz.tiles.inside P u1).2.1 u4
  obtain ⟨k, hk, hPr⟩ := zd_last hi hz u1 hP1
  constructor
  · obtain ⟨v, hv, -⟩ := maxOver_ok (f := alphaAt P.fn Q.fn) (g := alpha P.fn Q.fn) (l := statpts solve (alpha P.fn Q.fn) (Ival.half c 1))
      (by simp [statpts]) (fun x hx => by
        obtain ⟨l, u⟩ := statpts_Icc k1 hx
        have a := (zd_closed hi hz u1 x (u3.trans l) (u.trans u4)).1
        have b := ze_source he w1 x (w3.trans l) (u.trans w4)
        exact alphaAt_ok (by linarith : P.fn x < Q.fn x).ne')
    have hw : maxOver (betaAt P.fn Q.fn) (statpts solve (beta P.fn Q.fn) (Ival.half c 1)) = .error .typeError := by
      refine maxOver_error (fun p e' h => ?_) ⟨1, mem_statpts.mpr (Or.inr (Or.inr rfl)), ?_⟩
      · unfold betaAt at h
        split at h
        · exact (Except.error.inj h).symm
        · cases h
      · rw [betaAt, if_pos (by rw [hPr]; simp)]
    simp only [line, hP, hQ, bind, Except.bind, hv, hw]
  · by_contra hc
    push Not at hc
    have := hz.least P u1 _ hi.m3 (971 / 1000) (by linarith) (by linarith) (by norm_num) (by norm_num)
    rw [hPr] at this
    simp only [LF.val] at this
    have hs : (17 / 100 : ℝ) ≤ Real.sqrt (1 - 971 / 1000) := by
      apply Real.le_sqrt_of_sq_le
      norm_num
    have hk' : (0 : ℝ) ≤ k - 6.42 := by linarith
    norm_num at hk'
    generalize Real.sqrt (1 - 971 / 1000) = q at this hs
    norm_num at this
    nlinarith [mul_nonneg (sub_nonneg.mpr hk') (sub_nonneg.mpr hs)]

/-- The other intervals do not fail. -/
theorem line_inner (solve : (ℝ → ℝ) → List ℝ) (he : IsBest energyFns bze) {c d : ℝ}
    (ht : (c, d) ∈ (crits bzd bze).zip (crits bzd bze).tail) (hd : d < 1) :
    ∃ v, line solve bzd bze c d = .ok (Ival.half c d, v) ∧ (29 / 30 < d → 13 / 10 < v) := by
  obtain ⟨k1, k2, -, P, Q, hP, hQ, u1, w1, u3, u4, w3, w4⟩ := interval_spec hz.tiles he.tiles ht
  obtain ⟨v, w, e, -, e2, -, -⟩ := line_ok solve k1 hP hQ
    (fun x l u => ((zd_closed hi hz u1 x (u3.trans l) (u.trans u4)).2 (by linarith)).ne')
    (fun x l u => by
      have a := (zd_closed hi hz u1 x (u3.trans l) (u.trans u4)).1
      have b := ze_source he w1 x (w3.trans l) (u.trans w4)
      exact (by linarith : P.fn x < Q.fn x).ne')
  refine ⟨_, e, fun hd' => lt_of_lt_of_le ?_ ((e2 d (mem_statpts.mpr (Or.inr (Or.inr rfl)))).trans (le_max_left _ _))⟩
  have hp := zd_one hi hz u1 d hd' (lt_of_le_of_lt u3 k1) u4
  have hq := congrFun (ze_end he w1 (hd'.trans_le w4)) d
  have p4 : 0 < 4 * d - 1 := by linarith
  have hQ1 : 0 < Q.fn d - P.fn d := by
    have : 1 < Q.fn d := by rw [hq, lt_div_iff₀ p4]; linarith
    linarith
  have hnum : Q.fn d * (1 - d) - 1 = -((16 * d - 13) / (4 * d - 1)) := by
    rw [hq]
    field_simp
    ring
  have hden : (13 - 4 * d) / (4 * d - 1) ≤ Q.fn d - P.fn d := by
    have : (13 - 4 * d) / (4 * d - 1) = 12 / (4 * d - 1) - 1 := by field_simp; ring
    rw [this, hq]
    linarith
  have hfrac : (16 * d - 13) / (4 * d - 1) / (Q.fn d - P.fn d) ≤ (16 * d - 13) / (13 - 4 * d) := by
    rw [div_div, div_le_div_iff_of_pos_left (by linarith) (by positivity) (by linarith)]
    rw [div_le_iff₀ p4] at hden
    linarith
  have hend : (16 * d - 13) / (13 - 4 * d) < 2 * d - 33 / 20 := by
    rw [div_lt_iff₀ (by linarith)]
    nlinarith
  rw [alpha, hnum, mul_div_assoc, neg_div]
  linarith

end

/-- The last two neighbours of a sorted list. -/
theorem zip_last {b : ℝ} : ∀ {l : List ℝ}, l.Pairwise (· < ·) → (∀ x ∈ l, x ≤ b) → b ∈ l → 2 ≤ l.length →
    ∃ ts c, l.zip l.tail = ts ++ [(c, b)] ∧ ∀ t ∈ ts, t.2 < b
  | [], _, _, h, _ => by simp at h
  | [x], _, _, _, h => by simp at h
  | [x, y], hp, hm, hb, _ => by
    have hxy : x < y := by simpa using hp
    have hy : y ≤ b := hm y (by simp)
    have : b = y := by
      rcases List.mem_cons.mp hb with rfl | h
      · linarith
      · simpa using h
    exact ⟨[], x, by simp [this], by simp⟩
  | x :: y :: z :: l, hp, hm, hb, _ => by
    have hp' := List.pairwise_cons.mp hp
    have hb' : b ∈ y :: z :: l := by
      rcases List.mem_cons.mp hb with rfl | h
      · have := hp'.1 y (by simp)
        have := hm y (by simp)
        linarith
      · exact h
    obtain ⟨ts, c, h1, h2⟩ := zip_last (l := y :: z :: l) hp'.2 (fun x hx => hm x (by simp [hx])) hb' (by simp)
    refine ⟨(x, y) :: ts, c, ?_, ?_⟩
    · rw [List.tail_cons, List.zip_cons_cons, List.cons_append, ← h1]
      rfl
    · intro t ht
      rcases List.mem_cons.mp ht with rfl | ht
      · simp only
        have h3 := (List.pairwise_cons.mp hp'.2).1 z (by simp)
        have h4 := hm z (by simp)
        linarith
      · exact h2 t ht

/-- **C86 (what `prove_prime_gap2` prints).** The text says that the estimates of this function give `θ_gap,2 ≤ 19/15`. For every
minimum with the properties of `IsBest` the function raises `TypeError` at the last interval `[e, 1)`, where `e > 0.97`: the
estimate is `6.42 (1-σ)^(1/2)` there, and `beta` has a pole at 1. Before that it prints a line for every `σ` in `[1/2, e)`, and the
number for every `σ ≥ 29/30` is more than `1.3`, so that the largest number is not `19/15 = 1.266...`. (A smaller
bound for `A` makes `α(σ)` larger here. The text uses `B = 3A` and a larger `A` for `σ ≥ 25/28`; the function does neither.) -/
theorem C86_code_counterexample (isConstant : Expr ℝ → Bool) (realRoots : Expr ℝ → List ℝ) (hr : RootsSpec isConstant realRoots)
    (hcs : ConstSpec isConstant) (isZero : Expr ℝ → Bool) (hz : ZeroSpec isZero) (solve : (ℝ → ℝ) → List ℝ) (best : List Pc → List Pc)
    (hbest : ∀ hs, gapZD (bourgainEpToZd isConstant realRoots isZero bourgainPairs) = .ok hs ∨ gapEnergy = .ok hs → IsBest hs (best hs)) :
    ∃ out, provePrimeGap2 best solve (bourgainEpToZd isConstant realRoots isZero bourgainPairs) = .ok out ∧ out.2 = some .typeError ∧
      ∃ e : ℝ, 97 / 100 < e ∧ e < 1 ∧ (∀ s : ℝ, 1 / 2 ≤ s → s < e → ∃ r ∈ out.1, r.1.contains s = true) ∧
        ∀ r ∈ out.1, ∀ s : ℝ, 29 / 30 ≤ s → r.1.contains s = true → 13 / 10 < r.2 ∧ 19 / 15 < r.2 := by
  obtain ⟨sol, h1, h2⟩ := bourgain_sol isConstant realRoots hr hcs isZero hz
  obtain ⟨es, ns, zd, h3, h4, h5, h6, h7⟩ := gapZD_spec h2
  rw [h1] at hbest ⊢
  have b1 := hbest zd (Or.inl h5)
  have b2 := hbest energyFns (Or.inr gapEnergy_eq)
  obtain ⟨m1, m2, -, -, -, m6, m7⟩ := zd_members h3 h4 h7
  have hi : Inputs zd := ⟨h6, m1, m2, m6, m7⟩
  refine ⟨gap2 solve (best zd) (best energyFns), by simp only [provePrimeGap2, h5, gapEnergy_eq, bind, Except.bind, pure, Except.pure], ?_⟩
  have hsort := crits_sorted (best zd) (best energyFns)
  have hone : (1 : ℝ) ∈ crits (best zd) (best energyFns) := mem_crits.mpr (Or.inr (Or.inl rfl))
  have hhalf : (1 / 2 : ℝ) ∈ crits (best zd) (best energyFns) := mem_crits.mpr (Or.inl rfl)
  obtain ⟨ts, c, e1, e2⟩ := zip_last hsort (fun x hx => (crits_bounds b1.tiles b2.tiles hx).2) hone (by
    by_contra hlen
    push Not at hlen
    rcases hl : crits (best zd) (best energyFns) with _ | ⟨a, _ | ⟨a', l⟩⟩
    · rw [hl] at hone; simp at hone
    · rw [hl, List.mem_singleton] at hone hhalf
      rw [← hone] at hhalf
      norm_num at hhalf
    · rw [hl] at hlen; simp at hlen)
  obtain ⟨f1, f2⟩ := line_last hi b1 solve b2 (c := c) (by rw [e1]; simp)
  have hc1 : c < 1 := (PairZD.zip_tail_spec hsort (c, 1) (by rw [e1]; simp)).1
  have hin : ∀ t ∈ ts, ∃ v, line solve (best zd) (best energyFns) t.1 t.2 = .ok (Ival.half t.1 t.2, v) ∧ (29 / 30 < t.2 → 13 / 10 < v) :=
    fun t ht => line_inner hi b1 solve b2 (c := t.1) (d := t.2) (by rw [e1]; simp [ht]) (e2 t ht)
  obtain ⟨g1, g2⟩ := lines_last (u := (c, 1)) f1 (ts := ts) (fun t ht => ⟨_, (hin t ht).choose_spec.1⟩)
  rw [gap2, e1]
  refine ⟨g1, c, f2, hc1, fun s l u => ?_, fun r hr s l hs => ?_⟩
  · obtain ⟨t, ht, l1, u1⟩ := PairZD.zip_tail_cover hsort hhalf l hone (by linarith : s < 1)
    rw [e1, List.mem_append, List.mem_singleton] at ht
    rcases ht with ht | rfl
    · obtain ⟨i, hi', hti⟩ := List.mem_iff_getElem.mp ht
      have hh := List.forall₂_iff_get.mp g2
      have hj : i < (lines solve (best zd) (best energyFns) (ts ++ [(c, 1)])).1.length := by rw [← hh.1]; exact hi'
      have := hh.2 i hi' hj
      simp only [List.get_eq_getElem, hti] at this
      obtain ⟨P, Q, v, w, -, -, hr, -⟩ := line_of_ok this
      refine ⟨_, List.getElem_mem hj, ?_⟩
      rw [hr]
      exact half_contains.mpr ⟨l1, u1⟩
    · simp only at l1
      linarith
  · suffices h : 13 / 10 < r.2 from ⟨h, lt_trans (by norm_num) h⟩
    obtain ⟨t, ht, hl⟩ := lines_mem hr
    rw [List.mem_append, List.mem_singleton] at ht
    rcases ht with ht | rfl
    · obtain ⟨v, hv, hv'⟩ := hin t ht
      rw [hl] at hv
      obtain rfl := Except.ok.inj hv
      refine hv' ?_
      have := (half_contains.mp hs).2
      linarith
    · rw [f1] at hl
      cases hl

end PrimeGap
end Expdb
