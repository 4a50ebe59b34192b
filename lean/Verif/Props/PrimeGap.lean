import Verif.Model.PrimeGap
import Verif.Props.BourgainZD
import Mathlib.Analysis.Calculus.LocalExtr.Basic
import Mathlib.Analysis.Calculus.Deriv.MeanValue
import Mathlib.Topology.Order.Compact

/-!
# The second moment of prime gaps (C86): what `compute_gap2` prints

The reference is Proposition gapsquare-from-a of the blueprint (primes.tex): with upper bounds `a`, `b` for `A(σ)`, `A*(σ)`, the
exponent is at most the largest of `2 - 2/‖A‖∞` and of the numbers `exponent a b σ` for `1/2 ≤ σ ≤ 1`.
-/

namespace Expdb
namespace PrimeGap
open Rational (Ival)

/-- The larger one of `α(σ)` and `β(σ)` (primes.tex, Proposition gapsquare-from-a), for the bounds `a` and `b` at `σ`. -/
noncomputable def exponent (a b s : ℝ) : ℝ :=
  max (4 * s - 2 + 2 * ((b * (1 - s) - 1) / (b - a))) (4 * s - 2 + (b * (1 - s) - 1) / a)

theorem exponent_eq (A B : ℝ → ℝ) (x : ℝ) : exponent (A x) (B x) x = max (alpha A B x) (beta A B x) := by
  rw [exponent, alpha, beta, mul_div_assoc]

/-! ### The parts of the model -/

theorem half_contains {c d x : ℝ} : (Ival.half c d).contains x = true ↔ c ≤ x ∧ x < d := PairZD.half_contains

theorem crits_sorted (zd ze : List Pc) : (crits zd ze).Pairwise (· < ·) := by
  have h1 : (crits zd ze).Pairwise (· ≤ ·) := List.pairwise_insertionSort _ _
  have h2 : (crits zd ze).Nodup := by
    rw [crits, List.Perm.nodup_iff (List.perm_insertionSort _ _)]
    exact List.nodup_dedup _
  exact (h1.and h2).imp (fun h => lt_of_le_of_ne h.1 h.2)

theorem mem_crits {zd ze : List Pc} {x : ℝ} : x ∈ crits zd ze ↔
    x = 1 / 2 ∨ x = 1 ∨ ∃ h, (h ∈ zd ∨ h ∈ ze) ∧ (x = h.dom.x0 ∨ x = h.dom.x1) := by
  rw [crits, List.mem_insertionSort, List.mem_dedup]
  simp only [List.mem_append, List.mem_cons, List.not_mem_nil, or_false, List.mem_map]
  constructor
  · rintro (((((h | h) | ⟨p, hp, h⟩) | ⟨p, hp, h⟩) | ⟨p, hp, h⟩) | ⟨p, hp, h⟩)
    · exact Or.inl h
    · exact Or.inr (Or.inl h)
    · exact Or.inr (Or.inr ⟨p, Or.inl hp, Or.inl h.symm⟩)
    · exact Or.inr (Or.inr ⟨p, Or.inl hp, Or.inr h.symm⟩)
    · exact Or.inr (Or.inr ⟨p, Or.inr hp, Or.inl h.symm⟩)
    · exact Or.inr (Or.inr ⟨p, Or.inr hp, Or.inr h.symm⟩)
  · rintro (h | h | ⟨p, hp | hp, h | h⟩)
    · exact Or.inl (Or.inl (Or.inl (Or.inl (Or.inl h))))
    · exact Or.inl (Or.inl (Or.inl (Or.inl (Or.inr h))))
    · exact Or.inl (Or.inl (Or.inl (Or.inr ⟨p, hp, h.symm⟩)))
    · exact Or.inl (Or.inl (Or.inr ⟨p, hp, h.symm⟩))
    · exact Or.inl (Or.inr ⟨p, hp, h.symm⟩)
    · exact Or.inr ⟨p, hp, h.symm⟩

/-- The chosen estimate is in the list, and its interval contains the midpoint. -/
theorem pick_ok {ps : List Pc} {m : ℝ} {p : Pc} (h : pick ps m = .ok p) : p ∈ ps ∧ p.dom.contains m = true := by
  unfold pick at h
  split at h
  · cases h
  · rename_i q hq
    cases h
    exact ⟨List.mem_of_find?_eq_some hq, by simpa using List.find?_some hq⟩

theorem pick_exists {ps : List Pc} {m : ℝ} (h : ∃ p ∈ ps, p.dom.contains m = true) : ∃ p, pick ps m = .ok p := by
  unfold pick
  cases hf : ps.find? (fun h => h.dom.contains m) with
  | some p => exact ⟨p, rfl⟩
  | none =>
    obtain ⟨p, hp, hpm⟩ := h
    have := List.find?_eq_none.mp hf p hp
    exact absurd hpm this

/-- An interval with no end point strictly between `c` and `d` that contains a point between them contains all of them. -/
theorem contains_between {I : Ival ℝ} {c d m x : ℝ} (h0 : I.x0 ≤ c ∨ d ≤ I.x0) (h1 : I.x1 ≤ c ∨ d ≤ I.x1) (hm : c < m ∧ m < d)
    (h : I.contains m = true) (hx : c < x ∧ x < d) : I.contains x = true := by
  simp only [Ival.contains, Bool.and_eq_true] at h ⊢
  have a0 : I.x0 ≤ m := by
    have := h.1
    split at this
    · simpa using this
    · exact (by simpa using this : I.x0 < m).le
  have a1 : m ≤ I.x1 := by
    have := h.2
    split at this
    · simpa using this
    · exact (by simpa using this : m < I.x1).le
  have b0 : I.x0 < x := by rcases h0 with h | h <;> linarith [hm.1, hm.2, hx.1]
  have b1 : x < I.x1 := by rcases h1 with h | h <;> linarith [hm.1, hm.2, hx.2]
  constructor
  · split
    · simpa using b0.le
    · simpa using b0
  · split
    · simpa using b1.le
    · simpa using b1

theorem contains_closed {I : Ival ℝ} {x : ℝ} (h : I.contains x = true) : I.x0 ≤ x ∧ x ≤ I.x1 := by
  simp only [Ival.contains, Bool.and_eq_true] at h
  constructor
  · have := h.1
    split at this
    · simpa using this
    · exact (by simpa using this : I.x0 < x).le
  · have := h.2
    split at this
    · simpa using this
    · exact (by simpa using this : x < I.x1).le

/-- Where the interval of the chosen estimate is not left. -/
theorem pick_between {zd ze ps : List Pc} {c d : ℝ} (hcd : (c, d) ∈ (crits zd ze).zip (crits zd ze).tail) (hps : ps = zd ∨ ps = ze)
    {p : Pc} (h : pick ps (Ival.half c d).midpoint = .ok p) :
    p ∈ ps ∧ (∀ x, c < x → x < d → p.dom.contains x = true) ∧ p.dom.x0 ≤ c ∧ d ≤ p.dom.x1 := by
  obtain ⟨h1, h2⟩ := pick_ok h
  obtain ⟨k1, -, -, k4⟩ := PairZD.zip_tail_spec (crits_sorted zd ze) _ hcd
  have hmem : p ∈ zd ∨ p ∈ ze := by rcases hps with rfl | rfl <;> tauto
  have e0 := k4 p.dom.x0 (mem_crits.mpr (Or.inr (Or.inr ⟨p, hmem, Or.inl rfl⟩)))
  have e1 := k4 p.dom.x1 (mem_crits.mpr (Or.inr (Or.inr ⟨p, hmem, Or.inr rfl⟩)))
  simp only at k1 e0 e1
  have hm : c < (Ival.half c d).midpoint ∧ (Ival.half c d).midpoint < d := by
    simp only [Ival.half, Ival.midpoint]
    constructor <;> linarith
  have hcl := contains_closed h2
  refine ⟨h1, fun x l u => contains_between e0 e1 hm h2 ⟨l, u⟩, ?_, ?_⟩
  · rcases e0 with e | e
    · exact e
    · linarith [hm.2]
  · rcases e1 with e | e
    · linarith [hm.1]
    · exact e

theorem maxOver_ok {f : ℝ → Py ℝ} {g : ℝ → ℝ} : ∀ {l : List ℝ}, l ≠ [] → (∀ p ∈ l, f p = .ok (g p)) →
    ∃ v, maxOver f l = .ok v ∧ (∃ p ∈ l, v = g p) ∧ ∀ p ∈ l, g p ≤ v
  | [], h, _ => absurd rfl h
  | [p], _, h => ⟨g p, h p (by simp), ⟨p, by simp, rfl⟩, by simp⟩
  | p :: q :: ps, _, h => by
    obtain ⟨v, h1, ⟨r, hr, h2⟩, h3⟩ := maxOver_ok (l := q :: ps) (by simp) (fun r hr => h r (List.mem_cons_of_mem _ hr))
    refine ⟨max (g p) v, ?_, ?_, ?_⟩
    · rw [maxOver, h p (by simp), h1]
      rfl
    · rcases max_choice (g p) v with e | e
      · exact ⟨p, by simp, e⟩
      · exact ⟨r, List.mem_cons_of_mem _ hr, by rw [e, h2]⟩
    · intro r hr
      rcases List.mem_cons.mp hr with rfl | hr
      · exact le_max_left _ _
      · exact (h3 r hr).trans (le_max_right _ _)

/-- If the maximum is computed, no evaluation failed. -/
theorem maxOver_all {f : ℝ → Py ℝ} : ∀ {l : List ℝ} {v : ℝ}, maxOver f l = .ok v → ∀ p ∈ l, ∃ w, f p = .ok w
  | [], _, h => by cases h
  | [p], v, h => by
    intro q hq
    rw [List.mem_singleton.mp hq]
    exact ⟨v, h⟩
  | p :: q :: ps, v, h => by
    rw [maxOver] at h
    cases hp : f p with
    | error e => rw [hp] at h; cases h
    | ok a =>
      cases hm : maxOver f (q :: ps) with
      | error e => rw [hp, hm] at h; cases h
      | ok b =>
        intro r hr
        rcases List.mem_cons.mp hr with rfl | hr
        · exact ⟨a, hp⟩
        · exact maxOver_all hm r hr

/-- If an evaluation fails, and all failures are the same exception, it is raised. -/
theorem maxOver_error {f : ℝ → Py ℝ} {e : PyErr} (hf : ∀ p e', f p = .error e' → e' = e) : ∀ {l : List ℝ}, (∃ p ∈ l, f p = .error e) →
    maxOver f l = .error e
  | [], h => by simp at h
  | [p], h => by
    obtain ⟨q, hq, h⟩ := h
    rw [List.mem_singleton.mp hq] at h
    exact h
  | p :: q :: ps, h => by
    rw [maxOver]
    cases hp : f p with
    | error e' => rw [hf p e' hp]; rfl
    | ok a =>
      have : ∃ r ∈ q :: ps, f r = .error e := by
        obtain ⟨r, hr, h⟩ := h
        rcases List.mem_cons.mp hr with rfl | hr
        · rw [hp] at h; cases h
        · exact ⟨r, hr, h⟩
      rw [maxOver_error hf this]
      rfl

theorem alphaAt_ok {A B : ℝ → ℝ} {p : ℝ} (h : B p ≠ A p) : alphaAt A B p = .ok (alpha A B p) := by
  rw [alphaAt, if_neg (sub_ne_zero.mpr h)]

theorem betaAt_ok {A B : ℝ → ℝ} {p : ℝ} (h : A p ≠ 0) : betaAt A B p = .ok (beta A B p) := by
  rw [betaAt, if_neg h]

theorem mem_statpts {solve : (ℝ → ℝ) → List ℝ} {f : ℝ → ℝ} {c d x : ℝ} :
    x ∈ statpts solve f (Ival.half c d) ↔ (x ∈ solve f ∧ c ≤ x ∧ x < d) ∨ x = c ∨ x = d := by
  simp only [statpts, List.mem_append, List.mem_filter, half_contains, List.mem_cons, List.not_mem_nil, or_false]
  rfl

theorem statpts_Icc {solve : (ℝ → ℝ) → List ℝ} {f : ℝ → ℝ} {c d x : ℝ} (hcd : c < d) (h : x ∈ statpts solve f (Ival.half c d)) :
    c ≤ x ∧ x ≤ d := by
  rcases mem_statpts.mp h with h | rfl | rfl
  · exact ⟨h.2.1, h.2.2.le⟩
  · exact ⟨le_rfl, hcd.le⟩
  · exact ⟨hcd.le, le_rfl⟩

/-- What one line is, if nothing fails. -/
theorem line_ok (solve : (ℝ → ℝ) → List ℝ) {zd ze : List Pc} {c d : ℝ} (hcd : c < d) {P Q : Pc}
    (hP : pick zd (Ival.half c d).midpoint = .ok P) (hQ : pick ze (Ival.half c d).midpoint = .ok Q)
    (h0 : ∀ x, c ≤ x → x ≤ d → P.fn x ≠ 0) (h1 : ∀ x, c ≤ x → x ≤ d → Q.fn x ≠ P.fn x) :
    ∃ v w, line solve zd ze c d = .ok (Ival.half c d, max v w) ∧
      (∃ p ∈ statpts solve (alpha P.fn Q.fn) (Ival.half c d), v = alpha P.fn Q.fn p) ∧
      (∀ p ∈ statpts solve (alpha P.fn Q.fn) (Ival.half c d), alpha P.fn Q.fn p ≤ v) ∧
      (∃ p ∈ statpts solve (beta P.fn Q.fn) (Ival.half c d), w = beta P.fn Q.fn p) ∧
      (∀ p ∈ statpts solve (beta P.fn Q.fn) (Ival.half c d), beta P.fn Q.fn p ≤ w) := by
  obtain ⟨v, e1, e2, e3⟩ := maxOver_ok (f := alphaAt P.fn Q.fn) (g := alpha P.fn Q.fn)
    (l := statpts solve (alpha P.fn Q.fn) (Ival.half c d)) (by simp [statpts]) (fun p hp =>
      alphaAt_ok (h1 p (statpts_Icc hcd hp).1 (statpts_Icc hcd hp).2))
  obtain ⟨w, f1, f2, f3⟩ := maxOver_ok (f := betaAt P.fn Q.fn) (g := beta P.fn Q.fn)
    (l := statpts solve (beta P.fn Q.fn) (Ival.half c d)) (by simp [statpts]) (fun p hp =>
      betaAt_ok (h0 p (statpts_Icc hcd hp).1 (statpts_Icc hcd hp).2))
  refine ⟨v, w, ?_, e2, e3, f2, f3⟩
  simp only [line]
  rw [hP, hQ]
  simp only [bind, Except.bind]
  rw [e1]
  simp only
  rw [f1]
  rfl

/-- What is known about a line that is printed. -/
theorem line_of_ok {solve : (ℝ → ℝ) → List ℝ} {zd ze : List Pc} {c d : ℝ} {r : Ival ℝ × ℝ} (h : line solve zd ze c d = .ok r) :
    ∃ P Q v w, pick zd (Ival.half c d).midpoint = .ok P ∧ pick ze (Ival.half c d).midpoint = .ok Q ∧ r = (Ival.half c d, max v w) ∧
      maxOver (alphaAt P.fn Q.fn) (statpts solve (alpha P.fn Q.fn) (Ival.half c d)) = .ok v ∧
      maxOver (betaAt P.fn Q.fn) (statpts solve (beta P.fn Q.fn) (Ival.half c d)) = .ok w := by
  simp only [line] at h
  cases hP : pick zd (Ival.half c d).midpoint with
  | error e => rw [hP] at h; cases h
  | ok P =>
    cases hQ : pick ze (Ival.half c d).midpoint with
    | error e => rw [hP, hQ] at h; cases h
    | ok Q =>
      rw [hP, hQ] at h
      simp only [bind, Except.bind] at h
      cases hv : maxOver (alphaAt P.fn Q.fn) (statpts solve (alpha P.fn Q.fn) (Ival.half c d)) with
      | error e => rw [hv] at h; cases h
      | ok v =>
        cases hw : maxOver (betaAt P.fn Q.fn) (statpts solve (beta P.fn Q.fn) (Ival.half c d)) with
        | error e => rw [hv] at h; simp only [hw] at h; cases h
        | ok w =>
          rw [hv] at h
          simp only [hw] at h
          exact ⟨P, Q, v, w, rfl, rfl, (Except.ok.inj h).symm, hv, hw⟩

theorem alphaAt_val {A B : ℝ → ℝ} {p w : ℝ} (h : alphaAt A B p = .ok w) : B p ≠ A p ∧ w = alpha A B p := by
  unfold alphaAt at h
  split at h
  · cases h
  · rename_i hn
    exact ⟨sub_ne_zero.mp hn, (Except.ok.inj h).symm⟩

theorem betaAt_val {A B : ℝ → ℝ} {p w : ℝ} (h : betaAt A B p = .ok w) : A p ≠ 0 ∧ w = beta A B p := by
  unfold betaAt at h
  split at h
  · cases h
  · rename_i hn
    exact ⟨hn, (Except.ok.inj h).symm⟩

/-- The lines that are printed are lines of neighbours in the list. -/
theorem lines_mem {solve : (ℝ → ℝ) → List ℝ} {zd ze : List Pc} : ∀ {ts : List (ℝ × ℝ)} {r : Ival ℝ × ℝ}, r ∈ (lines solve zd ze ts).1 →
    ∃ t ∈ ts, line solve zd ze t.1 t.2 = .ok r
  | [], r, h => by simp [lines] at h
  | t :: ts, r, h => by
    rw [lines] at h
    cases hl : line solve zd ze t.1 t.2 with
    | error e => rw [hl] at h; simp at h
    | ok a =>
      rw [hl] at h
      rcases List.mem_cons.mp h with rfl | h
      · exact ⟨t, by simp, hl⟩
      · obtain ⟨u, hu, h⟩ := lines_mem h
        exact ⟨u, by simp [hu], h⟩

/-- If no line fails, all are printed. -/
theorem lines_all {solve : (ℝ → ℝ) → List ℝ} {zd ze : List Pc} : ∀ {ts : List (ℝ × ℝ)}, (∀ t ∈ ts, ∃ r, line solve zd ze t.1 t.2 = .ok r) →
    (lines solve zd ze ts).2 = none ∧ List.Forall₂ (fun t r => line solve zd ze t.1 t.2 = .ok r) ts (lines solve zd ze ts).1
  | [], _ => ⟨rfl, .nil⟩
  | t :: ts, h => by
    obtain ⟨r, hr⟩ := h t (by simp)
    obtain ⟨h1, h2⟩ := lines_all (ts := ts) (fun u hu => h u (by simp [hu]))
    rw [lines, hr]
    exact ⟨h1, .cons hr h2⟩

/-- If only the last line fails, all other lines are printed. -/
theorem lines_last {solve : (ℝ → ℝ) → List ℝ} {zd ze : List Pc} {u : ℝ × ℝ} {e : PyErr} (hu : line solve zd ze u.1 u.2 = .error e) :
    ∀ {ts : List (ℝ × ℝ)}, (∀ t ∈ ts, ∃ r, line solve zd ze t.1 t.2 = .ok r) →
    (lines solve zd ze (ts ++ [u])).2 = some e ∧
      List.Forall₂ (fun t r => line solve zd ze t.1 t.2 = .ok r) ts (lines solve zd ze (ts ++ [u])).1
  | [], _ => by
    simp only [List.nil_append, lines, hu]
    exact ⟨trivial, .nil⟩
  | t :: ts, h => by
    obtain ⟨r, hr⟩ := h t (by simp)
    obtain ⟨h1, h2⟩ := lines_last hu (ts := ts) (fun u hu => h u (by simp [hu]))
    rw [List.cons_append, lines, hr]
    exact ⟨h1, .cons hr h2⟩

/-! ### C86 -/

/-- **C86 (every printed number is a value of the proposition).** A printed line consists of neighbours `c < d` among the end points and
of `exponent` of two estimates of the lists at a point of `[c, d]`; both estimates hold at every point between `c` and `d`; and the
number is at least `exponent` at the two ends. No assumption is made on what `sympy.solve` returns. -/
theorem C86_line (solve : (ℝ → ℝ) → List ℝ) (zd ze : List Pc) (r : Ival ℝ × ℝ) (hr : r ∈ (gap2 solve zd ze).1) :
    ∃ c d, c < d ∧ r.1 = ⟨c, d, true, false⟩ ∧ (∀ h, h ∈ zd ∨ h ∈ ze → (h.dom.x0 ≤ c ∨ d ≤ h.dom.x0) ∧ (h.dom.x1 ≤ c ∨ d ≤ h.dom.x1)) ∧
      ∃ P ∈ zd, ∃ Q ∈ ze, (∀ x, c < x → x < d → P.dom.contains x = true ∧ Q.dom.contains x = true) ∧
        (∃ x y, c ≤ x ∧ x ≤ d ∧ c ≤ y ∧ y ≤ d ∧ r.2 ≤ max (exponent (P.fn x) (Q.fn x) x) (exponent (P.fn y) (Q.fn y) y)) ∧
        exponent (P.fn c) (Q.fn c) c ≤ r.2 ∧ exponent (P.fn d) (Q.fn d) d ≤ r.2 := by
  obtain ⟨⟨c, d⟩, ht, hl⟩ := lines_mem hr
  obtain ⟨P, Q, v, w, hP, hQ, rfl, hv, hw⟩ := line_of_ok hl
  obtain ⟨k1, -, -, k4⟩ := PairZD.zip_tail_spec (crits_sorted zd ze) _ ht
  simp only at k1 k4
  obtain ⟨p1, p2, -⟩ := pick_between ht (Or.inl rfl) hP
  obtain ⟨q1, q2, -⟩ := pick_between ht (Or.inr rfl) hQ
  obtain ⟨v', e1, ⟨x, hx, e2⟩, e3⟩ := maxOver_ok (f := alphaAt P.fn Q.fn) (g := alpha P.fn Q.fn)
    (l := statpts solve (alpha P.fn Q.fn) (Ival.half c d)) (by simp [statpts]) (fun p hp => by
      obtain ⟨u, hu⟩ := maxOver_all hv p hp
      rw [hu, (alphaAt_val hu).2])
  obtain ⟨w', f1, ⟨y, hy, f2⟩, f3⟩ := maxOver_ok (f := betaAt P.fn Q.fn) (g := beta P.fn Q.fn)
    (l := statpts solve (beta P.fn Q.fn) (Ival.half c d)) (by simp [statpts]) (fun p hp => by
      obtain ⟨u, hu⟩ := maxOver_all hw p hp
      rw [hu, (betaAt_val hu).2])
  rw [hv] at e1
  rw [hw] at f1
  obtain rfl := Except.ok.inj e1
  obtain rfl := Except.ok.inj f1
  refine ⟨c, d, k1, rfl, fun h hh => ⟨k4 _ (mem_crits.mpr (Or.inr (Or.inr ⟨h, hh, Or.inl rfl⟩))),
    k4 _ (mem_crits.mpr (Or.inr (Or.inr ⟨h, hh, Or.inr rfl⟩)))⟩, P, p1, Q, q1, fun x l u => ⟨p2 x l u, q2 x l u⟩,
    ⟨x, y, (statpts_Icc k1 hx).1, (statpts_Icc k1 hx).2, (statpts_Icc k1 hy).1, (statpts_Icc k1 hy).2, ?_⟩, ?_, ?_⟩
  · rw [exponent_eq, exponent_eq, e2, f2]
    exact max_le_max (le_max_left _ _) (le_max_right _ _)
  · rw [exponent_eq]
    exact max_le_max (e3 _ (mem_statpts.mpr (Or.inr (Or.inl rfl)))) (f3 _ (mem_statpts.mpr (Or.inr (Or.inl rfl))))
  · rw [exponent_eq]
    exact max_le_max (e3 _ (mem_statpts.mpr (Or.inr (Or.inr rfl)))) (f3 _ (mem_statpts.mpr (Or.inr (Or.inr rfl))))

/-- The estimates cover `[1/2, 1)` and do not leave `[1/2, 1]`. -/
structure Tiles (ps : List Pc) : Prop where
  cover : ∀ s, 1 / 2 ≤ s → s < 1 → ∃ p ∈ ps, p.dom.x0 ≤ s ∧ s < p.dom.x1
  inside : ∀ p ∈ ps, 1 / 2 ≤ p.dom.x0 ∧ p.dom.x1 ≤ 1 ∧ p.dom.x0 < p.dom.x1
  closed : ∀ p ∈ ps, p.dom.incL = true ∧ p.dom.incU = false

theorem Tiles.contains {ps : List Pc} (h : Tiles ps) {p : Pc} (hp : p ∈ ps) {x : ℝ} : p.dom.contains x = true ↔ p.dom.x0 ≤ x ∧ x < p.dom.x1 := by
  obtain ⟨h1, h2⟩ := h.closed p hp
  simp [Ival.contains, h1, h2]

theorem crits_bounds {zd ze : List Pc} (hzd : Tiles zd) (hze : Tiles ze) {x : ℝ} (hx : x ∈ crits zd ze) : 1 / 2 ≤ x ∧ x ≤ 1 := by
  rcases mem_crits.mp hx with rfl | rfl | ⟨h, hh, hx⟩
  · norm_num
  · norm_num
  · obtain ⟨a, b, c⟩ : 1 / 2 ≤ h.dom.x0 ∧ h.dom.x1 ≤ 1 ∧ h.dom.x0 < h.dom.x1 := by
      rcases hh with hh | hh
      · exact hzd.inside h hh
      · exact hze.inside h hh
    rcases hx with rfl | rfl <;> constructor <;> linarith

/-- The intervals of the loop: neighbours, with the two estimates that are used. -/
theorem interval_spec {zd ze : List Pc} (hzd : Tiles zd) (hze : Tiles ze) {c d : ℝ} (ht : (c, d) ∈ (crits zd ze).zip (crits zd ze).tail) :
    c < d ∧ 1 / 2 ≤ c ∧ d ≤ 1 ∧ ∃ P Q, pick zd (Ival.half c d).midpoint = .ok P ∧ pick ze (Ival.half c d).midpoint = .ok Q ∧
      P ∈ zd ∧ Q ∈ ze ∧ P.dom.x0 ≤ c ∧ d ≤ P.dom.x1 ∧ Q.dom.x0 ≤ c ∧ d ≤ Q.dom.x1 := by
  obtain ⟨k1, k2, k3, -⟩ := PairZD.zip_tail_spec (crits_sorted zd ze) _ ht
  simp only at k1 k2 k3
  have b1 := (crits_bounds hzd hze k2).1
  have b2 := (crits_bounds hzd hze k3).2
  have m1 : 1 / 2 ≤ (Ival.half c d).midpoint := by simp only [Ival.half, Ival.midpoint]; linarith
  have m2 : (Ival.half c d).midpoint < 1 := by simp only [Ival.half, Ival.midpoint]; linarith
  obtain ⟨p, hp, p1, p2⟩ := hzd.cover _ m1 m2
  obtain ⟨q, hq, q1, q2⟩ := hze.cover _ m1 m2
  obtain ⟨P, hP⟩ := pick_exists ⟨p, hp, (hzd.contains hp).mpr ⟨p1, p2⟩⟩
  obtain ⟨Q, hQ⟩ := pick_exists ⟨q, hq, (hze.contains hq).mpr ⟨q1, q2⟩⟩
  obtain ⟨u1, -, u3, u4⟩ := pick_between ht (Or.inl rfl) hP
  obtain ⟨w1, -, w3, w4⟩ := pick_between ht (Or.inr rfl) hQ
  exact ⟨k1, b1, b2, P, Q, hP, hQ, u1, w1, u3, u4, w3, w4⟩

/-- **C86 (no exception).** If both lists cover `[1/2, 1)`, no bound on `A` vanishes and the bounds on `A*` and `A` differ, on the closed
intervals, the function prints all its lines: the intervals are `[c, d)` for neighbours in the sorted list of the end points, and every
`σ` in `[1/2, 1)` is in exactly one of them. -/
theorem C86_complete (solve : (ℝ → ℝ) → List ℝ) (zd ze : List Pc) (hzd : Tiles zd) (hze : Tiles ze)
    (h0 : ∀ p ∈ zd, ∀ x, p.dom.x0 ≤ x → x ≤ p.dom.x1 → p.fn x ≠ 0)
    (h1 : ∀ p ∈ zd, ∀ q ∈ ze, ∀ x, p.dom.x0 ≤ x → x ≤ p.dom.x1 → q.dom.x0 ≤ x → x ≤ q.dom.x1 → q.fn x ≠ p.fn x) :
    (gap2 solve zd ze).2 = none ∧ ∀ s : ℝ, 1 / 2 ≤ s → s < 1 → ∃! I : Ival ℝ, I.contains s = true ∧ ∃ v, (I, v) ∈ (gap2 solve zd ze).1 := by
  have hall : ∀ t ∈ (crits zd ze).zip (crits zd ze).tail, ∃ r, line solve zd ze t.1 t.2 = .ok r := by
    rintro ⟨c, d⟩ ht
    obtain ⟨k1, -, -, P, Q, hP, hQ, u1, w1, u3, u4, w3, w4⟩ := interval_spec hzd hze ht
    obtain ⟨v, w, e, -⟩ := line_ok solve k1 hP hQ (fun x l u => h0 P u1 x (u3.trans l) (u.trans u4))
      (fun x l u => h1 P u1 Q w1 x (u3.trans l) (u.trans u4) (w3.trans l) (u.trans w4))
    exact ⟨_, e⟩
  obtain ⟨e1, e2⟩ := lines_all hall
  refine ⟨e1, fun s l u => ?_⟩
  obtain ⟨⟨c, d⟩, ht, hc, hd⟩ := PairZD.zip_tail_cover (crits_sorted zd ze) (mem_crits.mpr (Or.inl rfl)) l (mem_crits.mpr (Or.inr (Or.inl rfl))) u
  simp only at hc hd
  refine ⟨Ival.half c d, ⟨half_contains.mpr ⟨hc, hd⟩, ?_⟩, ?_⟩
  · obtain ⟨i, hi, hti⟩ := List.mem_iff_getElem.mp ht
    have hh := List.forall₂_iff_get.mp e2
    have hj : i < (lines solve zd ze ((crits zd ze).zip (crits zd ze).tail)).1.length := by rw [← hh.1]; exact hi
    have := hh.2 i hi hj
    simp only [List.get_eq_getElem, hti] at this
    obtain ⟨P, Q, v, w, -, -, hr, -⟩ := line_of_ok this
    refine ⟨max v w, ?_⟩
    rw [← hr]
    exact List.getElem_mem _
  · rintro I ⟨hI, v, hv⟩
    obtain ⟨⟨c', d'⟩, ht', hl⟩ := lines_mem hv
    obtain ⟨P, Q, v', w, -, -, hr, -⟩ := line_of_ok hl
    obtain rfl := congrArg Prod.fst hr
    simp only at hI ⊢
    rw [half_contains] at hI
    have a1 := PairZD.zip_tail_spec (crits_sorted zd ze) _ ht
    have a2 := PairZD.zip_tail_spec (crits_sorted zd ze) _ ht'
    simp only at a1 a2
    have hc' : c' = c := by
      apply le_antisymm
      · rcases a1.2.2.2 c' a2.2.1 with h | h
        · exact h
        · linarith [hI.1]
      · rcases a2.2.2.2 c a1.2.1 with h | h
        · exact h
        · linarith [hI.2]
    have hd' : d' = d := by
      apply le_antisymm
      · rcases a2.2.2.2 d a1.2.2.1 with h | h
        · linarith [hI.1]
        · exact h
      · rcases a1.2.2.2 d' a2.2.2.1 with h | h
        · linarith [hI.2]
        · exact h
    rw [hc', hd']

/-- **C86 (an interval without estimate).** If the midpoint of two neighbouring end points is in no interval of one of the lists, the
function raises `StopIteration`; here for the first interval. -/
theorem C86_stop (solve : (ℝ → ℝ) → List ℝ) (zd ze : List Pc) (c d : ℝ) (cs : List ℝ) (hcs : crits zd ze = c :: d :: cs)
    (h : (∀ p ∈ zd, p.dom.contains ((c + d) / 2) = false) ∨
      ((∃ p ∈ zd, p.dom.contains ((c + d) / 2) = true) ∧ ∀ q ∈ ze, q.dom.contains ((c + d) / 2) = false)) :
    gap2 solve zd ze = ([], some .stopIteration) := by
  have hnone : ∀ ps : List Pc, (∀ p ∈ ps, p.dom.contains ((c + d) / 2) = false) → pick ps ((c + d) / 2) = .error .stopIteration := by
    intro ps hps
    have : ps.find? (fun h => h.dom.contains ((c + d) / 2)) = none := by
      rw [List.find?_eq_none]
      intro p hp
      rw [hps p hp]
      simp
    rw [pick, this]
  have hl : line solve zd ze c d = .error .stopIteration := by
    simp only [line]
    have hm : (Ival.half c d).midpoint = (c + d) / 2 := rfl
    rw [hm]
    rcases h with h | ⟨h, h'⟩
    · rw [hnone zd h]; rfl
    · obtain ⟨P, hP⟩ := pick_exists h
      rw [hP, hnone ze h']; rfl
  rw [gap2, hcs]
  simp only [List.tail_cons, List.zip_cons_cons, lines, hl]

/-- Contract of `sympy.solve` for `f' = 0`: all solutions between `c` and `d` are found, unless `f'` vanishes identically (then
`sympy.solve(0)` is empty). -/
def StatSpec (solve : (ℝ → ℝ) → List ℝ) (c d : ℝ) (f : ℝ → ℝ) : Prop :=
  ∀ x, c < x → x < d → deriv f x = 0 → x ∈ solve f ∨ ∀ y, c < y → y < d → deriv f y = 0

/-- The largest value on a closed interval is taken at an end point or at a stationary point that was found. -/
theorem max_at_statpts {solve : (ℝ → ℝ) → List ℝ} {c d : ℝ} (hcd : c < d) {f : ℝ → ℝ} (hs : StatSpec solve c d f)
    (hc : ContinuousOn f (Set.Icc c d)) (hdf : ∀ x, c < x → x < d → DifferentiableAt ℝ f x) {v : ℝ}
    (hv : ∀ p ∈ statpts solve f (Ival.half c d), f p ≤ v) : ∀ x, c ≤ x → x ≤ d → f x ≤ v := by
  obtain ⟨m, hm, hmax⟩ := isCompact_Icc.exists_isMaxOn (Set.nonempty_Icc.mpr hcd.le) hc
  have hle : f m ≤ v := by
    by_cases h1 : m = c
    · exact hv m (mem_statpts.mpr (Or.inr (Or.inl h1)))
    by_cases h2 : m = d
    · exact hv m (mem_statpts.mpr (Or.inr (Or.inr h2)))
    have m1 : c < m := lt_of_le_of_ne hm.1 (Ne.symm h1)
    have m2 : m < d := lt_of_le_of_ne hm.2 h2
    have hloc : IsLocalMax f m := by
      filter_upwards [Ioo_mem_nhds m1 m2] with y hy
      exact hmax ⟨hy.1.le, hy.2.le⟩
    rcases hs m m1 m2 hloc.deriv_eq_zero with h | h
    · exact hv m (mem_statpts.mpr (Or.inl ⟨h, m1.le, m2⟩))
    · have hconst : f m = f c := by
        by_contra hne
        obtain ⟨z, hz, hz'⟩ := exists_deriv_eq_slope f m1 (hc.mono (Set.Icc_subset_Icc le_rfl m2.le))
          (fun x hx => (hdf x hx.1 (hx.2.trans m2)).differentiableWithinAt)
        rw [h z hz.1 (hz.2.trans m2)] at hz'
        have : f m - f c = 0 := by
          have := (div_eq_zero_iff.mp hz'.symm).resolve_right (sub_ne_zero.mpr m1.ne')
          exact this
        exact hne (sub_eq_zero.mp this)
      rw [hconst]
      exact hv c (mem_statpts.mpr (Or.inr (Or.inl rfl)))
  exact fun x l u => (hmax ⟨l, u⟩ : f x ≤ f m).trans hle

/-- An estimate is continuous on its closed interval and differentiable inside. -/
def Smooth (p : Pc) : Prop :=
  ContinuousOn p.fn (Set.Icc p.dom.x0 p.dom.x1) ∧ ∀ x, p.dom.x0 < x → x < p.dom.x1 → DifferentiableAt ℝ p.fn x

/-- **C86 (the printed numbers are the suprema).** For smooth estimates as in `C86_complete`, and if `sympy.solve` finds the stationary
points: the number printed for `[c, d)` is the largest value of `exponent` on `[c, d]`, for two estimates that hold there. In
particular no `σ` in `[1/2, 1)` is forgotten: `exponent` at `σ` is at most the number of the line of `σ`. -/
theorem C86_supremum (solve : (ℝ → ℝ) → List ℝ) (zd ze : List Pc) (hzd : Tiles zd) (hze : Tiles ze)
    (h0 : ∀ p ∈ zd, ∀ x, p.dom.x0 ≤ x → x ≤ p.dom.x1 → p.fn x ≠ 0)
    (h1 : ∀ p ∈ zd, ∀ q ∈ ze, ∀ x, p.dom.x0 ≤ x → x ≤ p.dom.x1 → q.dom.x0 ≤ x → x ≤ q.dom.x1 → q.fn x ≠ p.fn x)
    (hsm : ∀ p, p ∈ zd ∨ p ∈ ze → Smooth p)
    (hsolve : ∀ p ∈ zd, ∀ q ∈ ze, ∀ c d, StatSpec solve c d (alpha p.fn q.fn) ∧ StatSpec solve c d (beta p.fn q.fn))
    (r : Ival ℝ × ℝ) (hr : r ∈ (gap2 solve zd ze).1) :
    ∃ P ∈ zd, ∃ Q ∈ ze, P.dom.x0 ≤ r.1.x0 ∧ r.1.x1 ≤ P.dom.x1 ∧ Q.dom.x0 ≤ r.1.x0 ∧ r.1.x1 ≤ Q.dom.x1 ∧
      IsGreatest ((fun x => exponent (P.fn x) (Q.fn x) x) '' Set.Icc r.1.x0 r.1.x1) r.2 := by
  obtain ⟨⟨c, d⟩, ht, hl⟩ := lines_mem hr
  obtain ⟨k1, -, -, P, Q, hP, hQ, u1, w1, u3, u4, w3, w4⟩ := interval_spec hzd hze ht
  have n0 : ∀ x, c ≤ x → x ≤ d → P.fn x ≠ 0 := fun x l u => h0 P u1 x (u3.trans l) (u.trans u4)
  have n1 : ∀ x, c ≤ x → x ≤ d → Q.fn x ≠ P.fn x := fun x l u => h1 P u1 Q w1 x (u3.trans l) (u.trans u4) (w3.trans l) (u.trans w4)
  obtain ⟨v, w, e, ⟨x, hx, e1⟩, e2, ⟨y, hy, f1⟩, f2⟩ := line_ok solve k1 hP hQ n0 n1
  simp only at hl
  rw [e] at hl
  obtain rfl := Except.ok.inj hl
  obtain ⟨cP, dP⟩ := hsm P (Or.inl u1)
  obtain ⟨cQ, dQ⟩ := hsm Q (Or.inr w1)
  have cP' : ContinuousOn P.fn (Set.Icc c d) := cP.mono (Set.Icc_subset_Icc u3 u4)
  have cQ' : ContinuousOn Q.fn (Set.Icc c d) := cQ.mono (Set.Icc_subset_Icc w3 w4)
  have dP' : ∀ x, c < x → x < d → DifferentiableAt ℝ P.fn x := fun x l u => dP x (u3.trans_lt l) (u.trans_le u4)
  have dQ' : ∀ x, c < x → x < d → DifferentiableAt ℝ Q.fn x := fun x l u => dQ x (w3.trans_lt l) (u.trans_le w4)
  have hα : ∀ x, c ≤ x → x ≤ d → alpha P.fn Q.fn x ≤ v := by
    refine max_at_statpts k1 (hsolve P u1 Q w1 c d).1 ?_ ?_ e2
    · unfold alpha
      refine ContinuousOn.add (by fun_prop) (ContinuousOn.div (by fun_prop) (by fun_prop) (fun x hx => sub_ne_zero.mpr (n1 x hx.1 hx.2)))
    · intro x l u
      have d1 := dP' x l u
      have d2 := dQ' x l u
      have := sub_ne_zero.mpr (n1 x l.le u.le)
      unfold alpha
      refine DifferentiableAt.add (by fun_prop) (DifferentiableAt.div (by fun_prop) (by fun_prop) this)
  have hβ : ∀ x, c ≤ x → x ≤ d → beta P.fn Q.fn x ≤ w := by
    refine max_at_statpts k1 (hsolve P u1 Q w1 c d).2 ?_ ?_ f2
    · unfold beta
      refine ContinuousOn.add (by fun_prop) (ContinuousOn.div (by fun_prop) (by fun_prop) (fun x hx => n0 x hx.1 hx.2))
    · intro x l u
      have d1 := dP' x l u
      have d2 := dQ' x l u
      have := n0 x l.le u.le
      unfold beta
      refine DifferentiableAt.add (by fun_prop) (DifferentiableAt.div (by fun_prop) (by fun_prop) this)
  refine ⟨P, u1, Q, w1, u3, u4, w3, w4, ?_, ?_⟩
  · rcases le_total v w with h | h
    · refine ⟨y, ⟨(statpts_Icc k1 hy).1, (statpts_Icc k1 hy).2⟩, ?_⟩
      simp only
      rw [exponent_eq, ← f1, max_eq_right h, max_eq_right]
      exact (hα y (statpts_Icc k1 hy).1 (statpts_Icc k1 hy).2).trans h
    · refine ⟨x, ⟨(statpts_Icc k1 hx).1, (statpts_Icc k1 hx).2⟩, ?_⟩
      simp only
      rw [exponent_eq, ← e1, max_eq_left h, max_eq_left]
      exact (hβ x (statpts_Icc k1 hx).1 (statpts_Icc k1 hx).2).trans h
  · rintro _ ⟨z, hz, rfl⟩
    simp only
    rw [exponent_eq]
    exact max_le_max (hα z hz.1 hz.2) (hβ z hz.1 hz.2)

/-! ### Examples, and the term `2 - 2/‖A‖∞` -/

/-- `A = 4` and then `1/2`. -/
noncomputable def exA : List Pc := [⟨fun _ => 4, ⟨1 / 2, 5 / 8, true, false⟩⟩, ⟨fun _ => 1 / 2, ⟨5 / 8, 1, true, false⟩⟩]
/-- `B = 12` and then `3/2`. -/
noncomputable def exB : List Pc := [⟨fun _ => 12, ⟨1 / 2, 5 / 8, true, false⟩⟩, ⟨fun _ => 3 / 2, ⟨5 / 8, 1, true, false⟩⟩]

theorem tiles_two (f g : ℝ → ℝ) : Tiles [⟨f, ⟨1 / 2, 5 / 8, true, false⟩⟩, ⟨g, ⟨5 / 8, 1, true, false⟩⟩] := by
  refine ⟨fun s l u => ?_, ?_, ?_⟩
  · rcases lt_or_ge s (5 / 8) with h | h
    · exact ⟨_, List.mem_cons_self, l, h⟩
    · exact ⟨_, List.mem_cons_of_mem _ List.mem_cons_self, h, u⟩
  · intro p hp
    simp only [List.mem_cons, List.not_mem_nil, or_false] at hp
    rcases hp with rfl | rfl <;> norm_num
  · intro p hp
    simp only [List.mem_cons, List.not_mem_nil, or_false] at hp
    rcases hp with rfl | rfl <;> exact ⟨rfl, rfl⟩

theorem exA_ne : ∀ p ∈ exA, ∀ x, p.dom.x0 ≤ x → x ≤ p.dom.x1 → p.fn x ≠ 0 := by
  intro p hp x _ _
  simp only [exA, List.mem_cons, List.not_mem_nil, or_false] at hp
  rcases hp with rfl | rfl <;> norm_num

theorem exB_ne : ∀ p ∈ exA, ∀ q ∈ exB, ∀ x, p.dom.x0 ≤ x → x ≤ p.dom.x1 → q.dom.x0 ≤ x → x ≤ q.dom.x1 → q.fn x ≠ p.fn x := by
  intro p hp q hq x _ _ _ _
  simp only [exA, exB, List.mem_cons, List.not_mem_nil, or_false] at hp hq
  rcases hp with rfl | rfl <;> rcases hq with rfl | rfl <;> norm_num

theorem stat_lin {f : ℝ → ℝ} {m k : ℝ} (h : f = fun x => m * x + k) (c d : ℝ) : StatSpec (fun _ => []) c d f := by
  have hd : ∀ x, deriv f x = m := by
    intro x
    rw [h]
    simp
  intro x _ _ h0
  refine Or.inr fun y _ _ => ?_
  rw [hd] at h0 ⊢
  exact h0

theorem stat_const (a b : ℝ) (c d : ℝ) : StatSpec (fun _ => []) c d (alpha (fun _ => a) (fun _ => b)) ∧
    StatSpec (fun _ => []) c d (beta (fun _ => a) (fun _ => b)) := by
  constructor
  · refine stat_lin (m := 4 - 2 * b / (b - a)) (k := -2 + 2 * (b - 1) / (b - a)) ?_ c d
    funext x
    simp only [alpha]
    ring
  · refine stat_lin (m := 4 - b / a) (k := -2 + (b - 1) / a) ?_ c d
    funext x
    simp only [beta]
    ring

/-- The hypotheses of `C86_complete` and `C86_supremum` hold for this example. -/
example : Tiles exA ∧ Tiles exB ∧ (∀ p, p ∈ exA ∨ p ∈ exB → Smooth p) ∧ (∀ p ∈ exA, ∀ q ∈ exB, ∀ c d,
    StatSpec (fun _ => []) c d (alpha p.fn q.fn) ∧ StatSpec (fun _ => []) c d (beta p.fn q.fn)) ∧
    (gap2 (fun _ => []) exA exB).2 = none ∧ ∃ r ∈ (gap2 (fun _ => []) exA exB).1, r.1.contains (1 / 2) = true := by
  refine ⟨tiles_two _ _, tiles_two _ _, ?_, ?_, (C86_complete _ _ _ (tiles_two _ _) (tiles_two _ _) exA_ne exB_ne).1, ?_⟩
  · intro p hp
    simp only [exA, exB, List.mem_cons, List.not_mem_nil, or_false] at hp
    rcases hp with (rfl | rfl) | (rfl | rfl) <;> exact ⟨continuousOn_const, fun x _ _ => differentiableAt_const _⟩
  · intro p hp q hq c d
    simp only [exA, exB, List.mem_cons, List.not_mem_nil, or_false] at hp hq
    rcases hp with rfl | rfl <;> rcases hq with rfl | rfl <;> exact stat_const _ _ c d
  · obtain ⟨I, ⟨h1, v, h2⟩, -⟩ := (C86_complete (fun _ => []) exA exB (tiles_two _ _) (tiles_two _ _) exA_ne exB_ne).2 (1 / 2) le_rfl (by norm_num)
    exact ⟨_, h2, h1⟩

/-- **C86 (a forgotten term).** The proposition bounds `θ_gap,2` by the maximum of `2 - 2/‖A‖∞` and of the supremum of `exponent`
(primes.tex:186-194). `compute_gap2` prints values of `exponent` only. The term is not always the smaller one: for `A = 4`, `B = 12`
on `[1/2, 5/8)` and `A = 1/2`, `B = 3/2` on `[5/8, 1)` all printed numbers are at most `11/8`, and the proposition gives `3/2`. -/
theorem C86_term_counterexample : Tiles exA ∧ Tiles exB ∧ (gap2 (fun _ => []) exA exB).2 = none ∧
    (∀ s : ℝ, 1 / 2 ≤ s → s < 1 → ∃ r ∈ (gap2 (fun _ => []) exA exB).1, r.1.contains s = true) ∧
    (∀ r ∈ (gap2 (fun _ => []) exA exB).1, r.2 ≤ 11 / 8) ∧
    (∃ p ∈ exA, p.fn (1 / 2) = 4 ∧ p.dom.contains (1 / 2) = true) ∧ (11 / 8 : ℝ) < 2 - 2 / 4 := by
  obtain ⟨h1, h2⟩ := C86_complete (fun _ => []) exA exB (tiles_two _ _) (tiles_two _ _) exA_ne exB_ne
  refine ⟨tiles_two _ _, tiles_two _ _, h1, fun s l u => ?_, fun r hr => ?_, ⟨_, List.mem_cons_self, rfl, half_contains.mpr (by norm_num)⟩, by norm_num⟩
  · obtain ⟨I, ⟨a, v, b⟩, -⟩ := h2 s l u
    exact ⟨_, b, a⟩
  · obtain ⟨c, d, k1, -, -, P, hP, Q, hQ, k2, ⟨x, y, x1, x2, y1, y2, hle⟩, -⟩ := C86_line _ _ _ r hr
    obtain ⟨m1, m2⟩ := k2 ((c + d) / 2) (by linarith) (by linarith)
    have cl : ∀ p ∈ exA ++ exB, c < d → (∀ x, c < x → x < d → p.dom.contains x = true) → p.dom.x0 ≤ c ∧ d ≤ p.dom.x1 := by
      intro p hp _ hall
      constructor
      · by_contra hcon
        push Not at hcon
        have := (contains_closed (hall ((c + min d p.dom.x0) / 2) (by have := lt_min k1 hcon; linarith) (by have := min_le_left d p.dom.x0; linarith))).1
        have := lt_min k1 hcon
        have := min_le_right d p.dom.x0
        linarith
      · by_contra hcon
        push Not at hcon
        have := (contains_closed (hall ((d + max c p.dom.x1) / 2) (by have := le_max_left c p.dom.x1; linarith) (by have := max_lt k1 hcon; linarith))).2
        have := max_lt k1 hcon
        have := le_max_right c p.dom.x1
        linarith
    obtain ⟨a1, a2⟩ := cl P (List.mem_append_left _ hP) k1 (fun x l u => (k2 x l u).1)
    obtain ⟨b1, b2⟩ := cl Q (List.mem_append_right _ hQ) k1 (fun x l u => (k2 x l u).2)
    refine hle.trans ?_
    simp only [exA, exB, List.mem_cons, List.not_mem_nil, or_false] at hP hQ
    rcases hP with rfl | rfl <;> rcases hQ with rfl | rfl <;> simp only at a1 a2 b1 b2
    · refine max_le (max_le ?_ ?_) (max_le ?_ ?_) <;> linarith
    · linarith
    · linarith
    · refine max_le (max_le ?_ ?_) (max_le ?_ ?_) <;> ring_nf <;> linarith

/-- An example for `C86_stop`: no energy estimate at all. -/
example : crits [⟨fun _ => 2, ⟨1 / 2, 1, true, false⟩⟩] [] = [1 / 2, 1] ∧
    (∃ p ∈ [(⟨fun _ => 2, ⟨1 / 2, 1, true, false⟩⟩ : Pc)], p.dom.contains ((1 / 2 + 1) / 2) = true) := by
  refine ⟨?_, _, List.mem_cons_self, half_contains.mpr (by norm_num)⟩
  have h1 : ([1 / 2, 1] ++ [(⟨fun _ => 2, ⟨1 / 2, 1, true, false⟩⟩ : Pc)].map (fun h : Pc => h.dom.x0) ++
      [(⟨fun _ => 2, ⟨1 / 2, 1, true, false⟩⟩ : Pc)].map (fun h : Pc => h.dom.x1) ++ [] ++ [] : List ℝ).dedup = [1 / 2, 1] := by
    simp only [List.map_cons, List.map_nil, List.append_nil, List.cons_append, List.nil_append]
    rw [List.dedup_cons_of_mem (by simp), List.dedup_cons_of_mem (by simp), List.dedup_cons_of_notMem (by norm_num), List.dedup_cons_of_notMem (by simp), List.dedup_nil]
  rw [crits, List.map_nil, List.map_nil, h1]
  simp only [List.insertionSort_cons, List.insertionSort_nil, List.orderedInsert]
  norm_num

end PrimeGap
end Expdb
