import Verif.Props.BetaOrder
import Verif.Props.BetaPairs

/-!
# Property C37 for bounds in any order
-/

namespace Expdb
namespace BetaPairs

open Expdb.EP Expdb.Hull Expdb.Interval Expdb.Affine

/-- The smallest value at `x` of the given bounds. -/
def Least (bounds : List (Affine (Option ℕ))) (x v : ℚ) : Prop :=
  HasValue bounds x v ∧ ∀ w, HasValue bounds x w → v ≤ w

theorem inDomain_half (x : ℚ) : InDomain (some half) x ↔ 0 ≤ x ∧ x ≤ 1 / 2 := by
  unfold InDomain
  constructor
  · intro h
    rcases h half rfl with ⟨h1 | ⟨_, h1⟩, h2 | ⟨_, h2⟩⟩ <;> simp only [half] at h1 h2 <;> constructor <;> linarith
  · rintro ⟨a, b⟩ D hD
    cases hD
    constructor
    · rcases eq_or_lt_of_le a with h | h
      · exact Or.inr ⟨rfl, h.symm⟩
      · exact Or.inl h
    · rcases eq_or_lt_of_le b with h | h
      · exact Or.inr ⟨rfl, h⟩
      · exact Or.inl h

/-- Of finitely many values one is the smallest. -/
theorem exists_least (fs : List (Affine (Option ℕ))) (x v : ℚ) (hv : HasValue fs x v) : ∃ w, Least fs x w := by
  unfold Least
  induction fs generalizing v with
  | nil => obtain ⟨f, hf, _⟩ := hv; simp at hf
  | cons f fs ih =>
    have hsplit : ∀ u, HasValue (f :: fs) x u ↔ HasValue [f] x u ∨ HasValue fs x u := by
      intro u
      unfold HasValue
      simp only [List.mem_cons, List.not_mem_nil, or_false, exists_eq_or_imp, exists_eq_left]
    have hone : ∀ u, HasValue [f] x u → u = f.m * x + f.c := by
      rintro u ⟨g, hg, _, hu⟩
      rw [List.mem_singleton] at hg
      subst hg
      exact hu.symm
    by_cases hr : ∃ u, HasValue fs x u
    · obtain ⟨u, hu⟩ := hr
      obtain ⟨w, w1, w2⟩ := ih u hu
      by_cases hf : HasValue [f] x (f.m * x + f.c) ∧ f.m * x + f.c ≤ w
      · refine ⟨f.m * x + f.c, (hsplit _).mpr (Or.inl hf.1), ?_⟩
        intro u hu
        rcases (hsplit u).mp hu with h | h
        · exact (hone u h).ge
        · exact le_trans hf.2 (w2 u h)
      · refine ⟨w, (hsplit _).mpr (Or.inr w1), ?_⟩
        intro u hu
        rcases (hsplit u).mp hu with h | h
        · have e := hone u h
          rw [e] at h ⊢
          by_contra hlt
          exact hf ⟨h, le_of_not_ge hlt⟩
        · exact w2 u h
    · rcases (hsplit v).mp hv with h | h
      · refine ⟨v, hv, ?_⟩
        intro u hu
        rcases (hsplit u).mp hu with h' | h'
        · rw [hone u h', hone v h]
        · exact absurd ⟨u, h'⟩ hr
      · exact absurd ⟨v, h⟩ hr

/-- A line is above the pieces of the minimum exactly if it is above the minimum. -/
theorem above_iff (best bounds : List (Affine (Option ℕ))) (hle : ∀ f ∈ best, f.dom.x0 ≤ f.dom.x1)
    (hne : ∀ f ∈ best, ∃ x, Mem f.dom.x0 f.dom.x1 f.dom.incL f.dom.incU x)
    (h : ∀ x v, HasValue best x v ↔ (0 ≤ x ∧ x ≤ 1 / 2) ∧ Least bounds x v) (k l : ℚ) :
    Above best k l ↔ ∀ x v, 0 ≤ x → x ≤ 1 / 2 → Least bounds x v → v ≤ k + (l - k) * x := by
  constructor
  · intro ha x v h0 h1 hl
    obtain ⟨f, hf, hfm, hfv⟩ := (h x v).mpr ⟨⟨h0, h1⟩, hl⟩
    have hcl : f.dom.x0 ≤ x ∧ x ≤ f.dom.x1 := by
      rcases hfm with ⟨h1 | ⟨_, h1⟩, h2 | ⟨_, h2⟩⟩ <;> constructor <;> linarith
    have := ha f hf x hcl.1 hcl.2
    rw [hfv] at this
    exact this
  · intro hl f hf x hx0 hx1
    have hn := nonneg_ends f.dom (hle f hf) (hne f hf) (l - k - f.m) (k - f.c) (fun y hy => by
      obtain ⟨⟨y0, y1⟩, hy2⟩ := (h y (f.m * y + f.c)).mp ⟨f, hf, hy, rfl⟩
      have := hl y _ y0 y1 hy2
      linarith)
    rcases eq_or_lt_of_le (hle f hf) with e | e
    · have : x = f.dom.x0 := by linarith
      subst this
      linarith [hn.1]
    · have a := mul_nonneg (by linarith : 0 ≤ f.dom.x1 - x) hn.1
      have b := mul_nonneg (by linarith : 0 ≤ x - f.dom.x0) hn.2
      have c : 0 ≤ (f.dom.x1 - f.dom.x0) * ((l - k - f.m) * x + (k - f.c)) := by linarith
      have := nonneg_of_mul_nonneg_right c (by linarith)
      linarith

/-- The pieces of the best bounds on [0, 1/2], whatever the order of the bounds: they are good, reach both ends and do not all
vanish, and a line is above them when it is above the minimum of the bounds. -/
theorem any_order_setup (init : List Beta.Hyp)
    (last : Beta.Hyp) (hb : ∀ h ∈ init ++ [last], h.bound.dom.Constructible)
    (hc : ∀ x, 0 ≤ x → x ≤ 1 / 2 → ∃ v, HasValue (init.map Beta.Hyp.bound) x v)
    (hnn : ∀ x v, 0 ≤ x → x ≤ 1 / 2 → HasValue ((init ++ [last]).map Beta.Hyp.bound) x v → 0 ≤ v)
    (hpos : ∃ x v, 0 ≤ x ∧ x ≤ 1 / 2 ∧ Least ((init ++ [last]).map Beta.Hyp.bound) x v ∧ 0 < v) :
    ∃ best, Beta.computeBest (init ++ [last]) half = .ok best ∧ Good (best.map Beta.Best.bound) ∧
      (∀ k l, Above (best.map Beta.Best.bound) k l ↔
        ∀ y v, 0 ≤ y → y ≤ 1 / 2 → Least ((init ++ [last]).map Beta.Hyp.bound) y v → v ≤ k + (l - k) * y) ∧
      (∃ f0 g0, (best.map Beta.Best.bound).head? = some f0 ∧ (best.map Beta.Best.bound).getLast? = some g0 ∧ f0.dom.x0 = 0 ∧
        g0.dom.x1 = 1 / 2) ∧
      ∃ f ∈ best.map Beta.Best.bound, 0 < f.m * f.dom.x0 + f.c ∨ 0 < f.m * f.dom.x1 + f.c := by
  obtain ⟨best, e1, e2, e3, e4⟩ := Beta.C51_any_order_partial init last half
    ⟨0, (inDomain_half 0).mpr (by norm_num)⟩
    ((constructible_iff _).mpr (by simp only [half]; norm_num)) hb
    (fun x hx => hc x ((inDomain_half x).mp hx).1 ((inDomain_half x).mp hx).2)
  generalize hB : (init ++ [last]).map Beta.Hyp.bound = bounds at *
  have hL : ∀ x v, HasValue (best.map Beta.Best.bound) x v ↔ (0 ≤ x ∧ x ≤ 1 / 2) ∧ Least bounds x v := by
    intro x v
    rw [e3, inDomain_half]
    rfl
  have hle : ∀ f ∈ best.map Beta.Best.bound, f.dom.x0 ≤ f.dom.x1 := by
    intro f hf
    obtain ⟨o, ho', rfl⟩ := List.mem_map.mp hf
    exact (constructible_iff _).mp (e4 o ho').1
  have hne : ∀ f ∈ best.map Beta.Best.bound, ∃ x, Mem f.dom.x0 f.dom.x1 f.dom.incL f.dom.incU x := by
    intro f hf
    obtain ⟨o, ho', rfl⟩ := List.mem_map.mp hf
    obtain ⟨_, ⟨y, w, f', hf', hy, _⟩, _⟩ := e4 o ho'
    rw [List.mem_singleton] at hf'
    subst hf'
    exact ⟨y, hy⟩
  have hab := above_iff _ bounds hle hne hL
  have hval : ∀ f ∈ best.map Beta.Best.bound, ∀ y, Mem f.dom.x0 f.dom.x1 f.dom.incL f.dom.incU y →
      0 ≤ y ∧ y ≤ 1 / 2 ∧ 0 ≤ f.m * y + f.c := by
    intro f hf y hy
    obtain ⟨⟨a1, a2⟩, b⟩ := (hL y (f.m * y + f.c)).mp ⟨f, hf, hy, rfl⟩
    exact ⟨a1, a2, hnn y _ a1 a2 b.1⟩
  have hg : Good (best.map Beta.Best.bound) := by
    intro f hf
    have n1 := nonneg_ends _ (hle f hf) (hne f hf) 1 0 (fun z hz => by have := (hval _ hf z hz).1; linarith)
    have n2 := nonneg_ends _ (hle f hf) (hne f hf) (-1) (1 / 2) (fun z hz => by have := (hval _ hf z hz).2.1; linarith)
    have n3 := nonneg_ends _ (hle f hf) (hne f hf) f.m f.c (fun z hz => (hval _ hf z hz).2.2)
    exact ⟨by linarith [n1.1], hle f hf, by linarith [n2.2], n3.1, n3.2⟩
  -- there is a piece at every point
  have hpiece : ∀ x, 0 ≤ x → x ≤ 1 / 2 → ∃ f ∈ best.map Beta.Best.bound, Mem f.dom.x0 f.dom.x1 f.dom.incL f.dom.incU x := by
    intro x h0 h1
    obtain ⟨v, f, hf, r⟩ := hc x h0 h1
    obtain ⟨w, hw⟩ := exists_least bounds x v ⟨f, by rw [← hB]; simp only [List.map_append, List.mem_append]; exact Or.inl hf, r⟩
    obtain ⟨g, hg, hgm, _⟩ := (hL x w).mpr ⟨⟨h0, h1⟩, hw⟩
    exact ⟨g, hg, hgm⟩
  obtain ⟨f, hf, hfm⟩ := hpiece 0 (le_refl _) (by norm_num)
  obtain ⟨g, hg', hgm⟩ := hpiece (1 / 2) (by norm_num) (le_refl _)
  have hord := e2
  unfold Ordered at hord
  have hhead : ∃ f0, (best.map Beta.Best.bound).head? = some f0 ∧ f0.dom.x0 = 0 := by
    cases hbm : best.map Beta.Best.bound with
    | nil => rw [hbm] at hf; simp at hf
    | cons f0 rest =>
      refine ⟨f0, rfl, ?_⟩
      rw [hbm] at hf hord
      have hfe : f = f0 := by
        rcases List.mem_cons.mp hf with h | h
        · exact h
        · obtain ⟨y, hy⟩ := hne f0 (by rw [hbm]; simp)
          have := (List.pairwise_cons.mp hord).1 f h y 0 hy hfm
          have h2 := (hval f0 (by rw [hbm]; simp) y hy).1
          linarith
      subst hfe
      have h2 := (hg f (by rw [hbm]; simp)).1
      rcases hfm.1 with h | ⟨_, h⟩ <;> linarith
  have hlast : ∃ g0, (best.map Beta.Best.bound).getLast? = some g0 ∧ g0.dom.x1 = 1 / 2 := by
    rcases List.eq_nil_or_concat' (best.map Beta.Best.bound) with hbm | ⟨ini, g0, hbm⟩
    · rw [hbm] at hg'; simp at hg'
    · refine ⟨g0, by rw [hbm]; simp, ?_⟩
      rw [hbm] at hg' hord
      have hge : g = g0 := by
        rcases List.mem_append.mp hg' with h | h
        · obtain ⟨y, hy⟩ := hne g0 (by rw [hbm]; simp)
          have := (List.pairwise_append.mp hord).2.2 g h g0 (by simp) (1 / 2) y hgm hy
          have h2 := (hval g0 (by rw [hbm]; simp) y hy).2.1
          linarith
        · simpa using h
      subst hge
      have h2 := (hg g (by rw [hbm]; simp)).2.2.1
      rcases hgm.2 with h | ⟨_, h⟩ <;> linarith
  obtain ⟨f0, hf0, hf0'⟩ := hhead
  obtain ⟨g0, hg0, hg0'⟩ := hlast
  have hp : ∃ f ∈ best.map Beta.Best.bound, 0 < f.m * f.dom.x0 + f.c ∨ 0 < f.m * f.dom.x1 + f.c := by
    obtain ⟨x, v, h0, h1, hl, hv⟩ := hpos
    obtain ⟨q, hq, hqm, hqv⟩ := (hL x v).mpr ⟨⟨h0, h1⟩, hl⟩
    refine ⟨q, hq, ?_⟩
    by_contra hcon
    push Not at hcon
    have hcl : q.dom.x0 ≤ x ∧ x ≤ q.dom.x1 := by
      rcases hqm with ⟨h1 | ⟨_, h1⟩, h2 | ⟨_, h2⟩⟩ <;> constructor <;> linarith
    rcases eq_or_lt_of_le (hle q hq) with e | e
    · have : x = q.dom.x0 := by linarith
      subst this
      linarith [hcon.1]
    · have a := mul_nonneg (by linarith : 0 ≤ q.dom.x1 - x) (by linarith [hcon.1] : 0 ≤ -(q.m * q.dom.x0 + q.c))
      have b := mul_nonneg (by linarith : 0 ≤ x - q.dom.x0) (by linarith [hcon.2] : 0 ≤ -(q.m * q.dom.x1 + q.c))
      have c : 0 ≤ (q.dom.x1 - q.dom.x0) * (-(q.m * x + q.c)) := by linarith
      have := nonneg_of_mul_nonneg_right c (by linarith)
      linarith
  exact ⟨best, e1, hg, hab, ⟨f0, g0, hf0, hg0, hf0', hg0'⟩, hp⟩

/-- **C37** (the whole computation, in any order; partial: the bounds other than the last one cover [0, 1/2], none is
negative there and their minimum is positive somewhere). Exponent pairs are returned; the line of every new pair is
above the minimum of the bounds on [0, 1/2]; and at every point of [0, 1/2) the line of one of the returned pairs, which
is above the minimum, is the lowest of all lines above the minimum. -/
theorem C37_any_order_partial (hull : List (ℚ × ℚ) → Py (List ℕ)) (hs : HullSpec hull) (init : List Beta.Hyp)
    (last : Beta.Hyp) (hb : ∀ h ∈ init ++ [last], h.bound.dom.Constructible)
    (hc : ∀ x, 0 ≤ x → x ≤ 1 / 2 → ∃ v, HasValue (init.map Beta.Hyp.bound) x v)
    (hnn : ∀ x v, 0 ≤ x → x ≤ 1 / 2 → HasValue ((init ++ [last]).map Beta.Hyp.bound) x v → 0 ≤ v)
    (hpos : ∃ x v, 0 ≤ x ∧ x ≤ 1 / 2 ∧ Least ((init ++ [last]).map Beta.Hyp.bound) x v ∧ 0 < v)
    (known : List Ep) (hasB : Bool) :
    ∃ out, fromBeta hull (init ++ [last]) known hasB = .ok out ∧
      (∀ k l deps, .tangent k l deps ∈ out → ∀ x v, 0 ≤ x → x ≤ 1 / 2 →
        Least ((init ++ [last]).map Beta.Hyp.bound) x v → v ≤ k + (l - k) * x) ∧
      (∀ x, 0 ≤ x → x < 1 / 2 → ∃ o ∈ out,
        (∀ y v, 0 ≤ y → y ≤ 1 / 2 → Least ((init ++ [last]).map Beta.Hyp.bound) y v →
          v ≤ o.key.1 + (o.key.2 - o.key.1) * y) ∧
        ∀ k l, (∀ y v, 0 ≤ y → y ≤ 1 / 2 → Least ((init ++ [last]).map Beta.Hyp.bound) y v → v ≤ k + (l - k) * y) →
          o.key.1 + (o.key.2 - o.key.1) * x ≤ k + (l - k) * x) := by
  obtain ⟨best, e1, hg, hab, ⟨f0, g0, hf0, hg0, hf0', hg0'⟩, hp⟩ := any_order_setup init last hb hc hnn hpos
  obtain ⟨out, o1, o2⟩ := C37_optimal_partial hull hs _ hg f0 g0 hf0 hg0 hf0' hg0' hp known hasB
  refine ⟨out, ?_, ?_, ?_⟩
  · unfold fromBeta
    rw [e1]
    exact o1
  · intro k l deps ho
    rw [← hab]
    rcases C37_tangent_partial hull hs _ hg known hasB out o1 _ ho with ⟨e, _, hc⟩ | ⟨k', l', d', hc, ha⟩ | ⟨_, o', _, _, hc, _⟩
    · cases hc
    · cases hc; exact ha
    · cases hc
  · intro x h0 h1
    obtain ⟨o, ho, p1, p2⟩ := o2 x h0 h1
    exact ⟨o, ho, (hab _ _).mp p1, fun k l hkl => p2 k l ((hab k l).mpr hkl)⟩

/-- **C37** (a line that is touched twice is found) If a line is above the minimum of the bounds and meets it at two
points of [0, 1/2], its pair is among the returned pairs. -/
theorem C37_touched_partial (hull : List (ℚ × ℚ) → Py (List ℕ)) (hs : HullSpec hull) (init : List Beta.Hyp)
    (last : Beta.Hyp) (hb : ∀ h ∈ init ++ [last], h.bound.dom.Constructible)
    (hc : ∀ x, 0 ≤ x → x ≤ 1 / 2 → ∃ v, HasValue (init.map Beta.Hyp.bound) x v)
    (hnn : ∀ x v, 0 ≤ x → x ≤ 1 / 2 → HasValue ((init ++ [last]).map Beta.Hyp.bound) x v → 0 ≤ v)
    (hpos : ∃ x v, 0 ≤ x ∧ x ≤ 1 / 2 ∧ Least ((init ++ [last]).map Beta.Hyp.bound) x v ∧ 0 < v)
    (known : List Ep) (hasB : Bool) (k l a b : ℚ) (ha : 0 ≤ a) (hab : a < b) (hb1 : b ≤ 1 / 2)
    (hkl : ∀ y v, 0 ≤ y → y ≤ 1 / 2 → Least ((init ++ [last]).map Beta.Hyp.bound) y v → v ≤ k + (l - k) * y)
    (hta : Least ((init ++ [last]).map Beta.Hyp.bound) a (k + (l - k) * a))
    (htb : Least ((init ++ [last]).map Beta.Hyp.bound) b (k + (l - k) * b)) :
    ∃ out, fromBeta hull (init ++ [last]) known hasB = .ok out ∧ ∃ o ∈ out, o.key = (k, l) := by
  obtain ⟨out, h1, _, h3⟩ := C37_any_order_partial hull hs init last hb hc hnn hpos known hasB
  refine ⟨out, h1, ?_⟩
  obtain ⟨o, ho, p1, p2⟩ := h3 ((a + b) / 2) (by linarith) (by linarith)
  refine ⟨o, ho, ?_⟩
  have q0 := p2 k l hkl
  have q1 := p1 a _ ha (by linarith) hta
  have q2 := p1 b _ (by linarith) hb1 htb
  have e1 : o.key.1 + (o.key.2 - o.key.1) * a = k + (l - k) * a := by linarith
  have e2 : o.key.1 + (o.key.2 - o.key.1) * b = k + (l - k) * b := by linarith
  have e3 : ((o.key.2 - o.key.1) - (l - k)) * (b - a) = 0 := by linarith
  have e4 : (o.key.2 - o.key.1) - (l - k) = 0 := by
    rcases mul_eq_zero.mp e3 with h | h
    · exact h
    · linarith
  have e5 : o.key.2 - o.key.1 = l - k := by linarith
  rw [e5] at e1
  ext <;> simp only <;> linarith

/-- The bounds `1/6 + x/2` and `x`, as an example. -/
def bound1 : Beta.Hyp := ⟨0, ⟨1 / 2, 1 / 6, ⟨0, 1 / 2, true, true⟩, none⟩⟩

/-- See `bound1`. -/
def bound2 : Beta.Hyp := ⟨1, ⟨1, 0, ⟨0, 1 / 2, true, true⟩, none⟩⟩

theorem two_value (x v : ℚ) : HasValue (([bound1] ++ [bound2]).map Beta.Hyp.bound) x v ↔
    (0 ≤ x ∧ x ≤ 1 / 2) ∧ (v = 1 / 2 * x + 1 / 6 ∨ v = x) := by
  simp only [bound1, bound2, HasValue, List.cons_append, List.nil_append, List.map_cons, List.map_nil, List.mem_cons,
    List.not_mem_nil, or_false, exists_eq_or_imp, exists_eq_left, Interval.Mem]
  constructor
  · rintro (⟨⟨a | a, b | b⟩, rfl⟩ | ⟨⟨a | a, b | b⟩, rfl⟩) <;> (refine ⟨⟨?_, ?_⟩, ?_⟩ <;> grind)
  · rintro ⟨⟨a, b⟩, rfl | rfl⟩
    · exact Or.inl ⟨⟨by grind, by grind⟩, by grind⟩
    · exact Or.inr ⟨⟨by grind, by grind⟩, by grind⟩

theorem two_least (x : ℚ) (h1 : 1 / 3 ≤ x) (h2 : x ≤ 1 / 2) :
    Least (([bound1] ++ [bound2]).map Beta.Hyp.bound) x (1 / 6 + (2 / 3 - 1 / 6) * x) := by
  refine ⟨(two_value _ _).mpr ⟨⟨by linarith, h2⟩, Or.inl (by ring)⟩, fun w hw => ?_⟩
  rcases ((two_value _ _).mp hw).2 with rfl | rfl <;> linarith

theorem two_hyps : (∀ h ∈ [bound1] ++ [bound2], h.bound.dom.Constructible) ∧
    (∀ x, 0 ≤ x → x ≤ 1 / 2 → ∃ v, HasValue ([bound1].map Beta.Hyp.bound) x v) ∧
    (∀ x v, 0 ≤ x → x ≤ 1 / 2 → HasValue (([bound1] ++ [bound2]).map Beta.Hyp.bound) x v → 0 ≤ v) ∧
    (∃ x v, 0 ≤ x ∧ x ≤ 1 / 2 ∧ Least (([bound1] ++ [bound2]).map Beta.Hyp.bound) x v ∧ 0 < v) := by
  refine ⟨?_, ?_, ?_, ⟨1 / 3, _, by norm_num, by norm_num, two_least _ (by norm_num) (by norm_num), by norm_num⟩⟩
  · intro h hh
    simp only [List.cons_append, List.nil_append, List.mem_cons, List.not_mem_nil, or_false] at hh
    rcases hh with rfl | rfl <;> (rw [Interval.constructible_iff]; norm_num [bound1, bound2])
  · intro x h0 h1
    refine ⟨1 / 2 * x + 1 / 6, _, List.mem_singleton.mpr rfl, ?_, rfl⟩
    rw [← contains_iff]
    simp only [Interval.contains, bound1]
    grind
  · intro x v h0 h1 hx
    rcases ((two_value _ _).mp hx).2 with rfl | rfl <;> linarith

/-- For the bounds `1/6 + x/2` and `x` the first line is touched at `1/3` and at `1/2`. -/
example : ∃ hull, HullSpec hull ∧ ∃ out, fromBeta hull ([bound1] ++ [bound2]) [] true = .ok out ∧
      ∃ o ∈ out, o.key = (1 / 6, 2 / 3) := by
  obtain ⟨hull, hs⟩ := Hull.hullSpec_satisfiable
  obtain ⟨h1, h2, h3, h4⟩ := two_hyps
  refine ⟨hull, hs, C37_touched_partial hull hs _ _ h1 h2 h3 h4 [] true (1 / 6) (2 / 3) (1 / 3) (1 / 2) (by norm_num) (by norm_num)
    (by norm_num) ?_ (two_least _ (by norm_num) (by norm_num)) (two_least _ (by norm_num) (by norm_num))⟩
  intro y v h0 h1 hy
  have := hy.2 (1 / 2 * y + 1 / 6) ((two_value _ _).mpr ⟨⟨h0, h1⟩, Or.inl rfl⟩)
  linarith

/-- **C37** (every new pair is the best one at two points) Each new pair that is returned has at two different points of [0, 1/2]
the smallest value of all lines above the minimum of the bounds. With `C37_touched_partial`: these are the edges of the least concave
majorant of the minimum, and no other line is returned. -/
theorem C37_edges_partial (hull : List (ℚ × ℚ) → Py (List ℕ)) (hs : HullSpec hull) (init : List Beta.Hyp)
    (last : Beta.Hyp) (hb : ∀ h ∈ init ++ [last], h.bound.dom.Constructible)
    (hc : ∀ x, 0 ≤ x → x ≤ 1 / 2 → ∃ v, HasValue (init.map Beta.Hyp.bound) x v)
    (hnn : ∀ x v, 0 ≤ x → x ≤ 1 / 2 → HasValue ((init ++ [last]).map Beta.Hyp.bound) x v → 0 ≤ v)
    (hpos : ∃ x v, 0 ≤ x ∧ x ≤ 1 / 2 ∧ Least ((init ++ [last]).map Beta.Hyp.bound) x v ∧ 0 < v)
    (known : List Ep) (hasB : Bool) (out : List Out) (hout : fromBeta hull (init ++ [last]) known hasB = .ok out)
    (k l : ℚ) (deps : List ℕ) (ho : .tangent k l deps ∈ out) :
    ∃ a b, 0 ≤ a ∧ a < b ∧ b ≤ 1 / 2 ∧ ∀ k' l',
      (∀ y v, 0 ≤ y → y ≤ 1 / 2 → Least ((init ++ [last]).map Beta.Hyp.bound) y v → v ≤ k' + (l' - k') * y) →
      k + (l - k) * a ≤ k' + (l' - k') * a ∧ k + (l - k) * b ≤ k' + (l' - k') * b := by
  obtain ⟨best, e1, hg, hab, ⟨f0, g0, hf0, hg0, hf0', hg0'⟩, hp⟩ := any_order_setup init last hb hc hnn hpos
  unfold fromBeta at hout
  rw [e1] at hout
  simp only [bind, Except.bind] at hout
  rcases fromBest_unfold hull _ known hasB out hout with rfl | ⟨vertices, verts, new, hv, hpk, hn, rfl⟩
  · simp at ho
  obtain ⟨hccw, hall, hsub⟩ := hull_ok hull hs _ _ _ hv hpk
  rcases List.mem_append.mp ho with ho | ho
  · obtain ⟨e, _, he⟩ := List.mem_map.mp ho
    cases he
  obtain ⟨e, he, hd, key, hk, hf⟩ := (edgeLoop_mem _ _ _ _ _ hn _).mp ho
  have hlt := edge_left hccw e he (fun p hp => points_good hg p (hsub p hp)) (hall _ (mem_points_00 _).1)
    (hall _ (mem_points_00 _).2) hd
  obtain ⟨m1, m2⟩ := cyclic_mem verts e he
  have hkey : key = (k, l) := by
    rcases forKey_mem _ _ _ _ _ hf with h1 | ⟨_, o', h1, _⟩
    · cases h1; rfl
    · cases h1
  subst hkey
  have hbelow : ∀ k' l', Above (best.map Beta.Best.bound) k' l' → ∀ p ∈ points (best.map Beta.Best.bound), p.2 ≤ k' + (l' - k') * p.1 := by
    intro k' l' ha p hp
    simp only [points, List.mem_append, List.mem_cons, List.not_mem_nil, or_false, List.mem_flatMap, ends] at hp
    rcases hp with (rfl | rfl) | ⟨f, hf, rfl | rfl⟩
    · have hm := List.mem_of_head? hf0
      have h1 := ha f0 hm f0.dom.x0 le_rfl (hg f0 hm).2.1
      have h2 := (hg f0 hm).2.2.2.1
      rw [hf0'] at h1 h2
      simp only
      linarith
    · have hm := List.mem_of_getLast? hg0
      have h1 := ha g0 hm g0.dom.x1 (hg g0 hm).2.1 le_rfl
      have h2 := (hg g0 hm).2.2.2.2
      rw [hg0'] at h1 h2
      simp only
      linarith
    · exact ha f hf _ le_rfl (hg f hf).2.1
    · exact ha f hf _ (hg f hf).2.1 le_rfl
  have l1 := edgeKey_line e hlt _ hk e.1
  have l2 := edgeKey_line e hlt _ hk e.2
  have hon : ∀ p : ℚ × ℚ, area e.1 e.2 p = 0 → area e.1 e.2 p = (e.1.1 - e.2.1) * (k + (l - k) * p.1 - p.2) →
      p.2 = k + (l - k) * p.1 := by
    intro p h1 h2
    rw [h1] at h2
    rcases mul_eq_zero.mp h2.symm with h | h <;> linarith
  have q1 := hon e.1 (by unfold area; ring) l1
  have q2 := hon e.2 (by unfold area; ring) l2
  refine ⟨e.2.1, e.1.1, (points_good hg _ (hsub _ m2)).1, hlt, (points_good hg _ (hsub _ m1)).2.1, fun k' l' hkl => ?_⟩
  have ha := (hab k' l').mpr hkl
  rw [← q1, ← q2]
  exact ⟨hbelow k' l' ha _ (hsub _ m2), hbelow k' l' ha _ (hsub _ m1)⟩

/-- For the same bounds and an empty set of pairs there is a new pair, and each new pair has at two points a value that is at most
that of the line `x`, so is not above `(1/4, 3/4)`, say. -/
example : ∃ hull, HullSpec hull ∧ ∃ out, fromBeta hull ([bound1] ++ [bound2]) [] false = .ok out ∧
    ∀ k l deps, .tangent k l deps ∈ out → ∃ a, 0 ≤ a ∧ a ≤ 1 / 2 ∧ k + (l - k) * a ≤ 1 / 6 + (2 / 3 - 1 / 6) * a := by
  obtain ⟨hull, hs⟩ := Hull.hullSpec_satisfiable
  obtain ⟨h1, h2, h3, h4⟩ := two_hyps
  obtain ⟨out, ho, _⟩ := C37_any_order_partial hull hs _ _ h1 h2 h3 h4 [] false
  refine ⟨hull, hs, out, ho, fun k l deps h => ?_⟩
  obtain ⟨a, b, h5, h6, h7, h8⟩ := C37_edges_partial hull hs _ _ h1 h2 h3 h4 [] false out ho k l deps h
  refine ⟨a, h5, by linarith, (h8 (1 / 6) (2 / 3) fun y v h0 h1 hy => ?_).1⟩
  have := hy.2 (1 / 2 * y + 1 / 6) ((two_value _ _).mpr ⟨⟨h0, h1⟩, Or.inl rfl⟩)
  linarith

/-- **C37** (gaps) `beta_bounds_to_exponent_pairs` makes pairs although the bounds do not cover `[0, 1/2]`: the code, against its comment, looks only at the first
and the last end. From bounds on `[0, 1/8]` and `[3/8, 1/2]` a pair is made whose line is at most 1/4 at the point 1/4, where no bound is given. -/
theorem C37_gap_counterexample (hull : List (ℚ × ℚ) → Py (List ℕ)) (hs : HullSpec hull) :
    ∃ (bounds : List Beta.Hyp) (out : List Out), (∀ h ∈ bounds, h.bound.dom.Constructible) ∧ (∀ v, ¬ HasValue (bounds.map Beta.Hyp.bound) (1 / 4) v) ∧
      fromBeta hull bounds [] false = .ok out ∧ ∃ o ∈ out, o.key.1 + (o.key.2 - o.key.1) * (1 / 4) ≤ 1 / 4 := by
  set f : Affine (Option ℕ) := ⟨0, 1 / 4, ⟨0, 1 / 8, true, true⟩, none⟩ with hf
  set g : Affine (Option ℕ) := ⟨0, 1 / 4, ⟨3 / 8, 1 / 2, true, true⟩, none⟩ with hg
  set bounds : List Beta.Hyp := [⟨0, f⟩, ⟨1, g⟩, ⟨2, ⟨0, 1 / 2, ⟨0, 1 / 8, true, true⟩, none⟩⟩] with hbd
  have hb : (Beta.computeBest bounds half).map (List.map Beta.Best.bound) = .ok [f, g] := by decide +kernel
  have hgood : Good [f, g] := by
    intro q hq
    simp only [List.mem_cons, List.not_mem_nil, or_false] at hq
    rcases hq with rfl | rfl <;> norm_num
  obtain ⟨out, h1, h2⟩ := C37_optimal_partial hull hs [f, g] hgood f g rfl rfl rfl rfl ⟨f, by simp, .inl (by norm_num)⟩ [] false
  refine ⟨bounds, out, ?_, ?_, ?_, ?_⟩
  · intro h hh
    rw [constructible_iff]
    simp only [hbd, List.mem_cons, List.not_mem_nil, or_false] at hh
    rcases hh with rfl | rfl | rfl <;> norm_num
  · rintro v ⟨q, hq, hm, _⟩
    simp only [hbd, List.map_cons, List.map_nil, List.mem_cons, List.not_mem_nil, or_false] at hq
    rcases hq with rfl | rfl | rfl
    · rcases hm.2 with h | ⟨_, h⟩ <;> norm_num at h
    · rcases hm.1 with h | ⟨_, h⟩ <;> norm_num at h
    · rcases hm.2 with h | ⟨_, h⟩ <;> norm_num at h
  · unfold fromBeta
    cases hc : Beta.computeBest bounds half with
    | error e => rw [hc] at hb; cases hb
    | ok best =>
      rw [hc] at hb
      simp only [bind, Except.bind]
      rw [show best.map Beta.Best.bound = [f, g] from Except.ok.inj hb]
      exact h1
  · obtain ⟨o, ho, _, h3⟩ := h2 (1 / 4) (by norm_num) (by norm_num)
    refine ⟨o, ho, ?_⟩
    have := h3 (1 / 4) (1 / 4) (by
      intro q hq x _ _
      simp only [List.mem_cons, List.not_mem_nil, or_false] at hq
      rcases hq with rfl | rfl <;> norm_num)
    linarith

end BetaPairs
end Expdb
