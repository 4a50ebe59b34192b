import Verif.Props.DerivedPairs
import Verif.Props.LiteratureBeta
import Verif.Props.LiteraturePairs
import Verif.Props.Prune

/-!
# Property C89: the four new exponent pairs
-/

namespace Expdb
namespace DerivedPairs

open EP BetaPairs Hull Affine Expdb.Interval LitPairs

/-- The new exponent pairs (exponent_pairs.tex, Theorem new-exp-pair). -/
def newPairs : List (ℚ × ℚ) :=
  [(89 / 1282, 997 / 1282), (652397 / 9713986, 7599781 / 9713986), (10769 / 351096, 609317 / 702192), (89 / 3478, 15327 / 17390)]

/-- The points at which the lines of the new pairs meet the known bounds on beta, with the values there. -/
def contacts : List (ℚ × ℚ) :=
  [(3 / 13, 29 / 130), (890 / 3277, 1691 / 6554), (754 / 2579, 2841 / 10316), (861996 / 2811205, 1610593 / 5622410),
    (423 / 1295, 779 / 2590), (227 / 601, 405 / 1202)]

/-! ### The transforms, in any order -/

theorem applyTransforms_ok : ∀ ts : List Tr, (∀ t ∈ ts, t ∈ [trA, trB, trC]) → ∀ d : List Ep, (∀ e ∈ d, InRegion (e.k, e.l)) →
    ∃ d', applyTransforms ts d = .ok d' := by
  intro ts
  induction ts with
  | nil => intro _ d _; exact ⟨d, rfl⟩
  | cons t ts ih =>
    intro ht d hd
    have h1 : ∀ p : Ep, InRegion (p.k, p.l) →
        ∃ q, t.f p.k p.l = .ok q ∧ InRegion ((Ep.derived t.id q.1 q.2 p).k, (Ep.derived t.id q.1 q.2 p).l) := by
      intro p hp
      have := ht t (by simp)
      simp only [List.mem_cons, List.not_mem_nil, or_false] at this
      rcases this with rfl | rfl | rfl
      · exact C30_A p.k p.l hp
      · exact C30_B p.k p.l hp
      · exact C30_C p.k p.l hp
    obtain ⟨d1, a1, a2⟩ := applyAll_total (fun e => InRegion (e.k, e.l)) t h1 d d hd hd
    simp only [applyTransforms]
    rw [a1]
    exact ih (fun t' ht' => ht t' (by simp [ht'])) d1 a2

/-- One pass of `compute_exp_pairs` with pruning raises nothing, in whatever order the transforms are applied, when three of
the pairs are not on a line. -/
theorem pass_total (hull : List (ℚ × ℚ) → Py (List ℕ)) (hh : HullSpec hull) (pairs : List Ep) (ts : List Tr)
    (hts : ∀ t ∈ ts, t ∈ [trA, trB, trC]) (hin : ∀ e ∈ pairs, InRegion (e.k, e.l)) (hnf : ¬ Flat (pairs.map Ep.key)) :
    ∃ r, computeExpPairs hull pairs ts 1 true = .ok r := by
  obtain ⟨a1, a2, a3⟩ := dictOf_spec pairs
  have hreg : ∀ e ∈ dictOf pairs, InRegion (e.k, e.l) := fun e he => hin e (a1 e he)
  obtain ⟨d1, h1⟩ := applyTransforms_ok ts hts (dictOf pairs) hreg
  obtain ⟨_, _, b3, _⟩ := applyTransforms_spec (fun e => InRegion (e.k, e.l)) ts
    (by
      intro t ht p k l hp hf
      have ht := hts t ht
      simp only [List.mem_cons, List.not_mem_nil, or_false] at ht
      rcases ht with rfl | rfl | rfl
      · obtain ⟨q, h1, h2⟩ := C30_A p.k p.l hp
        rw [show trA.f p.k p.l = transA p.k p.l from rfl, h1] at hf
        cases hf; exact h2
      · obtain ⟨q, h1, h2⟩ := C30_B p.k p.l hp
        rw [show trB.f p.k p.l = transB p.k p.l from rfl, h1] at hf
        cases hf; exact h2
      · obtain ⟨q, h1, h2⟩ := C30_C p.k p.l hp
        rw [show trC.f p.k p.l = transC p.k p.l from rfl, h1] at hf
        cases hf; exact h2) (dictOf pairs) d1 hreg a2 h1
  have hnf1 : ¬ Flat (d1.map Ep.key) := fun h => hnf (fun a ha b hb c hc =>
    h a (b3 a ((a3 a).mpr ha)) b (b3 b ((a3 b).mpr hb)) c (b3 c ((a3 c).mpr hc)))
  obtain ⟨idx, vs, c1, c2, _⟩ := hh.ok _ hnf1
  obtain ⟨es, c3, _⟩ := Hull.pick_map Ep.key d1 idx vs c2
  unfold computeExpPairs
  simp only [iterateN, iterate, h1, bind, Except.bind, if_true]
  by_cases hlen : d1.length < 3
  · rw [if_pos hlen]
    exact ⟨_, rfl⟩
  · rw [if_neg hlen, c1]
    simp only
    rw [c3]
    exact ⟨_, rfl⟩

/-! ### The literature is not below the lines at the points of contact -/

/-- No piece is below the value at a point of contact. -/
def Lower (E : Py (List LitBeta.Bd)) : Prop :=
  ∀ ps, E = .ok ps → ∀ c ∈ contacts, ∀ v, HasValue ps c.1 v → c.2 ≤ v

theorem lower_graph {E : Py (List LitBeta.Bd)} {a b : ℚ} {f : ℚ → ℚ} (h : LitBeta.Graph E a b f)
    (hc : ∀ c ∈ contacts, a ≤ c.1 → c.1 ≤ b → c.2 ≤ f c.1) : Lower E := by
  obtain ⟨qs, e, _, _, hq⟩ := h
  intro ps hps c hcc v hv
  rw [e] at hps
  cases hps
  obtain ⟨h1, h2, rfl⟩ := (hq _ _).mp hv
  exact hc c hcc h1 h2

theorem lower_list {ps : List LitBeta.Bd}
    (hc : ∀ c ∈ contacts, ∀ p ∈ ps, p.dom.contains c.1 = true → c.2 ≤ p.m * c.1 + p.c) : Lower (.ok ps) := by
  intro qs hqs c hcc v hv
  cases hqs
  obtain ⟨p, hp, hm, rfl⟩ := hv
  exact hc c hcc p hp ((contains_iff _ _).mpr hm)

theorem lower_robert2 (k : ℕ) (hk : 4 ≤ k) : Lower (LitBeta.robert2 k) := by
  obtain ⟨b, hg, _⟩ := LitBeta.C74_robert2 (k : ℚ) (by exact_mod_cast hk)
  refine lower_graph hg (fun c hc hx hy => ?_)
  clear hg hx hy
  rcases Nat.lt_or_ge k 7 with h | h
  · obtain rfl | rfl | rfl : k = 4 ∨ k = 5 ∨ k = 6 := by omega
    · revert c; decide +kernel
    · revert c; decide +kernel
    · revert c; decide +kernel
  · have hk7 : (7 : ℚ) ≤ k := by exact_mod_cast h
    have h1 : ∀ c ∈ contacts, c.2 ≤ c.1 - c.1 / 60 ∧ 0 ≤ c.1 := by decide +kernel
    obtain ⟨h2, h3⟩ := h1 c hc
    have hd : (60 : ℚ) ≤ 2 * ((k : ℚ) - 1) * (k - 2) := by nlinarith
    have h4 : c.1 / (2 * ((k : ℚ) - 1) * (k - 2)) ≤ c.1 / 60 := by
      apply div_le_div_of_nonneg_left h3 (by norm_num) hd
    have h5 := le_max_right ((1 - (k : ℚ) * c.1) / (2 * ((k : ℚ) - 1) * (k - 2))) (-c.1 / (2 * ((k : ℚ) - 1) * (k - 2)))
    rw [neg_div] at h5
    rw [neg_div]
    linarith

theorem lower_hb2017 (k : ℕ) (hk : 3 ≤ k) : Lower (LitBeta.hb2017 k) := by
  refine lower_graph (LitBeta.C74_hb2017 (k : ℚ) (by exact_mod_cast hk)) (fun c hc _ _ => ?_)
  rcases Nat.lt_or_ge k 6 with h | h
  · obtain rfl | rfl | rfl : k = 3 ∨ k = 4 ∨ k = 5 := by omega
    · revert c; decide +kernel
    · revert c; decide +kernel
    · revert c; decide +kernel
  · have hk6 : (6 : ℚ) ≤ k := by exact_mod_cast h
    have h1 : ∀ c ∈ contacts, c.2 ≤ c.1 - c.1 / 30 ∧ 0 ≤ c.1 := by decide +kernel
    obtain ⟨h2, h3⟩ := h1 c hc
    have hd : (30 : ℚ) ≤ (k : ℚ) * (k - 1) := by nlinarith
    have h4 : c.1 / ((k : ℚ) * (k - 1)) ≤ c.1 / 30 := by
      apply div_le_div_of_nonneg_left h3 (by norm_num) hd
    have h5 : -(c.1 / ((k : ℚ) * (k - 1))) ≤ max ((1 - (k : ℚ) * c.1) / ((k : ℚ) * (k - 1))) (max (-c.1 / ((k : ℚ) * (k - 1)))
        (-(2 * c.1) / ((k : ℚ) * (k - 1)) - 2 * (1 - (k : ℚ) * c.1) / ((k : ℚ) ^ 2 * (k - 1)))) := by
      rw [← neg_div]
      exact le_trans (le_max_left _ _) (le_max_right _ _)
    linarith

theorem lower_all (K : ℕ) (bs : List LitBeta.Bd) (h : LitBeta.all K = .ok bs) :
    ∀ c ∈ contacts, ∀ v, HasValue bs c.1 v → c.2 ≤ v := by
  obtain ⟨bs', h1, h2⟩ := LitBeta.collect_ok _ (fun e he => ((LitBeta.sane_all K) e he).imp fun ps h => h.1)
  have : LitBeta.all K = .ok bs' := h1
  rw [h] at this
  cases this
  rintro c hc v ⟨p, hp, hm, hv⟩
  obtain ⟨ps, hps, hpp⟩ := (h2 p).mp hp
  have key : ∀ E ∈ [.ok LitBeta.watt, LitBeta.hk1991, LitBeta.huxley1993a, .ok LitBeta.huxley1993b, .ok LitBeta.huxley1993c,
      .ok LitBeta.table17, LitBeta.sargos1995a, LitBeta.sargos1995b, .ok LitBeta.table19, LitBeta.hk2001, LitBeta.rs2002,
      LitBeta.sargos2003a, LitBeta.sargos2003b, LitBeta.huxley2005, LitBeta.robert2016] ++
      (List.range' 4 (K - 4)).map (fun k : ℕ => LitBeta.robert2 k) ++
      (List.range' 3 (K - 3)).map (fun k : ℕ => LitBeta.hb2017 k) ++
      [.ok LitBeta.bourgain2017, .ok LitBeta.ty2024], Lower E := by
    intro E hE
    simp only [List.mem_append, List.mem_cons, List.not_mem_nil, or_false, List.mem_map, List.mem_range'_1] at hE
    rcases hE with ((hE | ⟨k, hk, rfl⟩) | ⟨k, hk, rfl⟩) | hE
    · rcases hE with rfl | rfl | rfl | rfl | rfl | rfl | rfl | rfl | rfl | rfl | rfl | rfl | rfl | rfl | rfl
      · exact lower_list (by decide +kernel)
      · exact lower_graph LitBeta.C74_hk1991 (by decide +kernel)
      · exact lower_graph (LitBeta.graph2 (a := 0) (b := 49 / 144) (m := 7 / 20) (c := 13 / 60) (m1 := 13 / 20) (c1 := 11 / 120)
          (fun x => 7 / 20 * x + 13 / 60) (fun x => 13 / 20 * x + 11 / 120) (by norm_num) (fun x => rfl) (fun x => rfl))
          (by decide +kernel)
      · exact lower_list (by decide +kernel)
      · exact lower_list (by decide +kernel)
      · exact lower_list (by decide +kernel)
      · exact lower_graph LitBeta.C74_sargos1995a (by decide +kernel)
      · exact lower_graph LitBeta.C74_sargos1995b (by decide +kernel)
      · exact lower_list (by decide +kernel)
      · exact lower_graph LitBeta.C74_hk2001 (by decide +kernel)
      · exact lower_graph LitBeta.C74_rs2002 (by decide +kernel)
      · exact lower_graph LitBeta.C74_sargos2003a (by decide +kernel)
      · exact lower_graph LitBeta.C74_sargos2003b (by decide +kernel)
      · exact lower_graph LitBeta.C74_huxley2005 (by decide +kernel)
      · exact lower_graph LitBeta.C74_robert2016 (by decide +kernel)
    · exact lower_robert2 k hk.1
    · exact lower_hb2017 k hk.1
    · rcases hE with rfl | rfl
      · exact lower_list (by decide +kernel)
      · exact lower_list (by decide +kernel)
  exact key _ hps ps rfl c hc v ⟨p, hpp, hm, hv⟩

/-! ### Neither are the known exponent pairs -/

theorem hb_lower (m : ℕ) (hm : 6 ≤ m) (c : ℚ × ℚ) (hc : c ∈ contacts) : c.2 ≤ (hb m).1 + ((hb m).2 - (hb m).1) * c.1 := by
  rcases Nat.lt_or_ge m 10 with h | h
  · obtain rfl | rfl | rfl | rfl : m = 6 ∨ m = 7 ∨ m = 8 ∨ m = 9 := by omega
    · revert c; decide +kernel
    · revert c; decide +kernel
    · revert c; decide +kernel
    · revert c; decide +kernel
  · have h1 : ∀ c ∈ contacts, c.2 ≤ 263 / 270 * c.1 ∧ 0 ≤ c.1 ∧ c.1 ≤ 1 := by decide +kernel
    obtain ⟨h2, h3, h4⟩ := h1 c hc
    have h5 := (hb_bounds m hm).1
    have hl : 263 / 270 ≤ (hb m).2 := by
      have hx : (10 : ℚ) ≤ m := by exact_mod_cast h
      unfold hb
      simp only
      generalize (m : ℚ) = x at *
      obtain ⟨y, rfl⟩ : ∃ y, x = y + 10 := ⟨x - 10, by ring⟩
      have hy : 0 ≤ y := by linarith
      have d2 : (0 : ℚ) < (y + 10) * (y + 10 - 1) * (y + 10 + 2) := by
        rw [show (y + 10) * (y + 10 - 1) * (y + 10 + 2) = (y + 10) * (y + 9) * (y + 12) by ring]; positivity
      have : (3 * (y + 10) - 2) / ((y + 10) * (y + 10 - 1) * (y + 10 + 2)) ≤ 7 / 270 := by
        rw [div_le_iff₀ d2]; nlinarith [pow_nonneg hy 2, pow_nonneg hy 3]
      linarith
    have a := mul_nonneg h5.le (by linarith : 0 ≤ 1 - c.1)
    have b := mul_nonneg (by linarith : 0 ≤ (hb m).2 - 263 / 270) h3
    linarith

theorem known_lower {p : ℚ × ℚ} (hp : p ∈ Known) (c : ℚ × ℚ) (hc : c ∈ contacts) : c.2 ≤ p.1 + (p.2 - p.1) * c.1 := by
  have hconv : Convex ℚ {p : ℚ × ℚ | c.2 ≤ p.1 + (p.2 - p.1) * c.1} := by
    rintro ⟨x1, x2⟩ hx ⟨y1, y2⟩ hy a b ha hb' hab
    simp only [Set.mem_ofPred_eq, Prod.smul_mk, Prod.mk_add_mk, smul_eq_mul] at hx hy ⊢
    have h1 := mul_le_mul_of_nonneg_left hx ha
    have h2 := mul_le_mul_of_nonneg_left hy hb'
    have h3 : c.2 = a * c.2 + b * c.2 := by rw [← add_mul, hab, one_mul]
    linarith
  refine convexHull_min ?_ hconv hp
  rintro q (rfl | rfl | ⟨n, rfl | rfl⟩)
  · simp only [Set.mem_ofPred_eq]
    clear hconv
    revert c; decide +kernel
  · simp only [Set.mem_ofPred_eq]
    clear hconv
    revert c; decide +kernel
  · simp only [Set.mem_ofPred_eq]
    rcases Nat.lt_or_ge n 10 with h | h
    · have : ∀ n < 10, ∀ c ∈ contacts, c.2 ≤ (vertex n).1 + ((vertex n).2 - (vertex n).1) * c.1 := by decide +kernel
      exact this n h c hc
    · obtain ⟨k, rfl⟩ : ∃ k, n = k + 10 := ⟨n - 10, by omega⟩
      exact hb_lower (k + 6) (by omega) c hc
  · simp only [Set.mem_ofPred_eq]
    rcases Nat.lt_or_ge n 10 with h | h
    · have : ∀ n < 10, ∀ c ∈ contacts, c.2 ≤ (mirror (vertex n)).1 + ((mirror (vertex n)).2 - (mirror (vertex n)).1) * c.1 := by
        decide +kernel
      exact this n h c hc
    · obtain ⟨k, rfl⟩ : ∃ k, n = k + 10 := ⟨n - 10, by omega⟩
      obtain ⟨h1, _, h3, _⟩ := hb_bounds (k + 6) (by omega)
      have h4 : ∀ c ∈ contacts, c.2 ≤ 13 / 30 * (1 - c.1) + 1 / 2 * c.1 ∧ 0 ≤ c.1 ∧ c.1 ≤ 1 := by decide +kernel
      obtain ⟨h5, h6, h7⟩ := h4 c hc
      change c.2 ≤ (hb (k + 6)).2 - 1 / 2 + ((hb (k + 6)).1 + 1 / 2 - ((hb (k + 6)).2 - 1 / 2)) * c.1
      have a := mul_nonneg h1.le h6
      have b := mul_nonneg (by linarith : 0 ≤ (hb (k + 6)).2 - 14 / 15) (by linarith : 0 ≤ 1 - c.1)
      linarith

/-! ### The lines are above the minimum of the bounds -/

/-- The bounds used, as `c + m α` on `[X, Y]`: from the table of the combined bound, and of Heath-Brown (2017) with `k = 5`. -/
theorem upper_lit (K : ℕ) (hK : 6 ≤ K) (bs : List LitBeta.Bd) (h : LitBeta.all K = .ok bs) (x : ℚ) :
    (3 / 13 ≤ x → x ≤ 1 / 4 → ∃ v, HasValue bs x v ∧ v ≤ 1 / 20 + 3 / 4 * x) ∧
    (1 / 4 ≤ x → x ≤ 890 / 3277 → ∃ v, HasValue bs x v ∧ v ≤ 19 / 20 * x) ∧
    ∀ r ∈ LitBeta.combined, r.2.2.1 ≤ x → x ≤ r.2.2.2 → ∃ v, HasValue bs x v ∧ v ≤ r.1 + r.2.1 * x := by
  obtain ⟨bs', h1, h2⟩ := LitBeta.collect_ok _ (fun e he => ((LitBeta.sane_all K) e he).imp fun ps h => h.1)
  have : LitBeta.all K = .ok bs' := h1
  rw [h] at this
  cases this
  obtain ⟨ps, e1, _, _, e4⟩ := LitBeta.C74_hb2017 5 (by norm_num)
  have hmem : ∀ y v, HasValue ps y v → HasValue bs y v := by
    rintro y v ⟨p, hp, r⟩
    refine ⟨p, (h2 p).mpr ⟨ps, ?_, hp⟩, r⟩
    simp only [List.mem_append, List.mem_map, List.mem_range'_1]
    exact Or.inl (Or.inr ⟨5, by omega, by rw [← e1]; rfl⟩)
  refine ⟨fun a b => ⟨_, hmem _ _ ((e4 x _).mpr ⟨by linarith, by linarith, rfl⟩), ?_⟩,
    fun a b => ⟨_, hmem _ _ ((e4 x _).mpr ⟨by linarith, by linarith, rfl⟩), ?_⟩, ?_⟩
  · have : max ((1 - 5 * x) / (5 * (5 - 1))) (max (-x / (5 * (5 - 1))) (-(2 * x) / (5 * (5 - 1)) - 2 * (1 - 5 * x) / (5 ^ 2 * (5 - 1))))
        ≤ 1 / 20 - x / 4 := by
      refine max_le ?_ (max_le ?_ ?_) <;> linarith
    linarith
  · have : max ((1 - 5 * x) / (5 * (5 - 1))) (max (-x / (5 * (5 - 1))) (-(2 * x) / (5 * (5 - 1)) - 2 * (1 - 5 * x) / (5 ^ 2 * (5 - 1))))
        ≤ -x / 20 := by
      refine max_le ?_ (max_le ?_ ?_) <;> linarith
    linarith
  · obtain ⟨bs'', g1, g2⟩ := LitBeta.C75_combined K
    rw [h] at g1
    cases g1
    intro r hr a b
    exact g2 r hr x a b

theorem upper_new (x : ℚ) (_h0 : 0 ≤ x) (_h1 : x ≤ 1 / 2) (V : ℚ → Prop)
    (v1 : 3 / 13 ≤ x → x ≤ 1 / 4 → ∃ v, V v ∧ v ≤ 1 / 20 + 3 / 4 * x)
    (v2 : 1 / 4 ≤ x → x ≤ 890 / 3277 → ∃ v, V v ∧ v ≤ 19 / 20 * x)
    (v3 : ∀ r ∈ LitBeta.combined, r.2.2.1 ≤ x → x ≤ r.2.2.2 → ∃ v, V v ∧ v ≤ r.1 + r.2.1 * x)
    (v4 : ∀ p ∈ [hb 6, vertex 3, vertex 6, vertex 7], ∃ v, V v ∧ v ≤ p.1 + (p.2 - p.1) * x)
    (p : ℚ × ℚ) (hp : p ∈ newPairs) : ∃ v, V v ∧ v ≤ p.1 + (p.2 - p.1) * x := by
  have row : ∀ r ∈ LitBeta.combined, r.2.2.1 ≤ x → x ≤ r.2.2.2 → (∀ q ∈ newPairs, r.1 + r.2.1 * x ≤ q.1 + (q.2 - q.1) * x) →
      ∃ v, V v ∧ v ≤ p.1 + (p.2 - p.1) * x := by
    intro r hr a b h
    obtain ⟨v, g1, g2⟩ := v3 r hr a b
    exact ⟨v, g1, le_trans g2 (h p hp)⟩
  have pair : ∀ q ∈ [hb 6, vertex 3, vertex 6, vertex 7], (∀ q' ∈ newPairs, q.1 + (q.2 - q.1) * x ≤ q'.1 + (q'.2 - q'.1) * x) →
      ∃ v, V v ∧ v ≤ p.1 + (p.2 - p.1) * x := by
    intro q hq h
    obtain ⟨v, g1, g2⟩ := v4 q hq
    exact ⟨v, g1, le_trans g2 (h p hp)⟩
  have hhb : hb 6 = (1 / 100, 14 / 15) := by decide +kernel
  rcases le_total x (3 / 13) with c1 | c1
  · refine pair (hb 6) (by simp) ?_
    rw [hhb]
    simp only [newPairs, List.mem_cons, List.not_mem_nil, or_false, forall_eq_or_imp, forall_eq]
    refine ⟨?_, ?_, ?_, ?_⟩ <;> linarith
  rcases le_total x (1 / 4) with c2 | c2
  · obtain ⟨v, g1, g2⟩ := v1 c1 c2
    refine ⟨v, g1, le_trans g2 ?_⟩
    clear row pair
    revert p
    simp only [newPairs, List.mem_cons, List.not_mem_nil, or_false, forall_eq_or_imp, forall_eq]
    refine ⟨?_, ?_, ?_, ?_⟩ <;> linarith
  rcases le_total x (890 / 3277) with c3 | c3
  · obtain ⟨v, g1, g2⟩ := v2 c2 c3
    refine ⟨v, g1, le_trans g2 ?_⟩
    clear row pair
    revert p
    simp only [newPairs, List.mem_cons, List.not_mem_nil, or_false, forall_eq_or_imp, forall_eq]
    refine ⟨?_, ?_, ?_, ?_⟩ <;> linarith
  have fin : ∀ (c m X Y : ℚ), (c, m, X, Y) ∈ LitBeta.combined → X ≤ x → x ≤ Y → (c + m * x ≤ 89 / 1282 + (997 / 1282 - 89 / 1282) * x ∧
      c + m * x ≤ 652397 / 9713986 + (7599781 / 9713986 - 652397 / 9713986) * x ∧
      c + m * x ≤ 10769 / 351096 + (609317 / 702192 - 10769 / 351096) * x ∧
      c + m * x ≤ 89 / 3478 + (15327 / 17390 - 89 / 3478) * x) → ∃ v, V v ∧ v ≤ p.1 + (p.2 - p.1) * x := by
    intro c m X Y hr a b h
    refine row _ hr a b ?_
    simp only [newPairs, List.mem_cons, List.not_mem_nil, or_false, forall_eq_or_imp, forall_eq]
    exact h
  rcases le_total x (199 / 716) with c4 | c4
  · exact fin (89 / 2706) (2243 / 2706) (19 / 74) (199 / 716) (by simp [LitBeta.combined]) (by linarith) c4
      ⟨by linarith, by linarith, by linarith, by linarith⟩
  rcases le_total x (967 / 3428) with c5 | c5
  · exact fin (29 / 600) (58 / 75) (199 / 716) (967 / 3428) (by simp [LitBeta.combined]) c4 c5
      ⟨by linarith, by linarith, by linarith, by linarith⟩
  rcases le_total x (120 / 419) with c6 | c6
  · exact fin (49 / 1614) (1351 / 1614) (967 / 3428) (120 / 419) (by simp [LitBeta.combined]) c5 c6
      ⟨by linarith, by linarith, by linarith, by linarith⟩
  rcases le_total x (754 / 2579) with c7 | c7
  · exact fin (1 / 66) (235 / 264) (120 / 419) (1328 / 4447) (by simp [LitBeta.combined]) c6 (by linarith)
      ⟨by linarith, by linarith, by linarith, by linarith⟩
  rcases le_total x (3 / 10) with c8 | c8
  · refine pair (vertex 7) (by simp) ?_
    simp only [newPairs, List.mem_cons, List.not_mem_nil, or_false, forall_eq_or_imp, forall_eq, vertex]
    refine ⟨?_, ?_, ?_, ?_⟩ <;> linarith
  rcases le_total x (861996 / 2811205) with c9 | c9
  · refine pair (vertex 6) (by simp) ?_
    simp only [newPairs, List.mem_cons, List.not_mem_nil, or_false, forall_eq_or_imp, forall_eq, vertex]
    refine ⟨?_, ?_, ?_, ?_⟩ <;> linarith
  rcases le_total x (87 / 275) with c10 | c10
  · exact fin (13 / 146) (47 / 73) (104 / 343) (87 / 275) (by simp [LitBeta.combined]) (by linarith) c10
      ⟨by linarith, by linarith, by linarith, by linarith⟩
  rcases le_total x (423 / 1295) with c11 | c11
  · exact fin (11 / 244) (191 / 244) (87 / 275) (423 / 1295) (by simp [LitBeta.combined]) c10 c11
      ⟨by linarith, by linarith, by linarith, by linarith⟩
  rcases le_total x (227 / 601) with c12 | c12
  · exact fin (89 / 1282) (454 / 641) (423 / 1295) (227 / 601) (by simp [LitBeta.combined]) c11 c12
      ⟨by linarith, by linarith, by linarith, by linarith⟩
  · refine pair (vertex 3) (by simp) ?_
    simp only [newPairs, List.mem_cons, List.not_mem_nil, or_false, forall_eq_or_imp, forall_eq, vertex]
    refine ⟨?_, ?_, ?_, ?_⟩ <;> linarith

/-! ### The theorem -/

/-- **C89** (the new exponent pairs) For every truncation of the families in the literature (at least 6 for the bounds on beta and
at least 7 for the exponent pairs; in the code both are 20), every order in which the hypotheses are listed and every
computation of convex hulls, `prove_exponent_pair` finds each of the four new exponent pairs. -/
theorem C89_new_pairs (hull : List (ℚ × ℚ) → Py (List ℕ)) (hs : HullSpec hull) (o : Orders) (ho : o.Ok) (K M : ℕ) (hK : 6 ≤ K)
    (hM : 7 ≤ M) (pop : ℕ → HSet → Py HSet) (p : ℚ × ℚ) (hp : p ∈ newPairs) :
    ∃ h, proveExponentPair hull o K M pop p.1 p.2 false = .ok (some h) ∧ h.key = p := by
  obtain ⟨bs, hbs, hsane⟩ := LitBeta.C75_sane K
  obtain ⟨ps, hps, hkn, hmem⟩ := C82_all M
  have hset : literatureSet K M = .ok ⟨newHyps 0 bs, ps, [trA, trB, trC]⟩ := by
    unfold literatureSet
    rw [hbs, hps]
    rfl
  set s : HSet := ⟨newHyps 0 bs, ps, [trA, trB, trC]⟩ with hsd
  have hpp := ho.pairs 0 ps
  have hpt := ho.trs [trA, trB, trC]
  have hts : ∀ t ∈ o.trs [trA, trB, trC], t ∈ [trA, trB, trC] := fun t ht => hpt.mem_iff.mp ht
  have hreg : ∀ e ∈ ps, InRegion (e.k, e.l) := by
    intro e he
    obtain ⟨c1, c2, c3⟩ := known_triangle (hkn e he)
    simp only [Ep.key] at c1 c2 c3
    exact ⟨c1, by linarith, c2, by linarith⟩
  have hlit : ∀ e : Entry, e ∈ literaturePairs → ∃ x ∈ ps, x.key = (e.k, e.l) := fun e he =>
    (hmem (e.k, e.l)).mpr (Or.inr (Or.inl ⟨e, he, rfl⟩))
  obtain ⟨x0, hx0, kx0⟩ := (hmem (0, 1)).mpr (Or.inl rfl)
  obtain ⟨x1, hx1, kx1⟩ := hlit ⟨13 / 84, 55 / 84, _⟩ (List.mem_of_getElem? (i := 5) (by rfl))
  obtain ⟨x2, hx2, kx2⟩ := hlit ⟨18 / 199, 593 / 796, _⟩ (List.mem_of_getElem? (i := 22) (by rfl))
  have hnf : ¬ Flat ((o.pairs 0 ps).map Ep.key) := by
    intro hf
    have m0 : ((0, 1) : ℚ × ℚ) ∈ (o.pairs 0 ps).map Ep.key := List.mem_map.mpr ⟨x0, hpp.mem_iff.mpr hx0, kx0⟩
    have m1 : ((13 / 84, 55 / 84) : ℚ × ℚ) ∈ (o.pairs 0 ps).map Ep.key := List.mem_map.mpr ⟨x1, hpp.mem_iff.mpr hx1, kx1⟩
    have m2 : ((18 / 199, 593 / 796) : ℚ × ℚ) ∈ (o.pairs 0 ps).map Ep.key := List.mem_map.mpr ⟨x2, hpp.mem_iff.mpr hx2, kx2⟩
    have := hf _ m0 _ m1 _ m2
    norm_num [area] at this
  obtain ⟨r, hr⟩ := pass_total hull hs (o.pairs 0 ps) (o.trs [trA, trB, trC]) hts
    (fun e he => hreg e (hpp.mem_iff.mp he)) hnf
  -- all pairs are known
  have hrk : ∀ e ∈ r, e.key ∈ Known := by
    obtain ⟨a1, a2, _⟩ := dictOf_spec (o.pairs 0 ps)
    refine (iterateN_spec (fun e => e.key ∈ Known) hull true (o.trs [trA, trB, trC]) ?_ 1 (dictOf (o.pairs 0 ps)) r
      (fun e he => hkn e (hpp.mem_iff.mp (a1 e he))) a2 hr).1
    intro t ht p k l hp hf
    obtain ⟨⟨q1, e1, k1⟩, ⟨q2, e2, k2⟩, ⟨q3, e3, k3⟩⟩ := C82_closed _ hp
    have ht := hts t ht
    simp only [List.mem_cons, List.not_mem_nil, or_false] at ht
    rcases ht with rfl | rfl | rfl
    · rw [show trA.f p.k p.l = transA p.k p.l from rfl] at hf
      have := e1.symm.trans hf
      cases this; exact k1
    · rw [show trB.f p.k p.l = transB p.k p.l from rfl] at hf
      have := e2.symm.trans hf
      cases this; exact k2
    · rw [show trC.f p.k p.l = transC p.k p.l from rfl] at hf
      have := e3.symm.trans hf
      cases this; exact k3
  have hall : ∀ e ∈ ps ++ r, e.key ∈ Known := by
    intro e he
    rcases List.mem_append.mp he with h | h
    · exact hkn e h
    · exact hrk e h
  -- pairs that are reached
  have hconv : ∀ n ≤ 1, ∀ q, Reach (o.pairs 0 ps) (o.trs [trA, trB, trC]) n q → ∀ x : ℚ, ∃ v,
      (∃ e ∈ ps ++ r, v = e.k + (e.l - e.k) * x) ∧ v ≤ q.1 + (q.2 - q.1) * x := by
    intro n hn q hq x
    have hc := EP.Prune.C83_complete hull hs (o.pairs 0 ps) (o.trs [trA, trB, trC]) hts (fun e he => hreg e (hpp.mem_iff.mp he)) 1 r hr n hn q hq
    by_contra hcon
    push Not at hcon
    have := hc.linear_pos (1 - x) x (-(q.1 + (q.2 - q.1) * x)) (fun w hw => by
      obtain ⟨e, he, rfl⟩ := List.mem_map.mp hw
      have := hcon _ ⟨e, List.mem_append_right _ he, rfl⟩
      simp only
      linarith)
    linarith
  have hreach : ∀ q ∈ [hb 6, vertex 3, vertex 6, vertex 7], ∃ n ≤ 1, Reach (o.pairs 0 ps) (o.trs [trA, trB, trC]) n q := by
    have hin : ∀ x ∈ ps, Reach (o.pairs 0 ps) (o.trs [trA, trB, trC]) 0 x.key := fun x hx =>
      Reach.input x (hpp.mem_iff.mpr hx)
    have hA : trA ∈ o.trs [trA, trB, trC] := hpt.mem_iff.mpr (by simp)
    intro q hq
    simp only [List.mem_cons, List.not_mem_nil, or_false] at hq
    rcases hq with rfl | rfl | rfl | rfl
    · obtain ⟨x, hx, kx⟩ := (hmem (hb 6)).mpr (Or.inr (Or.inr (Or.inr ⟨6, by omega, by omega, rfl⟩)))
      exact ⟨0, by omega, kx ▸ hin x hx⟩
    · obtain ⟨x, hx, kx⟩ := hlit ⟨2779 / 38033, 58699 / 76066, _⟩ (List.mem_of_getElem? (i := 23) (by rfl))
      have := hin x hx
      rw [kx] at this
      exact ⟨0, by omega, this⟩
    · obtain ⟨x, hx, kx⟩ := hlit ⟨4742 / 38463, 35731 / 51284, _⟩ (List.mem_of_getElem? (i := 21) (by rfl))
      have := hin x hx
      rw [kx] at this
      exact ⟨1, le_refl _, Reach.step 0 _ _ this trA hA (by decide +kernel)⟩
    · obtain ⟨x, hx, kx⟩ := hlit ⟨18 / 199, 593 / 796, _⟩ (List.mem_of_getElem? (i := 22) (by rfl))
      have := hin x hx
      rw [kx] at this
      exact ⟨1, le_refl _, Reach.step 0 _ _ this trA hA (by decide +kernel)⟩
  have hbb : s.bounds.map Beta.Hyp.bound = bs := newHyps_bound 0 bs
  -- the points of contact
  obtain ⟨ca, hca, cb, hcb, hlt, hea, heb⟩ : ∃ ca ∈ contacts, ∃ cb ∈ contacts, ca.1 < cb.1 ∧
      p.1 + (p.2 - p.1) * ca.1 = ca.2 ∧ p.1 + (p.2 - p.1) * cb.1 = cb.2 := by
    revert p
    decide +kernel
  have hcr : ∀ c ∈ contacts, 0 ≤ c.1 ∧ c.1 ≤ 1 / 2 ∧ 0 < c.2 := by decide +kernel
  have hlow : ∀ c ∈ contacts, ∀ v, Bound (s.bounds.map Beta.Hyp.bound) (s.pairs ++ r) c.1 v → c.2 ≤ v := by
    intro c hc v hv
    rcases hv with hv | ⟨e, he, rfl⟩
    · rw [hbb] at hv
      exact lower_all K bs hbs c hc v hv
    · exact known_lower (hall e he) c hc
  obtain ⟨h, hrun, hkey⟩ := C89_found hull hs o ho s r hr (by
      intro h hh
      have : h.bound ∈ bs := by rw [← hbb]; exact List.mem_map.mpr ⟨h, hh, rfl⟩
      exact (hsane _ this).1) (by
      intro x v h0 h1 hv
      rcases hv with hv | ⟨e, he, rfl⟩
      · rw [hbb] at hv
        obtain ⟨q, hq, hm, hv⟩ := hv
        have := ((hsane q hq).2 x v ⟨q, by simp, hm, hv⟩).2
        linarith
      · obtain ⟨c1, c2, c3⟩ := known_triangle (hall e he)
        simp only [Ep.key] at c1 c2 c3
        have a := mul_nonneg c1 (by linarith : 0 ≤ 1 - x)
        have b := mul_nonneg (by linarith : 0 ≤ e.l) h0
        linarith) x0 x1 hx0 hx1 (by rw [kx0, kx1]; decide +kernel) p.1 p.2 ca.1 cb.1 (hcr ca hca).1 hlt (hcr cb hcb).2.1 (by
      intro x h0 h1
      obtain ⟨u1, u2, u3⟩ := upper_lit K hK bs hbs x
      refine upper_new x h0 h1 (fun v => Bound (s.bounds.map Beta.Hyp.bound) (s.pairs ++ r) x v) ?_ ?_ ?_ ?_ p hp
      · intro a b
        obtain ⟨v, g1, g2⟩ := u1 a b
        exact ⟨v, Or.inl (by rw [hbb]; exact g1), g2⟩
      · intro a b
        obtain ⟨v, g1, g2⟩ := u2 a b
        exact ⟨v, Or.inl (by rw [hbb]; exact g1), g2⟩
      · intro r hr a b
        obtain ⟨v, g1, g2⟩ := u3 r hr a b
        exact ⟨v, Or.inl (by rw [hbb]; exact g1), g2⟩
      · intro q hq
        obtain ⟨n, hn, hre⟩ := hreach q hq
        obtain ⟨v, g1, g2⟩ := hconv n hn q hre x
        exact ⟨v, Or.inr g1, g2⟩)
    (by intro v hv; rw [hea]; exact hlow ca hca v hv) (by intro v hv; rw [heb]; exact hlow cb hcb v hv)
    (by rw [hea]; exact (hcr ca hca).2.2)
  refine ⟨h, ?_, hkey⟩
  unfold proveExponentPair
  rw [hset]
  simp only [bind, Except.bind]
  rw [hrun]
  rfl

/-- **C89** (all four) `prove_exponent_pairs` finds, in order, the four pairs of the theorem, whatever the orders of the hypotheses
in the four calls. -/
theorem C89_all_four (hull : List (ℚ × ℚ) → Py (List ℕ)) (hs : HullSpec hull) (o : ℚ × ℚ → Orders) (ho : ∀ p, (o p).Ok) (K M : ℕ)
    (hK : 6 ≤ K) (hM : 7 ≤ M) (pop : ℕ → HSet → Py HSet) :
    ∃ a b c d, proveExponentPairs hull o K M pop = .ok [some a, some b, some c, some d] ∧ [a, b, c, d].map Out.key = newPairs := by
  obtain ⟨a, a1, a2⟩ := C89_new_pairs hull hs (o (89 / 1282, 997 / 1282)) (ho _) K M hK hM pop (89 / 1282, 997 / 1282)
    (by simp [newPairs])
  obtain ⟨b, b1, b2⟩ := C89_new_pairs hull hs (o (652397 / 9713986, 7599781 / 9713986)) (ho _) K M hK hM pop
    (652397 / 9713986, 7599781 / 9713986) (by simp [newPairs])
  obtain ⟨c, c1, c2⟩ := C89_new_pairs hull hs (o (10769 / 351096, 609317 / 702192)) (ho _) K M hK hM pop
    (10769 / 351096, 609317 / 702192) (by simp [newPairs])
  obtain ⟨d, d1, d2⟩ := C89_new_pairs hull hs (o (89 / 3478, 15327 / 17390)) (ho _) K M hK hM pop (89 / 3478, 15327 / 17390)
    (by simp [newPairs])
  refine ⟨a, b, c, d, ?_, by simp only [List.map_cons, List.map_nil, a2, b2, c2, d2]; rfl⟩
  unfold proveExponentPairs
  simp only [List.mapM_cons, List.mapM_nil, bind, Except.bind, pure, Except.pure]
  rw [a1, b1, c1, d1]

/-- The hypotheses of the theorems hold for the constants of the code (constants.py:5-9) and for the order in which the
literature is stated. -/
example : (Orders.Ok ⟨fun _ l => l, fun _ l => l.reverse, fun l => l.rotate 1⟩) ∧ 6 ≤ 20 ∧ 7 ≤ 20 ∧ newPairs.length = 4 ∧
    ∃ hull, HullSpec hull :=
  ⟨⟨fun _ _ => List.Perm.refl _, fun _ l => l.reverse_perm, fun l => l.rotate_perm 1⟩, by norm_num, by norm_num, rfl,
    Hull.hullSpec_satisfiable⟩

/-! ### Removing dependencies -/

/-- **C89** (`simplify_deps`) The loop that removes hypotheses keeps a set from which the pair it returns is proved; the set is
part of the original one, and a pair that has been found is not lost. `R` is any reflexive and transitive relation under which
removing a member makes the set smaller. -/
theorem C89_simplify (prove : HSet → Py (Option Out)) (pop : ℕ → HSet → Py HSet) (R : HSet → HSet → Prop) (hrefl : ∀ s, R s s)
    (htrans : ∀ a b c, R a b → R b c → R a c) (hpop : ∀ n s s', pop n s = .ok s' → R s' s) (n : ℕ) (s s' : HSet) (e e' : Option Out)
    (h0 : prove s = .ok e) (h : simplifyLoop prove pop n s e = .ok (s', e')) :
    prove s' = .ok e' ∧ R s' s ∧ (e.isSome → e'.isSome) := by
  induction n generalizing s e with
  | zero =>
    simp only [simplifyLoop, Except.ok.injEq, Prod.mk.injEq] at h
    obtain ⟨rfl, rfl⟩ := h
    exact ⟨h0, hrefl _, id⟩
  | succ n ih =>
    simp only [simplifyLoop, bind, Except.bind] at h
    cases h1 : pop n s with
    | error x => rw [h1] at h; cases h
    | ok t =>
      rw [h1] at h
      simp only at h
      cases h2 : prove t with
      | error x => rw [h2] at h; cases h
      | ok e1 =>
        rw [h2] at h
        cases e1 with
        | none => exact ih s e h0 h
        | some x =>
          obtain ⟨g1, g2, g3⟩ := ih t (some x) h2 h
          exact ⟨g1, htrans _ _ _ g2 (hpop n s t h1), fun _ => g3 rfl⟩

/-- **C89** (`simplify_deps` stops at the first failure) The comment at derived.py:112 says that a random member is removed, but
`set.pop` is not random. If the member removed depends on the set only, then after the first removal without which the pair is no
longer proved, every later round removes the same member and the set is never reduced further, although other members may be
superfluous. -/
theorem C89_simplify_counterexample (prove : HSet → Py (Option Out)) (pop : HSet → Py HSet) (s t : HSet) (e : Option Out)
    (hp : pop s = .ok t) (ht : prove t = .ok none) (n : ℕ) : simplifyLoop prove (fun _ => pop) n s e = .ok (s, e) := by
  induction n with
  | zero => rfl
  | succ n ih =>
    simp only [simplifyLoop, bind, Except.bind, hp, ht]
    exact ih

/-- A set of two pairs of which the second alone is needed: both orders of removal, by a prover that looks for the pair. -/
example : (let prove : HSet → Py (Option Out) := fun s => .ok (if trivialPair ∈ s.pairs then some (.known trivialPair) else none)
    let s : HSet := ⟨[], [trivialPair, .derived 1 (1 / 2) (1 / 2) trivialPair], []⟩
    ((simplifyLoop prove (fun _ s => .ok ⟨s.bounds, s.pairs.tail, s.trs⟩) 100 s none).map (fun r => r.1.pairs.length) = .ok 2) ∧
    ((simplifyLoop prove (fun _ s => .ok ⟨s.bounds, s.pairs.dropLast, s.trs⟩) 100 s none).map (fun r => r.1.pairs.length)
      = .ok 1)) := by
  decide +kernel

/-! ### The table of the text -/

/-- The table in the proof of the theorem (exponent_pairs.tex:286-318), as rows `(c, m, X, Y)` for the bound `c + m α` on
`[X, Y)`; the last row includes its right end. -/
def textTable : List (ℚ × ℚ × ℚ × ℚ) :=
  [(1 / 20, 3 / 4, 0, 1 / 4), (0, 19 / 20, 1 / 4, 890 / 3277), (89 / 2706, 2243 / 2706, 890 / 3277, 199 / 716),
    (1 / 66, 235 / 264, 120 / 419, 754 / 2579), (9 / 217, 1389 / 1736, 754 / 2579, 251324 / 841245),
    (2371 / 43205, 52209 / 69128, 251324 / 841245, 861996 / 2811205), (13 / 146, 47 / 73, 861996 / 2811205, 87 / 275),
    (11 / 244, 191 / 244, 87 / 275, 423 / 1295), (89 / 1282, 454 / 641, 423 / 1295, 227 / 601),
    (715 / 10238, 3620 / 5119, 227 / 601, 227 / 601), (29 / 280, 173 / 280, 227 / 601, 12 / 31),
    (1 / 32, 103 / 128, 12 / 31, 1508 / 3825), (18 / 199, 521 / 796, 1508 / 3825, 62831 / 155153),
    (569 / 2800, 1053 / 2800, 62831 / 155153, 143 / 349), (1 / 12, 2 / 3, 5 / 12, 3 / 7), (13 / 84, 1 / 2, 3 / 7, 1 / 2)]

/-- A value of the table at `x`. -/
def TextBound (x v : ℚ) : Prop := ∃ r ∈ textTable, r.2.2.1 ≤ x ∧ (x < r.2.2.2 ∨ x = 1 / 2 ∧ r.2.2.2 = 1 / 2) ∧ v = r.1 + r.2.1 * x

/-- **C89** (the table of the proof, findings) The bounds of the table do not give the inequality `β(α) ≤ k + (l - k) α` on
`[0, 1/2]`, as the proof of the theorem says: at `α = 0` the only bound is `1/20`, which is more than `k` for the third and the fourth
pair (for `α < 3/13` the exponent pair `(1/100, 14/15)` of Heath-Brown, which the code uses, is needed), and there is no bound at all
on `[199/716, 120/419)` and on `[143/349, 5/12)`. -/
theorem C89_table_counterexample :
    (∀ v, TextBound 0 v → v = 1 / 20) ∧ (10769 / 351096 : ℚ) < 1 / 20 ∧ (89 / 3478 : ℚ) < 1 / 20 ∧
    (∀ x v, 199 / 716 ≤ x → x < 120 / 419 → ¬ TextBound x v) ∧ (∀ x v, 143 / 349 ≤ x → x < 5 / 12 → ¬ TextBound x v) := by
  refine ⟨?_, by norm_num, by norm_num, ?_, ?_⟩
  · rintro v ⟨r, hr, h1, h2, rfl⟩
    have h3 : ∀ r ∈ textTable, r.2.2.1 ≤ 0 → r.1 = 1 / 20 := by decide +kernel
    rw [h3 r hr h1, mul_zero, add_zero]
  · rintro x v a b ⟨r, hr, h1, h2, -⟩
    have h3 : ∀ r ∈ textTable, r.2.2.2 ≤ 199 / 716 ∨ 120 / 419 ≤ r.2.2.1 := by decide +kernel
    rcases h2 with h2 | ⟨h2, -⟩
    · rcases h3 r hr with h | h <;> linarith
    · linarith
  · rintro x v a b ⟨r, hr, h1, h2, -⟩
    have h3 : ∀ r ∈ textTable, r.2.2.2 ≤ 143 / 349 ∨ 5 / 12 ≤ r.2.2.1 := by decide +kernel
    rcases h2 with h2 | ⟨h2, -⟩
    · rcases h3 r hr with h | h <;> linarith
    · linarith

/-- **C89** (the table of the proof, the other part) From `3/13` on, every bound of the table is at most the line of every one of
the four pairs. -/
theorem C89_table_partial (p : ℚ × ℚ) (hp : p ∈ newPairs) (x v : ℚ) (hx : 3 / 13 ≤ x) (h : TextBound x v) :
    v ≤ p.1 + (p.2 - p.1) * x := by
  obtain ⟨r, hr, h1, h2, rfl⟩ := h
  have ends : ∀ p ∈ newPairs, ∀ r ∈ textTable,
      r.1 + r.2.1 * max (3 / 13) r.2.2.1 ≤ p.1 + (p.2 - p.1) * max (3 / 13) r.2.2.1 ∧
      r.1 + r.2.1 * r.2.2.2 ≤ p.1 + (p.2 - p.1) * r.2.2.2 := by decide +kernel
  obtain ⟨g1, g2⟩ := ends p hp r hr
  have h3 : max (3 / 13) r.2.2.1 ≤ x := max_le hx h1
  have h4 : x ≤ r.2.2.2 := by
    rcases h2 with h | ⟨h, h'⟩
    · exact h.le
    · rw [h, h']
  generalize max (3 / 13) r.2.2.1 = a at *
  rcases eq_or_lt_of_le (le_trans h3 h4) with hab | hab
  · have : x = a := le_antisymm (by rw [hab]; exact h4) h3
    rw [this]; exact g1
  · nlinarith [mul_le_mul_of_nonneg_left g1 (sub_nonneg.mpr h4), mul_le_mul_of_nonneg_left g2 (sub_nonneg.mpr h3),
      sub_pos.mpr hab]

/-- The table partial theorem at a point of contact of the first pair, where it is an equality. -/
example : TextBound (423 / 1295) (89 / 1282 + 454 / 641 * (423 / 1295)) ∧
    (89 / 1282 + 454 / 641 * (423 / 1295) : ℚ) = 89 / 1282 + (997 / 1282 - 89 / 1282) * (423 / 1295) :=
  ⟨⟨(89 / 1282, 454 / 641, 423 / 1295, 227 / 601), by simp [textTable], by norm_num, by norm_num, rfl⟩, by norm_num⟩

end DerivedPairs
end Expdb
