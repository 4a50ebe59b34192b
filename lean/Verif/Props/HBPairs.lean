import Verif.Model.HBPairs
import Verif.Props.BetaPairsOrder
import Verif.Props.DerivedPairs
import Verif.Props.Lookup
import Verif.Props.LiteratureBeta
import Verif.Props.LiteraturePairs

/-!
# Property C93: the exponent pairs computed from the bounds on beta of Heath-Brown
-/

namespace Expdb
namespace HBPairs

open EP BetaPairs DerivedPairs Hull Affine Expdb.Interval LitPairs

/-! ### Computing the best bounds before the pairs does not matter -/

/-- The line of `(k, l)` is above the minimum of the bounds on [0, 1/2]. -/
def AboveMin (bs : List (Affine (Option ℕ))) (k l : ℚ) : Prop :=
  ∀ x, 0 ≤ x → x ≤ 1 / 2 → ∃ v, HasValue bs x v ∧ v ≤ k + (l - k) * x

/-- The line of `(k, l)` is not above any bound at `x`. -/
def Touches (bs : List (Affine (Option ℕ))) (k l x : ℚ) : Prop := ∀ v, HasValue bs x v → k + (l - k) * x ≤ v

/-- Let every point of [0, 1/2] be in the domains of two different bounds. The best bounds are computed and added to the set, then
pairs are computed; all hypotheses are listed in any order. -/
theorem run_spec (hull : List (ℚ × ℚ) → Py (List ℕ)) (hs : HullSpec hull) (o : Orders) (ho : o.Ok) (bs : List (Affine (Option ℕ)))
    (hcons : ∀ p ∈ bs, p.dom.Constructible) (hnn : ∀ x v, 0 ≤ x → x ≤ 1 / 2 → HasValue bs x v → 0 ≤ v)
    (htwo : ∀ x, 0 ≤ x → x ≤ 1 / 2 → ∃ p ∈ bs, ∃ q ∈ bs, p ≠ q ∧ Mem p.dom.x0 p.dom.x1 p.dom.incL p.dom.incU x ∧
      Mem q.dom.x0 q.dom.x1 q.dom.incL q.dom.incU x)
    (hpos : ∃ x, 0 ≤ x ∧ x ≤ 1 / 2 ∧ ∀ v, HasValue bs x v → 0 < v) (known : List Ep) :
    ∃ best out, Beta.computeBest (o.bounds 0 (newHyps 0 bs)) half = .ok best ∧
      fromBeta hull (o.bounds 1 (newHyps 0 bs ++ newHyps (newHyps 0 bs).length (newBounds best))) known false = .ok out ∧
      (∀ r ∈ out, (∃ e ∈ known, r = .known e) ∨ ∃ k l deps, r = .tangent k l deps) ∧ (∀ e ∈ known, .known e ∈ out) ∧
      (∀ k l deps, .tangent k l deps ∈ out → AboveMin bs k l ∧
        ∃ a b, 0 ≤ a ∧ a < b ∧ b ≤ 1 / 2 ∧ ∀ k' l', AboveMin bs k' l' →
          k + (l - k) * a ≤ k' + (l' - k') * a ∧ k + (l - k) * b ≤ k' + (l' - k') * b) ∧
      (∀ k l a b, 0 ≤ a → a < b → b ≤ 1 / 2 → AboveMin bs k l → Touches bs k l a → Touches bs k l b → ∃ r ∈ out, r.key = (k, l)) := by
  set b1 := newHyps 0 bs with hb1d
  have hbb : b1.map Beta.Hyp.bound = bs := newHyps_bound 0 bs
  have hc1 : ∀ h ∈ b1, h.bound.dom.Constructible := fun h hh => hcons _ (by rw [← hbb]; exact List.mem_map.mpr ⟨h, hh, rfl⟩)
  have hcov : ∀ (l : List Beta.Hyp), (∀ h ∈ b1, h ∈ l) → ∃ init last, l = init ++ [last] ∧
      ∀ x, 0 ≤ x → x ≤ 1 / 2 → ∃ v, HasValue (init.map Beta.Hyp.bound) x v := by
    intro l hl
    have hget : ∀ p ∈ bs, ∃ h ∈ l, h.bound = p := by
      intro p hp
      rw [← hbb] at hp
      obtain ⟨h, hh, e⟩ := List.mem_map.mp hp
      exact ⟨h, hl h hh, e⟩
    rcases List.eq_nil_or_concat' l with rfl | ⟨init, last, rfl⟩
    · obtain ⟨p, hp, _⟩ := htwo 0 le_rfl (by norm_num)
      obtain ⟨h, hh, _⟩ := hget p hp
      simp at hh
    · refine ⟨init, last, rfl, fun x x0 x1 => ?_⟩
      obtain ⟨p, hp, q, hq, hpq, mp, mq⟩ := htwo x x0 x1
      obtain ⟨h, hh, rfl⟩ := hget p hp
      obtain ⟨h', hh', rfl⟩ := hget q hq
      rcases List.mem_append.mp hh with hh | hh
      · exact ⟨_, h.bound, List.mem_map.mpr ⟨h, hh, rfl⟩, mp, rfl⟩
      · rcases List.mem_append.mp hh' with hh' | hh'
        · exact ⟨_, h'.bound, List.mem_map.mpr ⟨h', hh', rfl⟩, mq, rfl⟩
        · rw [List.mem_singleton] at hh hh'
          rw [hh, hh'] at hpq
          exact absurd rfl hpq
  have hp1 := ho.bounds 0 b1
  obtain ⟨init1, last1, e1, cov1⟩ := hcov _ (fun h hh => hp1.mem_iff.mpr hh)
  obtain ⟨best, k1, _, _, k4⟩ := Beta.C51_any_order_partial init1 last1 half ⟨0, (inDomain_half 0).mpr (by norm_num)⟩
    ((constructible_iff _).mpr (by simp only [half]; norm_num))
    (fun h hh => hc1 h (hp1.mem_iff.mp (by rw [e1]; exact hh)))
    (fun x hx => cov1 x ((inDomain_half x).mp hx).1 ((inDomain_half x).mp hx).2)
  rw [← e1] at k1 k4
  set b2 := b1 ++ newHyps b1.length (newBounds best) with hb2d
  have hnew : ∀ g ∈ newBounds best, ∃ c ∈ best, c.bound = g := by
    intro g hg
    obtain ⟨c, hc, h⟩ := List.mem_filterMap.mp hg
    refine ⟨c, hc, ?_⟩
    cases c with
    | existing _ => cases h
    | derived f' _ => simpa [Beta.Best.bound] using h
  have hc2 : ∀ h ∈ b2, h.bound.dom.Constructible := by
    intro h hh
    rcases List.mem_append.mp hh with hh | hh
    · exact hc1 h hh
    · have : h.bound ∈ newBounds best := by
        rw [← newHyps_bound b1.length (newBounds best)]; exact List.mem_map.mpr ⟨h, hh, rfl⟩
      obtain ⟨c, hc, hcb⟩ := hnew _ this
      rw [← hcb]
      exact (k4 c hc).1
  have hp2 := ho.bounds 1 b2
  have hv2 : ∀ x v, HasValue ((o.bounds 1 b2).map Beta.Hyp.bound) x v ↔ HasValue bs x v := by
    intro x v
    rw [hasValue_perm (hp2.map _), hb2d, List.map_append, hbb, newHyps_bound, hasValue_append']
    constructor
    · rintro (h | ⟨g, hg, q⟩)
      · exact h
      · obtain ⟨c, hc, hcb⟩ := hnew g hg
        obtain ⟨_, _, hsrc, hval⟩ := k4 c hc
        obtain ⟨g', hg', q'⟩ := hval x v ⟨g, by rw [hcb]; simp, q⟩
        rw [List.mem_singleton] at hg'
        exact ⟨g', by rw [hg', ← hbb]; exact List.mem_map.mpr ⟨_, hp1.mem_iff.mp hsrc, rfl⟩, q'⟩
    · exact Or.inl
  obtain ⟨init2, last2, e2, cov2⟩ := hcov (o.bounds 1 b2) (fun h hh => hp2.mem_iff.mpr (List.mem_append_left _ hh))
  rw [e2] at hv2
  have hL : ∀ x v, Least ((init2 ++ [last2]).map Beta.Hyp.bound) x v ↔ Least bs x v := by
    intro x v
    unfold Least
    simp only [hv2]
  have hcb2 : ∀ h ∈ init2 ++ [last2], h.bound.dom.Constructible := fun h hh => hc2 h (hp2.mem_iff.mp (by rw [e2]; exact hh))
  have hnn2 : ∀ x v, 0 ≤ x → x ≤ 1 / 2 → HasValue ((init2 ++ [last2]).map Beta.Hyp.bound) x v → 0 ≤ v :=
    fun x v h0 h1 hv => hnn x v h0 h1 ((hv2 x v).mp hv)
  have hleast : ∀ x, 0 ≤ x → x ≤ 1 / 2 → ∃ w, Least bs x w := by
    intro x h0 h1
    obtain ⟨v, hv⟩ := cov2 x h0 h1
    refine exists_least bs x v ((hv2 x v).mp ?_)
    rw [List.map_append, hasValue_append']
    exact Or.inl hv
  have hab : ∀ k l, (∀ y v, 0 ≤ y → y ≤ 1 / 2 → Least ((init2 ++ [last2]).map Beta.Hyp.bound) y v → v ≤ k + (l - k) * y) ↔
      AboveMin bs k l := by
    intro k l
    simp only [hL]
    constructor
    · intro h x h0 h1
      obtain ⟨w, hw⟩ := hleast x h0 h1
      exact ⟨w, hw.1, h x w h0 h1 hw⟩
    · intro h y v h0 h1 hv
      obtain ⟨w, hw, hwl⟩ := h y h0 h1
      exact le_trans (hv.2 w hw) hwl
  have hpos2 : ∃ x v, 0 ≤ x ∧ x ≤ 1 / 2 ∧ Least ((init2 ++ [last2]).map Beta.Hyp.bound) x v ∧ 0 < v := by
    obtain ⟨x, h0, h1, h⟩ := hpos
    obtain ⟨w, hw⟩ := hleast x h0 h1
    exact ⟨x, w, h0, h1, (hL x w).mpr hw, h w hw.1⟩
  obtain ⟨out, o1, o2, _⟩ := C37_any_order_partial hull hs init2 last2 hcb2 cov2 hnn2 hpos2 known false
  obtain ⟨best2, s1, s2, s3, ⟨f0, g0, s4, s5, s6, s7⟩, _⟩ := any_order_setup init2 last2 hcb2 cov2 hnn2 hpos2
  have hfb : fromBest hull (best2.map Beta.Best.bound) known false = .ok out := by
    unfold fromBeta at o1
    rw [s1] at o1
    exact o1
  refine ⟨best, out, k1, by rw [e2]; exact o1, fun r hr => ?_, fun e he => ?_, fun k l deps hr => ⟨?_, ?_⟩,
    fun k l a b h0 hlt h1 ha ta tb => ?_⟩
  · rcases C37_tangent_partial hull hs _ s2 known false out hfb r hr with h | ⟨k, l, deps, h, _⟩ | ⟨h, _⟩
    · exact Or.inl h
    · exact Or.inr ⟨k, l, deps, h⟩
    · cases h
  · have := hfb
    unfold fromBest at this
    rw [s4, s5] at this
    simp only at this
    rw [if_neg (by rw [s6, s7]; push Not; exact ⟨le_refl _, le_refl _⟩)] at this
    cases hv : hull (points (best2.map Beta.Best.bound)) with
    | error x => rw [hv] at this; cases this
    | ok vertices =>
      rw [hv] at this
      simp only [bind, Except.bind] at this
      cases hp : pick (points (best2.map Beta.Best.bound)) vertices with
      | error x => rw [hp] at this; cases this
      | ok verts =>
        rw [hp] at this
        simp only at this
        cases hn : edgeLoop known false (depIndices (best2.map Beta.Best.bound) vertices) (cyclic verts) with
        | error x => rw [hn] at this; cases this
        | ok new =>
          rw [hn] at this
          have := Except.ok.inj this
          rw [← this]
          exact List.mem_append_left _ (List.mem_map.mpr ⟨e, he, rfl⟩)
  · exact (hab k l).mp (o2 k l deps hr)
  · obtain ⟨a, b, h0, hlt, h1, h⟩ := C37_edges_partial hull hs init2 last2 hcb2 cov2 hnn2 hpos2 known false out o1 k l deps hr
    exact ⟨a, b, h0, hlt, h1, fun k' l' hkl => h k' l' ((hab k' l').mpr hkl)⟩
  · have touch : ∀ c, 0 ≤ c → c ≤ 1 / 2 → Touches bs k l c → Least ((init2 ++ [last2]).map Beta.Hyp.bound) c (k + (l - k) * c) := by
      intro c c0 c1 hc
      obtain ⟨v, hv, hvl⟩ := ha c c0 c1
      have hv' : v = k + (l - k) * c := le_antisymm hvl (hc v hv)
      rw [hv'] at hv
      exact (hL c _).mpr ⟨hv, fun w hw => hc w hw⟩
    obtain ⟨out', q1, q2⟩ := C37_touched_partial hull hs init2 last2 hcb2 cov2 hnn2 hpos2 known false k l a b h0 hlt h1
      ((hab k l).mpr ha) (touch a h0 (by linarith) ta) (touch b (by linarith) h1 tb)
    rw [o1] at q1
    cases q1
    exact q2

/-! ### The bounds of Heath-Brown -/

/-- The bound on beta of Heath-Brown for one `k` (beta.tex, Theorem hb-2017). -/
def bound (k x : ℚ) : ℚ := x + max ((1 - k * x) / (k * (k - 1))) (max (-x / (k * (k - 1)))
  (-(2 * x) / (k * (k - 1)) - 2 * (1 - k * x) / (k ^ 2 * (k - 1))))

/-- The three lines of the bound. -/
theorem bound_lines (k x : ℚ) (hk : 3 ≤ k) : bound k x = max ((k - 2) / (k - 1) * x + 1 / (k * (k - 1)))
    (max ((1 - 1 / (k * (k - 1))) * x) (x - 2 / (k ^ 2 * (k - 1)))) := by
  have k0 : k ≠ 0 := by intro h; linarith
  have k1 : k - 1 ≠ 0 := by intro h; linarith
  unfold bound
  rw [← max_add_add_left, ← max_add_add_left]
  congr 1
  · field_simp; ring
  · congr 1
    · field_simp; ring
    · field_simp; ring

/-- The bound is a maximum of lines: it is below a line on an interval if it is at the ends. -/
theorem bound_convex (k : ℚ) (hk : 3 ≤ k) (p q c d x : ℚ) (hc : bound k c ≤ p + q * c) (hd : bound k d ≤ p + q * d) (h1 : c ≤ x)
    (h2 : x ≤ d) : bound k x ≤ p + q * x := by
  rw [bound_lines k _ hk] at *
  generalize (k - 2) / (k - 1) = m1 at *
  generalize 1 / (k * (k - 1)) = c1 at *
  generalize 2 / (k ^ 2 * (k - 1)) = c2 at *
  rw [max_le_iff, max_le_iff] at *
  obtain ⟨a1, a2, a3⟩ := hc
  obtain ⟨b1, b2, b3⟩ := hd
  have key : ∀ m e : ℚ, m * c + e ≤ p + q * c → m * d + e ≤ p + q * d → m * x + e ≤ p + q * x := by
    intro m e u v
    rcases eq_or_lt_of_le (h1.trans h2) with h | h
    · have : x = c := by linarith
      rw [this]; exact u
    · have a := mul_nonneg (by linarith : 0 ≤ d - x) (by linarith : 0 ≤ p + q * c - (m * c + e))
      have b := mul_nonneg (by linarith : 0 ≤ x - c) (by linarith : 0 ≤ p + q * d - (m * d + e))
      have c' : 0 ≤ (d - c) * (p + q * x - (m * x + e)) := by linarith
      have := nonneg_of_mul_nonneg_right c' (by linarith)
      linarith
  refine ⟨key m1 c1 a1 b1, ?_, ?_⟩
  · have := key (1 - c1) 0 (by linarith) (by linarith); linarith
  · have := key 1 (-c2) (by linarith) (by linarith); linarith

/-- The corners of the least concave majorant. -/
def cx (m : ℕ) : ℚ := (m + 1) / (m ^ 2 + 1)

/-- The values at the corners. -/
def cy (m : ℕ) : ℚ := (m ^ 2 + m - 1) / (m * (m ^ 2 + 1))

theorem cy_eq (m : ℕ) (hm : 1 ≤ m) : cy m = cx m - 1 / (m * (m ^ 2 + 1)) := by
  have h0 : (m : ℚ) ≠ 0 := by exact_mod_cast (by omega : m ≠ 0)
  have h1 : (m : ℚ) ^ 2 + 1 ≠ 0 := by positivity
  unfold cy cx
  field_simp

theorem cx_pos (m : ℕ) : 0 < cx m := by unfold cx; positivity

theorem cx_lt (m : ℕ) (hm : 1 ≤ m) : cx (m + 1) < cx m := by
  have : (1 : ℚ) ≤ m := by exact_mod_cast hm
  unfold cx
  rw [div_lt_div_iff₀ (by positivity) (by positivity)]
  push_cast
  nlinarith

theorem cx_anti {m n : ℕ} (hm : 1 ≤ m) (h : m ≤ n) : cx n ≤ cx m := by
  induction n, h using Nat.le_induction with
  | base => exact le_rfl
  | succ n hn ih => exact (cx_lt n (by omega)).le.trans ih

theorem cx3 : cx 3 = 2 / 5 := by norm_num [cx]
theorem cy3 : cy 3 = 11 / 30 := by norm_num [cy]

/-- The bound with parameter `j` at its right and its left corner. -/
theorem bound_right (j : ℕ) (hj : 3 ≤ j) : bound j (cx j) ≤ cy j := by
  have h3 : (3 : ℚ) ≤ j := by exact_mod_cast hj
  rw [bound_lines _ _ h3, cy_eq j (by omega)]
  unfold cx
  generalize (j : ℚ) = t at *
  have t1 : 0 < t - 1 := by linarith
  have t0 : 0 < t := by linarith
  have ts : 0 < t ^ 2 + 1 := by positivity
  refine max_le (le_of_eq ?_) (max_le ?_ ?_)
  · field_simp; ring
  · have : 1 / (t * (t ^ 2 + 1)) ≤ 1 / (t * (t - 1)) * ((t + 1) / (t ^ 2 + 1)) := by
      rw [div_mul_div_comm, div_le_div_iff₀ (by positivity) (by positivity)]
      nlinarith [mul_pos t0 ts]
    linarith
  · have : 1 / (t * (t ^ 2 + 1)) ≤ 2 / (t ^ 2 * (t - 1)) := by
      rw [div_le_div_iff₀ (by positivity) (by positivity)]
      nlinarith [mul_pos t0 ts, mul_pos t0 t0]
    linarith

theorem bound_left (j : ℕ) (hj : 3 ≤ j) : bound ((j : ℚ) + 1) (cx j) ≤ cy j := by
  have h3 : (3 : ℚ) ≤ j := by exact_mod_cast hj
  rw [bound_lines _ _ (by linarith), cy_eq j (by omega)]
  unfold cx
  generalize (j : ℚ) = t at *
  have t0 : 0 < t := by linarith
  have ts : 0 < t ^ 2 + 1 := by positivity
  rw [show t + 1 - 1 = t by ring, show t + 1 - 2 = t - 1 by ring]
  refine max_le ?_ (max_le (le_of_eq ?_) ?_)
  · rw [show (t - 1) / t * ((t + 1) / (t ^ 2 + 1)) + 1 / ((t + 1) * t) = (t + 1) / (t ^ 2 + 1) - 2 / ((t + 1) * (t ^ 2 + 1)) by
      field_simp; ring]
    have : 1 / (t * (t ^ 2 + 1)) ≤ 2 / ((t + 1) * (t ^ 2 + 1)) := by
      rw [div_le_div_iff₀ (by positivity) (by positivity)]
      nlinarith [mul_pos t0 ts]
    linarith
  · field_simp
  · have : 1 / (t * (t ^ 2 + 1)) ≤ 2 / ((t + 1) ^ 2 * t) := by
      rw [div_le_div_iff₀ (by positivity) (by positivity)]
      nlinarith [mul_pos t0 t0, sq_nonneg (t - 1)]
    linarith

/-- No bound is below the value at a corner. -/
theorem bound_lower (m k : ℕ) (hm : 3 ≤ m) (hk : 3 ≤ k) : cy m ≤ bound k (cx m) := by
  have h3 : (3 : ℚ) ≤ m := by exact_mod_cast hm
  have k3 : (3 : ℚ) ≤ k := by exact_mod_cast hk
  rw [bound_lines _ _ k3, cy_eq m (by omega)]
  have m0 : (0 : ℚ) < m := by linarith
  have k0 : (0 : ℚ) < k := by linarith
  have k1 : (0 : ℚ) < (k : ℚ) - 1 := by linarith
  rcases Nat.lt_or_ge m k with h | h
  · refine le_trans ?_ (le_trans (le_max_left _ _) (le_max_right _ _))
    have hkm : (m : ℚ) + 1 ≤ k := by exact_mod_cast h
    have : 1 / ((k : ℚ) * (k - 1)) * cx m ≤ 1 / (m * (m ^ 2 + 1)) := by
      unfold cx
      rw [div_mul_div_comm, div_le_div_iff₀ (by positivity) (by positivity)]
      have : (m : ℚ) * (m + 1) ≤ k * (k - 1) := by nlinarith
      have s : (0 : ℚ) < (m : ℚ) ^ 2 + 1 := by positivity
      nlinarith
    linarith
  · refine le_trans ?_ (le_max_left _ _)
    obtain ⟨d, hd⟩ : ∃ d : ℕ, m = k + d := ⟨m - k, by omega⟩
    have hd' : (m : ℚ) = k + d := by exact_mod_cast hd
    have d0 : (0 : ℚ) ≤ d := by positivity
    have e : ((k : ℚ) - 2) / (k - 1) * cx m + 1 / (k * (k - 1)) = cx m - (k * (m + 1) - (m ^ 2 + 1)) / ((m ^ 2 + 1) * (k * (k - 1))) := by
      unfold cx
      have : (m : ℚ) ^ 2 + 1 ≠ 0 := by positivity
      field_simp
      ring
    rw [e]
    have : ((k : ℚ) * (m + 1) - (m ^ 2 + 1)) / ((m ^ 2 + 1) * (k * (k - 1))) ≤ 1 / (m * (m ^ 2 + 1)) := by
      rw [div_le_div_iff₀ (by positivity) (by positivity)]
      have s : (0 : ℚ) < (m : ℚ) ^ 2 + 1 := by positivity
      have : (k * ((m : ℚ) + 1) - (m ^ 2 + 1)) * m ≤ k * (k - 1) := by
        have hk' : (k : ℚ) = m - d := by linarith
        rw [hk']
        have : 0 ≤ (d : ℚ) * (m ^ 2 - m + 1 + d) := mul_nonneg d0 (by nlinarith)
        nlinarith
      nlinarith
    linarith

theorem bound_zero (k : ℚ) (hk : 3 ≤ k) : bound k 0 = 1 / (k * (k - 1)) := by
  have k1 : 0 < k - 1 := by linarith
  have k0 : 0 < k := by linarith
  rw [bound_lines _ _ hk]
  simp only [mul_zero, zero_add, zero_sub]
  refine max_eq_left (max_le (by positivity) ?_)
  have : 0 ≤ 2 / (k ^ 2 * (k - 1)) := by positivity
  have : 0 ≤ 1 / (k * (k - 1)) := by positivity
  linarith

theorem bound_half (k : ℚ) (hk : 3 ≤ k) : 5 / 12 ≤ bound k (1 / 2) := by
  rw [bound_lines _ _ hk]
  refine le_trans ?_ (le_trans (le_max_left _ _) (le_max_right _ _))
  have : 1 / (k * (k - 1)) ≤ 1 / 6 := by
    apply div_le_div_of_nonneg_left (by norm_num) (by norm_num)
    nlinarith
  linarith

theorem bound3_half : bound 3 (1 / 2) = 5 / 12 := by rw [bound_lines _ _ le_rfl]; norm_num

/-- Between two corners. -/
theorem locate (n : ℕ) (x : ℚ) (hn : 3 ≤ n) (h1 : cx n ≤ x) (h2 : x < cx 3) : ∃ m, 4 ≤ m ∧ m ≤ n ∧ cx m ≤ x ∧ x < cx (m - 1) := by
  induction n, hn using Nat.le_induction with
  | base => linarith
  | succ n hn ih =>
    rcases le_or_gt (cx n) x with h | h
    · obtain ⟨m, a, b, c, d⟩ := ih h
      exact ⟨m, a, by omega, c, d⟩
    · exact ⟨n + 1, by omega, le_rfl, h1, h⟩

/-- A line above the corners is above one of the bounds at every point. -/
theorem above_of_corners (K : ℕ) (hK : 5 ≤ K) (p q : ℚ) (h0 : 1 / (((K : ℚ) - 1) * (K - 2)) ≤ p)
    (hc : ∀ m, 3 ≤ m → m + 2 ≤ K → cy m ≤ p + q * cx m) (h1 : 5 / 12 ≤ p + q * (1 / 2)) (x : ℚ) (x0 : 0 ≤ x) (x1 : x ≤ 1 / 2) :
    ∃ j, 3 ≤ j ∧ j < K ∧ bound (j : ℕ) x ≤ p + q * x := by
  obtain ⟨n, rfl⟩ : ∃ n, K = n + 2 := ⟨K - 2, by omega⟩
  have hn : (3 : ℚ) ≤ n := by exact_mod_cast (by omega : 3 ≤ n)
  rcases le_or_gt x (cx n) with h | h
  · refine ⟨n + 1, by omega, by omega, bound_convex _ (by push_cast; linarith) p q 0 (cx n) x ?_ ?_ x0 h⟩
    · push_cast
      rw [bound_zero _ (by linarith)]
      push_cast at h0
      rw [show ((n : ℚ) + 1) * (n + 1 - 1) = (n + 2 - 1) * (n + 2 - 2) by ring]
      linarith
    · push_cast
      exact (bound_left n (by omega)).trans (hc n (by omega) (by omega))
  rcases le_or_gt (cx 3) x with h' | h'
  · refine ⟨3, le_rfl, by omega, bound_convex _ (by norm_num) p q (cx 3) (1 / 2) x ?_ ?_ h' x1⟩
    · exact (bound_right 3 le_rfl).trans (hc 3 le_rfl (by omega))
    · rw [show ((3 : ℕ) : ℚ) = 3 by norm_num, bound3_half]; exact h1
  · obtain ⟨m, a, b, c, d⟩ := locate n x (by omega) h.le h'
    refine ⟨m, by omega, by omega, bound_convex _ (by exact_mod_cast (by omega : 3 ≤ m)) p q (cx m) (cx (m - 1)) x ?_ ?_ c d.le⟩
    · exact (bound_right m (by omega)).trans (hc m (by omega) (by omega))
    · have := bound_left (m - 1) (by omega)
      rw [show ((m - 1 : ℕ) : ℚ) + 1 = m by rw [Nat.cast_sub (by omega)]; ring] at this
      exact this.trans (hc (m - 1) (by omega) (by omega))

/-! ### The lines -/

/-- The line of Heath-Brown's pair at the corners. -/
theorem hb_corner (m j : ℕ) (hm : 2 ≤ m) (hj : 1 ≤ j) : (hb m).1 + ((hb m).2 - (hb m).1) * cx j - cy j =
    ((j : ℚ) - m) * (j - m + 1) * (2 * m * j + (m - 1) * (m + 2)) / (j * (j ^ 2 + 1) * m * (m - 1) ^ 2 * (m + 2)) := by
  have hm' : (2 : ℚ) ≤ m := by exact_mod_cast hm
  have hj' : (1 : ℚ) ≤ j := by exact_mod_cast hj
  unfold hb cx cy
  simp only
  generalize (m : ℚ) = s at *
  generalize (j : ℚ) = t at *
  have t0 : t ≠ 0 := by intro h; linarith
  have s0 : s ≠ 0 := by intro h; linarith
  have s1 : s - 1 ≠ 0 := by intro h; linarith
  have s2 : s + 2 ≠ 0 := by intro h; linarith
  have t2 : t ^ 2 + 1 ≠ 0 := by positivity
  field_simp
  ring

theorem hb_above_corner (m j : ℕ) (hm : 2 ≤ m) (hj : 1 ≤ j) : cy j ≤ (hb m).1 + ((hb m).2 - (hb m).1) * cx j := by
  have h := hb_corner m j hm hj
  have hm' : (2 : ℚ) ≤ m := by exact_mod_cast hm
  have hj' : (1 : ℚ) ≤ j := by exact_mod_cast hj
  have m1 : (0 : ℚ) < (m : ℚ) - 1 := by linarith
  have hprod : (0 : ℚ) ≤ ((j : ℚ) - m) * (j - m + 1) := by
    rcases Nat.lt_or_ge j m with hlt | hge
    · have : (j : ℚ) + 1 ≤ m := by exact_mod_cast hlt
      nlinarith
    · have : (m : ℚ) ≤ j := by exact_mod_cast hge
      nlinarith
  have : 0 ≤ ((j : ℚ) - m) * (j - m + 1) * (2 * m * j + (m - 1) * (m + 2)) / (j * (j ^ 2 + 1) * m * (m - 1) ^ 2 * (m + 2)) := by
    positivity
  linarith

theorem hb_at (m : ℕ) (hm : 2 ≤ m) : (hb m).1 + ((hb m).2 - (hb m).1) * cx m = cy m := by
  have h := hb_corner m m hm (by omega)
  rw [sub_self, zero_mul, zero_mul, zero_div] at h
  linarith

theorem hb_at_pred (m : ℕ) (hm : 2 ≤ m) : (hb m).1 + ((hb m).2 - (hb m).1) * cx (m - 1) = cy (m - 1) := by
  have h := hb_corner m (m - 1) hm (by omega)
  rw [show ((m - 1 : ℕ) : ℚ) - m + 1 = 0 by rw [Nat.cast_sub (by omega)]; push_cast; ring, mul_zero, zero_mul, zero_div] at h
  linarith

theorem hb_half (m : ℕ) (hm : 4 ≤ m) : 5 / 12 ≤ (hb m).1 + ((hb m).2 - (hb m).1) * (1 / 2) := by
  have hm' : (4 : ℚ) ≤ m := by exact_mod_cast hm
  unfold hb
  simp only
  have m1 : (0 : ℚ) < (m : ℚ) - 1 := by linarith
  have h1 : (0 : ℚ) ≤ 2 / (((m : ℚ) - 1) ^ 2 * (m + 2)) := by positivity
  have h2 : (3 * (m : ℚ) - 2) / (m * (m - 1) * (m + 2)) ≤ 1 / 6 := by
    rw [div_le_div_iff₀ (by positivity) (by norm_num)]
    obtain ⟨y, hy⟩ : ∃ y : ℚ, (m : ℚ) = y + 4 := ⟨m - 4, by ring⟩
    have : 0 ≤ y := by linarith
    rw [hy]
    nlinarith [pow_nonneg this 2, pow_nonneg this 3]
  linarith

/-- The line of the pair `(1/6, 2/3)` at the corners. -/
theorem last_corner (j : ℕ) (hj : 3 ≤ j) : cy j ≤ 1 / 6 + (2 / 3 - 1 / 6) * cx j := by
  have hj' : (3 : ℚ) ≤ j := by exact_mod_cast hj
  rw [cy_eq j (by omega)]
  unfold cx
  generalize (j : ℚ) = t at *
  have t0 : 0 < t := by linarith
  have t2 : 0 < t ^ 2 + 1 := by positivity
  have e : 1 / 6 + (2 / 3 - 1 / 6) * ((t + 1) / (t ^ 2 + 1)) - ((t + 1) / (t ^ 2 + 1) - 1 / (t * (t ^ 2 + 1))) =
      (t - 3) * (t ^ 2 - 2) / (6 * (t * (t ^ 2 + 1))) := by
    field_simp; ring
  have : 0 ≤ (t - 3) * (t ^ 2 - 2) / (6 * (t * (t ^ 2 + 1))) := by
    apply div_nonneg
    · exact mul_nonneg (by linarith) (by nlinarith)
    · positivity
  linarith

/-- `1 / ((K - 1)(K - 2))`, the value at 0 of the bound with the largest `k`. -/
def kap (K : ℕ) : ℚ := 1 / (((K : ℚ) - 1) * (K - 2))

/-- The pair of the line from the value at 0 to the corner of `m`. -/
def first (K m : ℕ) : ℚ × ℚ := (kap K, kap K + (cy m - kap K) / cx m)

theorem first_zero (K m : ℕ) : (first K m).1 + ((first K m).2 - (first K m).1) * 0 = kap K := by simp [first]

theorem first_at (K m : ℕ) : (first K m).1 + ((first K m).2 - (first K m).1) * cx m = cy m := by
  have := (cx_pos m).ne'
  unfold first
  simp only
  field_simp
  ring

/-- Two lines that meet at `c`. -/
theorem lines_le (p q p' q' c : ℚ) (h0 : p ≤ p') (hc : 0 < c) (h : p + q * c = p' + q' * c) :
    (∀ x, 0 ≤ x → x ≤ c → p + q * x ≤ p' + q' * x) ∧ ∀ x, c ≤ x → p' + q' * x ≤ p + q * x := by
  have hq : (q - q') * c = p' - p := by linarith
  have hqq : 0 ≤ q - q' := by
    by_contra hcon
    push Not at hcon
    have := mul_neg_of_neg_of_pos hcon hc
    linarith
  constructor
  · intro x _ hx
    nlinarith [mul_nonneg hqq (by linarith : 0 ≤ c - x)]
  · intro x hx
    nlinarith [mul_nonneg hqq (by linarith : 0 ≤ x - c)]

/-- A line that is at two points at most, and at the ends of an interval containing the first of them at least, another line is that
line. -/
theorem same_line (k l k' l' a b c d : ℚ) (hab : a < b) (hca : c ≤ a) (had : a < d) (ha : k + (l - k) * a ≤ k' + (l' - k') * a)
    (hb : k + (l - k) * b ≤ k' + (l' - k') * b) (hc : k' + (l' - k') * c ≤ k + (l - k) * c)
    (hd : k' + (l' - k') * d ≤ k + (l - k) * d) : (k, l) = (k', l') := by
  have s1 : 0 ≤ ((l - k) - (l' - k')) * (d - a) := by linarith
  have s1' := nonneg_of_mul_nonneg_left s1 (by linarith)
  have s2 : 0 ≤ ((l' - k') - (l - k)) * (b - c) := by linarith
  have s2' := nonneg_of_mul_nonneg_left s2 (by linarith)
  have e : l - k = l' - k' := by linarith
  rw [e] at ha hc
  have : k = k' := by linarith
  rw [this] at e ⊢
  rw [show l = l' by linarith]

/-- When the line of Heath-Brown's pair is above the value at 0. -/
theorem kap_le (K m : ℕ) (hK : 5 ≤ K) (hm : 3 ≤ m) : kap K ≤ (hb m).1 ↔ (m - 1) ^ 2 * (m + 2) ≤ 2 * (K - 1) * (K - 2) := by
  have hm' : (3 : ℚ) ≤ m := by exact_mod_cast hm
  have hK' : (5 : ℚ) ≤ K := by exact_mod_cast hK
  have e : ((m - 1) ^ 2 * (m + 2) ≤ 2 * (K - 1) * (K - 2)) ↔ ((m : ℚ) - 1) ^ 2 * (m + 2) ≤ 2 * ((K : ℚ) - 1) * (K - 2) := by
    rw [← @Nat.cast_le ℚ]
    push_cast
    rw [Nat.cast_sub (by omega), Nat.cast_sub (by omega), Nat.cast_sub (by omega)]
    norm_num
  have m1 : (0 : ℚ) < (m : ℚ) - 1 := by linarith
  have K1 : (0 : ℚ) < (K : ℚ) - 1 := by linarith
  have K2 : (0 : ℚ) < (K : ℚ) - 2 := by linarith
  rw [e]
  unfold kap hb
  simp only
  rw [div_le_div_iff₀ (by positivity) (by positivity), one_mul, mul_assoc]

/-! ### The bounds taken from the literature -/

/-- The author of a label. -/
theorem author_iff : ∀ l ∈ Lookup.betaLabels, ((match Lookup.source (.bib l) with
    | .ok s => some (decide (s.1 = "Heath-Brown".toList))
    | .error _ => none) = some (decide (l = "heathbrown_new_2017"))) := by
  decide +kernel

theorem byAuthor_ok : ∀ cs : List (String × Py (List LitBeta.Bd)), (∀ c ∈ cs, c.1 ∈ Lookup.betaLabels ∧ ∃ bs, c.2 = .ok bs) →
    ∃ bs, byAuthor "Heath-Brown".toList cs = .ok bs ∧
      ∀ b, b ∈ bs ↔ ∃ c ∈ cs, c.1 = "heathbrown_new_2017" ∧ ∃ ps, c.2 = .ok ps ∧ b ∈ ps := by
  intro cs
  induction cs with
  | nil => exact fun _ => ⟨[], rfl, fun b => by simp⟩
  | cons c cs ih =>
    intro h
    obtain ⟨hl, ps, hps⟩ := h c (by simp)
    obtain ⟨bs, h1, h2⟩ := ih (fun c hc => h c (List.mem_cons_of_mem _ hc))
    have ha := author_iff c.1 hl
    generalize "Heath-Brown".toList = w at *
    generalize "heathbrown_new_2017" = w' at *
    cases hs : Lookup.source (.bib c.1) with
    | error e => rw [hs] at ha; simp at ha
    | ok s =>
      rw [hs] at ha
      simp only [Option.some.injEq, decide_eq_decide] at ha
      refine ⟨(if s.1 = w then ps else []) ++ bs, ?_, fun b => ?_⟩
      · simp only [byAuthor, hps, hs, h1, bind, Except.bind, pure, Except.pure]
      · rw [List.mem_append, h2]
        constructor
        · rintro (hb | ⟨c', hc', r⟩)
          · split at hb
            · rename_i hw
              exact ⟨c, by simp, ha.mp hw, ps, hps, hb⟩
            · simp at hb
          · exact ⟨c', List.mem_cons_of_mem _ hc', r⟩
        · rintro ⟨c', hc', e, qs, hqs, hb⟩
          rcases List.mem_cons.mp hc' with rfl | hc'
          · rw [hps] at hqs
            cases hqs
            rw [if_pos (ha.mpr e)]
            exact Or.inl hb
          · exact Or.inr ⟨c', hc', e, qs, hqs, hb⟩

/-- The bounds of the author Heath-Brown are those of 2017. -/
theorem hb_bounds_ok (K : ℕ) : ∃ bs, byAuthor "Heath-Brown".toList (Lookup.betaCalls K) = .ok bs ∧
    ∀ b, b ∈ bs ↔ ∃ k : ℕ, 3 ≤ k ∧ k < K ∧ ∃ ps, LitBeta.hb2017 k = .ok ps ∧ b ∈ ps := by
  obtain ⟨bs, h1, h2⟩ := byAuthor_ok _ (Lookup.betaCalls_ok K)
  refine ⟨bs, h1, fun b => ?_⟩
  rw [h2]
  constructor
  · rintro ⟨c, hc, hl, ps, hps, hb⟩
    rcases List.mem_append.mp hc with hc | hc
    · rcases List.mem_append.mp hc with hc | hc
      · rcases List.mem_append.mp hc with hc | hc
        · exfalso
          have : ∀ l ∈ ([("watt_exponential_1989", Except.ok LitBeta.watt), ("huxley_exponential_1991", LitBeta.hk1991),
              ("huxley_exponential_1993", LitBeta.huxley1993a), ("huxley_exponential_1993", .ok LitBeta.huxley1993b),
              ("huxley_exponential_1993", .ok LitBeta.huxley1993c), ("huxley_area_1996", .ok LitBeta.table17),
              ("sargos_points_1995", LitBeta.sargos1995a), ("sargos_points_1995", LitBeta.sargos1995b),
              ("huxley_area_1996", .ok LitBeta.table19), ("huxley_exponential_2001", LitBeta.hk2001), ("robert_fourth_2002", LitBeta.rs2002),
              ("sargos_analog_2003", LitBeta.sargos2003a), ("sargos_analog_2003", LitBeta.sargos2003b),
              ("huxley_exponential_2005", LitBeta.huxley2005), ("robert_fourth_2016", LitBeta.robert2016)] : List (String × Py (List LitBeta.Bd))).map Prod.fst,
              l ≠ "heathbrown_new_2017" := by decide +kernel
          exact this c.1 (List.mem_map_of_mem hc) hl
        · exfalso
          obtain ⟨k, -, rfl⟩ := List.mem_map.mp hc
          have : "robert_2016" ≠ "heathbrown_new_2017" := by decide +kernel
          exact this hl
      · obtain ⟨k, hk, rfl⟩ := List.mem_map.mp hc
        rw [List.mem_range'_1] at hk
        exact ⟨k, by omega, by omega, ps, hps, hb⟩
    · exfalso
      have : ∀ l ∈ ([("bourgain_decoupling_2017", Except.ok LitBeta.bourgain2017), ("trudgian-yang", .ok LitBeta.ty2024)] :
          List (String × Py (List LitBeta.Bd))).map Prod.fst, l ≠ "heathbrown_new_2017" := by decide +kernel
      exact this c.1 (List.mem_map_of_mem hc) hl
  · rintro ⟨k, hk1, hk2, ps, hps, hb⟩
    refine ⟨("heathbrown_new_2017", LitBeta.hb2017 k), ?_, rfl, ps, hps, hb⟩
    exact List.mem_append_left _ (List.mem_append_right _ (List.mem_map.mpr ⟨k, List.mem_range'_1.mpr (by omega), rfl⟩))

/-- The values of the bounds. -/
theorem hb_values (K : ℕ) : ∃ bs, byAuthor "Heath-Brown".toList (Lookup.betaCalls K) = .ok bs ∧ (∀ b ∈ bs, b.dom.Constructible) ∧
    (∀ x v, HasValue bs x v ↔ (0 ≤ x ∧ x ≤ 1) ∧ ∃ k : ℕ, 3 ≤ k ∧ k < K ∧ v = bound k x) ∧
    ∀ k : ℕ, 3 ≤ k → k < K → ∀ x, 0 ≤ x → x ≤ 1 → ∃ ps, LitBeta.hb2017 k = .ok ps ∧ ∃ p ∈ ps, p ∈ bs ∧
      Mem p.dom.x0 p.dom.x1 p.dom.incL p.dom.incU x := by
  obtain ⟨bs, h1, h2⟩ := hb_bounds_ok K
  have hg : ∀ k : ℕ, 3 ≤ k → LitBeta.Graph (LitBeta.hb2017 k) 0 1 (bound k) := fun k hk =>
    LitBeta.C74_hb2017 (k : ℚ) (by exact_mod_cast hk)
  refine ⟨bs, h1, fun b hb => ?_, fun x v => ⟨?_, ?_⟩, fun k hk1 hk2 x x0 x1 => ?_⟩
  · obtain ⟨k, hk1, hk2, ps, hps, hbp⟩ := (h2 b).mp hb
    obtain ⟨qs, e, _, hc, _⟩ := hg k hk1
    rw [e] at hps
    cases hps
    exact hc b hbp
  · rintro ⟨p, hp, r⟩
    obtain ⟨k, hk1, hk2, ps, hps, hbp⟩ := (h2 p).mp hp
    obtain ⟨qs, e, _, _, hv⟩ := hg k hk1
    rw [e] at hps
    cases hps
    obtain ⟨a, b, c⟩ := (hv x v).mp ⟨p, hbp, r⟩
    exact ⟨⟨a, b⟩, k, hk1, hk2, c⟩
  · rintro ⟨⟨x0, x1⟩, k, hk1, hk2, rfl⟩
    obtain ⟨qs, e, _, _, hv⟩ := hg k hk1
    obtain ⟨p, hp, r⟩ := (hv x _).mpr ⟨x0, x1, rfl⟩
    exact ⟨p, (h2 p).mpr ⟨k, hk1, hk2, qs, e, hp⟩, r⟩
  · obtain ⟨qs, e, _, _, hv⟩ := hg k hk1
    obtain ⟨p, hp, r, _⟩ := (hv x _).mpr ⟨x0, x1, rfl⟩
    exact ⟨qs, e, p, hp, (h2 p).mpr ⟨k, hk1, hk2, qs, e, hp⟩, r⟩

/-- The pieces for `k = 3` and `k = 4` are different. -/
theorem different (ps qs : List LitBeta.Bd) (h1 : LitBeta.hb2017 3 = .ok ps) (h2 : LitBeta.hb2017 4 = .ok qs) (p q : LitBeta.Bd)
    (hp : p ∈ ps) (hq : q ∈ qs) : p ≠ q := by
  have h : (match LitBeta.hb2017 3, LitBeta.hb2017 4 with
    | .ok a, .ok b => a.all (fun p => b.all (fun q => decide (p.m ≠ q.m ∨ p.c ≠ q.c)))
    | _, _ => false) = true := by decide +kernel
  rw [h1, h2] at h
  simp only [List.all_eq_true, decide_eq_true_eq] at h
  rintro rfl
  rcases h p hp p hq with h | h <;> exact h rfl

/-! ### The theorem -/

/-- **C93** (which pairs are found) For every truncation `K ≥ 5` of the bounds (20 in the code), every order of the hypotheses and every
computation of convex hulls, `prove_heathbrown_exponent_pairs` returns the trivial pair, the pair `(1/6, 2/3)`, the pairs of
Heath-Brown with `4 ≤ m` and `(m - 1)^2 (m + 2) ≤ 2 (K - 1) (K - 2)`, and the pair of the line that joins the value at 0 to the
corner of the largest such `m` (or of 3 if there is none), and no other pairs. -/
theorem C93_pairs (hull : List (ℚ × ℚ) → Py (List ℕ)) (hs : HullSpec hull) (o : Orders) (ho : o.Ok) (K M : ℕ) (hK : 5 ≤ K)
    (hM3 : 3 ≤ M) (hM : ∀ m, 4 ≤ m → (m ≤ M ↔ (m - 1) ^ 2 * (m + 2) ≤ 2 * (K - 1) * (K - 2))) :
    ∃ out, proveHeathBrown hull o K = .ok out ∧ ∀ p, (∃ r ∈ out, r.key = p) ↔
      p = (0, 1) ∨ p = first K M ∨ (∃ m, 4 ≤ m ∧ m ≤ M ∧ p = hb m) ∨ p = (1 / 6, 2 / 3) := by
  obtain ⟨bs, hbs, hcons, hval, hmem⟩ := hb_values K
  have hKq : (5 : ℚ) ≤ K := by exact_mod_cast hK
  -- the largest index
  have hMK : M + 2 ≤ K := by
    by_contra hcon
    push Not at hcon
    rcases Nat.lt_or_ge M 4 with h | h
    · omega
    · have := (hM M h).mp le_rfl
      obtain ⟨t, rfl⟩ : ∃ t, K = t + 2 := ⟨K - 2, by omega⟩
      have h1 : t + 1 ≤ M := by omega
      have h2 : t ^ 2 * (t + 3) ≤ (M - 1) ^ 2 * (M + 2) := Nat.mul_le_mul (Nat.pow_le_pow_left (by omega) 2) (by omega)
      have h3 : 2 * (t + 2 - 1) * (t + 2 - 2) = 2 * (t + 1) * t := by rw [Nat.add_sub_cancel]; rfl
      have ht : 3 ≤ t := by omega
      nlinarith
  have kap_pos : 0 < kap K := by
    unfold kap
    have : (0 : ℚ) < (K : ℚ) - 1 := by linarith
    have : (0 : ℚ) < (K : ℚ) - 2 := by linarith
    positivity
  have kap_small : kap K ≤ 1 / 6 := by
    unfold kap
    apply div_le_div_of_nonneg_left (by norm_num) (by norm_num)
    nlinarith
  -- lines above the minimum
  have above : ∀ k l, kap K ≤ k → (∀ m, 3 ≤ m → m + 2 ≤ K → cy m ≤ k + (l - k) * cx m) → 5 / 12 ≤ k + (l - k) * (1 / 2) →
      AboveMin bs k l := by
    intro k l h0 hc h1 x x0 x1
    obtain ⟨j, j1, j2, j3⟩ := above_of_corners K hK k (l - k) h0 hc h1 x x0 x1
    exact ⟨_, (hval x _).mpr ⟨⟨x0, by linarith⟩, j, j1, j2, rfl⟩, j3⟩
  have aHB : ∀ m, 4 ≤ m → m ≤ M → AboveMin bs (hb m).1 (hb m).2 := fun m h4 hm =>
    above _ _ ((kap_le K m hK (by omega)).mpr ((hM m h4).mp hm)) (fun j hj _ => hb_above_corner m j (by omega) (by omega)) (hb_half m h4)
  have aLast : AboveMin bs (1 / 6) (2 / 3) := above _ _ kap_small (fun j hj _ => last_corner j hj) (by norm_num)
  have aFirst : AboveMin bs (first K M).1 (first K M).2 := by
    -- the line on the right
    obtain ⟨R, R1, R2, R3, R4⟩ : ∃ R : ℚ × ℚ, kap K ≤ R.1 ∧ R.1 + (R.2 - R.1) * cx M = cy M ∧
        (∀ j, 3 ≤ j → cy j ≤ R.1 + (R.2 - R.1) * cx j) ∧ 5 / 12 ≤ R.1 + (R.2 - R.1) * (1 / 2) := by
      rcases Nat.lt_or_ge M 4 with h | h
      · obtain rfl : M = 3 := by omega
        exact ⟨(1 / 6, 2 / 3), kap_small, by rw [cx3, cy3]; norm_num, fun j hj => last_corner j hj, by norm_num⟩
      · exact ⟨hb M, (kap_le K M hK (by omega)).mpr ((hM M h).mp le_rfl), hb_at M (by omega),
          fun j hj => hb_above_corner M j (by omega) (by omega), hb_half M h⟩
    have hr := (lines_le (first K M).1 ((first K M).2 - (first K M).1) R.1 (R.2 - R.1) (cx M) R1 (cx_pos M)
      (by rw [first_at, R2])).2
    -- the line on the left
    have hl : (hb (M + 1)).1 ≤ (first K M).1 := by
      have h := (kap_le K (M + 1) hK (by omega)).not.mpr (by
        intro hc
        have := (hM (M + 1) (by omega)).mpr hc
        omega)
      exact (not_le.mp h).le
    have hb1 := hb_at_pred (M + 1) (by omega)
    rw [Nat.add_sub_cancel] at hb1
    have hl := (lines_le (hb (M + 1)).1 ((hb (M + 1)).2 - (hb (M + 1)).1) (first K M).1 ((first K M).2 - (first K M).1) (cx M) hl
      (cx_pos M) (by rw [first_at, hb1])).1
    refine above _ _ le_rfl (fun j hj _ => ?_) ?_
    · rcases Nat.lt_or_ge M j with h | h
      · exact (hb_above_corner (M + 1) j (by omega) (by omega)).trans (hl _ (cx_pos j).le (cx_anti (by omega) h.le))
      · exact (R3 j hj).trans (hr _ (cx_anti (by omega) h))
    · refine R4.trans (hr _ ?_)
      have := cx_anti (m := 3) (n := M) (by omega) hM3
      rw [cx3] at this
      linarith
  -- points where they touch
  have tc : ∀ k l m, 3 ≤ m → k + (l - k) * cx m = cy m → Touches bs k l (cx m) := by
    intro k l m hm he v hv
    obtain ⟨_, j, j1, j2, rfl⟩ := (hval _ v).mp hv
    rw [he]
    exact bound_lower m j hm j1
  have t0 : ∀ l, Touches bs (kap K) l 0 := by
    intro l v hv
    obtain ⟨_, j, j1, j2, rfl⟩ := (hval _ v).mp hv
    have j1' : (3 : ℚ) ≤ j := by exact_mod_cast j1
    have j2' : (j : ℚ) + 1 ≤ K := by exact_mod_cast j2
    rw [bound_zero _ j1', mul_zero, add_zero]
    unfold kap
    apply div_le_div_of_nonneg_left (by norm_num) (by nlinarith)
    nlinarith
  have th : ∀ k l, k + (l - k) * (1 / 2) = 5 / 12 → Touches bs k l (1 / 2) := by
    intro k l he v hv
    obtain ⟨_, j, j1, j2, rfl⟩ := (hval _ v).mp hv
    rw [he]
    exact bound_half _ (by exact_mod_cast j1)
  -- a line above the minimum is above the corners
  have low : ∀ k l, AboveMin bs k l → kap K ≤ k ∧ (∀ m, 3 ≤ m → cy m ≤ k + (l - k) * cx m) ∧ 5 / 12 ≤ k + (l - k) * (1 / 2) := by
    intro k l ha
    refine ⟨?_, fun m hm => ?_, ?_⟩
    · obtain ⟨v, hv, hvl⟩ := ha 0 le_rfl (by norm_num)
      have := t0 0 v hv
      rw [mul_zero, add_zero] at this hvl
      linarith
    · have : cx m ≤ 1 / 2 := by
        have := cx_anti (m := 3) (n := m) (by omega) hm
        rw [cx3] at this
        linarith
      obtain ⟨v, hv, hvl⟩ := ha (cx m) (cx_pos m).le this
      obtain ⟨_, j, j1, j2, rfl⟩ := (hval _ v).mp hv
      exact (bound_lower m j hm j1).trans hvl
    · obtain ⟨v, hv, hvl⟩ := ha (1 / 2) (by norm_num) le_rfl
      obtain ⟨_, j, j1, j2, rfl⟩ := (hval _ v).mp hv
      exact (bound_half _ (by exact_mod_cast j1)).trans hvl
  have half_cx : ∀ m, 3 ≤ m → cx m < 1 / 2 := by
    intro m hm
    have := cx_anti (m := 3) (n := m) (by omega) hm
    rw [cx3] at this
    linarith
  obtain ⟨best, out, r1, r2, r3, r4, r5, r6⟩ := run_spec hull hs o ho bs hcons (by
      intro x v x0 x1 hv
      obtain ⟨_, k, hk1, _, rfl⟩ := (hval x v).mp hv
      have hk : (3 : ℚ) ≤ k := by exact_mod_cast hk1
      rw [bound_lines _ _ hk]
      refine le_trans ?_ (le_trans (le_max_left _ _) (le_max_right _ _))
      have : 1 / ((k : ℚ) * (k - 1)) ≤ 1 := by
        rw [div_le_one (by nlinarith)]
        nlinarith
      exact mul_nonneg (by linarith) x0) (by
      intro x x0 x1
      obtain ⟨ps, e1, p, hp, hpb, hpm⟩ := hmem 3 le_rfl (by omega) x x0 (by linarith)
      obtain ⟨qs, e2, q, hq, hqb, hqm⟩ := hmem 4 (by omega) (by omega) x x0 (by linarith)
      exact ⟨p, hpb, q, hqb, different ps qs (by exact_mod_cast e1) (by exact_mod_cast e2) p q hp hq, hpm, hqm⟩)
    ⟨1 / 2, by norm_num, le_rfl, by
      intro v hv
      obtain ⟨_, k, hk1, _, rfl⟩ := (hval _ v).mp hv
      have := bound_half k (by exact_mod_cast hk1)
      linarith⟩ [trivialPair]
  refine ⟨out, ?_, fun p => ⟨?_, ?_⟩⟩
  · unfold proveHeathBrown
    rw [hbs]
    simp only [bind, Except.bind]
    rw [r1]
    exact r2
  · rintro ⟨r, hr, rfl⟩
    rcases r3 r hr with ⟨e, he, rfl⟩ | ⟨k, l, deps, rfl⟩
    · rw [List.mem_singleton] at he
      subst he
      exact Or.inl rfl
    · right
      obtain ⟨hab, a, b, a0, hlt, b1, h⟩ := r5 k l deps hr
      obtain ⟨l0, l1, l2⟩ := low k l hab
      change (k, l) = _ ∨ (∃ m, 4 ≤ m ∧ m ≤ M ∧ (k, l) = hb m) ∨ (k, l) = (1 / 6, 2 / 3)
      rcases lt_or_ge a (cx M) with c1 | c1
      · left
        have := h _ _ aFirst
        exact same_line k l (first K M).1 (first K M).2 a b 0 (cx M) hlt a0 c1 this.1 this.2
          (by rw [first_zero]; linarith) (by rw [first_at]; exact l1 M hM3)
      rcases lt_or_ge a (cx 3) with c2 | c2
      · right; left
        obtain ⟨m, m4, mM, m1, m2⟩ := locate M a hM3 c1 c2
        refine ⟨m, m4, mM, ?_⟩
        have := h _ _ (aHB m m4 mM)
        exact same_line k l (hb m).1 (hb m).2 a b (cx m) (cx (m - 1)) hlt m1 m2 this.1 this.2
          (by rw [hb_at m (by omega)]; exact l1 m (by omega)) (by rw [hb_at_pred m (by omega)]; exact l1 (m - 1) (by omega))
      · right; right
        have := h _ _ aLast
        exact same_line k l (1 / 6) (2 / 3) a b (cx 3) (1 / 2) hlt c2 (by linarith) this.1 this.2
          (by have := l1 3 le_rfl; rw [cy3] at this; rw [cx3] at this ⊢; linarith) (by linarith)
  · rintro (rfl | rfl | ⟨m, m4, mM, rfl⟩ | rfl)
    · exact ⟨_, r4 trivialPair (by simp), rfl⟩
    · exact r6 _ _ 0 (cx M) le_rfl (cx_pos M) (half_cx M hM3).le aFirst (t0 _) (tc _ _ M hM3 (first_at K M))
    · exact r6 _ _ (cx m) (cx (m - 1)) (cx_pos m).le
        (by have := cx_lt (m - 1) (by omega); rwa [Nat.sub_add_cancel (by omega)] at this) (half_cx (m - 1) (by omega)).le (aHB m m4 mM)
        (tc _ _ m (by omega) (hb_at m (by omega))) (tc _ _ (m - 1) (by omega) (hb_at_pred m (by omega)))
    · exact r6 _ _ (cx 3) (1 / 2) (cx_pos 3).le (half_cx 3 le_rfl) le_rfl aLast
        (tc _ _ 3 le_rfl (by rw [cx3, cy3]; norm_num)) (th _ _ (by norm_num))

/-- The index of the last pair exists for every truncation. -/
theorem exists_last (K : ℕ) (hK : 5 ≤ K) : ∃ M, 3 ≤ M ∧ ∀ m, 4 ≤ m → (m ≤ M ↔ (m - 1) ^ 2 * (m + 2) ≤ 2 * (K - 1) * (K - 2)) := by
  have mono : ∀ m n : ℕ, m ≤ n → (m - 1) ^ 2 * (m + 2) ≤ (n - 1) ^ 2 * (n + 2) := fun m n h =>
    Nat.mul_le_mul (Nat.pow_le_pow_left (by omega) 2) (by omega)
  have hex : ∃ m, 3 ≤ m ∧ 2 * (K - 1) * (K - 2) < m ^ 2 * (m + 3) := by
    refine ⟨K, by omega, ?_⟩
    have h1 : (K - 1) * (K - 2) ≤ K * K := Nat.mul_le_mul (by omega) (by omega)
    have h2 : K * K * 3 ≤ K ^ 2 * (K + 3) := by rw [← sq]; exact Nat.mul_le_mul le_rfl (by omega)
    have h3 : 2 * (K - 1) * (K - 2) = 2 * ((K - 1) * (K - 2)) := Nat.mul_assoc _ _ _
    have h4 : 0 < K * K := Nat.mul_pos (by omega) (by omega)
    omega
  obtain ⟨h3, hlt⟩ := Nat.find_spec hex
  refine ⟨Nat.find hex, h3, fun m hm => ⟨fun h => ?_, fun h => ?_⟩⟩
  · by_contra hcon
    push Not at hcon
    have := Nat.find_min hex (m := m - 1) (by omega) ⟨by omega, by rwa [show m - 1 + 3 = m + 2 by omega]⟩
    exact this
  · by_contra hcon
    push Not at hcon
    have := mono (Nat.find hex + 1) m hcon
    rw [Nat.add_sub_cancel, show Nat.find hex + 1 + 2 = Nat.find hex + 3 by omega] at this
    omega

/-- **C93** (Heath-Brown's pairs) Of the pairs of Heath-Brown, those with `4 ≤ m` and `(m - 1)^2 (m + 2) ≤ 2 (K - 1) (K - 2)` are found
and no others, whatever the truncation `K ≥ 5` and the orders. -/
theorem C93_which (hull : List (ℚ × ℚ) → Py (List ℕ)) (hs : HullSpec hull) (o : Orders) (ho : o.Ok) (K : ℕ) (hK : 5 ≤ K) :
    ∃ out, proveHeathBrown hull o K = .ok out ∧ ∀ m, 3 ≤ m →
      ((∃ r ∈ out, r.key = hb m) ↔ 4 ≤ m ∧ (m - 1) ^ 2 * (m + 2) ≤ 2 * (K - 1) * (K - 2)) := by
  obtain ⟨M, hM3, hM⟩ := exists_last K hK
  obtain ⟨out, h1, h2⟩ := C93_pairs hull hs o ho K M hK hM3 hM
  refine ⟨out, h1, fun m hm => ?_⟩
  have inj : ∀ a b : ℕ, 3 ≤ a → a < b → (hb b).1 < (hb a).1 := by
    intro a b ha hab
    have ha' : (3 : ℚ) ≤ a := by exact_mod_cast ha
    have hab' : (a : ℚ) + 1 ≤ b := by exact_mod_cast hab
    unfold hb
    simp only
    have a1 : (0 : ℚ) < (a : ℚ) - 1 := by linarith
    have b1 : (0 : ℚ) < (b : ℚ) - 1 := by linarith
    apply div_lt_div_of_pos_left (by norm_num) (by positivity)
    apply mul_lt_mul'' _ (by linarith) (by positivity) (by positivity)
    exact pow_lt_pow_left₀ (by linarith) a1.le (by norm_num)
  have h3 : hb 3 = (1 / 10, 23 / 30) := by decide +kernel
  have h6 : ∀ m, 3 ≤ m → (hb m).1 < 1 / 6 ∧ 0 < (hb m).1 := by
    intro m hm
    have hpos : 0 < (hb m).1 := by
      unfold hb
      have : (3 : ℚ) ≤ m := by exact_mod_cast hm
      have : (0 : ℚ) < (m : ℚ) - 1 := by linarith
      positivity
    refine ⟨?_, hpos⟩
    rcases Nat.eq_or_lt_of_le hm with rfl | h
    · rw [h3]; norm_num
    · have := inj 3 m le_rfl h
      rw [h3] at this
      simp only at this
      linarith
  have key : (∃ r ∈ out, r.key = hb m) ↔ 4 ≤ m ∧ m ≤ M := by
    rw [h2]
    constructor
    · rintro (h | h | ⟨j, j4, jM, h⟩ | h)
      · have := (h6 m hm).2
        rw [h] at this
        exact absurd this (lt_irrefl _)
      · -- the value at 0 is that of no other pair
        have e : (hb m).1 = kap K := by rw [h]; rfl
        have hle := (kap_le K m hK hm).mp e.ge
        rcases Nat.eq_or_lt_of_le hm with rfl | h4
        · exfalso
          rw [h3] at e
          unfold kap at e
          simp only at e
          have hKq : (5 : ℚ) ≤ K := by exact_mod_cast hK
          have hne : ((K : ℚ) - 1) * (K - 2) ≠ 0 := by
            have : 0 < ((K : ℚ) - 1) * (K - 2) := mul_pos (by linarith) (by linarith)
            exact this.ne'
          rw [div_eq_div_iff (by norm_num) hne] at e
          have : (4 : ℚ) * 3 ≤ ((K : ℚ) - 1) * (K - 2) := mul_le_mul (by linarith) (by linarith) (by norm_num) (by linarith)
          linarith
        · exact ⟨h4, (hM m h4).mpr hle⟩
      · rcases Nat.lt_trichotomy j m with hlt | rfl | hlt
        · have := inj j m (by omega) hlt
          rw [h] at this
          exact absurd this (lt_irrefl _)
        · exact ⟨j4, jM⟩
        · have := inj m j hm hlt
          rw [h] at this
          exact absurd this (lt_irrefl _)
      · have := (h6 m hm).1
        rw [h] at this
        exact absurd this (lt_irrefl _)
    · rintro ⟨m4, mM⟩
      exact Or.inr (Or.inr (Or.inl ⟨m, m4, mM, rfl⟩))
  rw [key]
  constructor
  · rintro ⟨m4, mM⟩
    exact ⟨m4, (hM m m4).mp mM⟩
  · rintro ⟨m4, h⟩
    exact ⟨m4, (hM m m4).mpr h⟩

/-- **C93** (the constants of the code) With the truncation 20 of constants.py the pairs found are these eight. -/
theorem C93_code (hull : List (ℚ × ℚ) → Py (List ℕ)) (hs : HullSpec hull) (o : Orders) (ho : o.Ok) :
    ∃ out, proveHeathBrown hull o 20 = .ok out ∧ ∀ p, (∃ r ∈ out, r.key = p) ↔
      p ∈ [((0 : ℚ), (1 : ℚ)), (1 / 342, 11917 / 12312), hb 8, hb 7, hb 6, hb 5, hb 4, (1 / 6, 2 / 3)] := by
  have hM : ∀ m, 4 ≤ m → (m ≤ 8 ↔ (m - 1) ^ 2 * (m + 2) ≤ 2 * (20 - 1) * (20 - 2)) := by
    intro m hm
    constructor
    · intro h
      have : (m - 1) ^ 2 * (m + 2) ≤ 7 ^ 2 * 10 := Nat.mul_le_mul (Nat.pow_le_pow_left (by omega) 2) (by omega)
      omega
    · intro h
      by_contra hcon
      have : 8 ^ 2 * 11 ≤ (m - 1) ^ 2 * (m + 2) := Nat.mul_le_mul (Nat.pow_le_pow_left (by omega) 2) (by omega)
      omega
  obtain ⟨out, h1, h2⟩ := C93_pairs hull hs o ho 20 8 (by norm_num) (by norm_num) hM
  refine ⟨out, h1, fun p => ?_⟩
  rw [h2, show first 20 8 = (1 / 342, 11917 / 12312) by decide +kernel]
  simp only [List.mem_cons, List.not_mem_nil, or_false]
  constructor
  · rintro (h | h | ⟨m, m4, m8, rfl⟩ | h)
    · exact Or.inl h
    · exact Or.inr (Or.inl h)
    · obtain rfl | rfl | rfl | rfl | rfl : m = 4 ∨ m = 5 ∨ m = 6 ∨ m = 7 ∨ m = 8 := by omega
      all_goals simp
    · simp [h]
  · rintro (h | h | h | h | h | h | h | h)
    · exact Or.inl h
    · exact Or.inr (Or.inl h)
    · exact Or.inr (Or.inr (Or.inl ⟨8, by omega, by omega, h⟩))
    · exact Or.inr (Or.inr (Or.inl ⟨7, by omega, by omega, h⟩))
    · exact Or.inr (Or.inr (Or.inl ⟨6, by omega, by omega, h⟩))
    · exact Or.inr (Or.inr (Or.inl ⟨5, by omega, by omega, h⟩))
    · exact Or.inr (Or.inr (Or.inl ⟨4, by omega, by omega, h⟩))
    · exact Or.inr (Or.inr (Or.inr h))

/-- derived.py:131-151: `prove_heathbrown_exponent_pairs` finds only five of the seventeen exponent pairs of Heath-Brown that
literature.py contains: `m = 4, …, 8`. The pair for `m = 3`, which is `(1/10, 23/30)`, is not the pair of an edge of the convex hull (on
[0, 1/2] its line meets the bound at one point only), and those for `m = 9, …, 19` are lost because the bounds on beta are truncated at
the same number 20: near 0 the bound with the largest `k` is not small enough. -/
theorem C93_counterexample (hull : List (ℚ × ℚ) → Py (List ℕ)) (hs : HullSpec hull) (o : Orders) (ho : o.Ok) :
    ∃ out ps, proveHeathBrown hull o 20 = .ok out ∧ heathBrownPairs 20 = .ok ps ∧ ps.length = 17 ∧ ∀ m, 3 ≤ m → m < 20 →
      hb m ∈ ps ∧ ((∃ r ∈ out, r.key = hb m) ↔ 4 ≤ m ∧ m ≤ 8) := by
  obtain ⟨out, h1, h2⟩ := C93_which hull hs o ho 20 (by norm_num)
  have hp : (match heathBrownPairs 20 with
    | .ok ps => decide (ps.length = 17) && (List.range' 3 17).all (fun m => decide (hb m ∈ ps))
    | .error _ => false) = true := by decide +kernel
  cases hps : heathBrownPairs 20 with
  | error e => rw [hps] at hp; cases hp
  | ok ps =>
    rw [hps] at hp
    simp only [Bool.and_eq_true, decide_eq_true_eq, List.all_eq_true] at hp
    refine ⟨out, ps, h1, rfl, hp.1, fun m hm hm' => ⟨hp.2 m (List.mem_range'_1.mpr (by omega)), ?_⟩⟩
    rw [h2 m hm]
    have : ∀ m < 20, (4 ≤ m ∧ (m - 1) ^ 2 * (m + 2) ≤ 2 * (20 - 1) * (20 - 2)) ↔ 4 ≤ m ∧ m ≤ 8 := by decide
    exact this m hm'

/-- The hypotheses of the theorems hold for the constants of the code, and for a truncation at which no pair of Heath-Brown is
found. -/
example : (∃ hull, HullSpec hull) ∧ (Orders.Ok ⟨fun _ l => l.reverse, fun _ l => l, fun l => l⟩) ∧ 5 ≤ 20 ∧
    hb 8 = (1 / 245, 269 / 280) ∧ first 20 8 = (1 / 342, 11917 / 12312) ∧ first 5 3 = (1 / 12, 19 / 24) :=
  ⟨Hull.hullSpec_satisfiable, ⟨fun _ l => l.reverse_perm, fun _ _ => List.Perm.refl _, fun _ => List.Perm.refl _⟩, by norm_num,
    by decide +kernel, by decide +kernel, by decide +kernel⟩

end HBPairs
end Expdb
