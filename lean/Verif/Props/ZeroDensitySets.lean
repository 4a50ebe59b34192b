import Verif.Props.BourgainRegion
import Verif.Model.DerivedBourgain

/-!
# The value of `prove_zero_density` for large value estimates given as sets

As `C81_value`, for estimates which need not be maxima of bounds and whose polytopes may be unbounded.
-/

namespace Expdb
namespace RegionUnb

open Rational SupRatio Mat Region ZeroDensity DerivedZD

variable {eng : Engine}

/-- A large value estimate: the triples `(sigma, tau, rho)` which it allows. -/
abbrev Est := ℚ → ℚ → ℚ → Prop

/-- The region `R` consists of the triples allowed by the `k`-th power of the estimate `S`, and can be clipped. -/
def IsPow (eng : Engine) (S : Est) (k : ℚ) (R : Region ℕ) : Prop :=
  Clips eng R ∧ Clips eng (.intersect [.polytope tauTwo none, R]) ∧ ∀ s t r, 1 / 2 ≤ s → (R.Mem [s, t, r] ↔ S s (t / k) (r / k))

/-- The region of the estimate `S`, which can be raised to powers. -/
def Raisable (eng : Engine) (S : Est) (R : Region ℕ) : Prop :=
  IsPow eng S 1 R ∧ ∀ k, 1 ≤ k → ∃ R', LargeValues.raiseToPower k R = .ok R' ∧ IsPow eng S k R'

/-- The estimate given by the maximum of bounds. -/
def boundSet (bs : List (ℚ × ℚ × ℚ)) : Est := fun s u p => LargeValues.InBox s u p ∧ ∃ b ∈ bs, p ≤ bval b s u

theorem raisable_bounds (heng : EngineSpec eng) (hneg : UnboundedNeg eng.lp) (bs : List (ℚ × ℚ × ℚ)) (hne : bs ≠ [])
    (h : Staggered [] bs) : ∃ R, LargeValues.convertBounds eng.canon (bs.map (fun b => [b.1, b.2.1, b.2.2])) = .ok R ∧
      Raisable eng (boundSet bs) R := by
  obtain ⟨ms, h1, _, _⟩ := convert_full heng.canon heng.canonNoZero bs hne h
  have h2 := realises_convert heng.canon heng.canonNoZero bs hne h h1
  have key : ∀ k R, Realises bs k R → IsPow eng (boundSet bs) k R := by
    intro k R hR
    have hp := realises_plain hR
    exact ⟨clips_hyp heng hneg (.inl hp), clips_hyp heng hneg (.inr ⟨tauTwo, none, R, rfl, tauTwo_unb, hp⟩), fun s t r _ => hR.2 s t r⟩
  refine ⟨_, h1, key 1 _ h2, fun k hk => ?_⟩
  obtain ⟨R', k1, k2⟩ := realises_raise h2 k (by linarith)
  exact ⟨R', k1, key k R' k2⟩

theorem raisable_bourgain (heng : EngineSpec eng) (hneg : UnboundedNeg eng.lp) :
    ∃ R, Literature.bourgainRegion = .ok R ∧ Raisable eng BSet R := by
  have key : ∀ k ms, 1 ≤ k → List.Forall₂ (Scaled k) bMats ms → IsPow eng BSet k (unionOf ms) := by
    intro k ms hk h
    obtain ⟨c1, c2⟩ := clips_bourgain heng hneg hk h
    exact ⟨c1, c2, fun s t r hs => by rw [scaled_mem h, bMats_mem _ _ _ hs]⟩
  refine ⟨_, bourgain_unionOf, key 1 _ le_rfl (scaled_self bMats_solid), fun k hk => ?_⟩
  obtain ⟨ms', h1, h2⟩ := raise_b bMats_solid k (by linarith)
  exact ⟨_, h1, key k ms' hk h2⟩

/-- The regions `rs` are those of the estimates with powers in `B`, in some order. -/
def CoversS (eng : Engine) (rs : List (Region ℕ)) (B : List (Est × ℚ)) : Prop :=
  (∀ R ∈ rs, ∃ p ∈ B, IsPow eng p.1 p.2 R) ∧ ∀ p ∈ B, ∃ R ∈ rs, IsPow eng p.1 p.2 R

theorem CoversS.append {rs1 rs2 : List (Region ℕ)} {B1 B2 : List (Est × ℚ)} (h1 : CoversS eng rs1 B1) (h2 : CoversS eng rs2 B2) :
    CoversS eng (rs1 ++ rs2) (B1 ++ B2) := by
  constructor
  · intro R hR
    rcases List.mem_append.mp hR with hR | hR
    · obtain ⟨p, hp, h⟩ := h1.1 R hR; exact ⟨p, by simp [hp], h⟩
    · obtain ⟨p, hp, h⟩ := h2.1 R hR; exact ⟨p, by simp [hp], h⟩
  · intro p hp
    rcases List.mem_append.mp hp with hp | hp
    · obtain ⟨R, hR, h⟩ := h1.2 p hp; exact ⟨R, by simp [hR], h⟩
    · obtain ⟨R, hR, h⟩ := h2.2 p hp; exact ⟨R, by simp [hR], h⟩

theorem CoversS.mem {rs : List (Region ℕ)} {B : List (Est × ℚ)} (h : CoversS eng rs B) (s t r : ℚ) (hs : 1 / 2 ≤ s) :
    (∀ R ∈ rs, R.Mem [s, t, r]) ↔ ∀ p ∈ B, p.1 s (t / p.2) (r / p.2) := by
  constructor
  · intro hall p hp
    obtain ⟨R, hR, hr⟩ := h.2 p hp
    exact (hr.2.2 s t r hs).mp (hall R hR)
  · intro hu R hR
    obtain ⟨p, hp, hr⟩ := h.1 R hR
    exact (hr.2.2 s t r hs).mpr (hu p hp)

theorem forall2_left {α β : Type} {P : α → β → Prop} {as : List α} {bs : List β} (h : List.Forall₂ P as bs) : ∀ b ∈ bs, ∃ a ∈ as, P a b := by
  induction h with
  | nil => simp
  | cons hab _ ih =>
    intro b hb
    rcases List.mem_cons.mp hb with rfl | hb
    · exact ⟨_, by simp, hab⟩
    · obtain ⟨a, e1, e2⟩ := ih b hb
      exact ⟨a, by simp [e1], e2⟩

theorem forall2_right {α β : Type} {P : α → β → Prop} {as : List α} {bs : List β} (h : List.Forall₂ P as bs) : ∀ a ∈ as, ∃ b ∈ bs, P a b := by
  induction h with
  | nil => simp
  | cons hab _ ih =>
    intro a ha
    rcases List.mem_cons.mp ha with rfl | ha
    · exact ⟨_, by simp, hab⟩
    · obtain ⟨b, e1, e2⟩ := ih a ha
      exact ⟨b, by simp [e1], e2⟩

theorem covers_transformsS {lvs : List (Region ℕ)} {LS : List Est} (hl : ∀ R ∈ lvs, ∃ S ∈ LS, Raisable eng S R)
    (hr : ∀ S ∈ LS, ∃ R ∈ lvs, Raisable eng S R) (ks : List ℚ) (hk : ∀ k ∈ ks, 1 ≤ k) :
    ∃ tl, LargeValues.applyTransforms lvs (ks.map LargeValues.raiseToPower) = .ok tl ∧
      CoversS eng tl (ks.flatMap (fun k => LS.map (fun S => (S, k)))) := by
  induction ks with
  | nil => exact ⟨[], rfl, by simp, by simp⟩
  | cons k ks ih =>
    obtain ⟨tl, h1, h2⟩ := ih (fun q hq => hk q (by simp [hq]))
    obtain ⟨rs, h3, h4⟩ := LargeValues.applyAll_ok (LargeValues.raiseToPower k) (fun R R' => LargeValues.raiseToPower k R = .ok R')
      lvs (by
        intro R hR
        obtain ⟨S, _, hS⟩ := hl R hR
        obtain ⟨R', e1, _⟩ := hS.2 k (hk k (by simp))
        exact ⟨R', e1, e1⟩)
    refine ⟨rs ++ tl, ?_, ?_⟩
    · simp only [List.map_cons]
      unfold LargeValues.applyTransforms
      rw [h3, h1]
      rfl
    · rw [List.flatMap_cons]
      refine CoversS.append ⟨?_, ?_⟩ h2
      · intro R' hR'
        obtain ⟨R, hR, e⟩ := forall2_left h4 R' hR'
        obtain ⟨S, hS, hr'⟩ := hl R hR
        obtain ⟨R'', e1, e2⟩ := hr'.2 k (hk k (by simp))
        rw [e] at e1
        rw [Except.ok.inj e1]
        exact ⟨(S, k), List.mem_map.mpr ⟨S, hS, rfl⟩, e2⟩
      · intro p hp
        obtain ⟨S, hS, rfl⟩ := List.mem_map.mp hp
        obtain ⟨R, hR, hr'⟩ := hr S hS
        obtain ⟨R', hR', e⟩ := forall2_right h4 R hR
        obtain ⟨R'', e1, e2⟩ := hr'.2 k (hk k (by simp))
        rw [e] at e1
        refine ⟨R', hR', ?_⟩
        rw [Except.ok.inj e1]
        exact e2

/-- The triples with `sigma` in `[x0, x1]` and `tau` in `[a, b]` allowed by the estimates `LS` and their powers up to 5, and by the
estimates `ZS`. -/
def Within (LS ZS : List Est) (x0 x1 a b : ℚ) (x : Pt) : Prop :=
  ∃ s t r, x = [s, t, r] ∧ (x0 ≤ s ∧ s ≤ x1) ∧ (a ≤ t ∧ t ≤ b) ∧ (0 ≤ r ∧ r ≤ 1000000) ∧
    (∀ S ∈ LS, ∀ k ∈ [(1 : ℚ), 2, 3, 4, 5], S s (t / k) (r / k)) ∧ ∀ S ∈ ZS, S s t r

theorem within_iff (LS ZS : List Est) (x0 x1 a b s t r : ℚ) : Within LS ZS x0 x1 a b [s, t, r] ↔ (x0 ≤ s ∧ s ≤ x1) ∧ (a ≤ t ∧ t ≤ b) ∧
    (0 ≤ r ∧ r ≤ 1000000) ∧ (∀ S ∈ LS, ∀ k ∈ [(1 : ℚ), 2, 3, 4, 5], S s (t / k) (r / k)) ∧ ∀ S ∈ ZS, S s t r := by
  constructor
  · rintro ⟨s', t', r', e, h⟩
    simp only [List.cons.injEq, and_true] at e
    obtain ⟨rfl, rfl, rfl⟩ := e
    exact h
  · exact fun h => ⟨s, t, r, rfl, h⟩

/-- To the left the estimate allows larger values. -/
def RisingS (S : Est) : Prop :=
  ∀ s s' u p p', 1 / 2 ≤ s → s < s' → S s' u p → p ≤ p' → p' ≤ p + (s' - s) → p' ≤ 1000000 → S s u p'

theorem rising_within {LS ZS : List Est} (hl : boundSet l2 ∈ LS) (hL : ∀ S ∈ LS, RisingS S) (hZ : ∀ S ∈ ZS, RisingS S) {x0 x1 a b : ℚ}
    (hx0 : 1 / 2 ≤ x0) (hx1 : x1 ≤ 1) (hb : b ≤ 1000) : Rising (Within LS ZS x0 x1 a b) x0 := by
  intro s s' t r l1 l2 h
  rw [within_iff] at h ⊢
  obtain ⟨h1, h2, h3, h4, h5⟩ := h
  have hcap : r ≤ 999999 := by
    obtain ⟨_, b', hb', hle⟩ := h4 _ hl 1 (by simp)
    unfold DerivedZD.l2 at hb'
    simp only [List.mem_cons, List.not_mem_nil, or_false] at hb'
    unfold bval at hle
    rcases hb' with rfl | rfl <;> norm_num at hle <;> linarith
  refine ⟨⟨l1, by linarith⟩, h2, ⟨by linarith, by linarith⟩, fun S hS k hk => ?_, fun S hS => ?_⟩
  · have hk1 := (five hk).1
    have hk0 : 0 < k := by linarith
    refine hL S hS s s' _ (r / k) _ (by linarith) l2 (h4 S hS k hk) ?_ ?_ ?_
    · exact div_le_div_of_nonneg_right (by linarith) hk0.le
    · rw [add_div]
      have := div_le_self (show 0 ≤ s' - s by linarith) hk1
      linarith
    · rw [div_le_iff₀ hk0]
      nlinarith
  · exact hZ S hS s s' _ r _ (by linarith) l2 (h5 S hS) (by linarith) le_rfl (by linarith)

/-- The estimate allows `rho ≤ 2 - 2 sigma`. -/
def Small (S : Est) : Prop := ∀ s u p, 1 / 2 ≤ s → s ≤ 1 → 0 ≤ u → u ≤ 1000000 → 0 ≤ p → p ≤ 2 - 2 * s → S s u p

/-- The estimate allows small `rho` for `tau` near 3. -/
def SmallZ (S : Est) : Prop := ∀ s t r, 1 / 2 ≤ s → s ≤ 1 → 3 - (1 - s) ≤ t → t ≤ 4 → 0 ≤ r → r ≤ 1 - s → S s t r

theorem small_limit {LS ZS : List Est} (hL : ∀ S ∈ LS, Small S) (hZ : ∀ S ∈ ZS, SmallZ S) {x0 x1 a b s c : ℚ} (hx0 : 1 / 2 ≤ x0) (hx1 : x1 ≤ 1)
    (h0 : x0 ≤ s) (h1 : s < x1) (ha : 2 ≤ a) (hb : b ≤ 6) (hc : c = 1 ∧ a ≤ 3 ∧ 4 ≤ b ∨ c = -1 ∧ a ≤ 2 ∧ 3 ≤ b) :
    RightLimit (Within LS ZS x0 x1 a b) s 3 0 := by
  intro ε hε
  have hη : 0 < min (ε / 2) ((x1 - s) / 16) := lt_min (by linarith) (by linarith)
  set η := min (ε / 2) ((x1 - s) / 16) with hηd
  have e1 : η ≤ ε / 2 := min_le_left _ _
  have e2 : η ≤ (x1 - s) / 16 := min_le_right _ _
  refine ⟨s + η, 3 + c * η, η, ?_, by linarith, η / 2, by linarith, fun z hz => ?_⟩
  · have hcη : |c * η| < ε := by
      rw [abs_lt]
      rcases hc with ⟨rfl, _⟩ | ⟨rfl, _⟩ <;> constructor <;> linarith
    refine .cons ?_ (.cons ?_ (.cons ?_ .nil))
    · rw [abs_lt]; constructor <;> linarith
    · rwa [add_sub_cancel_left]
    · rw [abs_lt]; constructor <;> linarith
  · obtain ⟨b', rfl, n1, n2, n3⟩ := (near3 _ (s + η, 3 + c * η, η) _).mp hz
    obtain ⟨s', t', r'⟩ := b'
    simp only [pt, abs_lt] at n1 n2 n3 ⊢
    rw [within_iff]
    have ht : 2 ≤ t' ∧ t' ≤ 4 ∧ a ≤ t' ∧ t' ≤ b ∧ 3 - (1 - s') ≤ t' := by
      rcases hc with ⟨rfl, h2, h3⟩ | ⟨rfl, h2, h3⟩ <;> refine ⟨?_, ?_, ?_, ?_, ?_⟩ <;> linarith
    obtain ⟨t1, t2, t3, t4, t5⟩ := ht
    refine ⟨⟨by linarith, by linarith⟩, ⟨t3, t4⟩, ⟨by linarith, by linarith⟩, fun S hS k hk => ?_, fun S hS => ?_⟩
    · have hk1 := (five hk).1
      have hk0 : 0 < k := by linarith
      have d1 := div_le_self (show 0 ≤ t' by linarith) hk1
      have d2 := div_le_self (show 0 ≤ r' by linarith) hk1
      exact hL S hS _ _ _ (by linarith) (by linarith) (by positivity) (by linarith) (div_nonneg (by linarith) hk0.le) (by linarith)
    · exact hZ S hS _ _ _ (by linarith) (by linarith) t5 t2 (by linarith) (by linarith)

/-- What `prove_zero_density` returns for estimates given as sets. -/
theorem zd_sets (heng : EngineSpec eng) (hneg : UnboundedNeg eng.lp) {edges : Mat → List (Pt × Pt)}
    (hed : ∀ p : Mat, p.cols = 4 → p.Bounded → EdgesSpec edges p) {solve : RF ℝ → RF ℝ → List ℝ} (hs : SolveSpec solve)
    {isZero : Expr ℝ → Bool} (hz : ZeroSpec isZero) {orderR : List (Region ℕ) → List (Region ℕ)} (hR : ∀ l, (orderR l).Perm l)
    {orderK : List ℚ → List ℚ} (hK : ∀ l, (orderK l).Perm l) (LS ZS : List Est) (lvs zlvs : List (Region ℕ))
    (hL : List.Forall₂ (Raisable eng) LS lvs) (hZ : List.Forall₂ (Raisable eng) ZS zlvs)
    (hrL : ∀ S ∈ LS, RisingS S) (hrZ : ∀ S ∈ ZS, RisingS S) (hsL : ∀ S ∈ LS, Small S) (hsZ : ∀ S ∈ ZS, SmallZ S) (x0 x1 : ℚ) (hx : x0 < x1)
    (hx0 : 1 / 2 ≤ x0) (hx1 : x1 ≤ 1) :
    ∃ out, proveZeroDensity eng edges solve isZero orderR orderK lvs zlvs x0 x1 3 = .ok out ∧ Pieces x0 x1 out ∧
      ∀ s : ℚ, x0 ≤ s → s < x1 → ∃ q ∈ out, q.dom.x0 ≤ s ∧ s < q.dom.x1 ∧ (∀ q' ∈ out, q'.dom.x0 ≤ s → s < q'.dom.x1 → q' = q) ∧
        IsGreatest (LimitRatios (Within (boundSet l2 :: LS) [] x0 x1 3 6) (Within (boundSet l2 :: LS) ZS x0 x1 2 3) s) (q.fn.at s) := by
  obtain ⟨L2, e1, hl2⟩ := raisable_bounds heng hneg l2 (by simp [l2]) l2_staggered
  replace e1 : LargeValues.convertBounds eng.canon l2Bounds = .ok L2 := e1
  set lv := orderR (L2 :: lvs) with hlv
  set ks := orderK [2, 3, 4, 5] with hks
  have hkp : ks.Perm [2, 3, 4, 5] := hK _
  have hall : List.Forall₂ (Raisable eng) (boundSet l2 :: LS) (L2 :: lvs) := .cons hl2 hL
  have hlm : ∀ R, R ∈ lv ↔ R ∈ L2 :: lvs := fun R => (hR _).mem_iff
  have g1 : ∀ R ∈ lv, ∃ S ∈ boundSet l2 :: LS, Raisable eng S R := fun R hR' => forall2_left hall R ((hlm R).mp hR')
  have g2 : ∀ S ∈ boundSet l2 :: LS, ∃ R ∈ lv, Raisable eng S R := fun S hS => by
    obtain ⟨R, h1, h2⟩ := forall2_right hall S hS
    exact ⟨R, (hlm R).mpr h1, h2⟩
  obtain ⟨tl, t1, t2⟩ := covers_transformsS g1 g2 ks (by
    intro k hk
    have := hkp.mem_iff.mp hk
    simp only [List.mem_cons, List.not_mem_nil, or_false] at this
    rcases this with rfl | rfl | rfl | rfl <;> norm_num)
  have hcl : CoversS eng lv ((boundSet l2 :: LS).map (fun S => (S, 1))) := by
    refine ⟨fun R hR' => ?_, fun p hp => ?_⟩
    · obtain ⟨S, k1, k2⟩ := g1 R hR'
      exact ⟨(S, 1), List.mem_map.mpr ⟨S, k1, rfl⟩, k2.1⟩
    · obtain ⟨S, k1, rfl⟩ := List.mem_map.mp hp
      obtain ⟨R, k2, k3⟩ := g2 S k1
      exact ⟨R, k2, k3.1⟩
  have hB := hcl.append t2
  have hLm : ∀ s t r, 1 / 2 ≤ s → ((∀ R ∈ lv ++ tl, R.Mem [s, t, r]) ↔
      ∀ S ∈ boundSet l2 :: LS, ∀ k ∈ [(1 : ℚ), 2, 3, 4, 5], S s (t / k) (r / k)) := by
    intro s t r hs'
    rw [hB.mem s t r hs']
    constructor
    · intro h S hS k hk
      refine h (S, k) ?_
      rcases List.mem_cons.mp hk with rfl | hk
      · exact List.mem_append_left _ (List.mem_map.mpr ⟨S, hS, rfl⟩)
      · exact List.mem_append_right _ (List.mem_flatMap.mpr ⟨k, hkp.mem_iff.mpr hk, List.mem_map.mpr ⟨S, hS, rfl⟩⟩)
    · intro h p hp
      rcases List.mem_append.mp hp with hp | hp
      · obtain ⟨S, hS, rfl⟩ := List.mem_map.mp hp
        exact h S hS 1 (by simp)
      · obtain ⟨k, hk, hp⟩ := List.mem_flatMap.mp hp
        obtain ⟨S, hS, rfl⟩ := List.mem_map.mp hp
        exact h S hS k (List.mem_cons_of_mem _ (hkp.mem_iff.mp hk))
  set derived : List (Region ℕ) := (lv ++ tl).map (fun r => .intersect [.polytope tauTwo none, r]) with hder
  set zl := orderR (zlvs ++ derived) with hzl
  have hzm : ∀ R, R ∈ zl ↔ R ∈ zlvs ∨ R ∈ derived := fun R => by rw [hzl, (hR _).mem_iff, List.mem_append]
  have hZm : ∀ s t r, 1 / 2 ≤ s → ((∀ R ∈ zlvs, R.Mem [s, t, r]) ↔ ∀ S ∈ ZS, S s t r) := by
    intro s t r hs'
    constructor
    · intro h S hS
      obtain ⟨R, k1, k2⟩ := forall2_right hZ S hS
      simpa using (k2.1.2.2 s t r hs').mp (h R k1)
    · intro h R hR'
      obtain ⟨S, k1, k2⟩ := forall2_left hZ R hR'
      exact (k2.1.2.2 s t r hs').mpr (by simpa using h S k1)
  have eq1 : Allowed x0 x1 3 (2 * 3) (lv ++ tl) = Within (boundSet l2 :: LS) [] x0 x1 3 6 := by
    funext x
    unfold Allowed Within
    rw [eq_iff_iff]
    constructor
    · rintro ⟨s, t, r, e, k1, k2, k3, k4⟩
      subst e
      exact ⟨s, t, r, rfl, k1, by norm_num at k2; exact k2, k3, (hLm s t r (by linarith [k1.1])).mp k4, by simp⟩
    · rintro ⟨s, t, r, e, k1, k2, k3, k4, _⟩
      subst e
      exact ⟨s, t, r, rfl, k1, by norm_num; exact k2, k3, (hLm s t r (by linarith [k1.1])).mpr k4⟩
  have eq2 : Allowed x0 x1 2 3 (lv ++ tl ++ zl) = Within (boundSet l2 :: LS) ZS x0 x1 2 3 := by
    funext x
    unfold Allowed Within
    rw [eq_iff_iff]
    constructor
    · rintro ⟨s, t, r, e, k1, k2, k3, k4⟩
      subst e
      have hs' : 1 / 2 ≤ s := by linarith [k1.1]
      exact ⟨s, t, r, rfl, k1, k2, k3, (hLm s t r hs').mp fun R hR' => k4 R (List.mem_append_left _ hR'),
        (hZm s t r hs').mp fun R hR' => k4 R (List.mem_append_right _ ((hzm R).mpr (.inl hR')))⟩
    · rintro ⟨s, t, r, e, k1, k2, k3, k4, k5⟩
      subst e
      have hs' : 1 / 2 ≤ s := by linarith [k1.1]
      refine ⟨s, t, r, rfl, k1, k2, k3, fun R hR' => ?_⟩
      rcases List.mem_append.mp hR' with hR' | hR'
      · exact (hLm s t r hs').mpr k4 R hR'
      · rcases (hzm R).mp hR' with hR' | hR'
        · exact (hZm s t r hs').mpr k5 R hR'
        · obtain ⟨R', hR'', rfl⟩ := List.mem_map.mp hR'
          rw [mem_pair]
          exact ⟨(tauTwo_contains _).mpr ⟨s, t, r, rfl, k2.1⟩, (hLm s t r hs').mpr k4 R' hR''⟩
  have hcl1 : ∀ R ∈ lv ++ tl, Clips eng R ∧ Clips eng (.intersect [.polytope tauTwo none, R]) := by
    intro R hR'
    obtain ⟨p, _, hp⟩ := hB.1 R hR'
    exact ⟨hp.1, hp.2.1⟩
  have hrs : ∀ r ∈ lv ++ tl ++ zl, Clips eng r := by
    intro R hR'
    rcases List.mem_append.mp hR' with hR' | hR'
    · exact (hcl1 R hR').1
    · rcases (hzm R).mp hR' with hR' | hR'
      · obtain ⟨S, _, k⟩ := forall2_left hZ R hR'
        exact k.1.1
      · obtain ⟨R', hR'', rfl⟩ := List.mem_map.mp hR'
        exact (hcl1 R' hR'').2
  have l2rise : RisingS (boundSet l2) := by
    rintro s s' u p p' l1 l2 ⟨⟨b1, b2, b3, b4, b5, b6⟩, b, hb, hle⟩ k1 k2 k3
    refine ⟨⟨l1, by linarith, b3, b4, by linarith, k3⟩, b, hb, ?_⟩
    unfold DerivedZD.l2 at hb
    simp only [List.mem_cons, List.not_mem_nil, or_false] at hb
    unfold bval at hle ⊢
    rcases hb with rfl | rfl <;> simp only at hle ⊢ <;> linarith
  have l2small : Small (boundSet l2) := by
    intro s u p h1 h2 h3 h4 h5 h6
    refine ⟨⟨h1, h2, h3, h4, h5, by linarith⟩, (2, -2, 0), by simp [DerivedZD.l2], ?_⟩
    unfold bval
    simp only
    linarith
  have hr' : ∀ S ∈ boundSet l2 :: LS, RisingS S := by
    intro S hS
    rcases List.mem_cons.mp hS with rfl | hS
    · exact l2rise
    · exact hrL S hS
  have hs' : ∀ S ∈ boundSet l2 :: LS, Small S := by
    intro S hS
    rcases List.mem_cons.mp hS with rfl | hS
    · exact l2small
    · exact hsL S hS
  obtain ⟨out, o1, o2, o3⟩ := zd_clips heng hed hs hz lv (ks.map LargeValues.raiseToPower) tl t1 zl (by
      rw [hlv]; intro h; simpa [h] using (hR (L2 :: lvs)).length_eq) hrs x0 x1 3 hx (by norm_num) true false
      (by rw [eq1]; exact rising_within (by simp) hr' (by simp) hx0 hx1 (by norm_num))
      (by rw [eq2]; exact rising_within (by simp) hr' hrZ hx0 hx1 (by norm_num))
      (fun s l1 l2 => ⟨3, 0, by
        rw [eq1]; exact small_limit hs' (by simp) hx0 hx1 l1 l2 (by norm_num) (by norm_num) (.inl ⟨rfl, by norm_num, by norm_num⟩), by norm_num⟩)
      (fun s l1 l2 => ⟨3, 0, by
        rw [eq2]; exact small_limit hs' hsZ hx0 hx1 l1 l2 (by norm_num) (by norm_num) (.inr ⟨rfl, by norm_num, by norm_num⟩), by norm_num⟩)
  rw [eq1, eq2] at o3
  refine ⟨out, ?_, o2, o3⟩
  unfold proveZeroDensity
  rw [e1]
  simp only [bind, Except.bind]
  rw [← hlv, ← hks, lvToZlv_eq lv _ tl t1]
  exact o1

end RegionUnb
end Expdb
