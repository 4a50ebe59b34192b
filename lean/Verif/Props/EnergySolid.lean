import Verif.Props.EnergyUnb

/-!
# Large value energy regions from unions of polytopes with interior points
-/

namespace Expdb
namespace EnergyUnb

open Rational SupRatio Mat Region ZeroDensity DerivedZD DerivedEnergy RegionUnb

/-- Well-formed, with interior points, and with at least one row. -/
structure Solid6 (m : Mat) : Prop extends Base 6 m where
  inner : HasInner 6 m
  rows : m.rows ≠ []

theorem solid_of_full {m : Mat} (h : FullDim 6 m) : Solid6 m := by
  refine ⟨⟨h.wf, h.cols, h.noZero⟩, h.inner, fun he => ?_⟩
  obtain ⟨B, hB⟩ := h.bounded
  have := hB [|B| + 1, 0, 0, 0, 0] ((contains_iff_holds _ _ (by rw [h.cols]; rfl)).mpr (by intro r hr; rw [he] at hr; simp at hr))
    (|B| + 1) (by simp)
  rw [abs_of_nonneg (by positivity)] at this
  linarith [le_abs_self B]

/-- The lifting of `lv_to_lver` keeps interior points. -/
theorem lift_solid {m : Mat} (h : Solid m) : ∃ m', m.lift [.dim 0, .dim 1, .dim 2, .range 0 1000000, .range 0 1000000] = .ok m' ∧
    Solid6 m' ∧ ∀ s t a b c, m'.Contains [s, t, a, b, c] ↔ m.Contains [s, t, a] ∧ (0 ≤ b ∧ b ≤ 1000000) ∧ (0 ≤ c ∧ c ≤ 1000000) := by
  obtain ⟨m', h1, h2, h3, h4⟩ := C12_lift_partial m h.wf 3 h.cols
    [.dim 0, .dim 1, .dim 2, .range 0 1000000, .range 0 1000000] (by decide) (.inr ⟨0, 1000000, by simp⟩)
  have key : ∀ s t a b c, m'.Contains [s, t, a, b, c] ↔ m.Contains [s, t, a] ∧ (0 ≤ b ∧ b ≤ 1000000) ∧ (0 ≤ c ∧ c ≤ 1000000) := by
    intro s t a b c
    rw [h4 [s, t, a, b, c] [s, t, a] rfl rfl (by
      intro j i hj
      match j with
      | 0 => simp at hj; subst hj; rfl
      | 1 => simp at hj; subst hj; rfl
      | 2 => simp at hj; subst hj; rfl
      | 3 | 4 => simp at hj
      | j + 5 => simp at hj)]
    constructor
    · rintro ⟨k1, k2⟩
      obtain ⟨b', e2, b1⟩ := k2 3 0 1000000 rfl
      obtain ⟨c', e3, c1⟩ := k2 4 0 1000000 rfl
      simp at e2 e3
      subst e2 e3
      exact ⟨k1, b1, c1⟩
    · rintro ⟨k1, k3, k4⟩
      refine ⟨k1, fun j lo hi hj => ?_⟩
      match j with
      | 0 | 1 | 2 => simp at hj
      | 3 => simp at hj; obtain ⟨rfl, rfl⟩ := hj; exact ⟨b, rfl, k3⟩
      | 4 => simp at hj; obtain ⟨rfl, rfl⟩ := hj; exact ⟨c, rfl, k4⟩
      | j + 5 => simp at hj
  refine ⟨m', h1, ⟨⟨h2, h3, ?_⟩, ?_, ?_⟩, key⟩
  · intro r hr
    rcases lift_rows h1 r hr with ⟨r', hr', rfl⟩ | hr
    · have hl := h.wf r' hr'
      rw [h.cols] at hl
      have hz := h.noZero r' hr'
      obtain ⟨lin, c0, cs⟩ := r'
      match cs, hl with
      | [u, v, w], _ =>
        unfold Row.isZero at hz ⊢
        simp [liftRow, liftCoef] at hz ⊢
        exact hz
    · simp [liftRanges, List.zipIdx, rangeRows, unitRow, List.replicate] at hr
      rcases hr with rfl | rfl | rfl | rfl <;> simp [Row.isZero]
  · obtain ⟨p, hp, ε, hε, hi⟩ := h.inner
    match p, hp with
    | [s, t, a], _ =>
      refine ⟨[s, t, a, 1, 1], rfl, min ε 1, lt_min hε one_pos, ?_⟩
      intro y hy
      match y, hy with
      | [s', t', a', b, c], .cons h1 (.cons h2 (.cons h3 (.cons h4 (.cons h5 .nil)))) =>
        have hy' : Near ε [s, t, a] [s', t', a'] :=
          .cons (h1.trans_le (min_le_left _ _)) (.cons (h2.trans_le (min_le_left _ _)) (.cons (h3.trans_le (min_le_left _ _)) .nil))
        have bd : ∀ w : ℚ, |w - 1| < min ε 1 → 0 ≤ w ∧ w ≤ 1000000 := by
          intro w hw
          have := abs_lt.mp (hw.trans_le (min_le_right _ _))
          exact ⟨by linarith [this.1], by linarith [this.2]⟩
        have hc' : m'.Contains [s', t', a', b, c] := (key _ _ _ _ _).mpr
          ⟨(contains_iff_holds _ _ (by rw [h.cols]; rfl)).mpr (hi _ hy'), bd _ h4, bd _ h5⟩
        exact (contains_iff_holds _ _ (contains_length hc')).mp hc'
  · intro he
    have hc : m'.Contains [0, 0, 0, -1, 0] :=
      (contains_iff_holds _ _ (by rw [h3]; rfl)).mpr (by intro r hr; rw [he] at hr; simp at hr)
    linarith [((key _ _ _ _ _).mp hc).2.1.1]

/-- Scaling keeps interior points. -/
theorem scale_solid {m : Mat} (h : Solid6 m) (k : ℚ) (hk : 0 < k) : ∃ m', m.scaleAll [1, k, k, k, k] = .ok m' ∧ Solid6 m' ∧
    ∀ s t a b c, m'.Contains [s, t, a, b, c] ↔ m.Contains [s, t / k, a / k, b / k, c / k] := by
  have hnz : ∀ f ∈ [1, k, k, k, k], f ≠ 0 := by
    intro f hf
    simp only [List.mem_cons, List.not_mem_nil, or_false] at hf
    rcases hf with rfl | rfl | rfl | rfl | rfl
    · norm_num
    all_goals exact hk.ne'
  obtain ⟨m', h1, h2, h3, h4⟩ := C11_scaleAll_exact m h.wf [1, k, k, k, k] (by rw [h.cols]; rfl) hnz h.rows
  have h5 : ∀ s t a b c, m'.Contains [s, t, a, b, c] ↔ m.Contains [s, t / k, a / k, b / k, c / k] := by
    intro s t a b c
    rw [h4 [s, t, a, b, c] rfl]
    simp
  have h6 := h1
  unfold Mat.scaleAll at h6
  rw [if_neg (by simp [h.cols]), if_neg (by rintro ⟨_, h⟩; exact hnz 0 h rfl),
    if_neg (by rw [List.length_eq_zero_iff]; exact h.rows)] at h6
  refine ⟨m', h1, ⟨⟨h2, by rw [h3, h.cols], ?_⟩, ?_, ?_⟩, h5⟩
  · rw [← Except.ok.inj h6]
    intro r hr
    simp only [List.mem_map, List.mem_append, mem_asList] at hr
    obtain ⟨q, hq, rfl⟩ := hr
    have hq : q ∈ m.rows := by rcases hq with h | h <;> exact h.1
    have hl := h.wf q hq
    have hz := h.noZero q hq
    rw [h.cols] at hl
    obtain ⟨b, c0, cs⟩ := q
    match cs, hl with
    | [u, v, w, x, y], _ =>
      simp only [Row.isZero, scaleRow, Bool.and_eq_false_iff, decide_eq_false_iff_not, List.all_eq_false, List.mem_cons,
        List.not_mem_nil, or_false, decide_eq_true_eq, List.zipWith_cons_cons, List.zipWith_nil_right] at hz ⊢
      rcases hz with hz | ⟨z, hx, hz⟩
      · exact .inl hz
      · right
        rcases hx with rfl | rfl | rfl | rfl | rfl
        · exact ⟨z / 1, by simp, by simpa using hz⟩
        all_goals exact ⟨z / k, by simp, by simp [hz, hk.ne']⟩
  · obtain ⟨x, hx, ε, e1, e2⟩ := h.inner
    match x, hx with
    | [s, t, a, b, c], _ =>
      refine ⟨[s, t * k, a * k, b * k, c * k], rfl, min ε (ε * k), lt_min e1 (mul_pos e1 hk), fun y hy => ?_⟩
      rw [← contains_iff_holds _ _ (by rw [hy.length, h3, h.cols]; rfl)]
      obtain _ | ⟨n1, hy⟩ := hy
      obtain _ | ⟨n2, hy⟩ := hy
      obtain _ | ⟨n3, hy⟩ := hy
      obtain _ | ⟨n4, hy⟩ := hy
      obtain _ | ⟨n5, hy⟩ := hy
      cases hy
      rw [h5, contains_iff_holds _ _ (by rw [h.cols]; rfl)]
      apply e2
      have hdiv : ∀ p q : ℚ, |q - p * k| < min ε (ε * k) → |q / k - p| < ε := by
        intro p q hpq
        have : q / k - p = (q - p * k) / k := by field_simp
        rw [this, abs_div, abs_of_pos hk, div_lt_iff₀ hk]
        exact hpq.trans_le (min_le_right _ _)
      exact .cons (n1.trans_le (min_le_left _ _)) (.cons (hdiv _ _ n2) (.cons (hdiv _ _ n3) (.cons (hdiv _ _ n4) (.cons (hdiv _ _ n5) .nil))))
  · intro he
    rw [← Except.ok.inj h6] at he
    have hr := h.rows
    obtain ⟨q, qs, hq⟩ := List.exists_cons_of_ne_nil hr
    simp only [List.map_eq_nil_iff, List.append_eq_nil_iff] at he
    have hm : q ∈ m.rows := by rw [hq]; simp
    cases hb : q.lin with
    | true =>
      have : q ∈ m.asList true := (mem_asList _ _ _).mpr ⟨hm, hb⟩
      simp_all
    | false =>
      have : q ∈ m.asList false := (mem_asList _ _ _).mpr ⟨hm, hb⟩
      simp_all

/-! ### Estimates as sets of tuples -/

/-- What an estimate says about `sigma, tau, rho, rho*`. -/
abbrev Est6 := ℚ → ℚ → ℚ → ℚ → Prop

/-- The region `R` is a union of polytopes with interior points, and within the box its points are those of the `k`-th power of `E`. -/
def Made6 (E : Est6) (k : ℚ) (R : Region ℕ) : Prop :=
  (∃ ms, R = unionOf ms ∧ ∀ m ∈ ms, Solid6 m) ∧
    ∀ s t a b c, LargeValues.InEnergyBox s (t / k) (a / k) (b / k) (c / k) → (R.Mem [s, t, a, b, c] ↔ E s (t / k) (a / k) (b / k))

theorem Made6.solid {E : Est6} {k : ℚ} {R : Region ℕ} (h : Made6 E k R) : SolidUnion 6 R := by
  obtain ⟨⟨ms, rfl, h1⟩, _⟩ := h
  exact ⟨ms, rfl, fun m hm => ⟨(h1 m hm).toBase, (h1 m hm).inner⟩⟩

theorem made6_of_madeBy {o : Option (List (ℚ × ℚ × ℚ))} {k : ℚ} {R : Region ℕ} (h : MadeBy o k R) : Made6 (Obeys o) k R := by
  obtain ⟨⟨ms, rfl, h1⟩, h2⟩ := h
  refine ⟨⟨ms, rfl, fun m hm => solid_of_full (h1 m hm)⟩, fun s t a b c hb => ?_⟩
  rw [h2]
  exact ⟨fun h => h.2, fun h => ⟨hb, h⟩⟩

/-- Large value estimates from unions of polytopes with interior points. -/
theorem made6_lift {ms : List Mat} (h : ∀ m ∈ ms, Solid m) : ∃ R', LargeValues.lvToLver (unionOf ms) = .ok R' ∧
    Made6 (fun s t a _ => ∃ m ∈ ms, m.Contains [s, t, a]) 1 R' := by
  have key : ∃ ms' : List Mat, List.Forall₂ (fun m m' => m.lift [.dim 0, .dim 1, .dim 2, .range 0 1000000, .range 0 1000000] = .ok m') ms ms' ∧
      ∀ m' ∈ ms', Solid6 m' := by
    induction ms with
    | nil => exact ⟨[], .nil, by simp⟩
    | cons m ms ih =>
      obtain ⟨ms', k1, k2⟩ := ih (fun m hm => h m (by simp [hm]))
      obtain ⟨m', k3, k4, _⟩ := lift_solid (h m (by simp))
      refine ⟨m' :: ms', .cons k3 k1, ?_⟩
      intro p hp
      rcases List.mem_cons.mp hp with rfl | hp
      · exact k4
      · exact k2 p hp
  obtain ⟨ms', k1, k2⟩ := key
  refine ⟨unionOf ms', ?_, ⟨ms', rfl, k2⟩, fun s t a b c hbox => ?_⟩
  · unfold LargeValues.lvToLver LargeValues.lvLimit unionOf Region.lift
    rw [liftList_union _ _ _ k1]
    rfl
  · simp only [div_one] at hbox ⊢
    rw [unionOf_mem]
    have hm : ∀ m ∈ ms, ∀ m', m.lift [.dim 0, .dim 1, .dim 2, .range 0 1000000, .range 0 1000000] = .ok m' →
        (m'.Contains [s, t, a, b, c] ↔ m.Contains [s, t, a]) := by
      intro m hm m' he
      obtain ⟨m'', e1, _, e3⟩ := lift_solid (h m hm)
      rw [e1] at he
      rw [← Except.ok.inj he, e3]
      obtain ⟨_, i1, i2, i3⟩ := hbox
      exact ⟨fun h => h.1, fun h => ⟨h, ⟨i1, i2⟩, i3⟩⟩
    clear k2 h
    induction k1 with
    | nil => simp
    | cons hab _ ih =>
      simp only [List.mem_cons, exists_eq_or_imp]
      exact or_congr (hm _ (by simp) _ hab) (ih (fun m hm' => hm m (by simp [hm'])))

theorem made6_raise {E : Est6} {R : Region ℕ} (h : Made6 E 1 R) (k : ℚ) (hk : 0 < k) :
    ∃ R', LargeValues.raiseToPowerEnergy k R = .ok R' ∧ Made6 E k R' := by
  obtain ⟨⟨ms, rfl, h1⟩, h2⟩ := h
  have key : ∃ ms' : List Mat, mapMatList (L := ℕ) (fun m => m.scaleAll [1, k, k, k, k]) (ms.map (fun m => .polytope m none)) =
      .ok (ms'.map (fun m => .polytope m none)) ∧ (∀ m' ∈ ms', Solid6 m') ∧
      List.Forall₂ (fun m m' : Mat => ∀ s t a b c, m'.Contains [s, t, a, b, c] ↔ m.Contains [s, t / k, a / k, b / k, c / k]) ms ms' := by
    clear h2
    induction ms with
    | nil => exact ⟨[], rfl, by simp, .nil⟩
    | cons m ms ih =>
      obtain ⟨ms', e1, e2, e3⟩ := ih (fun m hm => h1 m (by simp [hm]))
      obtain ⟨m', e4, e5, e6⟩ := scale_solid (h1 m (by simp)) k hk
      refine ⟨m' :: ms', ?_, ?_, .cons e6 e3⟩
      · simp only [List.map_cons]
        unfold mapMatList mapMat
        rw [e4, e1]
        rfl
      · intro p hp
        rcases List.mem_cons.mp hp with rfl | hp
        · exact e5
        · exact e2 p hp
  obtain ⟨ms', e1, e2, e3⟩ := key
  refine ⟨unionOf ms', ?_, ⟨ms', rfl, e2⟩, fun s t a b c hbox => ?_⟩
  · unfold LargeValues.raiseToPowerEnergy Region.scaleAll unionOf mapMat
    rw [e1]
    rfl
  · have h3 := h2 s (t / k) (a / k) (b / k) (c / k)
    simp only [div_one] at h3
    rw [← h3 hbox, unionOf_mem, unionOf_mem]
    exact forall₂_exists (p := fun m : Mat => m.Contains [s, t / k, a / k, b / k, c / k]) e3 (fun m m' hmm => hmm s t a b c)

/-! ### Families of regions -/

/-- The regions `rs` are, in some order and up to repetition, those of the items in `B`. -/
def Cov {β : Type} (rel : β → Region ℕ → Prop) (rs : List (Region ℕ)) (B : List β) : Prop :=
  (∀ R ∈ rs, ∃ p ∈ B, rel p R) ∧ ∀ p ∈ B, ∃ R ∈ rs, rel p R

theorem Cov.append {β : Type} {rel : β → Region ℕ → Prop} {rs1 rs2 : List (Region ℕ)} {B1 B2 : List β} (h1 : Cov rel rs1 B1)
    (h2 : Cov rel rs2 B2) : Cov rel (rs1 ++ rs2) (B1 ++ B2) := by
  constructor
  · intro R hR
    rcases List.mem_append.mp hR with hR | hR
    · obtain ⟨p, hp, h⟩ := h1.1 R hR; exact ⟨p, by simp [hp], h⟩
    · obtain ⟨p, hp, h⟩ := h2.1 R hR; exact ⟨p, by simp [hp], h⟩
  · intro p hp
    rcases List.mem_append.mp hp with hp | hp
    · obtain ⟨R, hR, h⟩ := h1.2 p hp; exact ⟨R, by simp [hR], h⟩
    · obtain ⟨R, hR, h⟩ := h2.2 p hp; exact ⟨R, by simp [hR], h⟩

theorem Cov.perm {β : Type} {rel : β → Region ℕ → Prop} {rs rs' : List (Region ℕ)} {B : List β} (h : Cov rel rs B) (hp : rs'.Perm rs) :
    Cov rel rs' B :=
  ⟨fun R hR => h.1 R (hp.mem_iff.mp hR), fun p hB => by
    obtain ⟨R, hR, k⟩ := h.2 p hB
    exact ⟨R, hp.mem_iff.mpr hR, k⟩⟩

theorem Cov.congr {β : Type} {rel : β → Region ℕ → Prop} {rs : List (Region ℕ)} {B B' : List β} (h : Cov rel rs B)
    (hp : ∀ p, p ∈ B ↔ p ∈ B') : Cov rel rs B' := by
  refine ⟨fun R hR => ?_, fun p hp' => h.2 p ((hp p).mpr hp')⟩
  obtain ⟨p, k1, k2⟩ := h.1 R hR
  exact ⟨p, (hp p).mp k1, k2⟩

/-- Applying an operation to all regions. -/
theorem Cov.map {β : Type} {rel rel' : β → Region ℕ → Prop} {f : Region ℕ → Py (Region ℕ)} {rs as : List (Region ℕ)} {B : List β}
    (h : Cov rel rs B) (hf : ∀ p R, rel p R → ∃ R', f R = .ok R' ∧ rel' p R') (ha : List.Forall₂ (fun R R' => f R = .ok R') rs as) :
    Cov rel' as B := by
  have hrel : ∀ p R R', rel p R → f R = .ok R' → rel' p R' := by
    intro p R R' h1 h2
    obtain ⟨R'', e1, e2⟩ := hf p R h1
    rw [e1] at h2
    rw [← Except.ok.inj h2]
    exact e2
  have hl : ∀ R' ∈ as, ∃ R ∈ rs, f R = .ok R' := by
    clear h
    induction ha with
    | nil => simp
    | cons hab _ ih =>
      intro R' hR'
      rcases List.mem_cons.mp hR' with rfl | hR'
      · exact ⟨_, by simp, hab⟩
      · obtain ⟨R, e1, e2⟩ := ih R' hR'
        exact ⟨R, by simp [e1], e2⟩
  have hr : ∀ R ∈ rs, ∃ R' ∈ as, f R = .ok R' := by
    clear h hl
    induction ha with
    | nil => simp
    | cons hab _ ih =>
      intro R' hR'
      rcases List.mem_cons.mp hR' with rfl | hR'
      · exact ⟨_, by simp, hab⟩
      · obtain ⟨R, e1, e2⟩ := ih R' hR'
        exact ⟨R, by simp [e1], e2⟩
  constructor
  · intro R' hR'
    obtain ⟨R, e1, e2⟩ := hl R' hR'
    obtain ⟨p, e3, e4⟩ := h.1 R e1
    exact ⟨p, e3, hrel p R R' e4 e2⟩
  · intro p hp
    obtain ⟨R, e1, e2⟩ := h.2 p hp
    obtain ⟨R', e3, e4⟩ := hr R e1
    exact ⟨R', e3, hrel p R R' e2 e4⟩

/-- The loop of `lv_to_lver`. -/
theorem lverAll_cov {β : Type} {rel rel' : β → Region ℕ → Prop} {rs : List (Region ℕ)} {B : List β} (h : Cov rel rs B)
    (hf : ∀ p R, rel p R → ∃ R', LargeValues.lvToLver R = .ok R' ∧ rel' p R') : ∃ as, lverAll rs = .ok as ∧ Cov rel' as B := by
  have key : ∀ rs : List (Region ℕ), (∀ R ∈ rs, ∃ p, rel p R) → ∃ as, lverAll rs = .ok as ∧
      List.Forall₂ (fun R R' => LargeValues.lvToLver R = .ok R') rs as := by
    intro rs
    induction rs with
    | nil => exact fun _ => ⟨[], rfl, .nil⟩
    | cons R rs ih =>
      intro hR
      obtain ⟨as, h1, h2⟩ := ih (fun R hR' => hR R (by simp [hR']))
      obtain ⟨p, hp⟩ := hR R (by simp)
      obtain ⟨A, e1, _⟩ := hf p R hp
      refine ⟨A :: as, ?_, .cons e1 h2⟩
      unfold lverAll
      rw [e1, h1]
      rfl
  obtain ⟨as, h1, h2⟩ := key rs (fun R hR => by obtain ⟨p, _, hp⟩ := h.1 R hR; exact ⟨p, hp⟩)
  exact ⟨as, h1, h.map hf h2⟩

/-- What the transforms give. -/
theorem transforms_cov {rs : List (Region ℕ)} {EB : List Est6} (h : Cov (fun E R => Made6 E 1 R) rs EB) (ks : List ℚ)
    (hk : ∀ k ∈ ks, 0 < k) : ∃ tl, LargeValues.applyTransforms rs (ks.map LargeValues.raiseToPowerEnergy) = .ok tl ∧
      Cov (fun p R => Made6 p.1 p.2 R) tl (ks.flatMap (fun k => EB.map (fun E => (E, k)))) := by
  induction ks with
  | nil => exact ⟨[], rfl, by simp, by simp⟩
  | cons k ks ih =>
    obtain ⟨tl, h1, h2⟩ := ih (fun q hq => hk q (by simp [hq]))
    obtain ⟨rs', h3, h4⟩ := LargeValues.applyAll_ok (LargeValues.raiseToPowerEnergy k)
      (fun R R' => LargeValues.raiseToPowerEnergy k R = .ok R') rs (by
        intro R hR
        obtain ⟨E, _, hr⟩ := h.1 R hR
        obtain ⟨R', e1, _⟩ := made6_raise hr k (hk k (by simp))
        exact ⟨R', e1, e1⟩)
    have h5 := h.map (rel' := fun E R => Made6 E k R) (fun E R hr => made6_raise hr k (hk k (by simp))) h4
    refine ⟨rs' ++ tl, ?_, ?_⟩
    · simp only [List.map_cons]
      unfold LargeValues.applyTransforms
      rw [h3, h1]
      rfl
    · rw [List.flatMap_cons]
      refine Cov.append ⟨fun R hR => ?_, fun p hp => ?_⟩ h2
      · obtain ⟨E, e1, e2⟩ := h5.1 R hR
        exact ⟨(E, k), List.mem_map.mpr ⟨E, e1, rfl⟩, e2⟩
      · obtain ⟨E, e1, rfl⟩ := List.mem_map.mp hp
        exact h5.2 E e1

/-! ### Tuples -/

theorem box_power {s t a b c k : ℚ} (hk : 1 ≤ k) (hs : 1 / 2 ≤ s ∧ s ≤ 1) (ht : 0 ≤ t ∧ t ≤ 1000000) (ha : 0 ≤ a ∧ a ≤ 1000000)
    (hb : 0 ≤ b ∧ b ≤ 1000000) (hc : 0 ≤ c ∧ c ≤ 1000000) : LargeValues.InEnergyBox s (t / k) (a / k) (b / k) (c / k) := by
  have hd : ∀ v : ℚ, 0 ≤ v ∧ v ≤ 1000000 → 0 ≤ v / k ∧ v / k ≤ 1000000 := by
    intro v hv
    refine ⟨div_nonneg hv.1 (by linarith), ?_⟩
    rw [div_le_iff₀ (by linarith)]
    nlinarith [hv.1, hv.2]
  exact ⟨⟨hs.1, hs.2, (hd t ht).1, (hd t ht).2, (hd a ha).1, (hd a ha).2⟩, (hd b hb).1, (hd b hb).2, (hd c hc).1, (hd c hc).2⟩

/-- `rho` and `rho*` are between 0 and 1000000, and the powers of the estimates hold. -/
def Tuple6 (B : List (Est6 × ℚ)) (s t a b : ℚ) : Prop :=
  (0 ≤ a ∧ a ≤ 1000000) ∧ (0 ≤ b ∧ b ≤ 1000000) ∧ ∀ p ∈ B, p.1 s (t / p.2) (a / p.2) (b / p.2)

/-- The tuples of a strip. -/
theorem tuples6_strip {rs : List (Region ℕ)} {B : List (Est6 × ℚ)} (hB : ∀ p ∈ B, 1 ≤ p.2) (h : Cov (fun p R => Made6 p.1 p.2 R) rs B)
    {x0 x1 m1 c1 m2 c2 : ℚ} (hx0 : 1 / 2 ≤ x0) (hx1 : x1 ≤ 1)
    (ht0 : ∀ s, x0 ≤ s → s ≤ x1 → 0 ≤ m1 * s + c1 ∧ m2 * s + c2 ≤ 1000000) (s t a b c : ℚ) :
    Tuples (ZeroDensity.strip x0 x1 m1 c1 m2 c2) rs [s, t, a, b, c] ↔
      (x0 ≤ s ∧ s ≤ x1) ∧ (m1 * s + c1 ≤ t ∧ t ≤ m2 * s + c2) ∧ Tuple6 B s t a b ∧ 0 ≤ c ∧ c ≤ 1000000 := by
  have hmem : (1 / 2 ≤ s ∧ s ≤ 1) → (0 ≤ t ∧ t ≤ 1000000) → (0 ≤ a ∧ a ≤ 1000000) → (0 ≤ b ∧ b ≤ 1000000) → (0 ≤ c ∧ c ≤ 1000000) →
      ((∀ R ∈ rs, R.Mem [s, t, a, b, c]) ↔ ∀ p ∈ B, p.1 s (t / p.2) (a / p.2) (b / p.2)) := by
    intro hs ht ha hb hc
    constructor
    · intro hm p hp
      obtain ⟨R, hR, hr⟩ := h.2 p hp
      exact (hr.2 s t a b c (box_power (hB p hp) hs ht ha hb hc)).mp (hm R hR)
    · intro ho R hR
      obtain ⟨p, hp, hr⟩ := h.1 R hR
      exact (hr.2 s t a b c (box_power (hB p hp) hs ht ha hb hc)).mpr (ho p hp)
  unfold Tuples
  constructor
  · rintro ⟨s', t', a', b', c', e, k1, k2, k3, k4, k5⟩
    simp only [List.cons.injEq, and_true] at e
    obtain ⟨rfl, rfl, rfl, rfl, rfl⟩ := e
    obtain ⟨s', t', e, i1, i2, i3⟩ := (strip_contains _ _ _ _ _ _ _).mp k1
    simp only [List.cons.injEq, and_true] at e
    obtain ⟨rfl, rfl⟩ := e
    have ht := ht0 s i1.1 i1.2
    refine ⟨i1, ⟨i2, i3⟩, ⟨k2, k3, ?_⟩, k4⟩
    exact (hmem ⟨by linarith [i1.1], by linarith [i1.2]⟩ ⟨by linarith [ht.1], by linarith [ht.2]⟩ k2 k3 k4).mp k5
  · rintro ⟨i1, ⟨i2, i3⟩, ⟨k2, k3, k5⟩, k4⟩
    have ht := ht0 s i1.1 i1.2
    exact ⟨s, t, a, b, c, rfl, (strip_contains _ _ _ _ _ _ _).mpr ⟨s, t, rfl, i1, i2, i3⟩, k2, k3, k4,
      (hmem ⟨by linarith [i1.1], by linarith [i1.2]⟩ ⟨by linarith [ht.1], by linarith [ht.2]⟩ k2 k3 k4).mpr k5⟩

/-- The tuple is described by linear conditions on it: those in `cs1` hold strictly, or do not depend on `rho`, `rho*` and become easier
when `sigma` increases; those in `cs2` become easier when `rho`, `rho*` decrease; together they imply the estimates nearby. -/
structure Local6 (B : List (Est6 × ℚ)) (s t a b : ℚ) (cs1 cs2 : List Form) : Prop where
  strict : ∀ c ∈ cs1, 0 < lin c s t a b ∨ (0 ≤ lin c s t a b ∧ 0 < c.2.1 ∧ c.2.2.2 = (0, 0))
  weak : ∀ c ∈ cs2, 0 ≤ lin c s t a b ∧ (c.2.2.2.2 < 0 ∨ (c.2.2.2.2 = 0 ∧ c.2.2.2.1 < 0))
  imp : ∀ s' t' a' b', 1 / 2 ≤ s' → s' ≤ 1 → 0 ≤ t' → t' ≤ 1000000 → 0 ≤ a' → a' ≤ 1000000 → (∀ c ∈ cs1 ++ cs2, 0 ≤ lin c s' t' a' b') →
    ∀ p ∈ B, p.1 s' (t' / p.2) (a' / p.2) (b' / p.2)

theorem Local6.append {B1 B2 : List (Est6 × ℚ)} {s t a b : ℚ} {cs1 cs2 ds1 ds2 : List Form} (h : Local6 B1 s t a b cs1 cs2)
    (h' : Local6 B2 s t a b ds1 ds2) : Local6 (B1 ++ B2) s t a b (cs1 ++ ds1) (cs2 ++ ds2) := by
  refine ⟨fun c hc => ?_, fun c hc => ?_, fun s' t' a' b' i1 i2 i3 i4 i5 i6 hcs p hp => ?_⟩
  · rcases List.mem_append.mp hc with hc | hc
    · exact h.strict c hc
    · exact h'.strict c hc
  · rcases List.mem_append.mp hc with hc | hc
    · exact h.weak c hc
    · exact h'.weak c hc
  · rcases List.mem_append.mp hp with hp | hp
    · exact h.imp s' t' a' b' i1 i2 i3 i4 i5 i6 (fun c hc => hcs c (by simp only [List.mem_append] at hc ⊢; tauto)) p hp
    · exact h'.imp s' t' a' b' i1 i2 i3 i4 i5 i6 (fun c hc => hcs c (by simp only [List.mem_append] at hc ⊢; tauto)) p hp

/-- Such tuples can be approached from the right by interior points. -/
theorem rightLimit6 {rs : List (Region ℕ)} {B : List (Est6 × ℚ)} (hB : ∀ p ∈ B, 1 ≤ p.2) (h : Cov (fun p R => Made6 p.1 p.2 R) rs B)
    {x0 x1 m1 c1 m2 c2 : ℚ} (hx0 : 1 / 2 ≤ x0) (hx1 : x1 ≤ 1)
    (ht0 : ∀ s, x0 ≤ s → s ≤ x1 → 0 ≤ m1 * s + c1 ∧ m2 * s + c2 ≤ 1000000) {s t a b : ℚ} (hs : x0 ≤ s) (hs' : s < x1)
    (ht1 : m1 * s + c1 < t) (ht2 : t < m2 * s + c2) (ha : 0 < a) (ha' : a < 1000000) (hb : 0 < b) (hb' : b < 1000000)
    (hT : ∃ cs1 cs2, Local6 B s t a b cs1 cs2) : RightLimit5 (Tuples (ZeroDensity.strip x0 x1 m1 c1 m2 c2) rs) s t a b 1 := by
  obtain ⟨cs1, cs2, hT⟩ := hT
  obtain ⟨A, M, hA, hM, hd⟩ := direction cs2 (fun c hc => (hT.weak c hc).2)
  set box : List Form := [(-x0, 1, 0, 0, 0), (x1, -1, 0, 0, 0), (-c1, -m1, 1, 0, 0), (c2, m2, -1, 0, 0), (0, 0, 0, 1, 0),
    (1000000, 0, 0, -1, 0), (0, 0, 0, 0, 1), (1000000, 0, 0, 0, -1)] with hbox
  have hall : ∀ c ∈ box ++ (cs1 ++ cs2), 0 < lin c s t a b ∨ (0 ≤ lin c s t a b ∧ 0 < c.2.1 - c.2.2.2.1 * A - c.2.2.2.2 * M) := by
    intro c hc
    rcases List.mem_append.mp hc with hc | hc
    · rw [hbox] at hc
      simp only [List.mem_cons, List.not_mem_nil, or_false] at hc
      unfold lin
      rcases hc with rfl | rfl | rfl | rfl | rfl | rfl | rfl | rfl
      · right; constructor <;> simp <;> linarith
      all_goals (left; simp; linarith)
    · rcases List.mem_append.mp hc with hc | hc
      · refine (hT.strict c hc).imp_right fun h => ⟨h.1, ?_⟩
        rw [h.2.2]
        simpa using h.2.1
      · exact .inr ⟨(hT.weak c hc).1, hd c hc⟩
  obtain ⟨η0, e1, e2⟩ := along _ s t a b A M hall
  intro ε hε
  set K := A + M + 1 with hK
  have hKp : 0 < K := by linarith
  set η := min (η0 / 2) (ε / (2 * K)) with hη
  have hηp : 0 < η := lt_min (by linarith) (by positivity)
  have hη0 : η < η0 := (min_le_left _ _).trans_lt (by linarith)
  have hηε : η * K < ε := by
    have : η ≤ ε / (2 * K) := min_le_right _ _
    rw [le_div_iff₀ (by positivity)] at this
    linarith
  have hst := e2 η hηp hη0
  obtain ⟨δ, d1, d2⟩ := nearby _ _ _ _ _ hst
  have hAe : η * A < ε := lt_of_le_of_lt (mul_le_mul_of_nonneg_left (by linarith) hηp.le) hηε
  have hMe : η * M < ε := lt_of_le_of_lt (mul_le_mul_of_nonneg_left (by linarith) hηp.le) hηε
  have h1e : η < ε := by
    refine lt_of_le_of_lt ?_ hηε
    have := mul_le_mul_of_nonneg_left (show (1 : ℚ) ≤ K by linarith) hηp.le
    linarith
  have hA0 : 0 ≤ η * A := mul_nonneg hηp.le hA
  have hM0 : 0 ≤ η * M := mul_nonneg hηp.le hM
  refine ⟨s + η, t, a - η * A, b - η * M, 1, ?_, by linarith, min δ 1, lt_min d1 one_pos, ?_⟩
  · refine .cons ?_ (.cons ?_ (.cons ?_ (.cons ?_ (.cons ?_ .nil)))) <;> rw [abs_lt] <;> constructor <;> linarith
  · intro z hz
    match z, hz with
    | [s', t', a', b', c'], .cons h1 (.cons h2 (.cons h3 (.cons h4 (.cons h5 .nil)))) =>
      have hp := d2 s' t' a' b' (h1.trans_le (min_le_left _ _)) (h2.trans_le (min_le_left _ _)) (h3.trans_le (min_le_left _ _))
        (h4.trans_le (min_le_left _ _))
      have hc' := abs_lt.mp (h5.trans_le (min_le_right _ _))
      have b1 := hp (-x0, 1, 0, 0, 0) (by simp [hbox])
      have b2 := hp (x1, -1, 0, 0, 0) (by simp [hbox])
      have b3 := hp (-c1, -m1, 1, 0, 0) (by simp [hbox])
      have b4 := hp (c2, m2, -1, 0, 0) (by simp [hbox])
      have b5 := hp (0, 0, 0, 1, 0) (by simp [hbox])
      have b6 := hp (1000000, 0, 0, -1, 0) (by simp [hbox])
      have b7 := hp (0, 0, 0, 0, 1) (by simp [hbox])
      have b8 := hp (1000000, 0, 0, 0, -1) (by simp [hbox])
      unfold lin at b1 b2 b3 b4 b5 b6 b7 b8
      simp at b1 b2 b3 b4 b5 b6 b7 b8
      rw [tuples6_strip hB h hx0 hx1 ht0]
      have ht := ht0 s' (by linarith) (by linarith)
      refine ⟨⟨by linarith, by linarith⟩, ⟨by linarith, by linarith⟩, ⟨⟨b5.le, by linarith⟩, ⟨b7.le, by linarith⟩, ?_⟩,
        by linarith [hc'.1], by linarith [hc'.2]⟩
      exact hT.imp s' t' a' b' (by linarith) (by linarith) (by linarith) (by linarith) b5.le (by linarith)
        (fun c hc => (hp c (List.mem_append_right _ hc)).le)

end EnergyUnb
end Expdb
