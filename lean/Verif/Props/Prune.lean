import Verif.Props.ExponentPair

/-!
# Property C83: pruning in `compute_exp_pairs` loses no exponent pairs

The documentation of `compute_exp_pairs` (exponent_pair.py:88-92) says that the pairs that are not vertices
of the convex hull may be dropped after each pass "with no loss of exponent pairs".
-/

namespace Expdb
namespace EP
namespace Prune

open Hull (pick pick_mem InConv HullSpec Flat area Ccw)

/-! ### The three processes map segments to segments -/

theorem mixA (a b : ℚ × ℚ) (t : ℚ) (ha : 0 ≤ a.1) (hb : 0 ≤ b.1) (h0 : 0 ≤ t) (h1 : t ≤ 1) (qs : List (ℚ × ℚ))
    (ra rb r : ℚ × ℚ) (ea : transA a.1 a.2 = .ok ra) (eb : transA b.1 b.2 = .ok rb) (ca : InConv qs ra)
    (cb : InConv qs rb) (er : transA ((1 - t) * a.1 + t * b.1) ((1 - t) * a.2 + t * b.2) = .ok r) :
    InConv qs r := by
  have h1' : 0 ≤ 1 - t := by linarith
  have hm : 0 ≤ (1 - t) * a.1 + t * b.1 := add_nonneg (mul_nonneg h1' ha) (mul_nonneg h0 hb)
  rw [transA_ok _ _ ha] at ea
  rw [transA_ok _ _ hb] at eb
  rw [transA_ok _ _ hm] at er
  cases ea; cases eb; cases er
  obtain ⟨x, y⟩ := a
  obtain ⟨u, v⟩ := b
  simp only at *
  have e1 : (2 * x + 2) ≠ 0 := by linarith
  have e2 : (2 * u + 2) ≠ 0 := by linarith
  obtain ⟨d, hd⟩ : ∃ d, d = 2 * ((1 - t) * x + t * u) + 2 := ⟨_, rfl⟩
  have hd0 : 0 < d := by rw [hd]; linarith
  rw [← hd]
  have := InConv.mix _ _ (t * (2 * u + 2) / d) ca cb
    (div_nonneg (mul_nonneg h0 (by linarith)) hd0.le)
    (by rw [div_le_one hd0, hd]; nlinarith [mul_nonneg h1' (by linarith : 0 ≤ 2 * x + 2)])
  convert this using 1
  ext <;> simp only
  · field_simp
    rw [hd]; ring
  · field_simp
    rw [hd]; ring

theorem mixC (a b : ℚ × ℚ) (t : ℚ) (ha : 0 ≤ a.1) (hb : 0 ≤ b.1) (h0 : 0 ≤ t) (h1 : t ≤ 1) (qs : List (ℚ × ℚ))
    (ra rb r : ℚ × ℚ) (ea : transC a.1 a.2 = .ok ra) (eb : transC b.1 b.2 = .ok rb) (ca : InConv qs ra)
    (cb : InConv qs rb) (er : transC ((1 - t) * a.1 + t * b.1) ((1 - t) * a.2 + t * b.2) = .ok r) :
    InConv qs r := by
  have h1' : 0 ≤ 1 - t := by linarith
  have hm : 0 ≤ (1 - t) * a.1 + t * b.1 := add_nonneg (mul_nonneg h1' ha) (mul_nonneg h0 hb)
  rw [transC_ok _ _ ha] at ea
  rw [transC_ok _ _ hb] at eb
  rw [transC_ok _ _ hm] at er
  cases ea; cases eb; cases er
  obtain ⟨x, y⟩ := a
  obtain ⟨u, v⟩ := b
  simp only at *
  have e1 : (1 + 4 * x) ≠ 0 := by linarith
  have e2 : (1 + 4 * u) ≠ 0 := by linarith
  obtain ⟨d, hd⟩ : ∃ d, d = 1 + 4 * ((1 - t) * x + t * u) := ⟨_, rfl⟩
  have hd0 : 0 < d := by rw [hd]; linarith
  rw [← hd]
  have := InConv.mix _ _ (t * (1 + 4 * u) / d) ca cb
    (div_nonneg (mul_nonneg h0 (by linarith)) hd0.le)
    (by rw [div_le_one hd0, hd]; nlinarith [mul_nonneg h1' (by linarith : 0 ≤ 1 + 4 * x)])
  convert this using 1
  ext <;> simp only
  · field_simp
    rw [hd]; ring
  · field_simp
    rw [hd]; ring

/-- If the images of points are in a convex hull, so are the images of their convex combinations. -/
theorem conv_step (t : Tr) (ht : t ∈ [trA, trB, trC]) (ps qs : List (ℚ × ℚ)) (hps : ∀ p ∈ ps, InRegion p)
    (h : ∀ p ∈ ps, ∀ r, t.f p.1 p.2 = .ok r → InConv qs r) (p : ℚ × ℚ) (hp : InConv ps p) :
    ∀ r, t.f p.1 p.2 = .ok r → InConv qs r := by
  have hpos : ∀ p, InConv ps p → 0 ≤ p.1 := fun p hp => by
    have := hp.linear 1 0 0 (fun q hq => by have := (hps q hq).1; linarith)
    linarith
  simp only [List.mem_cons, List.not_mem_nil, or_false] at ht
  induction hp with
  | point p hp => exact h p hp
  | mix a b s ha hb h0 h1 iha ihb =>
    intro r hr
    have pa := hpos a ha
    have pb := hpos b hb
    rcases ht with rfl | rfl | rfl
    · exact mixA a b s pa pb h0 h1 qs _ _ r (transA_ok _ _ pa) (transA_ok _ _ pb)
        (iha _ (transA_ok _ _ pa)) (ihb _ (transA_ok _ _ pb)) hr
    · have ca := iha _ rfl
      have cb := ihb _ rfl
      cases hr
      convert InConv.mix _ _ s ca cb h0 h1 using 1
      ext <;> simp only <;> ring
    · exact mixC a b s pa pb h0 h1 qs _ _ r (transC_ok _ _ pa) (transC_ok _ _ pb)
        (iha _ (transC_ok _ _ pa)) (ihb _ (transC_ok _ _ pb)) hr

theorem region_step (t : Tr) (ht : t ∈ [trA, trB, trC]) (p : Ep) (k l : ℚ) (hp : InRegion (p.k, p.l))
    (hf : t.f p.k p.l = .ok (k, l)) : InRegion ((Ep.derived t.id k l p).k, (Ep.derived t.id k l p).l) := by
  simp only [List.mem_cons, List.not_mem_nil, or_false] at ht
  rcases ht with rfl | rfl | rfl
  · obtain ⟨q, h1, h2⟩ := C30_A p.k p.l hp
    rw [show trA.f p.k p.l = transA p.k p.l from rfl, h1] at hf
    cases hf; exact h2
  · obtain ⟨q, h1, h2⟩ := C30_B p.k p.l hp
    rw [show trB.f p.k p.l = transB p.k p.l from rfl, h1] at hf
    cases hf; exact h2
  · obtain ⟨q, h1, h2⟩ := C30_C p.k p.l hp
    rw [show trC.f p.k p.l = transC p.k p.l from rfl, h1] at hf
    cases hf; exact h2

theorem keys_region {d : List Ep} (hd : ∀ e ∈ d, InRegion (e.k, e.l)) : ∀ q ∈ d.map Ep.key, InRegion q := by
  intro q hq
  obtain ⟨e, he, rfl⟩ := List.mem_map.mp hq
  exact hd e he

/-! ### One pass -/

theorem pick_map {α β : Type} (f : α → β) : ∀ (ps : List α) (idx : List ℕ),
    pick (ps.map f) idx = (pick ps idx).map (List.map f) := by
  intro ps idx
  induction idx with
  | nil => rfl
  | cons v vs ih =>
    simp only [pick, List.getElem?_map]
    cases h : ps[v]? with
    | none => rfl
    | some p =>
      simp only [Option.map]
      rw [ih]
      cases pick ps vs <;> rfl

/-- A pass with pruning: the new dictionary spans the hull of what the transforms produced. -/
theorem iterate_prune (hull : List (ℚ × ℚ) → Py (List ℕ)) (hh : HullSpec hull) (ts : List Tr) (d d1 d' : List Ep)
    (ha : applyTransforms ts d = .ok d1) (hn : KeysNodup d1) (h : iterate hull true ts d = .ok d') :
    (∀ q ∈ d1.map Ep.key, InConv (d'.map Ep.key) q) ∧ (∀ e ∈ d', e ∈ d1) ∧ KeysNodup d' ∧
    (3 ≤ d1.length → ∃ vs : List Ep, d' = dictOf vs ∧ Ccw (vs.map Ep.key)) := by
  unfold iterate at h
  rw [ha] at h
  simp only [bind, Except.bind, if_true] at h
  split at h
  · have := Except.ok.inj h
    subst this
    exact ⟨fun q hq => .point _ hq, fun e he => he, hn, fun h => by omega⟩
  · by_cases hf : Flat (d1.map Ep.key)
    · obtain ⟨e, he⟩ := hh.flat _ hf
      rw [he] at h; cases h
    · obtain ⟨idx, vs, h1, h2, h3, h4⟩ := hh.ok _ hf
      rw [h1] at h
      rw [pick_map] at h2
      simp only at h
      cases hp : pick d1 idx with
      | error e => rw [hp] at h; cases h
      | ok v =>
        rw [hp] at h h2
        have := Except.ok.inj h
        subst this
        have h2 : (Except.ok (v.map Ep.key) : Py _) = .ok vs := h2
        have := Except.ok.inj h2
        subst this
        obtain ⟨c1, c2, c3⟩ := dictOf_spec v
        refine ⟨fun q hq => (h4 q hq).mono (fun q' hq' => (c3 q').mpr hq'), fun e he => pick_mem d1 _ v hp e (c1 e he),
          c2, fun _ => ⟨v, rfl, h3⟩⟩

/-- **C83** (nothing lost) If `compute_exp_pairs` with pruning returns, the convex hull of the returned
pairs contains every pair reachable from the input pairs by at most `search_depth` transforms. -/
theorem C83_complete (hull : List (ℚ × ℚ) → Py (List ℕ)) (hh : HullSpec hull) (pairs : List Ep) (ts : List Tr)
    (hts : ∀ t ∈ ts, t ∈ [trA, trB, trC]) (hin : ∀ e ∈ pairs, InRegion (e.k, e.l)) (depth : ℕ)
    (r : List Ep) (h : computeExpPairs hull pairs ts depth true = .ok r) (n : ℕ) (hn : n ≤ depth)
    (q : ℚ × ℚ) (hq : Reach pairs ts n q) : InConv (r.map (fun e => (e.k, e.l))) q := by
  obtain ⟨a1, a2, a3⟩ := dictOf_spec pairs
  have key : ∀ m (d d' : List Ep), (∀ e ∈ d, InRegion (e.k, e.l)) → KeysNodup d →
      iterateN hull true ts m d = .ok d' →
      ∀ j, (∀ i ≤ j, ∀ q, Reach pairs ts i q → InConv (d.map Ep.key) q) →
      (∀ i ≤ j + m, ∀ q, Reach pairs ts i q → InConv (d'.map Ep.key) q) := by
    intro m
    induction m with
    | zero =>
      intro d d' _ _ h j hj
      simp only [iterateN, Except.ok.injEq] at h
      subst h
      exact hj
    | succ m ih =>
      intro d d' hr hnd h j hj
      simp only [iterateN] at h
      cases ha : iterate hull true ts d with
      | error e => rw [ha] at h; cases h
      | ok d2 =>
        rw [ha] at h
        cases hb : applyTransforms ts d with
        | error e => unfold iterate at ha; rw [hb] at ha; cases ha
        | ok d1 =>
          obtain ⟨b1, b2, b3, b4⟩ := applyTransforms_spec (fun e => InRegion (e.k, e.l)) ts
            (fun t ht p k l hp hf => region_step t (hts t ht) p k l hp hf) d d1 hr hnd hb
          obtain ⟨c1, c2, c3, _⟩ := iterate_prune hull hh ts d d1 d2 hb b2 ha
          have := ih d2 d' (fun e he => b1 e (c2 e he)) c3 h (j + 1) (by
            intro i hi q hq
            cases hq with
            | input e he =>
              exact (hj 0 (by omega) _ (Reach.input e he)).trans (fun q' hq' => c1 q' (b3 q' hq'))
            | step i' q' _ hq' t ht hf =>
              exact conv_step t (hts t ht) (d.map Ep.key) (d2.map Ep.key) (keys_region hr)
                (fun p hp r hr => c1 r (b4 t ht p hp r hr)) q' (hj i' (by omega) q' hq') q hf)
          intro i hi
          exact this i (by omega)
  exact key depth (dictOf pairs) r (fun e he => hin e (a1 e he)) a2 h 0 (by
    intro i hi q hq
    have : i = 0 := by omega
    subst this
    cases hq with
    | input e he => exact .point _ ((a3 _).mpr (List.mem_map.mpr ⟨e, he, rfl⟩))) n (by omega) q hq

/-! ### The same hull -/

theorem applyAll_conv (t : Tr) (ht : t ∈ [trA, trB, trC]) (d e d' e' : List Ep)
    (hd : ∀ p ∈ d, InRegion (p.k, p.l)) (nd : KeysNodup d)
    (h : ∀ q ∈ e.map Ep.key, InConv (d.map Ep.key) q)
    (h1 : applyAll t d d = .ok d') (h2 : applyAll t e e = .ok e') :
    ∀ q ∈ e'.map Ep.key, InConv (d'.map Ep.key) q := by
  obtain ⟨_, _, a3, a4⟩ := applyAll_spec (fun _ => True) t (by simp) d d d' (by simp) (by simp) nd h1
  -- every value of `e'` is a value of `e` or the image of one
  have key : ∀ (todo f f' : List Ep), (∀ p ∈ todo, p ∈ e) → (∀ p ∈ f, InConv (d'.map Ep.key) p.key) →
      applyAll t todo f = .ok f' → ∀ p ∈ f', InConv (d'.map Ep.key) p.key := by
    intro todo
    induction todo with
    | nil =>
      intro f f' _ h2 h
      simp only [applyAll, Except.ok.injEq] at h
      subst h
      exact h2
    | cons p todo ih =>
      intro f f' g1 g2 g
      simp only [applyAll] at g
      cases ha : t.apply p with
      | error e => rw [ha] at g; cases g
      | ok tp =>
        rw [ha] at g
        obtain ⟨k, l, hf, rfl⟩ := apply_ok t p tp ha
        refine ih _ f' (fun x hx => g1 x (by simp [hx])) ?_ g
        intro x hx
        split at hx
        · exact g2 x hx
        · rcases mem_dictSet _ _ _ hx with hx | rfl
          · exact g2 x hx
          · refine conv_step t ht (d.map Ep.key) (d'.map Ep.key) (keys_region hd) ?_ p.key
              (h _ (List.mem_map.mpr ⟨p, g1 p (by simp), rfl⟩)) _ hf
            intro q hq r hr
            obtain ⟨p', hp', rfl⟩ := List.mem_map.mp hq
            exact .point _ (a4 p' hp' r hr)
  intro q hq
  obtain ⟨p, hp, rfl⟩ := List.mem_map.mp hq
  exact key e e e' (fun _ h => h) (fun x hx =>
    (h _ (List.mem_map.mpr ⟨x, hx, rfl⟩)).mono (fun q' hq' => a3 q' hq')) h2 p hp

theorem applyTransforms_conv : ∀ (ts : List Tr), (∀ t ∈ ts, t ∈ [trA, trB, trC]) → ∀ (d e d' e' : List Ep),
    (∀ p ∈ d, InRegion (p.k, p.l)) → KeysNodup d → KeysNodup e →
    (∀ q ∈ e.map Ep.key, InConv (d.map Ep.key) q) →
    applyTransforms ts d = .ok d' → applyTransforms ts e = .ok e' →
    ∀ q ∈ e'.map Ep.key, InConv (d'.map Ep.key) q := by
  intro ts
  induction ts with
  | nil =>
    intro _ d e d' e' _ _ _ h h1 h2
    simp only [applyTransforms, Except.ok.injEq] at h1 h2
    subst h1; subst h2
    exact h
  | cons t ts ih =>
    intro hts d e d' e' hd nd ne h h1 h2
    simp only [applyTransforms] at h1 h2
    cases ha : applyAll t d d with
    | error e => rw [ha] at h1; cases h1
    | ok d1 =>
      cases hb : applyAll t e e with
      | error e => rw [hb] at h2; cases h2
      | ok e1 =>
        rw [ha] at h1
        rw [hb] at h2
        obtain ⟨a1, a2, _⟩ := applyAll_spec (fun e => InRegion (e.k, e.l)) t
          (fun p k l hp hf => region_step t (hts t (by simp)) p k l hp hf) d d d1 hd hd nd ha
        obtain ⟨_, b2, _⟩ := applyAll_spec (fun _ => True) t (by simp) e e e1 (by simp) (by simp) ne hb
        exact ih (fun t' ht' => hts t' (by simp [ht'])) d1 e1 d' e' a1 a2 b2
          (applyAll_conv t (hts t (by simp)) d e d1 e1 hd nd h ha hb) h1 h2

/-- **C83** (same hull) If `compute_exp_pairs` returns both with and without pruning, the two lists of pairs
have the same convex hull. -/
theorem C83_same_hull (hull : List (ℚ × ℚ) → Py (List ℕ)) (hh : HullSpec hull) (pairs : List Ep) (ts : List Tr)
    (hts : ∀ t ∈ ts, t ∈ [trA, trB, trC]) (hin : ∀ e ∈ pairs, InRegion (e.k, e.l)) (depth : ℕ)
    (r s : List Ep) (hr : computeExpPairs hull pairs ts depth true = .ok r)
    (hs : computeExpPairs hull pairs ts depth false = .ok s) (q : ℚ × ℚ) :
    InConv (r.map (fun e => (e.k, e.l))) q ↔ InConv (s.map (fun e => (e.k, e.l))) q := by
  obtain ⟨a1, a2, a3⟩ := dictOf_spec pairs
  have key : ∀ m (d e d' e' : List Ep), (∀ p ∈ d, InRegion (p.k, p.l)) → (∀ p ∈ e, InRegion (p.k, p.l)) →
      KeysNodup d → KeysNodup e →
      (∀ q ∈ e.map Ep.key, InConv (d.map Ep.key) q) → (∀ q ∈ d.map Ep.key, InConv (e.map Ep.key) q) →
      iterateN hull true ts m d = .ok d' → iterateN hull false ts m e = .ok e' →
      (∀ q ∈ e'.map Ep.key, InConv (d'.map Ep.key) q) ∧ (∀ q ∈ d'.map Ep.key, InConv (e'.map Ep.key) q) := by
    intro m
    induction m with
    | zero =>
      intro d e d' e' _ _ _ _ h1 h2 g1 g2
      simp only [iterateN, Except.ok.injEq] at g1 g2
      subst g1; subst g2
      exact ⟨h1, h2⟩
    | succ m ih =>
      intro d e d' e' rd re nd ne h1 h2 g1 g2
      simp only [iterateN] at g1 g2
      cases ha : iterate hull true ts d with
      | error e => rw [ha] at g1; cases g1
      | ok d2 =>
        cases hb : iterate hull false ts e with
        | error e => rw [hb] at g2; cases g2
        | ok e2 =>
          rw [ha] at g1
          rw [hb] at g2
          cases hc : applyTransforms ts d with
          | error e => unfold iterate at ha; rw [hc] at ha; cases ha
          | ok d1 =>
            have he : applyTransforms ts e = .ok e2 := by
              unfold iterate at hb
              cases he : applyTransforms ts e with
              | error x => rw [he] at hb; cases hb
              | ok e1 =>
                rw [he] at hb
                have : (Except.ok e1 : Py (List Ep)) = .ok e2 := hb
                exact this
            obtain ⟨b1, b2, b3, b4⟩ := applyTransforms_spec (fun e => InRegion (e.k, e.l)) ts
              (fun t ht p k l hp hf => region_step t (hts t ht) p k l hp hf) d d1 rd nd hc
            obtain ⟨f1, f2, _⟩ := applyTransforms_spec (fun e => InRegion (e.k, e.l)) ts
              (fun t ht p k l hp hf => region_step t (hts t ht) p k l hp hf) e e2 re ne he
            obtain ⟨c1, c2, c3, _⟩ := iterate_prune hull hh ts d d1 d2 hc b2 ha
            refine ih d2 e2 d' e' (fun x hx => b1 x (c2 x hx)) f1 c3 f2 ?_ ?_ g1 g2
            · intro q hq
              exact (applyTransforms_conv ts hts d e d1 e2 rd nd ne h1 hc he q hq).trans c1
            · intro q hq
              obtain ⟨x, hx, rfl⟩ := List.mem_map.mp hq
              exact applyTransforms_conv ts hts e d e2 d1 re ne nd h2 he hc _
                (List.mem_map.mpr ⟨x, c2 x hx, rfl⟩)
  have rd : ∀ e ∈ dictOf pairs, InRegion (e.k, e.l) := fun e he => hin e (a1 e he)
  obtain ⟨k1, k2⟩ := key depth _ _ r s rd rd a2 a2 (fun q hq => .point _ hq) (fun q hq => .point _ hq) hr hs
  exact ⟨fun h => h.trans k2, fun h => h.trans k1⟩

/-! ### No exception -/

/-- The images of one pair under a pass A, B, C do not lie on a line. -/
theorem not_flat (ps : List (ℚ × ℚ)) (p : ℚ × ℚ) (hp : InRegion p) (h0 : p ∈ ps)
    (hA : ∀ r, transA p.1 p.2 = .ok r → r ∈ ps ∧ (r.2 - 1 / 2, r.1 + 1 / 2) ∈ ps ∧
      (∀ s, transC r.1 r.2 = .ok s → s ∈ ps) ∧ (∀ s, transC (r.2 - 1 / 2) (r.1 + 1 / 2) = .ok s → s ∈ ps))
    (hB : (p.2 - 1 / 2, p.1 + 1 / 2) ∈ ps) : ¬ Flat ps := by
  intro hf
  obtain ⟨k, l⟩ := p
  obtain ⟨h1, h2, h3, h4⟩ := hp
  simp only at *
  obtain ⟨a1, a2, a3, a4⟩ := hA _ (transA_ok k l h1)
  have hrA : InRegion (k / (2 * k + 2), 1 / 2 + l / (2 * k + 2)) := by
    obtain ⟨q, e, hq⟩ := C30_A k l ⟨h1, h2, h3, h4⟩
    rw [transA_ok k l h1] at e
    cases e; exact hq
  have hd : 0 < 2 * k + 2 := by linarith
  by_cases hkl : l = k
  · have hk : k = 1 / 2 := by linarith
    have hl : l = 1 / 2 := by linarith
    subst hk; subst hl
    have := hf _ h0 _ hB _ a1
    norm_num [area] at this
  · obtain ⟨x, hx⟩ : ∃ x, x = k / (2 * k + 2) := ⟨_, rfl⟩
    obtain ⟨y, hy⟩ : ∃ y, y = 1 / 2 + l / (2 * k + 2) := ⟨_, rfl⟩
    rw [← hx, ← hy] at a1 a2 a3 a4 hrA
    obtain ⟨r1, r2, r3, r4⟩ := hrA
    simp only at r1 r2 r3 r4
    have hne : y - 1 / 2 - x ≠ 0 := by
      rw [hx, hy]
      intro h
      have : (l - k) / (2 * k + 2) = 0 := by rw [sub_div]; linarith
      rcases div_eq_zero_iff.mp this with h | h
      · exact hkl (by linarith)
      · linarith
    have b1 := hf _ a1 _ a2 _ (a3 _ (transC_ok x y r1))
    have b2 := hf _ a1 _ a2 _ (a4 _ (transC_ok _ _ (by linarith)))
    simp only [area] at b1 b2
    have e1 : (1 + 4 * x) ≠ 0 := by linarith
    have e2 : (1 + 4 * (y - 1 / 2)) ≠ 0 := by linarith
    have c1 : (11 * (1 + 4 * x) + y) / (12 * (1 + 4 * x)) - y + (x / (12 * (1 + 4 * x)) - x) = 0 := by
      apply mul_left_cancel₀ hne
      rw [mul_zero, ← b1]; ring
    have c2 : (11 * (1 + 4 * (y - 1 / 2)) + (x + 1 / 2)) / (12 * (1 + 4 * (y - 1 / 2))) - y +
        ((y - 1 / 2) / (12 * (1 + 4 * (y - 1 / 2))) - x) = 0 := by
      apply mul_left_cancel₀ hne
      rw [mul_zero, ← b2]; ring
    have d1 : (11 * (1 + 4 * x) + y) + x - (x + y) * (12 * (1 + 4 * x)) = 0 := by
      have : (12 * (1 + 4 * x)) * ((11 * (1 + 4 * x) + y) / (12 * (1 + 4 * x)) - y + (x / (12 * (1 + 4 * x)) - x)) = 0 := by
        rw [c1, mul_zero]
      rw [← this]; field_simp; ring
    have d2 : (11 * (1 + 4 * (y - 1 / 2)) + (x + 1 / 2)) + (y - 1 / 2) - (x + y) * (12 * (1 + 4 * (y - 1 / 2))) = 0 := by
      obtain ⟨d, hd'⟩ : ∃ d, d = 1 + 4 * (y - 1 / 2) := ⟨_, rfl⟩
      rw [← hd'] at c2 e2 ⊢
      have : (12 * d) * ((11 * d + (x + 1 / 2)) / (12 * d) - y + ((y - 1 / 2) / (12 * d) - x)) = 0 := by
        rw [c2, mul_zero]
      rw [← this]; field_simp; ring
    have e3 : 44 - 48 * (x + y) = 0 := by
      apply mul_left_cancel₀ hne
      rw [mul_zero]
      linear_combination d2 - d1
    nlinarith

theorem pass_ok (d : List Ep) (hd : ∀ e ∈ d, InRegion (e.k, e.l)) (hn : KeysNodup d) :
    ∃ d1, applyTransforms [trA, trB, trC] d = .ok d1 ∧ (d ≠ [] → ¬ Flat (d1.map Ep.key)) ∧ (d = [] → d1 = []) ∧
      (∀ e ∈ d1, InRegion (e.k, e.l)) ∧ KeysNodup d1 := by
  have hT : ∀ t ∈ [trA, trB, trC], ∀ p : Ep, InRegion (p.k, p.l) →
      ∃ q, t.f p.k p.l = .ok q ∧ InRegion ((Ep.derived t.id q.1 q.2 p).k, (Ep.derived t.id q.1 q.2 p).l) := by
    intro t ht p hp
    simp only [List.mem_cons, List.not_mem_nil, or_false] at ht
    rcases ht with rfl | rfl | rfl
    · exact C30_A p.k p.l hp
    · exact C30_B p.k p.l hp
    · exact C30_C p.k p.l hp
  have hS : ∀ t ∈ [trA, trB, trC], ∀ p : Ep, ∀ k l, InRegion (p.k, p.l) → t.f p.k p.l = .ok (k, l) →
      InRegion ((Ep.derived t.id k l p).k, (Ep.derived t.id k l p).l) :=
    fun t ht p k l hp hf => region_step t ht p k l hp hf
  obtain ⟨dA, eA, _⟩ := applyAll_total _ trA (hT trA (by simp)) d d hd hd
  obtain ⟨a1, a2, a3, a4⟩ := applyAll_spec _ trA (hS trA (by simp)) d d dA hd hd hn eA
  obtain ⟨dB, eB, _⟩ := applyAll_total _ trB (hT trB (by simp)) dA dA a1 a1
  obtain ⟨b1, b2, b3, b4⟩ := applyAll_spec _ trB (hS trB (by simp)) dA dA dB a1 a1 a2 eB
  obtain ⟨dC, eC, _⟩ := applyAll_total _ trC (hT trC (by simp)) dB dB b1 b1
  obtain ⟨c1, c2, c3, c4⟩ := applyAll_spec _ trC (hS trC (by simp)) dB dB dC b1 b1 b2 eC
  have a4' : ∀ q ∈ d.map Ep.key, ∀ r, transA q.1 q.2 = .ok r → r ∈ dA.map Ep.key := by
    intro q hq r hr; obtain ⟨p, hp, rfl⟩ := List.mem_map.mp hq; exact a4 p hp r hr
  have b4' : ∀ q ∈ dA.map Ep.key, ∀ r, transB q.1 q.2 = .ok r → r ∈ dB.map Ep.key := by
    intro q hq r hr; obtain ⟨p, hp, rfl⟩ := List.mem_map.mp hq; exact b4 p hp r hr
  have c4' : ∀ q ∈ dB.map Ep.key, ∀ r, transC q.1 q.2 = .ok r → r ∈ dC.map Ep.key := by
    intro q hq r hr; obtain ⟨p, hp, rfl⟩ := List.mem_map.mp hq; exact c4 p hp r hr
  refine ⟨dC, ?_, ?_, ?_, c1, c2⟩
  · simp only [applyTransforms, eA, bind, Except.bind, eB, eC]
  · intro hne
    obtain ⟨p, hp⟩ := List.exists_mem_of_ne_nil d hne
    have hk : p.key ∈ d.map Ep.key := List.mem_map.mpr ⟨p, hp, rfl⟩
    refine not_flat _ p.key (hd p hp) (c3 _ (b3 _ (a3 _ hk))) ?_ (c3 _ (b4' _ (a3 _ hk) _ rfl))
    intro r hr
    have k1 := a4' _ hk r hr
    have k2 := b4' _ k1 _ rfl
    exact ⟨c3 _ (b3 _ k1), c3 _ k2, fun s hs => c4' _ (b3 _ k1) s hs, fun s hs => c4' _ k2 s hs⟩
  · rintro rfl
    simp only [applyAll, Except.ok.injEq] at eA
    subst eA
    simp only [applyAll, Except.ok.injEq] at eB
    subst eB
    simp only [applyAll, Except.ok.injEq] at eC
    exact eC.symm

/-- **C83** (no exception) With the transforms A, B and C, `compute_exp_pairs` with pruning raises nothing,
for every set of pairs in the region and every search depth: the points passed to `ConvexHull` are never
on one line. -/
theorem C83_total (hull : List (ℚ × ℚ) → Py (List ℕ)) (hh : HullSpec hull) (pairs : List Ep)
    (hin : ∀ e ∈ pairs, InRegion (e.k, e.l)) (depth : ℕ) :
    ∃ r, computeExpPairs hull pairs [trA, trB, trC] depth true = .ok r := by
  obtain ⟨a1, a2, a3⟩ := dictOf_spec pairs
  have key : ∀ n (d : List Ep), (∀ e ∈ d, InRegion (e.k, e.l)) → KeysNodup d →
      ∃ d', iterateN hull true [trA, trB, trC] n d = .ok d' := by
    intro n
    induction n with
    | zero => intro d _ _; exact ⟨d, rfl⟩
    | succ n ih =>
      intro d hd hn
      obtain ⟨d1, e1, e2, e3, e4, e5⟩ := pass_ok d hd hn
      have hit : ∃ d2, iterate hull true [trA, trB, trC] d = .ok d2 := by
        unfold iterate
        rw [e1]
        simp only [bind, Except.bind, if_true]
        split
        · exact ⟨_, rfl⟩
        · rename_i hlen
          have hne : d ≠ [] := fun h => hlen (by rw [e3 h]; decide)
          obtain ⟨idx, vs, h1, h2, _⟩ := hh.ok _ (e2 hne)
          rw [h1]
          rw [pick_map] at h2
          simp only
          cases hp : pick d1 idx with
          | error e => rw [hp] at h2; cases h2
          | ok v => exact ⟨_, rfl⟩
      obtain ⟨d2, hd2⟩ := hit
      obtain ⟨_, c2, c3, _⟩ := iterate_prune hull hh _ d d1 d2 e1 e5 hd2
      simp only [iterateN]
      rw [hd2]
      exact ih d2 (fun e he => e4 e (c2 e he)) c3
  exact key depth _ (fun e he => hin e (a1 e he)) a2

/-- **C83** (the default call) With the transforms A, B and C, `compute_exp_pairs` returns with and without
pruning, and the convex hulls are the same. -/
theorem C83_default (hull : List (ℚ × ℚ) → Py (List ℕ)) (hh : HullSpec hull) (pairs : List Ep)
    (hin : ∀ e ∈ pairs, InRegion (e.k, e.l)) (depth : ℕ) :
    ∃ r s, computeExpPairs hull pairs [trA, trB, trC] depth true = .ok r ∧
      computeExpPairs hull pairs [trA, trB, trC] depth false = .ok s ∧
      ∀ q, InConv (r.map (fun e => (e.k, e.l))) q ↔ InConv (s.map (fun e => (e.k, e.l))) q := by
  obtain ⟨r, hr⟩ := C83_total hull hh pairs hin depth
  obtain ⟨s, hs⟩ := C31_total hull pairs depth hin
  exact ⟨r, s, hr, hs, C83_same_hull hull hh pairs _ (fun t ht => ht) hin depth r s hr hs⟩

/-- C83 applies to the trivial pair, for every depth. -/
example : ∃ (hull : List (ℚ × ℚ) → Py (List ℕ)) (r : List Ep), HullSpec hull ∧
    computeExpPairs hull [trivialPair] [trA, trB, trC] 5 true = .ok r ∧
    InConv (r.map (fun e => (e.k, e.l))) (1 / 6, 2 / 3) := by
  obtain ⟨hull, hh⟩ := Hull.hullSpec_satisfiable
  have hin : ∀ e ∈ [trivialPair], InRegion (e.k, e.l) := by
    intro e he
    simp only [List.mem_cons, List.not_mem_nil, or_false] at he
    subst he
    exact ⟨by decide +kernel, by decide +kernel, by decide +kernel, by decide +kernel⟩
  obtain ⟨r, hr⟩ := C83_total hull hh [trivialPair] hin 5
  refine ⟨hull, r, hh, hr, C83_complete hull hh [trivialPair] _ (fun t ht => ht) hin 5 r hr 2 (by norm_num) _ ?_⟩
  refine Reach.step 1 (1 / 2, 1 / 2) _ (Reach.step 0 (0, 1) _ (Reach.input trivialPair (by simp)) trB (by simp) ?_) trA
    (by simp) ?_
  · decide +kernel
  · decide +kernel

/-- Finding: with fewer transforms the pruning raises an exception on pairs of the region. From the pairs
(0, 1) and (1/4, 3/4) and the B process alone the three points (0, 1), (1/4, 3/4), (1/2, 1/2) are passed to
`ConvexHull`, which raises `QhullError` because they lie on a line; without pruning the call succeeds. -/
theorem C83_flat_counterexample (hull : List (ℚ × ℚ) → Py (List ℕ)) (hh : HullSpec hull) :
    (∃ e, computeExpPairs hull [.known 0 0 1, .known 1 (1 / 4) (3 / 4)] [trB] 1 true = .error e) ∧
    (computeExpPairs hull [.known 0 0 1, .known 1 (1 / 4) (3 / 4)] [trB] 1 false).map (List.map Ep.key)
      = .ok [(0, 1), (1 / 4, 3 / 4), (1 / 2, 1 / 2)] := by
  refine ⟨?_, ?_⟩
  · have e1 : applyTransforms [trB] (dictOf [.known 0 0 1, .known 1 (1 / 4) (3 / 4)])
        = .ok [.known 0 0 1, .known 1 (1 / 4) (3 / 4), .derived 1 (1 / 2) (1 / 2) (.known 0 0 1)] := by
      decide +kernel
    have e2 : Flat [((0 : ℚ), (1 : ℚ)), (1 / 4, 3 / 4), (1 / 2, 1 / 2)] := by
      intro a ha b hb c hc
      simp only [List.mem_cons, List.not_mem_nil, or_false] at ha hb hc
      rcases ha with rfl | rfl | rfl <;> rcases hb with rfl | rfl | rfl <;> rcases hc with rfl | rfl | rfl <;>
        norm_num [area]
    obtain ⟨e, he⟩ := hh.flat _ e2
    refine ⟨e, ?_⟩
    simp only [computeExpPairs, iterateN, iterate, e1, bind, Except.bind]
    simp only [if_true, List.length_cons, List.length_nil]
    rw [if_neg (by decide)]
    simp only [List.map, Ep.key, Ep.k, Ep.l, he]
  · have e1 : (applyTransforms [trB] (dictOf [.known 0 0 1, .known 1 (1 / 4) (3 / 4)])).map (List.map Ep.key)
        = .ok [(0, 1), (1 / 4, 3 / 4), (1 / 2, 1 / 2)] := by decide +kernel
    rw [← e1]
    cases h : applyTransforms [trB] (dictOf [.known 0 0 1, .known 1 (1 / 4) (3 / 4)]) with
    | error x => simp only [computeExpPairs, iterateN, iterate, h, bind, Except.bind]
    | ok x => simp only [computeExpPairs, iterateN, iterate, h, bind, Except.bind]; rfl

end Prune
end EP
end Expdb
