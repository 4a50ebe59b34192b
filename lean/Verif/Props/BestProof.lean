import Verif.Model.BestProof
import Verif.Props.Prune
import Verif.Props.ExponentPairProof
import Verif.Props.Lookup

/-!
# Property C107: proofs of classical exponent pairs

`best_proof_of_exponent_pair` is asked in `prove_exponent_pairs` (derived.py:208-213) for proofs of six pairs of van der Corput's theory.
-/

namespace Expdb
namespace BestProof

open EP Hull EP.Prune

/-! ### Specification -/

/-- The pairs of van der Corput's method: those obtained from the trivial pair by A and B, as derivations. -/
inductive VdC : Ep → Prop
  | trivial : VdC (.known 0 0 1)
  | A (p : Ep) (h : VdC p) : VdC (.derived 0 (p.k / (2 * p.k + 2)) ((p.k + p.l + 1) / (2 * p.k + 2)) p)
  | B (p : Ep) (h : VdC p) : VdC (.derived 1 (p.l - 1 / 2) (p.k + 1 / 2) p)

/-- What is required of a proof of `(k, l)`: it rests on pairs of van der Corput's method only. -/
def Classical (k l : ℚ) : Proof → Prop
  | .none => False
  | .exact e => VdC e ∧ (e.k, e.l) = (k, l)
  | .convex k' l' deps => (k', l') = (k, l) ∧ (∀ e ∈ deps, VdC e) ∧ InConv (deps.map (fun e => (e.k, e.l))) (k, l)

/-! ### One pass of `compute_exp_pairs` -/

theorem word_conv (ts : List Tr) (hts : ∀ t ∈ ts, t ∈ [trA, trB, trC]) (d d1 : List Ep) (hd : ∀ e ∈ d, InRegion (e.k, e.l))
    (nd : KeysNodup d) (h : applyTransforms ts d = .ok d1) :
    (∀ q, InConv (d.map Ep.key) q → InConv (d1.map Ep.key) q) ∧
    (∀ t ∈ ts, ∀ q, InConv (d.map Ep.key) q → ∀ r, t.f q.1 q.2 = .ok r → InConv (d1.map Ep.key) r) := by
  obtain ⟨_, _, a3, a4⟩ := applyTransforms_spec (fun _ => True) ts (by simp) d d1 (by simp) nd h
  refine ⟨fun q hq => hq.mono a3, fun t ht q hq r hr => ?_⟩
  exact conv_step t (hts t ht) (d.map Ep.key) (d1.map Ep.key) (keys_region hd) (fun p hp r hr => .point _ (a4 t ht p hp r hr)) q hq r hr

theorem two_conv (s t : Tr) (hs : s ∈ [trA, trB, trC]) (ht : t ∈ [trA, trB, trC]) (d d1 : List Ep) (hd : ∀ e ∈ d, InRegion (e.k, e.l))
    (nd : KeysNodup d) (h : applyTransforms [s, t] d = .ok d1) :
    (∀ e ∈ d1, InRegion (e.k, e.l)) ∧ KeysNodup d1 ∧ (∀ key ∈ d.map Ep.key, key ∈ d1.map Ep.key) ∧
    ∀ q, InConv (d.map Ep.key) q → ∀ r, s.f q.1 q.2 = .ok r → InConv (d1.map Ep.key) r ∧
      ∀ r', t.f r.1 r.2 = .ok r' → InConv (d1.map Ep.key) r' := by
  simp only [applyTransforms] at h
  cases ha : applyAll s d d with
  | error e => rw [ha] at h; cases h
  | ok d2 =>
    rw [ha] at h
    obtain ⟨a1, a2, a3, a4⟩ := applyAll_spec (fun e => InRegion (e.k, e.l)) s
      (fun p k l hp hf => region_step s hs p k l hp hf) d d d2 hd hd nd ha
    have hb : applyTransforms [t] d2 = .ok d1 := h
    obtain ⟨b1, b2, b3, b4⟩ := applyTransforms_spec (fun e => InRegion (e.k, e.l)) [t]
      (fun t' ht' p k l hp hf => by
        rw [List.mem_singleton.mp ht'] at hf ⊢
        exact region_step t ht p k l hp hf) d2 d1 a1 a2 hb
    refine ⟨b1, b2, fun key hk => b3 key (a3 key hk), fun q hq r hr => ?_⟩
    have c1 : InConv (d2.map Ep.key) r :=
      conv_step s hs (d.map Ep.key) (d2.map Ep.key) (keys_region hd) (fun p hp r hr => by
        obtain ⟨e, he, rfl⟩ := List.mem_map.mp hp
        exact .point _ (a4 e he r hr)) q hq r hr
    obtain ⟨w1, w2⟩ := word_conv [t] (by simpa using ht) d2 d1 a1 a2 hb
    exact ⟨w1 r c1, fun r' hr' => w2 t (by simp) r c1 r' hr'⟩

theorem A_eq {k l : ℚ} (h : 0 ≤ k) : (k + l + 1) / (2 * k + 2) = 1 / 2 + l / (2 * k + 2) := by
  have : 2 * k + 2 ≠ 0 := by linarith
  field_simp
  ring

theorem VdC.region {e : Ep} (h : VdC e) : InRegion (e.k, e.l) := by
  induction h with
  | trivial => exact ⟨by decide +kernel, by decide +kernel, by decide +kernel, by decide +kernel⟩
  | A p _ ih =>
    obtain ⟨q, h1, h2⟩ := C30_A p.k p.l ih
    rw [transA_ok _ _ ih.1] at h1
    cases h1
    show InRegion (p.k / (2 * p.k + 2), (p.k + p.l + 1) / (2 * p.k + 2))
    rw [A_eq ih.1]; exact h2
  | B p _ ih =>
    obtain ⟨q, h1, h2⟩ := C30_B p.k p.l ih
    cases h1; exact h2

theorem VdC.step {t : Tr} (ht : t = trA ∨ t = trB) (p : Ep) (k l : ℚ) (hp : VdC p) (hf : t.f p.k p.l = .ok (k, l)) :
    VdC (.derived t.id k l p) := by
  rcases ht with rfl | rfl
  · rw [show trA.f p.k p.l = transA p.k p.l from rfl, transA_ok _ _ hp.region.1] at hf
    have h := VdC.A p hp
    rw [A_eq hp.region.1] at h
    cases hf; exact h
  · cases hf; exact .B p hp

theorem flat_line (vs : List (ℚ × ℚ)) (h : Flat vs) : ∃ a b, a ≠ b ∧ ∀ c ∈ vs, area a b c = 0 := by
  cases vs with
  | nil => exact ⟨(0, 0), (1, 0), by decide, by simp⟩
  | cons v vs =>
    by_cases hv : ∃ w ∈ vs, v ≠ w
    · obtain ⟨w, hw, hne⟩ := hv
      exact ⟨v, w, hne, fun c hc => h v List.mem_cons_self w (List.mem_cons_of_mem _ hw) c hc⟩
    · push Not at hv
      refine ⟨v, (v.1 + 1, v.2), fun e => by simpa using congrArg Prod.fst e, fun c hc => ?_⟩
      rcases List.mem_cons.mp hc with rfl | hc
      · exact (area_self _ _).2.1
      · rw [← hv c hc]; exact (area_self _ _).2.1

/-- A pass: the dictionary stays in the class, and its convex hull contains the images of the old one. -/
theorem passP (P : Ep → Prop) (hreg : ∀ e, P e → InRegion (e.k, e.l))
    (hstep : ∀ u : Tr, u = trA ∨ u = trB → ∀ p k l, P p → u.f p.k p.l = .ok (k, l) → P (.derived u.id k l p)) (hull : List (ℚ × ℚ) → Py (List ℕ)) (hh : HullSpec hull) (s t : Tr) (hs : s = trA ∨ s = trB) (ht : t = trA ∨ t = trB)
    (d : List Ep) (hd : ∀ e ∈ d, P e) (nd : KeysNodup d)
    (hf : ∀ d1, applyTransforms [s, t] d = .ok d1 → (∀ key ∈ d.map Ep.key, key ∈ d1.map Ep.key) → ¬ Flat (d1.map Ep.key)) :
    ∃ d', iterate hull true [s, t] d = .ok d' ∧ (∀ e ∈ d', P e) ∧ KeysNodup d' ∧ ¬ Flat (d'.map Ep.key) ∧
      (∀ q, InConv (d.map Ep.key) q → InConv (d'.map Ep.key) q) ∧
      (∀ q, InConv (d.map Ep.key) q → ∀ r, t.f q.1 q.2 = .ok r → InConv (d'.map Ep.key) r) ∧
      ∀ q, InConv (d.map Ep.key) q → ∀ r, s.f q.1 q.2 = .ok r → InConv (d'.map Ep.key) r ∧
        ∀ r', t.f r.1 r.2 = .ok r' → InConv (d'.map Ep.key) r' := by
  have hS : ∀ u : Tr, u = trA ∨ u = trB → u ∈ [trA, trB, trC] := by rintro u (rfl | rfl) <;> simp
  have hT : ∀ u : Tr, u = trA ∨ u = trB → ∀ p : Ep, P p → ∃ q, u.f p.k p.l = .ok q ∧ P (.derived u.id q.1 q.2 p) := by
    rintro u hu p hp
    have : ∃ q, u.f p.k p.l = .ok q := by
      rcases hu with rfl | rfl
      · exact ⟨_, transA_ok _ _ (hreg p hp).1⟩
      · exact ⟨_, rfl⟩
    obtain ⟨q, hq⟩ := this
    exact ⟨q, hq, hstep u hu p q.1 q.2 hp hq⟩
  obtain ⟨d2, e2, p2⟩ := applyAll_total P s (hT s hs) d d hd hd
  obtain ⟨d1, e1, p1⟩ := applyAll_total P t (hT t ht) d2 d2 p2 p2
  have ha : applyTransforms [s, t] d = .ok d1 := by simp only [applyTransforms, e2, bind, Except.bind, e1]
  have hd' : ∀ e ∈ d, InRegion (e.k, e.l) := fun e he => hreg e (hd e he)
  obtain ⟨a1, a2, a3, a4⟩ := two_conv s t (hS s hs) (hS t ht) d d1 hd' nd ha
  obtain ⟨_, w2⟩ := word_conv [s, t] (by
    intro u hu
    rcases List.mem_cons.mp hu with rfl | hu
    · exact hS _ hs
    · rw [List.mem_singleton.mp hu]; exact hS _ ht) d d1 hd' nd ha
  have hf1 : ¬ Flat (d1.map Ep.key) := hf d1 ha a3
  have hit : ∃ d', iterate hull true [s, t] d = .ok d' := by
    unfold iterate
    rw [ha]
    simp only [bind, Except.bind, if_true]
    split
    · exact ⟨_, rfl⟩
    · obtain ⟨idx, vs, h1, h2, _⟩ := hh.ok _ hf1
      obtain ⟨es, h5, _⟩ := pick_map Ep.key d1 idx vs h2
      rw [h1]
      exact ⟨_, by simp only [h5]; rfl⟩
  obtain ⟨d', hd'⟩ := hit
  obtain ⟨c1, c2, c3, _⟩ := iterate_prune hull hh [s, t] d d1 d' ha a2 hd'
  refine ⟨d', hd', fun e he => p1 e (c2 e he), c3, ?_, fun q hq => (hq.mono a3).trans c1,
    fun q hq r hr => (w2 t (by simp) q hq r hr).trans c1, fun q hq r hr => ?_⟩
  · intro hflat
    exact hf1 (flat_of_inConv _ _ c1 (flat_line _ hflat))
  · exact ⟨((a4 q hq r hr).1).trans c1, fun r' hr' => ((a4 q hq r hr).2 r' hr').trans c1⟩

theorem pass (hull : List (ℚ × ℚ) → Py (List ℕ)) (hh : HullSpec hull) (s t : Tr) (hs : s = trA ∨ s = trB) (ht : t = trA ∨ t = trB)
    (d : List Ep) (hd : ∀ e ∈ d, VdC e) (nd : KeysNodup d)
    (hf : ∀ d1, applyTransforms [s, t] d = .ok d1 → (∀ key ∈ d.map Ep.key, key ∈ d1.map Ep.key) → ¬ Flat (d1.map Ep.key)) :
    ∃ d', iterate hull true [s, t] d = .ok d' ∧ (∀ e ∈ d', VdC e) ∧ KeysNodup d' ∧ ¬ Flat (d'.map Ep.key) ∧
      (∀ q, InConv (d.map Ep.key) q → InConv (d'.map Ep.key) q) ∧
      (∀ q, InConv (d.map Ep.key) q → ∀ r, t.f q.1 q.2 = .ok r → InConv (d'.map Ep.key) r) ∧
      ∀ q, InConv (d.map Ep.key) q → ∀ r, s.f q.1 q.2 = .ok r → InConv (d'.map Ep.key) r ∧
        ∀ r', t.f r.1 r.2 = .ok r' → InConv (d'.map Ep.key) r' :=
  passP VdC (fun _ h => h.region) (fun _ hu p k l hp hq => VdC.step hu p k l hp hq) hull hh s t hs ht d hd nd hf

/-- The pair `(1/2, 1/2) = B(0, 1)`. -/
def pB : Ep := .derived 1 (1 / 2) (1 / 2) trivialPair

theorem keep (ts : List Tr) (d : List Ep) (hf : ¬ Flat (d.map Ep.key)) :
    ∀ d1, applyTransforms ts d = .ok d1 → (∀ key ∈ d.map Ep.key, key ∈ d1.map Ep.key) → ¬ Flat (d1.map Ep.key) :=
  fun _ _ a3 h => hf (fun a ha b hb c hc => h a (a3 a ha) b (a3 b hb) c (a3 c hc))

theorem not_flat3 : ¬ Flat [((0 : ℚ), (1 : ℚ)), (1 / 2, 1 / 2), (1 / 6, 2 / 3)] := fun h => by
  have := h (0, 1) (by simp) (1 / 2, 1 / 2) (by simp) (1 / 6, 2 / 3) (by simp)
  revert this; decide +kernel

theorem fA (k l k' l' : ℚ) (h : transA k l = .ok (k', l')) : trA.f (k, l).1 (k, l).2 = .ok (k', l') := h
theorem fB (k l k' l' : ℚ) (h : transB k l = .ok (k', l')) : trB.f (k, l).1 (k, l).2 = .ok (k', l') := h

/-- The pairs asked for are in the convex hull of six pairs. -/
theorem calls_hull (ps : List (ℚ × ℚ)) (h2 : InConv ps (1 / 2, 1 / 2)) (h3 : InConv ps (1 / 6, 2 / 3))
    (h4 : InConv ps (2 / 7, 4 / 7)) (h5 : InConv ps (2 / 9, 11 / 18)) (h6 : InConv ps (13 / 31, 16 / 31)) :
    ∀ c ∈ calls, InConv ps (c.1, c.2) := by
  intro c hc
  simp only [calls, List.mem_cons, List.not_mem_nil, or_false] at hc
  rcases hc with rfl | rfl | rfl | rfl | rfl | rfl
  · exact h3
  · exact h6
  · have := InConv.mix _ _ (4 / 11) h4 h2 (by norm_num) (by norm_num)
    convert this using 2 <;> norm_num
  · exact h4
  · have := InConv.mix _ _ (3 / 4) h3 h5 (by norm_num) (by norm_num)
    convert this using 2 <;> norm_num
  · convert h5 using 2; norm_num

theorem five_AB (hull : List (ℚ × ℚ) → Py (List ℕ)) (hh : HullSpec hull) :
    ∃ d, iterateN hull true [trA, trB] 5 [trivialPair] = .ok d ∧ (∀ e ∈ d, VdC e) ∧ ¬ Flat (d.map Ep.key) ∧
      ∀ c ∈ calls, InConv (d.map Ep.key) (c.1, c.2) := by
  have i1 : iterate hull true [trA, trB] [trivialPair] = .ok [trivialPair, pB] := by
    have : applyTransforms [trA, trB] [trivialPair] = .ok [trivialPair, pB] := by decide +kernel
    unfold iterate
    rw [this]; rfl
  have hd1 : ∀ e ∈ [trivialPair, pB], VdC e := by
    intro e he
    simp only [List.mem_cons, List.not_mem_nil, or_false] at he
    rcases he with rfl | rfl
    · exact .trivial
    · have := VdC.B _ VdC.trivial
      have e : (Ep.derived 1 ((Ep.known 0 0 1).l - 1 / 2) ((Ep.known 0 0 1).k + 1 / 2) (.known 0 0 1)) = pB := by decide +kernel
      rw [← e]; exact this
  obtain ⟨d2, i2, v2, n2, f2, m2, t2, w2⟩ := pass hull hh trA trB (.inl rfl) (.inr rfl) [trivialPair, pB] hd1 (by unfold KeysNodup; decide +kernel) (by
    have : (applyTransforms [trA, trB] [trivialPair, pB]).map (fun d => d.map Ep.key) = .ok [((0 : ℚ), (1 : ℚ)), (1 / 2, 1 / 2), (1 / 6, 2 / 3)] := by
      decide +kernel
    intro d1 h _
    rw [h] at this
    rw [show d1.map Ep.key = _ from Except.ok.inj this]
    exact not_flat3)
  obtain ⟨d3, i3, v3, n3, f3, m3, t3, w3⟩ := pass hull hh trA trB (.inl rfl) (.inr rfl) d2 v2 n2 (keep _ _ f2)
  obtain ⟨d4, i4, v4, n4, f4, m4, t4, w4⟩ := pass hull hh trA trB (.inl rfl) (.inr rfl) d3 v3 n3 (keep _ _ f3)
  obtain ⟨d5, i5, v5, n5, f5, m5, t5, w5⟩ := pass hull hh trA trB (.inl rfl) (.inr rfl) d4 v4 n4 (keep _ _ f4)
  refine ⟨d5, ?_, v5, f5, ?_⟩
  · simp only [iterateN, i1, i2, i3, i4, i5, bind, Except.bind]
  · have a1 : InConv ([trivialPair, pB].map Ep.key) (1 / 2, 1 / 2) := .point _ (by decide +kernel)
    have a2 := (w2 _ a1 _ (fA _ _ (1 / 6) (2 / 3) (by decide +kernel))).1
    have a3 := w3 _ a2 _ (fA _ _ (1 / 14) (11 / 14) (by decide +kernel))
    have b3 := a3.2 _ (fB _ _ (2 / 7) (4 / 7) (by decide +kernel))
    have a4 := (w4 _ a3.1 _ (fA _ _ (1 / 30) (26 / 30) (by decide +kernel))).1
    have b4 := (w4 _ b3 _ (fA _ _ (1 / 9) (13 / 18) (by decide +kernel))).2 _ (fB _ _ (2 / 9) (11 / 18) (by decide +kernel))
    have a5 := (w5 _ a4 _ (fA _ _ (1 / 62) (57 / 62) (by decide +kernel))).2 _ (fB _ _ (13 / 31) (16 / 31) (by decide +kernel))
    exact calls_hull _ (m5 _ (m4 _ (m3 _ (m2 _ a1)))) (m5 _ (m4 _ (m3 _ a2))) (m5 _ (m4 _ b3)) (m5 _ b4) a5

theorem five_BA (hull : List (ℚ × ℚ) → Py (List ℕ)) (hh : HullSpec hull) :
    ∃ d, iterateN hull true [trB, trA] 5 [trivialPair] = .ok d ∧ (∀ e ∈ d, VdC e) ∧ ¬ Flat (d.map Ep.key) ∧
      ∀ c ∈ calls, InConv (d.map Ep.key) (c.1, c.2) := by
  have hd0 : ∀ e ∈ [trivialPair], VdC e := by
    intro e he
    rw [List.mem_singleton.mp he]; exact .trivial
  obtain ⟨d1, i1, v1, n1, f1, m1, t1, w1⟩ := pass hull hh trB trA (.inr rfl) (.inl rfl) [trivialPair] hd0 (by unfold KeysNodup; decide +kernel) (by
    have : (applyTransforms [trB, trA] [trivialPair]).map (fun d => d.map Ep.key) = .ok [((0 : ℚ), (1 : ℚ)), (1 / 2, 1 / 2), (1 / 6, 2 / 3)] := by
      decide +kernel
    intro d1 h _
    rw [h] at this
    rw [show d1.map Ep.key = _ from Except.ok.inj this]
    exact not_flat3)
  obtain ⟨d2, i2, v2, n2, f2, m2, t2, w2⟩ := pass hull hh trB trA (.inr rfl) (.inl rfl) d1 v1 n1 (keep _ _ f1)
  obtain ⟨d3, i3, v3, n3, f3, m3, t3, w3⟩ := pass hull hh trB trA (.inr rfl) (.inl rfl) d2 v2 n2 (keep _ _ f2)
  obtain ⟨d4, i4, v4, n4, f4, m4, t4, w4⟩ := pass hull hh trB trA (.inr rfl) (.inl rfl) d3 v3 n3 (keep _ _ f3)
  obtain ⟨d5, i5, v5, n5, f5, m5, t5, w5⟩ := pass hull hh trB trA (.inr rfl) (.inl rfl) d4 v4 n4 (keep _ _ f4)
  refine ⟨d5, ?_, v5, f5, ?_⟩
  · simp only [iterateN, i1, i2, i3, i4, i5, bind, Except.bind]
  · have a0 : InConv ([trivialPair].map Ep.key) (0, 1) := .point _ (by decide +kernel)
    have a1 := w1 _ a0 _ (fB _ _ (1 / 2) (1 / 2) (by decide +kernel))
    have b1 := a1.2 _ (fA _ _ (1 / 6) (2 / 3) (by decide +kernel))
    have a2 := t2 _ b1 _ (fA _ _ (1 / 14) (11 / 14) (by decide +kernel))
    have a3 := t3 _ a2 _ (fA _ _ (1 / 30) (26 / 30) (by decide +kernel))
    have b3 := w3 _ a2 _ (fB _ _ (2 / 7) (4 / 7) (by decide +kernel))
    have c3 := b3.2 _ (fA _ _ (1 / 9) (13 / 18) (by decide +kernel))
    have a4 := t4 _ a3 _ (fA _ _ (1 / 62) (57 / 62) (by decide +kernel))
    have b4 := (w4 _ c3 _ (fB _ _ (2 / 9) (11 / 18) (by decide +kernel))).1
    have a5 := (w5 _ a4 _ (fB _ _ (13 / 31) (16 / 31) (by decide +kernel))).1
    exact calls_hull _ (m5 _ (m4 _ (m3 _ (m2 _ a1.1)))) (m5 _ (m4 _ (m3 _ (m2 _ b1)))) (m5 _ (m4 _ b3.1)) (m5 _ b4) a5

/-! ### The two kinds of years -/

/-- What is needed of the conversion of bounds on beta (exponent_pair.py:185-189): without bounds on beta it gives nothing. -/
def NoBeta (nodes : List (Node Lookup.Data)) (betaPairs : List Item → Py (List Ep)) : Prop :=
  ∀ hs, (∀ i n, Item.other i ∈ hs → nodes[i]? = some n → n.htype ≠ "Upper bound on beta") → betaPairs hs = .ok []

theorem addPairs_nil (l : List Ep) : addPairs l [] = l := rfl

theorem calls_ne : ∀ c ∈ calls, ((0 : ℚ), (1 : ℚ)) ≠ (c.1, c.2) := by decide +kernel

theorem attempt_before (hull : List (ℚ × ℚ) → Py (List ℕ)) (inHull : List (ℚ × ℚ) → ℚ × ℚ → Bool) (hin : InHullSpec inHull) (cx : Ep → ℕ)
    (betaPairs : List Item → Py (List Ep)) (hs : List Item) (hb : betaPairs hs = .ok []) (hp : pairsIn hs = [trivialPair])
    (ht : transformsIn hs = []) (c : ℚ × ℚ) (hne : (0, 1) ≠ (c.1, c.2)) : attempt hull inHull cx betaPairs c.1 c.2 hs = .ok .none := by
  have h1 : computeExpPairs hull [trivialPair] [] 5 true = .ok [trivialPair] := rfl
  have h2 : addPairs [trivialPair] [trivialPair] = [trivialPair] := by decide +kernel
  have h3 : inHull [(0, 1)] (c.1, c.2) = false := by
    rw [Bool.eq_false_iff]
    intro h
    rw [hin] at h
    have : ∀ q, InConv [((0 : ℚ), (1 : ℚ))] q → q = (0, 1) := by
      intro q hq
      induction hq with
      | point p hp => exact List.mem_singleton.mp hp
      | mix p q t _ _ _ _ ih1 ih2 => rw [ih1, ih2]; simp
    exact hne (this _ h).symm
  unfold attempt
  simp only [hb, hp, ht, bind, Except.bind, addPairs_nil, h1, h2]
  unfold constructProof
  rw [if_neg (by simp)]
  have hf : [trivialPair].find? (fun h => h.key = (c.1, c.2)) = none := by
    rw [List.find?_eq_none]
    intro x hx
    rw [List.mem_singleton.mp hx]
    show ¬ decide (((0 : ℚ), (1 : ℚ)) = (c.1, c.2)) = true
    rw [decide_eq_true_iff]
    exact hne
  rw [hf]
  have hv : convexHull hull [trivialPair] = .ok [trivialPair] := rfl
  simp only [hv, bind, Except.bind]
  rw [if_pos (show inHull ([trivialPair].map Ep.key) (c.1, c.2) = false from h3)]
  rfl

theorem attempt_1920 (hull : List (ℚ × ℚ) → Py (List ℕ)) (hh : HullSpec hull) (inHull : List (ℚ × ℚ) → ℚ × ℚ → Bool)
    (hin : InHullSpec inHull) (cx : Ep → ℕ)
    (betaPairs : List Item → Py (List Ep)) (hs : List Item) (hb : betaPairs hs = .ok []) (hp : pairsIn hs = [trivialPair])
    (ht : transformsIn hs = [trA, trB] ∨ transformsIn hs = [trB, trA]) (c : ℚ × ℚ) (hc : c ∈ calls) :
    ∃ r, attempt hull inHull cx betaPairs c.1 c.2 hs = .ok r ∧ r ≠ .none ∧ Classical c.1 c.2 r := by
  have h5 : ∃ d, computeExpPairs hull [trivialPair] (transformsIn hs) 5 true = .ok d ∧ (∀ e ∈ d, VdC e) ∧ ¬ Flat (d.map Ep.key) ∧
      ∀ c ∈ calls, InConv (d.map Ep.key) (c.1, c.2) := by
    rcases ht with ht | ht <;> rw [ht]
    · exact five_AB hull hh
    · exact five_BA hull hh
  obtain ⟨d, h1, h2, h3, h4⟩ := h5
  have hv : ∀ e ∈ addPairs [trivialPair] d, VdC e := by
    intro e he
    rcases (mem_addPairs _ _ _).mp he with he | he
    · rw [List.mem_singleton.mp he]; exact .trivial
    · exact h2 e he
  have hsub : ∀ key ∈ d.map Ep.key, key ∈ (addPairs [trivialPair] d).map Ep.key := by
    intro key hk
    obtain ⟨e, he, rfl⟩ := List.mem_map.mp hk
    exact List.mem_map_of_mem ((mem_addPairs _ _ _).mpr (.inr he))
  have hnf : ¬ Flat ((addPairs [trivialPair] d).map Ep.key) := fun h =>
    h3 (fun a ha b hb c hc => h a (hsub a ha) b (hsub b hb) c (hsub c hc))
  obtain ⟨r, hr, hn⟩ := C33_construct_proof_total hull hh inHull hin cx (addPairs [trivialPair] d) c.1 c.2 true hnf
  have hrn : r ≠ .none := fun h => (hn.mp h) ((h4 c hc).mono hsub)
  refine ⟨r, ?_, hrn, ?_⟩
  · unfold attempt
    simp only [hb, hp, bind, Except.bind, addPairs_nil, h1, hr]
  · have := C33_construct_proof_partial hull hh inHull hin cx _ c.1 c.2 true false (by simp) r hr
    cases r with
    | none => exact absurd rfl hrn
    | exact e => exact ⟨hv e this.1, this.2⟩
    | convex k' l' deps => exact ⟨this.1, fun e he => hv e (this.2.1 e he), this.2.2⟩

/-! ### The literature -/

/-- The transforms of pairs that are known in 1991. -/
noncomputable def early (n : Node Lookup.Data) : Bool := decide (n.htype = "Exponent pair transform") &&
  (match n.ref.year with | some z => decide (z ≤ ((1991 : ℤ) : WithTop ℤ)) | none => true)

/-- What the years up to 1991 see of the literature. -/
structure Facts (nodes : List (Node Lookup.Data)) : Prop where
  years : ∀ n ∈ nodes, ∀ z, n.ref.year = some z → ∃ v : ℤ, z = (v : WithTop ℤ) ∧ -1 ≤ v
  late : ∀ n ∈ nodes, (n.htype = "Upper bound on beta" ∨ ∃ k l, n.data = .pair k l) → ∃ v : ℤ, n.ref.year = LitMu.yr v ∧ 1987 < v
  trans : (nodes.filter early).map (fun n => (n.data, n.ref.year)) =
    [(.transform "van der Corput A transform".toList, LitMu.yr 1920), (.transform "van der Corput B transform".toList, LitMu.yr 1920)]

theorem beta_year {l : String} (hl : l ∈ Lookup.betaLabels) (b : LitBeta.Bd) : ∃ n, Lookup.betaNode l b = .ok n ∧
    n.htype = "Upper bound on beta" ∧ n.data = .beta b ∧ ∃ v : ℤ, n.ref.year = LitMu.yr v ∧ 1988 < v := by
  have h : ∀ l ∈ Lookup.betaLabels, (Lookup.bib.find? (fun e => e.label = l)).any (fun e => decide (1988 < e.year)) = true := by
    decide +kernel
  have h := h l hl
  cases he : Lookup.bib.find? (fun e => e.label = l) with
  | none => rw [he] at h; exact absurd h Bool.false_ne_true
  | some e =>
    rw [he] at h
    have hs : Lookup.source (.bib l) = .ok (Bib.parseAuthors e.author, ⟨l, LitMu.yr e.year⟩) := by simp only [Lookup.source, he]
    unfold Lookup.betaNode Lookup.dated
    rw [hs]
    exact ⟨_, rfl, rfl, rfl, e.year, rfl, of_decide_eq_true h⟩

theorem beta_nodes : ∀ {cs : List (String × Py (List LitBeta.Bd))} {ns : List (Node Lookup.Data)},
    (∀ c ∈ cs, c.1 ∈ Lookup.betaLabels ∧ ∃ bs, c.2 = .ok bs) → Lookup.betaNodes cs = .ok ns →
    ∀ n ∈ ns, n.htype = "Upper bound on beta" ∧ (∃ b, n.data = .beta b) ∧ ∃ v : ℤ, n.ref.year = LitMu.yr v ∧ 1988 < v
  | [], ns, _, h => by cases h; simp
  | c :: cs, ns, hc, h => by
    obtain ⟨hl, bs, hb⟩ := hc c List.mem_cons_self
    obtain ⟨n1, h1, h2⟩ := Lookup.mapM_ok (f := Lookup.betaNode c.1) (l := bs)
      (P := fun n => n.htype = "Upper bound on beta" ∧ (∃ b, n.data = .beta b) ∧ ∃ v : ℤ, n.ref.year = LitMu.yr v ∧ 1988 < v) (fun b _ => by
        obtain ⟨n, e1, e2, e3, e4⟩ := beta_year hl b
        exact ⟨n, e1, e2, ⟨b, e3⟩, e4⟩)
    simp only [Lookup.betaNodes] at h
    rw [hb] at h
    simp only [bind, Except.bind] at h
    rw [h1] at h
    cases hr : Lookup.betaNodes cs with
    | error e => rw [hr] at h; cases h
    | ok rest =>
      rw [hr] at h
      cases h
      intro n hn
      rcases List.mem_append.mp hn with hn | hn
      · exact h2 n hn
      · exact beta_nodes (fun c hc' => hc c (List.mem_cons_of_mem _ hc')) hr n hn

theorem others_facts : (match Lookup.others with
    | .ok l => l.all (fun n => (match n.ref.year with | some (some v) => decide ((-1 : ℤ) ≤ v) | some none => false | none => true) &&
        !decide (n.htype = "Upper bound on beta") &&
        (match n.data, n.ref.year with | .pair _ _, some (some v) => decide ((1987 : ℤ) < v) | .pair _ _, _ => false | _, _ => true)) &&
      decide ((l.filter early).map (fun n => (n.data, n.ref.year)) =
        [(.transform "van der Corput A transform".toList, LitMu.yr 1920), (.transform "van der Corput B transform".toList, LitMu.yr 1920)])
    | .error _ => false) = true := by decide +kernel

theorem facts : ∃ nodes, Lookup.literature = .ok nodes ∧ Facts nodes := by
  obtain ⟨bs, os, nodes, hb, ho, hl, hn, -⟩ := Lookup.literature_eq
  refine ⟨nodes, hl, ?_⟩
  have hbeta := beta_nodes (Lookup.betaCalls_ok 20) hb
  have h := others_facts
  rw [ho] at h
  obtain ⟨h1, h2⟩ := Bool.and_eq_true _ _ ▸ h
  rw [List.all_eq_true] at h1
  refine ⟨fun n hn' z hz => ?_, fun n hn' hp => ?_, ?_⟩
  · rw [hn] at hn'
    rcases List.mem_append.mp hn' with hn' | hn'
    · obtain ⟨_, _, v, h3, h4⟩ := hbeta n hn'
      rw [h3] at hz
      exact ⟨v, (Option.some.inj hz).symm, by linarith⟩
    · have := h1 n hn'
      simp only [Bool.and_eq_true] at this
      rw [hz] at this
      match z, this with
      | some v, this => exact ⟨v, rfl, of_decide_eq_true this.1.1⟩
      | none, this => exact absurd this.1.1 Bool.false_ne_true
  · rw [hn] at hn'
    rcases List.mem_append.mp hn' with hn' | hn'
    · obtain ⟨_, _, v, h3, h4⟩ := hbeta n hn'
      exact ⟨v, h3, by linarith⟩
    · have := h1 n hn'
      simp only [Bool.and_eq_true] at this
      obtain ⟨⟨_, t1⟩, t2⟩ := this
      rcases hp with hp | ⟨k, l, hp⟩
      · rw [hp] at t1; exact absurd t1 (by decide)
      · rw [hp] at t2
        match hy : n.ref.year with
        | none => rw [hy] at t2; exact absurd t2 Bool.false_ne_true
        | some none => rw [hy] at t2; exact absurd t2 Bool.false_ne_true
        | some (some v) => rw [hy] at t2; exact ⟨v, rfl, of_decide_eq_true t2⟩
  · rw [hn, List.filter_append, List.map_append, of_decide_eq_true h2, List.filter_eq_nil_iff.mpr]
    · rfl
    · intro n hn' ht
      unfold early at ht
      rw [Bool.and_eq_true] at ht
      have := of_decide_eq_true ht.1
      rw [(hbeta n hn').1] at this
      exact absurd this (by decide)

/-! ### What is known in a year -/

/-- Is a hypothesis known in the year `y`? -/
noncomputable def known (y : ℤ) (n : Year) : Bool := match n with | none => true | some z => decide (z ≤ (y : WithTop ℤ))

/-- The transform among the items. -/
def asTr : Item → Option Tr | .transform t => some t | _ => none

/-- The pair among the items. -/
def asPair : Item → Option Ep | .pair e => some e | _ => none

theorem knownIn_eq (hs : List Dated) (y : ℤ) : knownIn hs y = (hs.filter (fun d => known y d.year)).map Dated.item := rfl

theorem perm_known {hs hs' : List Dated} (h : hs.Perm hs') (y : ℤ) : (knownIn hs y).Perm (knownIn hs' y) := (h.filter _).map _

theorem known_split (nodes : List (Node Lookup.Data)) (y : ℤ) (hy : -1 ≤ y) :
    knownIn (hypotheses nodes) y = (nodes.zipIdx.filter (fun e => known y e.1.ref.year)).map (fun e => itemOf e.1 e.2) ++ [.pair trivialPair] := by
  rw [knownIn_eq, hypotheses, List.filter_append, List.map_append, List.filter_map, List.map_map]
  congr 1
  have : known y (LitMu.yr (-1)) = true := by
    show decide (((-1 : ℤ) : WithTop ℤ) ≤ (y : WithTop ℤ)) = true
    rw [decide_eq_true_iff]
    exact WithTop.coe_le_coe.mpr hy
  rw [List.filter_cons_of_pos (by exact this)]
  rfl

theorem known_of_yr {y v : ℤ} (h : known y (LitMu.yr v) = true) : v ≤ y := by
  have : ((v : ℤ) : WithTop ℤ) ≤ (y : WithTop ℤ) := of_decide_eq_true h
  exact WithTop.coe_le_coe.mp this

theorem asPair_itemOf {n : Node Lookup.Data} {i : ℕ} {e : Ep} (h : asPair (itemOf n i) = some e) : ∃ k l, n.data = .pair k l := by
  unfold itemOf at h
  split at h
  · exact ⟨_, _, by assumption⟩
  · split at h
    · split at h
      · cases h
      · split at h <;> cases h
    · cases h
  · cases h

theorem asTr_itemOf {n : Node Lookup.Data} {i : ℕ} {t : Tr} (h : asTr (itemOf n i) = some t) : n.htype = "Exponent pair transform" := by
  unfold itemOf at h
  split at h
  · split at h <;> cases h
  · split at h
    · assumption
    · cases h
  · cases h

theorem pairs_known (nodes : List (Node Lookup.Data)) (hf : Facts nodes) (y : ℤ) (h0 : -1 ≤ y) (h1 : y ≤ 1987) :
    pairsIn (knownIn (hypotheses nodes) y) = [trivialPair] := by
  rw [known_split nodes y h0]
  show List.filterMap asPair _ = _
  rw [List.filterMap_append, List.filterMap_map]
  have : (nodes.zipIdx.filter (fun e => known y e.1.ref.year)).filterMap (asPair ∘ fun e => itemOf e.1 e.2) = [] := by
    rw [List.filterMap_eq_nil_iff]
    intro e he
    obtain ⟨he1, he2⟩ := List.mem_filter.mp he
    cases hp : (asPair ∘ fun e : Node Lookup.Data × ℕ => itemOf e.1 e.2) e with
    | none => rfl
    | some p =>
      obtain ⟨v, hv, hv'⟩ := hf.late e.1 (List.fst_mem_of_mem_zipIdx he1) (.inr (asPair_itemOf hp))
      rw [hv] at he2
      have := known_of_yr he2
      omega
  rw [this]
  rfl

theorem transforms_known (nodes : List (Node Lookup.Data)) (hf : Facts nodes) (y : ℤ) (h0 : -1 ≤ y) (h1 : y ≤ 1991) :
    transformsIn (knownIn (hypotheses nodes) y) = if 1920 ≤ y then [trA, trB] else [] := by
  rw [known_split nodes y h0]
  show List.filterMap asTr _ = _
  rw [List.filterMap_append, List.filterMap_map]
  have e1 : ∀ e ∈ nodes.zipIdx, (if known y e.1.ref.year then (asTr ∘ fun e : Node Lookup.Data × ℕ => itemOf e.1 e.2) e else none) =
      (fun n : Node Lookup.Data => if known y n.ref.year then asTr (itemOf n 0) else none) e.1 := by
    intro e _
    show (if known y e.1.ref.year then asTr (itemOf e.1 e.2) else none) = if known y e.1.ref.year then asTr (itemOf e.1 0) else none
    congr 1
    unfold itemOf
    split
    · split <;> rfl
    · split <;> rfl
    · rfl
  rw [List.filterMap_filter, List.filterMap_congr e1]
  have e2 : nodes.zipIdx.filterMap (fun e => (fun n : Node Lookup.Data => if known y n.ref.year then asTr (itemOf n 0) else none) e.1) =
      nodes.filterMap (fun n => if known y n.ref.year then asTr (itemOf n 0) else none) := by
    conv_rhs => rw [← List.zipIdx_map_fst 0 nodes, List.filterMap_map]
    rfl
  rw [e2]
  have e3 : nodes.filterMap (fun n => if known y n.ref.year then asTr (itemOf n 0) else none) =
      (nodes.filter early).filterMap
          (fun n => if known y n.ref.year then asTr (itemOf n 0) else none) := by
    rw [List.filterMap_filter]
    apply List.filterMap_congr
    intro n _
    by_cases hn : early n = true
    · rw [if_pos hn]
    · rw [if_neg hn]
      cases hk : known y n.ref.year with
      | false => rfl
      | true =>
        rw [if_pos rfl]
        cases ht : asTr (itemOf n 0) with
        | none => rfl
        | some t =>
          exfalso
          apply hn
          unfold early
          rw [Bool.and_eq_true]
          refine ⟨decide_eq_true (asTr_itemOf ht), ?_⟩
          cases hyr : n.ref.year with
          | none => rfl
          | some z =>
            rw [hyr] at hk
            have : z ≤ (y : WithTop ℤ) := of_decide_eq_true hk
            exact decide_eq_true (this.trans (WithTop.coe_le_coe.mpr h1))
  rw [e3]
  have ht := hf.trans
  generalize hl : nodes.filter early = l at ht ⊢
  match l, ht, congrArg List.length ht with
  | [n1, n2], ht, _ =>
    have hm : ∀ n ∈ [n1, n2], n.htype = "Exponent pair transform" := by
      intro n hn
      rw [← hl] at hn
      exact of_decide_eq_true ((Bool.and_eq_true _ _ ▸ (List.mem_filter.mp hn).2).1)
    have g1 := hm n1 (by simp)
    have g2 := hm n2 (by simp)
    simp only [List.map_cons, List.map_nil, List.cons.injEq, Prod.mk.injEq, and_true] at ht
    obtain ⟨⟨d1, y1⟩, d2, y2⟩ := ht
    have t1 : asTr (itemOf n1 0) = some trA := by
      unfold itemOf
      rw [d1, g1]
      simp [asTr]
    have t2 : asTr (itemOf n2 0) = some trB := by
      unfold itemOf
      rw [d2, g2]
      have : ¬ ("van der Corput B transform".toList = "van der Corput A transform".toList) := by decide
      simp only [if_true, if_neg this, asTr]
    have hk : known y (LitMu.yr 1920) = decide (1920 ≤ y) := by
      rw [Bool.eq_iff_iff, decide_eq_true_iff]
      constructor
      · exact fun h => known_of_yr h
      · intro h
        show decide (((1920 : ℤ) : WithTop ℤ) ≤ (y : WithTop ℤ)) = true
        exact decide_eq_true (WithTop.coe_le_coe.mpr h)
    by_cases hy : 1920 ≤ y
    · simp only [List.filterMap, y1, y2, hk, t1, t2, hy, decide_true, if_true]
      rfl
    · simp only [List.filterMap, y1, y2, hk, hy, asTr, decide_false, if_neg Bool.false_ne_true, if_false]
      rfl

theorem beta_known (nodes : List (Node Lookup.Data)) (hf : Facts nodes) (betaPairs : List Item → Py (List Ep)) (hb : NoBeta nodes betaPairs)
    (order : List Dated) (hp : order.Perm (hypotheses nodes)) (y : ℤ) (h0 : -1 ≤ y) (h1 : y ≤ 1987) : betaPairs (knownIn order y) = .ok [] := by
  apply hb
  intro i n hi hn ht
  have hi := (perm_known hp y).subset hi
  rw [known_split nodes y h0] at hi
  rcases List.mem_append.mp hi with hi | hi
  · obtain ⟨e, he, hei⟩ := List.mem_map.mp hi
    obtain ⟨he1, he2⟩ := List.mem_filter.mp he
    have hid : e.2 = i := by
      unfold itemOf at hei
      split at hei
      · split at hei
        · cases hei
        · exact Item.other.inj hei
      · split at hei
        · split at hei
          · cases hei
          · split at hei <;> cases hei
        · exact Item.other.inj hei
      · exact Item.other.inj hei
    have hen := List.mem_zipIdx_iff_getElem?.mp he1
    rw [hid, hn] at hen
    have hen := Option.some.inj hen
    obtain ⟨v, hv, hv'⟩ := hf.late n (List.mem_of_getElem? hn) (.inl ht)
    rw [← hen, hv] at he2
    have := known_of_yr he2
    omega
  · simp at hi

/-- The loop over the years finds the proof of the year `y₀` if the years before give none and something new is known in `y₀`. -/
theorem dateLoop_finds (att : List Item → Py Proof) (hs : List Dated) (r : Proof) (hr : r ≠ .none) (y₀ : ℤ) (hatt : att (knownIn hs y₀) = .ok r)
    (post : List ℤ) : ∀ (pre : List ℤ) (num : ℕ), (∀ y ∈ pre, att (knownIn hs y) = .ok .none ∧ (knownIn hs y).length < (knownIn hs y₀).length) →
      num < (knownIn hs y₀).length → dateLoop att hs (pre ++ y₀ :: post) num = .ok r
  | [], num, _, hn => by
    show (if (knownIn hs y₀).length = num then _ else _) = _
    rw [if_neg (by omega), hatt]
    simp only [bind, Except.bind, if_neg hr]
    rfl
  | y :: pre, num, h, hn => by
    obtain ⟨a1, a2⟩ := h y List.mem_cons_self
    have ih := fun num hn => dateLoop_finds att hs r hr y₀ hatt post pre num (fun y hy => h y (List.mem_cons_of_mem _ hy)) hn
    show (if (knownIn hs y).length = num then _ else _) = _
    split
    · exact ih num hn
    · rw [a1]
      simp only [bind, Except.bind, if_true]
      exact ih _ a2

theorem yearRange_split (a b y : ℤ) (h1 : a ≤ y) (h2 : y ≤ b) :
    ∃ pre post, yearRange a b = pre ++ y :: post ∧ ∀ z ∈ pre, a ≤ z ∧ z < y := by
  have e : (b + 1 - a).toNat = (y - a).toNat + (1 + (b - y).toNat) := by omega
  refine ⟨(List.range (y - a).toNat).map (fun i : ℕ => a + (i : ℤ)),
    ((List.range (b - y).toNat).map (fun i => (y - a).toNat + (1 + i))).map (fun i : ℕ => a + (i : ℤ)), ?_, ?_⟩
  · unfold yearRange
    rw [e, List.range_add, List.map_append, List.range_add]
    simp only [List.map_append, List.map_map]
    congr 1
    simp only [List.range_one, List.map_cons, List.map_nil, List.singleton_append, List.cons.injEq]
    refine ⟨by simp only [Function.comp]; omega, rfl⟩
  · intro z hz
    obtain ⟨i, hi, rfl⟩ := List.mem_map.mp hz
    rw [List.mem_range] at hi
    omega

/-- **C107.** For each of the first six calls of `prove_exponent_pairs` (derived.py:208-213), `best_proof_of_exponent_pair` finds a proof that
uses only the trivial pair and the A and B processes, although the literature holds much stronger and much later results; `order` is the order in which
python iterates over the set of hypotheses. The convex hull of scipy, the membership test of the polytope, the complexity of proofs and the conversion of
bounds on beta are parameters. -/
theorem C107_classical : ∃ nodes, Lookup.literature = .ok nodes ∧
    ∀ (hull : List (ℚ × ℚ) → Py (List ℕ)) (inHull : List (ℚ × ℚ) → ℚ × ℚ → Bool) (cx : Ep → ℕ) (betaPairs : List Item → Py (List Ep)),
      HullSpec hull → InHullSpec inHull → NoBeta nodes betaPairs → ∀ order : List Dated, order.Perm (hypotheses nodes) →
        ∀ c ∈ calls, ∃ r, bestProof hull inHull cx betaPairs order c.1 c.2 = .ok r ∧ Classical c.1 c.2 r := by
  obtain ⟨nodes, hl, hf⟩ := facts
  refine ⟨nodes, hl, fun hull inHull cx betaPairs hh hin hb order hp c hc => ?_⟩
  have hpairs : ∀ y, -1 ≤ y → y ≤ 1920 → pairsIn (knownIn order y) = [trivialPair] := by
    intro y h0 h1
    have h : (pairsIn (knownIn order y)).Perm (pairsIn (knownIn (hypotheses nodes) y)) := (perm_known hp y).filterMap _
    rw [pairs_known nodes hf y h0 (by omega)] at h
    exact List.perm_singleton.mp h
  have htrans : ∀ y, -1 ≤ y → y ≤ 1920 → (transformsIn (knownIn order y)).Perm (if 1920 ≤ y then [trA, trB] else []) := by
    intro y h0 h1
    have h : (transformsIn (knownIn order y)).Perm (transformsIn (knownIn (hypotheses nodes) y)) := (perm_known hp y).filterMap _
    rwa [transforms_known nodes hf y h0 (by omega)] at h
  have hbeta := beta_known nodes hf betaPairs hb order hp
  obtain ⟨r, hr1, hr2, hr3⟩ := attempt_1920 hull hh inHull hin cx betaPairs (knownIn order 1920) (hbeta 1920 (by norm_num) (by norm_num))
    (hpairs 1920 (by norm_num) le_rfl) (by
      have := htrans 1920 (by norm_num) le_rfl
      rw [if_pos le_rfl] at this
      have hlen := this.length_eq
      match htl : transformsIn (knownIn order 1920), hlen with
      | [a, b], _ =>
        rw [htl] at this
        have ha : a ∈ [trA, trB] := this.subset (by simp)
        rcases List.mem_cons.mp ha with rfl | ha
        · have := (List.perm_cons _).mp this
          rw [List.perm_singleton.mp this]
          exact .inl rfl
        · rw [List.mem_singleton.mp ha] at this ⊢
          have := (List.perm_cons trB).mp (this.trans (List.Perm.swap _ _ _))
          rw [List.perm_singleton.mp this]
          exact .inr rfl) c hc
  refine ⟨r, ?_, hr3⟩
  have hbefore : ∀ y, -1 ≤ y → y < 1920 → attempt hull inHull cx betaPairs c.1 c.2 (knownIn order y) = .ok .none ∧
      (knownIn order y).length < (knownIn order 1920).length := by
    intro y h0 h1
    have ht := htrans y h0 h1.le
    rw [if_neg (by omega), List.perm_nil] at ht
    refine ⟨attempt_before hull inHull hin cx betaPairs _ (hbeta y h0 (by omega)) (hpairs y h0 h1.le) ht c (calls_ne c hc), ?_⟩
    have hsub : (knownIn order y).Sublist (knownIn order 1920) := by
      rw [knownIn_eq, knownIn_eq]
      apply List.Sublist.map
      apply List.monotone_filter_right
      intro d hd
      unfold known at hd ⊢
      cases hy : d.year with
      | none => rfl
      | some z =>
        rw [hy] at hd
        exact decide_eq_true ((of_decide_eq_true hd).trans (WithTop.coe_le_coe.mpr h1.le))
    rcases lt_or_eq_of_le hsub.length_le with h | h
    · exact h
    · exfalso
      have h19 := htrans 1920 (by norm_num) le_rfl
      rw [← hsub.eq_of_length h, ht, if_pos le_rfl] at h19
      have := h19.length_eq
      simp at this
  have hyears : ∀ z ∈ yearsOf order, ∃ v : ℤ, z = (v : WithTop ℤ) ∧ -1 ≤ v := by
    intro z hz
    obtain ⟨d, hd, hdz⟩ := List.mem_filterMap.mp hz
    have hd := hp.subset hd
    rcases List.mem_append.mp hd with hd | hd
    · obtain ⟨e, he, rfl⟩ := List.mem_map.mp hd
      exact hf.years e.1 (List.fst_mem_of_mem_zipIdx he) z hdz
    · rw [List.mem_singleton.mp hd] at hdz
      exact ⟨-1, (Option.some.inj hdz).symm, le_rfl⟩
  have hmin : ((-1 : ℤ) : WithTop ℤ) ∈ yearsOf order :=
    List.mem_filterMap.mpr ⟨⟨LitMu.yr (-1), .pair trivialPair⟩, hp.symm.subset (List.mem_append_right _ (by simp)), rfl⟩
  have hmax : ((1920 : ℤ) : WithTop ℤ) ∈ yearsOf order := by
    have ht := hf.trans
    have hne : ∃ n ∈ nodes, n.ref.year = LitMu.yr 1920 := by
      have : (Lookup.Data.transform "van der Corput A transform".toList, LitMu.yr 1920) ∈
          (nodes.filter early).map (fun n => (n.data, n.ref.year)) := by
        rw [ht]; exact List.mem_cons_self
      obtain ⟨n, hn, he⟩ := List.mem_map.mp this
      exact ⟨n, (List.mem_filter.mp hn).1, (Prod.mk.inj he).2⟩
    obtain ⟨n, hn, hy⟩ := hne
    obtain ⟨i, hi⟩ := List.getElem?_of_mem hn
    exact List.mem_filterMap.mpr ⟨⟨n.ref.year, itemOf n i⟩, hp.symm.subset (List.mem_append_left _ (List.mem_map.mpr
      ⟨(n, i), List.mem_zipIdx_iff_getElem?.mpr hi, rfl⟩)), hy⟩
  unfold bestProof findBestProofDate
  match hys : yearsOf order with
  | [] => rw [hys] at hmin; simp at hmin
  | z :: zs =>
    rw [hys] at hmin hmax hyears
    obtain ⟨m1, m2⟩ := foldl_min_spec zs z
    obtain ⟨n1, n2⟩ := foldl_max_spec zs z
    obtain ⟨a, ha, ha'⟩ := hyears _ m1
    obtain ⟨b, hb, hb'⟩ := hyears _ n1
    have ha1 : a = -1 := by
      have := m2 _ hmin
      rw [ha] at this
      have := WithTop.coe_le_coe.mp this
      omega
    have hb1 : 1920 ≤ b := by
      have := n2 _ hmax
      rw [hb] at this
      exact WithTop.coe_le_coe.mp this
    simp only [ha, hb]
    show dateLoop _ order (yearRange a b) 0 = .ok r
    obtain ⟨pre, post, hpre, hz⟩ := yearRange_split a b 1920 (by omega) hb1
    rw [hpre]
    apply dateLoop_finds _ order r hr2 1920 hr1 post pre 0
    · intro y hy
      have := hz y hy
      exact hbefore y (by omega) this.2
    · have := (hbefore (-1) le_rfl (by norm_num)).2
      omega

/-- C107 applies: there are convex hulls and membership tests as required, and conversions of bounds on beta that give nothing; the set may be listed
in the reverse order. -/
example : ∃ nodes hull inHull r, Lookup.literature = .ok nodes ∧ HullSpec hull ∧ InHullSpec inHull ∧
    bestProof hull inHull (fun _ => 1) (fun _ => .ok []) (hypotheses nodes).reverse (13 / 31) (16 / 31) = .ok r ∧ Classical (13 / 31) (16 / 31) r := by
  classical
  obtain ⟨nodes, h1, h2⟩ := C107_classical
  obtain ⟨hull, hs⟩ := hullSpec_satisfiable
  have hin : InHullSpec (fun ps p => decide (InConv ps p)) := by intro ps p; simp
  obtain ⟨r, h3, h4⟩ := h2 hull _ (fun _ => 1) (fun _ => .ok []) hs hin (fun _ _ => rfl) _ (List.reverse_perm _) (13 / 31, 16 / 31)
    (by simp [calls])
  exact ⟨nodes, hull, _, r, h1, hs, hin, h3, h4⟩

end BestProof
end Expdb
