import Verif.Props.BestProof
import Verif.Model.BetaPairs

/-!
# Property C110: the proof of the exponent pair (3/40, 31/40)

The last call of `prove_exponent_pairs` (derived.py:214) asks for the proof of `(3/40, 31/40)` with the earliest date. It rests on the pair that Watt found in
1989, and there is no earlier one.
-/

namespace Expdb
namespace BestProof
namespace Watt

open EP Hull EP.Prune

/-! ### Specification -/

/-- The pairs obtained from some known pairs by A and B, as derivations. -/
inductive From (base : List (ℚ × ℚ)) : Ep → Prop
  | known (i : ℕ) (k l : ℚ) (h : (k, l) ∈ base) : From base (.known i k l)
  | A (p : Ep) (h : From base p) : From base (.derived 0 (p.k / (2 * p.k + 2)) ((p.k + p.l + 1) / (2 * p.k + 2)) p)
  | B (p : Ep) (h : From base p) : From base (.derived 1 (p.l - 1 / 2) (p.k + 1 / 2) p)

/-- A proof of `(k, l)` that rests on some known pairs, A and B only. -/
def Rests (base : List (ℚ × ℚ)) (k l : ℚ) : Proof → Prop
  | .none => False
  | .exact e => From base e ∧ (e.k, e.l) = (k, l)
  | .convex k' l' deps => (k', l') = (k, l) ∧ (∀ e ∈ deps, From base e) ∧ InConv (deps.map (fun e => (e.k, e.l))) (k, l)

/-- The pairs known in 1988: the trivial one and the one of Huxley and Watt. -/
def base88 : List (ℚ × ℚ) := [(0, 1), (9 / 56, 37 / 56)]

/-- The pairs known in 1989: also the one of Watt. -/
def base89 : List (ℚ × ℚ) := [(0, 1), (9 / 56, 37 / 56), (89 / 560, 369 / 560)]

/-- The pairs known in 1990: also the second one of Huxley and Watt. -/
def base90 : List (ℚ × ℚ) := [(0, 1), (9 / 56, 37 / 56), (89 / 560, 369 / 560), (2 / 13, 35 / 52)]

/-- The pairs known in a year up to 1990. -/
def baseOf (y : ℤ) : List (ℚ × ℚ) :=
  if y ≤ 1987 then [(0, 1)] else if y ≤ 1988 then base88 else if y ≤ 1989 then base89 else base90

/-- The bounds on beta in a list of hypotheses, as `compute_best_beta_bounds` gets them (bound_beta.py:128-134). -/
def betasOf (nodes : List (Node Lookup.Data)) (hs : List Item) : List Beta.Hyp := hs.filterMap (fun h =>
  match h with
  | .other i => match nodes[i]? with
    | some n => if n.htype = "Upper bound on beta" then match n.data with | .beta b => some ⟨i, b⟩ | _ => none else none
    | none => none
  | _ => none)

/-- What is used of `beta_bounds_to_exponent_pairs` (exponent_pair.py:180-189): if the best bounds start after 0 or end before 1/2, or if there are none,
then it gives no pair. -/
def BetaSpec (nodes : List (Node Lookup.Data)) (betaPairs : List Item → Py (List Ep)) : Prop :=
  ∀ hs best, Beta.computeBest (betasOf nodes hs) BetaPairs.half = .ok best →
    (best = [] ∨ (∃ b ∈ best.head?, 0 < b.bound.dom.x0) ∨ ∃ b ∈ best.getLast?, b.bound.dom.x1 < 1 / 2) → betaPairs hs = .ok []

/-- The model of `beta_bounds_to_exponent_pairs` (`BetaPairs.fromBeta`) meets the contract, whatever its hull, and however the pairs it makes are
represented. -/
theorem betaSpec_model (nodes : List (Node Lookup.Data)) (hull : List (ℚ × ℚ) → Py (List ℕ)) (enc : BetaPairs.Out → Ep) (hasB : List Item → Bool) :
    BetaSpec nodes (fun hs => (BetaPairs.fromBeta hull (betasOf nodes hs) (pairsIn hs) (hasB hs)).map (List.map enc)) := by
  intro hs best h hb
  show (BetaPairs.fromBeta hull (betasOf nodes hs) (pairsIn hs) (hasB hs)).map (List.map enc) = .ok []
  have : BetaPairs.fromBest hull (best.map Beta.Best.bound) (pairsIn hs) (hasB hs) = .ok [] := by
    unfold BetaPairs.fromBest
    rw [List.head?_map, List.getLast?_map]
    cases hf : best.head? with
    | none => rfl
    | some f =>
      cases hg : best.getLast? with
      | none => rfl
      | some g =>
        simp only [Option.map_some]
        rw [if_pos]
        rcases hb with rfl | ⟨b, h1, h2⟩ | ⟨b, h1, h2⟩
        · cases hf
        · rw [hf] at h1
          cases Option.mem_some_iff.mp h1
          exact .inl h2
        · rw [hg] at h1
          cases Option.mem_some_iff.mp h1
          exact .inr h2
  unfold BetaPairs.fromBeta
  rw [h]
  simp only [bind, Except.bind, this]
  rfl

/-! ### There is no proof without Watt's pair -/

/-- Seven half planes that A and B map into themselves. -/
def Inv (k l : ℚ) : Prop := (0 ≤ k ∧ k ≤ 1 / 2 ∧ 1 / 2 ≤ l ∧ l ≤ 1) ∧ 179 / 200 < 8 / 5 * k + l ∧ 79 / 100 < 81 / 100 * k + l ∧
  239 / 200 < k + 8 / 5 * l ∧ 139 / 200 < k + 81 / 100 * l ∧ 29 / 50 < 21 / 50 * k + 81 / 100 * l ∧ 77 / 200 < 81 / 100 * k + 21 / 50 * l

theorem inv_A {k l : ℚ} (h : Inv k l) : Inv (k / (2 * k + 2)) ((k + l + 1) / (2 * k + 2)) := by
  obtain ⟨⟨h0, h1, h2, h3⟩, c1, c2, c3, c4, c5, c6⟩ := h
  have hd : 0 < 2 * k + 2 := by linarith
  have hk : k / (2 * k + 2) * (2 * k + 2) = k := div_mul_cancel₀ _ hd.ne'
  have hl : (k + l + 1) / (2 * k + 2) * (2 * k + 2) = k + l + 1 := div_mul_cancel₀ _ hd.ne'
  have key : ∀ a b c : ℚ, c * (2 * k + 2) < a * k + b * (k + l + 1) → c < a * (k / (2 * k + 2)) + b * ((k + l + 1) / (2 * k + 2)) := by
    intro a b c h
    by_contra hn
    have hn := mul_le_mul_of_nonneg_right (not_lt.mp hn) hd.le
    have e : (a * (k / (2 * k + 2)) + b * ((k + l + 1) / (2 * k + 2))) * (2 * k + 2) = a * k + b * (k + l + 1) := by
      rw [add_mul, mul_assoc, mul_assoc, hk, hl]
    rw [e] at hn
    linarith
  refine ⟨⟨div_nonneg h0 hd.le, ?_, ?_, ?_⟩, ?_, ?_, ?_, ?_, ?_, ?_⟩
  · rw [div_le_iff₀ hd]; linarith
  · rw [le_div_iff₀ hd]; linarith
  · rw [div_le_iff₀ hd]; linarith
  · have := key (8 / 5) 1 (179 / 200) (by linarith); linarith
  · have := key (81 / 100) 1 (79 / 100) (by linarith); linarith
  · have := key 1 (8 / 5) (239 / 200) (by linarith); linarith
  · have := key 1 (81 / 100) (139 / 200) (by linarith); linarith
  · exact key (21 / 50) (81 / 100) (29 / 50) (by linarith)
  · exact key (81 / 100) (21 / 50) (77 / 200) (by linarith)

theorem inv_B {k l : ℚ} (h : Inv k l) : Inv (l - 1 / 2) (k + 1 / 2) := by
  obtain ⟨⟨h0, h1, h2, h3⟩, c1, c2, c3, c4, c5, c6⟩ := h
  refine ⟨⟨?_, ?_, ?_, ?_⟩, ?_, ?_, ?_, ?_, ?_, ?_⟩ <;> linarith

theorem From.inv {e : Ep} (h : From base88 e) : Inv e.k e.l := by
  induction h with
  | known i k l h =>
    simp only [base88, List.mem_cons, List.not_mem_nil, or_false, Prod.mk.injEq] at h
    show Inv k l
    unfold Inv
    rcases h with ⟨rfl, rfl⟩ | ⟨rfl, rfl⟩ <;> norm_num
  | A p _ ih => exact inv_A ih
  | B p _ ih => exact inv_B ih

/-- The pair `(3/40, 31/40)` has no proof that rests on what was known in 1988. -/
theorem no_earlier (r : Proof) : ¬ Rests base88 lastCall.1 lastCall.2 r := by
  intro h
  cases r with
  | none => exact h
  | exact e =>
    obtain ⟨h1, h2⟩ := h
    have := h1.inv.2.1
    rw [(Prod.mk.inj h2).1, (Prod.mk.inj h2).2] at this
    revert this
    norm_num [lastCall]
  | convex k' l' deps =>
    obtain ⟨_, h1, h2⟩ := h
    have := h2.linear_pos (8 / 5) 1 (-(179 / 200)) (by
      intro q hq
      obtain ⟨e, he, rfl⟩ := List.mem_map.mp hq
      have := (h1 e he).inv.2.1
      show 0 < 8 / 5 * e.k + 1 * e.l + -(179 / 200)
      linarith)
    revert this
    norm_num [lastCall]

/-! ### Five passes -/

theorem From.region {base : List (ℚ × ℚ)} (hB : ∀ q ∈ base, InRegion q) {e : Ep} (h : From base e) : InRegion (e.k, e.l) := by
  induction h with
  | known i k l h => exact hB _ h
  | A p _ ih =>
    obtain ⟨q, h1, h2⟩ := C30_A p.k p.l ih
    rw [transA_ok _ _ ih.1] at h1
    cases h1
    show InRegion (p.k / (2 * p.k + 2), (p.k + p.l + 1) / (2 * p.k + 2))
    rw [A_eq ih.1]; exact h2
  | B p _ ih =>
    obtain ⟨q, h1, h2⟩ := C30_B p.k p.l ih
    cases h1; exact h2

theorem From.step {base : List (ℚ × ℚ)} (hB : ∀ q ∈ base, InRegion q) (t : Tr) (ht : t = trA ∨ t = trB) (p : Ep) (k l : ℚ) (hp : From base p)
    (hf : t.f p.k p.l = .ok (k, l)) : From base (.derived t.id k l p) := by
  rcases ht with rfl | rfl
  · rw [show trA.f p.k p.l = transA p.k p.l from rfl, transA_ok _ _ (hp.region hB).1] at hf
    have h := From.A p hp
    rw [A_eq (hp.region hB).1] at h
    cases hf; exact h
  · cases hf; exact .B p hp

theorem From.mono {b b' : List (ℚ × ℚ)} (h : ∀ q ∈ b, q ∈ b') {e : Ep} (he : From b e) : From b' e := by
  induction he with
  | known i k l hk => exact .known i k l (h _ hk)
  | A p _ ih => exact .A p ih
  | B p _ ih => exact .B p ih

theorem From.of_vdC {base : List (ℚ × ℚ)} (h : (0, 1) ∈ base) {e : Ep} (he : VdC e) : From base e := by
  induction he with
  | trivial => exact .known 0 0 1 h
  | A p _ ih => exact .A p ih
  | B p _ ih => exact .B p ih

theorem region90 : ∀ q ∈ base90, InRegion q := by
  intro q hq
  simp only [base90, List.mem_cons, List.not_mem_nil, or_false] at hq
  rcases hq with rfl | rfl | rfl | rfl <;> (unfold InRegion; norm_num)

theorem sub88 : ∀ q ∈ base88, q ∈ base90 := by decide +kernel
theorem sub89 : ∀ q ∈ base89, q ∈ base90 := by decide +kernel

theorem baseOf_cases (y : ℤ) : (baseOf y = [(0, 1)] ∧ y ≤ 1987) ∨ (baseOf y = base88 ∧ y = 1988) ∨ (baseOf y = base89 ∧ y = 1989) ∨
    (baseOf y = base90 ∧ 1990 ≤ y) := by
  unfold baseOf
  split
  · exact .inl ⟨rfl, by assumption⟩
  · split
    · exact .inr (.inl ⟨rfl, by omega⟩)
    · split
      · exact .inr (.inr (.inl ⟨rfl, by omega⟩))
      · exact .inr (.inr (.inr ⟨rfl, by omega⟩))

theorem baseOf_sub (y : ℤ) : ∀ q ∈ baseOf y, q ∈ base90 := by
  rcases baseOf_cases y with ⟨h, _⟩ | ⟨h, _⟩ | ⟨h, _⟩ | ⟨h, _⟩ <;> rw [h]
  · decide +kernel
  · exact sub88
  · exact sub89
  · exact fun _ h => h

theorem baseOf_trivial (y : ℤ) : (0, 1) ∈ baseOf y := by
  rcases baseOf_cases y with ⟨h, _⟩ | ⟨h, _⟩ | ⟨h, _⟩ | ⟨h, _⟩ <;> rw [h] <;> decide +kernel

theorem five (base : List (ℚ × ℚ)) (hB : ∀ q ∈ base, InRegion q) (hull : List (ℚ × ℚ) → Py (List ℕ)) (hh : HullSpec hull) (s t : Tr)
    (hst : (s = trA ∧ t = trB) ∨ (s = trB ∧ t = trA)) (d : List Ep) (hd : ∀ e ∈ d, From base e) (nd : KeysNodup d)
    (h0 : (0, 1) ∈ d.map Ep.key) (h9 : (9 / 56, 37 / 56) ∈ d.map Ep.key) :
    ∃ d', iterateN hull true [s, t] 5 d = .ok d' ∧ (∀ e ∈ d', From base e) ∧ ¬ Flat (d'.map Ep.key) ∧
      (∀ q, InConv (d.map Ep.key) q → InConv (d'.map Ep.key) q) ∧
      ∀ q, InConv (d.map Ep.key) q → ∀ q1, trA.f q.1 q.2 = .ok q1 → InConv (d'.map Ep.key) q1 ∧
        ∀ q2, trB.f q1.1 q1.2 = .ok q2 → ∀ q3, trA.f q2.1 q2.2 = .ok q3 → InConv (d'.map Ep.key) q3 := by
  have hs : s = trA ∨ s = trB := by rcases hst with h | h <;> simp [h.1]
  have ht : t = trA ∨ t = trB := by rcases hst with h | h <;> simp [h.2]
  have P := fun d hd nd hf => passP (From base) (fun _ h => h.region hB) (fun u hu p k l hp hq => From.step hB u hu p k l hp hq) hull hh s t hs ht d hd nd hf
  obtain ⟨d1, i1, v1, n1, f1, m1, t1, w1⟩ := P d hd nd (by
    intro d1 hd1 hsub hflat
    obtain ⟨_, _, a3, a4⟩ := applyTransforms_spec (fun _ => True) [s, t] (by simp) d d1 (by simp) nd hd1
    have hb : ((1 / 2 : ℚ), (1 / 2 : ℚ)) ∈ d1.map Ep.key :=
      a4 trB (by rcases hst with ⟨rfl, rfl⟩ | ⟨rfl, rfl⟩ <;> simp) (0, 1) h0 _ (fB _ _ (1 / 2) (1 / 2) (by decide +kernel))
    have := hflat _ (hsub _ h0) _ hb _ (hsub _ h9)
    revert this; decide +kernel)
  obtain ⟨d2, i2, v2, n2, f2, m2, t2, w2⟩ := P d1 v1 n1 (keep _ _ f1)
  obtain ⟨d3, i3, v3, n3, f3, m3, t3, w3⟩ := P d2 v2 n2 (keep _ _ f2)
  obtain ⟨d4, i4, v4, n4, f4, m4, t4, w4⟩ := P d3 v3 n3 (keep _ _ f3)
  obtain ⟨d5, i5, v5, n5, f5, m5, t5, w5⟩ := P d4 v4 n4 (keep _ _ f4)
  have up : ∀ q, InConv (d2.map Ep.key) q → InConv (d5.map Ep.key) q := fun q h => m5 _ (m4 _ (m3 _ h))
  refine ⟨d5, ?_, v5, f5, fun q h => up _ (m2 _ (m1 _ h)), fun q hq q1 hq1 => ?_⟩
  · simp only [iterateN, i1, i2, i3, i4, i5, bind, Except.bind]
  · rcases hst with ⟨rfl, rfl⟩ | ⟨rfl, rfl⟩
    · have a := w1 q hq q1 hq1
      exact ⟨up _ (m2 _ a.1), fun q2 hq2 q3 hq3 => up _ (w2 q2 (a.2 q2 hq2) q3 hq3).1⟩
    · have a := t1 q hq q1 hq1
      exact ⟨up _ (m2 _ a), fun q2 hq2 q3 hq3 => up _ ((w2 q1 a q2 hq2).2 q3 hq3)⟩

/-- The pair asked for is in the triangle of `(0, 1)`, `A w` and `A B A w`, where `w` is Watt's pair. -/
theorem target (ps : List (ℚ × ℚ)) (h1 : InConv ps (0, 1)) (h2 : InConv ps (89 / 1298, 509 / 649)) (h3 : InConv ps (369 / 3334, 2405 / 3334)) :
    InConv ps (lastCall.1, lastCall.2) := by
  have : InConv [((0 : ℚ), (1 : ℚ)), (89 / 1298, 509 / 649), (369 / 3334, 2405 / 3334)] (3 / 40, 31 / 40) :=
    inConv_of_areas _ _ _ _ (by decide +kernel) (by decide +kernel) (by decide +kernel) (by decide +kernel)
  refine this.trans ?_
  intro q hq
  simp only [List.mem_cons, List.not_mem_nil, or_false] at hq
  rcases hq with rfl | rfl | rfl
  · exact h1
  · exact h2
  · exact h3

theorem attempt_gen (hull : List (ℚ × ℚ) → Py (List ℕ)) (hh : HullSpec hull) (inHull : List (ℚ × ℚ) → ℚ × ℚ → Bool) (hin : InHullSpec inHull)
    (cx : Ep → ℕ) (betaPairs : List Item → Py (List Ep)) (hs : List Item) (hb : betaPairs hs = .ok []) (c : ℚ × ℚ) (base : List (ℚ × ℚ))
    (hps : ∀ e ∈ pairsIn hs, From base e) (d : List Ep) (hd : computeExpPairs hull (pairsIn hs) (transformsIn hs) 5 true = .ok d)
    (hdf : ∀ e ∈ d, From base e) (hnf : ¬ Flat (d.map Ep.key)) :
    ∃ r, attempt hull inHull cx betaPairs c.1 c.2 hs = .ok r ∧ (InConv (d.map Ep.key) (c.1, c.2) → r ≠ .none) ∧ (r = .none ∨ Rests base c.1 c.2 r) := by
  have hv : ∀ e ∈ addPairs (pairsIn hs) d, From base e := by
    intro e he
    rcases (mem_addPairs _ _ _).mp he with he | he
    · exact hps e he
    · exact hdf e he
  have hsub : ∀ key ∈ d.map Ep.key, key ∈ (addPairs (pairsIn hs) d).map Ep.key := by
    intro key hk
    obtain ⟨e, he, rfl⟩ := List.mem_map.mp hk
    exact List.mem_map_of_mem ((mem_addPairs _ _ _).mpr (.inr he))
  obtain ⟨r, hr, hn⟩ := C33_construct_proof_total hull hh inHull hin cx (addPairs (pairsIn hs) d) c.1 c.2 true (fun h =>
    hnf (fun a ha b hb c hc => h a (hsub a ha) b (hsub b hb) c (hsub c hc)))
  refine ⟨r, ?_, fun hc h => hn.mp h (hc.mono hsub), ?_⟩
  · unfold attempt
    simp only [hb, bind, Except.bind, addPairs_nil, hd, hr]
  · have := C33_construct_proof_partial hull hh inHull hin cx _ c.1 c.2 true false (by simp) r hr
    cases r with
    | none => exact .inl rfl
    | exact e => exact .inr ⟨hv e this.1, this.2⟩
    | convex k' l' deps => exact .inr ⟨this.1, fun e he => hv e (this.2.1 e he), this.2.2⟩

/-! ### The literature up to 1989 -/

/-- The bound on beta of Watt (literature.py:34-39). -/
def wattBound : LitBeta.Bd := LitBeta.af (1 / 2) (89 / 560) (LitBeta.cc (3 / 7) (1 / 2))

/-- The bound on beta of Huxley and Kolesnik, a single piece (literature.py:46-55). -/
def hkBound : LitBeta.Bd := ⟨17 / 22, 1 / 22, ⟨2 / 5, 1 / 2, true, true⟩, none⟩

theorem hk_eq : LitBeta.hk1991 = .ok [hkBound] := by decide +kernel

/-- What the years up to 1991 see of the pairs and the bounds on beta. -/
structure Facts89 (nodes : List (Node Lookup.Data)) : Prop where
  pairs : ∀ n ∈ nodes, ∀ k l, n.data = .pair k l → ∃ v : ℤ, n.ref.year = LitMu.yr v ∧
    (1990 < v ∨ (v = 1988 ∧ (k, l) = (9 / 56, 37 / 56)) ∨ (v = 1989 ∧ (k, l) = (89 / 560, 369 / 560)) ∨ (v = 1990 ∧ (k, l) = (2 / 13, 35 / 52)))
  hw : ∃ n ∈ nodes, n.htype = "Exponent pair" ∧ n.data = .pair (9 / 56) (37 / 56) ∧ n.ref.year = LitMu.yr 1988
  watt : ∃ n ∈ nodes, n.htype = "Exponent pair" ∧ n.data = .pair (89 / 560) (369 / 560) ∧ n.ref.year = LitMu.yr 1989
  hw' : ∃ n ∈ nodes, n.htype = "Exponent pair" ∧ n.data = .pair (2 / 13) (35 / 52) ∧ n.ref.year = LitMu.yr 1990
  beta : ∃ n m rest, nodes = n :: m :: rest ∧ n.htype = "Upper bound on beta" ∧ n.data = .beta wattBound ∧ n.ref.year = LitMu.yr 1989 ∧
    m.htype = "Upper bound on beta" ∧ m.data = .beta hkBound ∧ m.ref.year = LitMu.yr 1991 ∧
    ∀ n ∈ rest, n.htype = "Upper bound on beta" → ∃ v : ℤ, n.ref.year = LitMu.yr v ∧ 1991 < v

theorem others_facts89 : (match Lookup.others with
    | .ok l => l.all (fun n => (match n.data, n.ref.year with
        | .pair k l, some (some v) => decide ((1990 : ℤ) < v) || decide (v = (1988 : ℤ) ∧ (k, l) = (9 / 56, 37 / 56)) ||
            decide (v = (1989 : ℤ) ∧ (k, l) = (89 / 560, 369 / 560)) || decide (v = (1990 : ℤ) ∧ (k, l) = (2 / 13, 35 / 52))
        | .pair _ _, _ => false
        | _, _ => true)) &&
      l.any (fun n => decide (n.htype = "Exponent pair" ∧ n.data = .pair (9 / 56) (37 / 56) ∧ n.ref.year = LitMu.yr 1988)) &&
      l.any (fun n => decide (n.htype = "Exponent pair" ∧ n.data = .pair (89 / 560) (369 / 560) ∧ n.ref.year = LitMu.yr 1989)) &&
      l.any (fun n => decide (n.htype = "Exponent pair" ∧ n.data = .pair (2 / 13) (35 / 52) ∧ n.ref.year = LitMu.yr 1990)) &&
      l.any (fun n => decide (n.htype = "Exponent pair" ∧ n.data = .pair (13 / 84) (55 / 84)))
    | .error _ => false) = true := by decide +kernel

theorem late_labels : ∀ l ∈ (Lookup.betaCalls 20).tail.tail.map Prod.fst,
    (Lookup.bib.find? (fun e => e.label = l)).any (fun e => decide (1991 < e.year)) = true := by
  decide +kernel

theorem beta_year {l : String} {y : ℤ} (h : (Lookup.bib.find? (fun e => e.label = l)).any (fun e => decide (y < e.year)) = true) (b : LitBeta.Bd) :
    ∃ n, Lookup.betaNode l b = .ok n ∧ n.htype = "Upper bound on beta" ∧ n.data = .beta b ∧ ∃ v : ℤ, n.ref.year = LitMu.yr v ∧ y < v := by
  cases he : Lookup.bib.find? (fun e => e.label = l) with
  | none => rw [he] at h; exact absurd h Bool.false_ne_true
  | some e =>
    rw [he] at h
    have hs : Lookup.source (.bib l) = .ok (Bib.parseAuthors e.author, ⟨l, LitMu.yr e.year⟩) := by simp only [Lookup.source, he]
    unfold Lookup.betaNode Lookup.dated
    rw [hs]
    exact ⟨_, rfl, rfl, rfl, e.year, rfl, of_decide_eq_true h⟩

theorem beta_nodes {y : ℤ} : ∀ {cs : List (String × Py (List LitBeta.Bd))} {ns : List (Node Lookup.Data)},
    (∀ l ∈ cs.map Prod.fst, (Lookup.bib.find? (fun e => e.label = l)).any (fun e => decide (y < e.year)) = true) → Lookup.betaNodes cs = .ok ns →
    ∀ n ∈ ns, ∃ v : ℤ, n.ref.year = LitMu.yr v ∧ y < v
  | [], ns, _, h => by cases h; simp
  | c :: cs, ns, hc, h => by
    simp only [Lookup.betaNodes] at h
    cases hb : c.2 with
    | error e => rw [hb] at h; cases h
    | ok bs =>
      obtain ⟨n1, h1, h2⟩ := Lookup.mapM_ok (f := Lookup.betaNode c.1) (l := bs)
        (P := fun n => ∃ v : ℤ, n.ref.year = LitMu.yr v ∧ y < v) (fun b _ => by
          obtain ⟨n, e1, _, _, e4⟩ := beta_year (hc c.1 (by simp)) b
          exact ⟨n, e1, e4⟩)
      rw [hb] at h
      simp only [bind, Except.bind] at h
      rw [h1] at h
      cases hr : Lookup.betaNodes cs with
      | error e => rw [hr] at h; cases h
      | ok rest =>
        rw [hr] at h
        cases h
        intro n hn
        rcases List.mem_append.mp hn with hn | hn
        · exact h2 n hn
        · exact beta_nodes (fun l hl => hc l (by simp only [List.map_cons]; exact List.mem_cons_of_mem _ hl)) hr n hn

theorem node_of (l : String) (b : LitBeta.Bd) (y : ℤ) (h : (match Lookup.betaNode l b with
    | .ok n => decide (n.htype = "Upper bound on beta" ∧ n.data = .beta b ∧ n.ref.year = LitMu.yr y)
    | .error _ => false) = true) : ∃ n, Lookup.betaNode l b = .ok n ∧ n.htype = "Upper bound on beta" ∧ n.data = .beta b ∧ n.ref.year = LitMu.yr y := by
  cases hb : Lookup.betaNode l b with
  | error e => rw [hb] at h; exact absurd h Bool.false_ne_true
  | ok n => rw [hb] at h; exact ⟨n, rfl, of_decide_eq_true h⟩

theorem facts89 : ∃ nodes, Lookup.literature = .ok nodes ∧ Facts nodes ∧ Facts89 nodes ∧
    ∃ n ∈ nodes, n.htype = "Exponent pair" ∧ n.data = .pair (13 / 84) (55 / 84) := by
  obtain ⟨bs, os, nodes, hb, ho, hl, hn, -⟩ := Lookup.literature_eq
  obtain ⟨nodes', hl', hf⟩ := facts
  rw [hl] at hl'
  cases hl'
  refine ⟨nodes, hl, hf, ?_⟩
  have hbeta := BestProof.beta_nodes (Lookup.betaCalls_ok 20) hb
  have h := others_facts89
  rw [ho] at h
  simp only [Bool.and_eq_true] at h
  obtain ⟨⟨⟨⟨h1, h2⟩, h3⟩, h6⟩, h7⟩ := h
  rw [List.all_eq_true] at h1
  rw [List.any_eq_true] at h2 h3 h6 h7
  refine ⟨⟨fun n hn' k l hd => ?_, ?_, ?_, ?_, ?_⟩, ?_⟩
  · rw [hn] at hn'
    rcases List.mem_append.mp hn' with hn' | hn'
    · obtain ⟨_, ⟨b, hb'⟩, _⟩ := hbeta n hn'
      rw [hd] at hb'; cases hb'
    · have t2 := h1 n hn'
      rw [hd] at t2
      match hy : n.ref.year with
      | none => rw [hy] at t2; exact absurd t2 Bool.false_ne_true
      | some none => rw [hy] at t2; exact absurd t2 Bool.false_ne_true
      | some (some v) =>
        rw [hy] at t2
        simp only [Bool.or_eq_true, decide_eq_true_eq] at t2
        refine ⟨v, rfl, ?_⟩
        rcases t2 with ((h | h) | h) | h
        · exact .inl h
        · exact .inr (.inl h)
        · exact .inr (.inr (.inl h))
        · exact .inr (.inr (.inr h))
  · obtain ⟨n, h4, h5⟩ := h2
    exact ⟨n, hn ▸ List.mem_append_right _ h4, of_decide_eq_true h5⟩
  · obtain ⟨n, h4, h5⟩ := h3
    exact ⟨n, hn ▸ List.mem_append_right _ h4, of_decide_eq_true h5⟩
  · obtain ⟨n, h4, h5⟩ := h6
    exact ⟨n, hn ▸ List.mem_append_right _ h4, of_decide_eq_true h5⟩
  · have hc : Lookup.betaCalls 20 = ("watt_exponential_1989", .ok LitBeta.watt) :: ("huxley_exponential_1991", LitBeta.hk1991) ::
        (Lookup.betaCalls 20).tail.tail := rfl
    rw [hc] at hb
    simp only [Lookup.betaNodes, hk_eq] at hb
    obtain ⟨n, e1, e2, e3, e4⟩ := node_of "watt_exponential_1989" wattBound 1989 (by decide +kernel)
    obtain ⟨m, f1, f2, f3, f4⟩ := node_of "huxley_exponential_1991" hkBound 1991 (by decide +kernel)
    have hw : LitBeta.watt = [wattBound] := rfl
    cases hr : Lookup.betaNodes (Lookup.betaCalls 20).tail.tail with
    | error e =>
      rw [hr] at hb
      simp only [hw, List.mapM_cons, List.mapM_nil, e1, f1, bind, Except.bind, pure, Except.pure] at hb
      cases hb
    | ok rest =>
      rw [hr] at hb
      simp only [hw, List.mapM_cons, List.mapM_nil, e1, f1, bind, Except.bind, pure, Except.pure] at hb
      cases hb
      refine ⟨n, m, rest ++ os, hn, e2, e3, e4, f2, f3, f4, ?_⟩
      intro m hm ht
      rcases List.mem_append.mp hm with hm | hm
      · exact beta_nodes late_labels hr m hm
      · have h := others_facts
        rw [ho] at h
        obtain ⟨h1, _⟩ := Bool.and_eq_true _ _ ▸ h
        rw [List.all_eq_true] at h1
        have := h1 m hm
        simp only [Bool.and_eq_true] at this
        have := this.1.2
        rw [ht] at this
        exact absurd this (by decide)
  · obtain ⟨n, h4, h5⟩ := h7
    exact ⟨n, hn ▸ List.mem_append_right _ h4, of_decide_eq_true h5⟩

/-! ### What is known in a year -/

theorem known_yr {y v : ℤ} (h : v ≤ y) : known y (LitMu.yr v) = true := by
  show decide ((v : WithTop ℤ) ≤ (y : WithTop ℤ)) = true
  exact decide_eq_true (WithTop.coe_le_coe.mpr h)

theorem pair_item {n : Node Lookup.Data} {i : ℕ} {e : Ep} (h : asPair (itemOf n i) = some e) : ∃ k l, n.data = .pair k l ∧ e = .known (i + 1) k l := by
  unfold itemOf at h
  split at h
  · split at h
    · exact ⟨_, _, by assumption, (Option.some.inj h).symm⟩
    · cases h
  · split at h
    · split at h
      · cases h
      · split at h <;> cases h
    · cases h
  · cases h

/-- The pairs known in a year up to 1990. -/
theorem mem_pairs (nodes : List (Node Lookup.Data)) (hf : Facts89 nodes) (order : List Dated) (hp : order.Perm (hypotheses nodes)) (y : ℤ)
    (h0 : -1 ≤ y) (h1 : y ≤ 1990) : ∀ e ∈ pairsIn (knownIn order y), ∃ i k l, e = .known i k l ∧ (k, l) ∈ baseOf y := by
  intro e he
  have h : (pairsIn (knownIn order y)).Perm (pairsIn (knownIn (hypotheses nodes) y)) := (perm_known hp y).filterMap _
  have he := h.subset he
  rw [known_split nodes y h0] at he
  obtain ⟨it, hit, hit'⟩ := List.mem_filterMap.mp he
  have hit' : asPair it = some e := hit'
  rcases List.mem_append.mp hit with hit | hit
  · obtain ⟨x, hx, rfl⟩ := List.mem_map.mp hit
    obtain ⟨hx1, hx2⟩ := List.mem_filter.mp hx
    obtain ⟨k, l, hd, rfl⟩ := pair_item hit'
    obtain ⟨v, hv, hv'⟩ := hf.pairs x.1 (List.fst_mem_of_mem_zipIdx hx1) k l hd
    rw [hv] at hx2
    have := known_of_yr hx2
    refine ⟨_, k, l, rfl, ?_⟩
    rcases hv' with hv' | ⟨hv1, hv'⟩ | ⟨hv1, hv'⟩ | ⟨hv1, hv'⟩
    · omega
    all_goals
      rw [hv']
      rcases baseOf_cases y with ⟨h, _⟩ | ⟨h, _⟩ | ⟨h, _⟩ | ⟨h, _⟩ <;> rw [h] <;> first | (exfalso; omega) | decide +kernel
  · rw [List.mem_singleton.mp hit] at hit'
    rw [← Option.some.inj hit']
    exact ⟨0, 0, 1, rfl, baseOf_trivial y⟩

theorem has_pair (nodes : List (Node Lookup.Data)) (order : List Dated) (hp : order.Perm (hypotheses nodes)) (y v : ℤ)
    (h0 : -1 ≤ y) (h1 : v ≤ y) (k l : ℚ) (hn : ∃ n ∈ nodes, n.htype = "Exponent pair" ∧ n.data = .pair k l ∧ n.ref.year = LitMu.yr v) :
    (k, l) ∈ (pairsIn (knownIn order y)).map Ep.key := by
  obtain ⟨n, hn, ht, hd, hy⟩ := hn
  have h : (pairsIn (knownIn order y)).Perm (pairsIn (knownIn (hypotheses nodes) y)) := (perm_known hp y).filterMap _
  obtain ⟨i, hi⟩ := List.getElem?_of_mem hn
  have hit : itemOf n i = .pair (.known (i + 1) k l) := by
    unfold itemOf
    rw [hd]
    simp only [ht, if_true]
  have : Ep.known (i + 1) k l ∈ pairsIn (knownIn order y) := by
    apply h.symm.subset
    rw [known_split nodes y h0]
    refine List.mem_filterMap.mpr ⟨.pair (.known (i + 1) k l), List.mem_append_left _ (List.mem_map.mpr ⟨(n, i), ?_, hit⟩), rfl⟩
    exact List.mem_filter.mpr ⟨List.mem_zipIdx_iff_getElem?.mpr hi, by rw [hy]; exact known_yr h1⟩
  exact List.mem_map.mpr ⟨_, this, rfl⟩

theorem has_trivial (nodes : List (Node Lookup.Data)) (order : List Dated) (hp : order.Perm (hypotheses nodes)) (y : ℤ) (h0 : -1 ≤ y) :
    (0, 1) ∈ (pairsIn (knownIn order y)).map Ep.key := by
  have h : (pairsIn (knownIn order y)).Perm (pairsIn (knownIn (hypotheses nodes) y)) := (perm_known hp y).filterMap _
  have : trivialPair ∈ pairsIn (knownIn order y) := by
    apply h.symm.subset
    rw [known_split nodes y h0]
    exact List.mem_filterMap.mpr ⟨.pair trivialPair, List.mem_append_right _ (by simp), rfl⟩
  exact List.mem_map.mpr ⟨_, this, rfl⟩

/-- The bound on beta at a place of the list. -/
noncomputable def betaAt (y : ℤ) (e : Node Lookup.Data × ℕ) : Option Beta.Hyp :=
  if known y e.1.ref.year then
    if e.1.htype = "Upper bound on beta" then match e.1.data with | .beta b => some ⟨e.2, b⟩ | _ => none else none
  else none

theorem item_cases (n : Node Lookup.Data) (i : ℕ) : itemOf n i = .other i ∨
    (n.htype ≠ "Upper bound on beta" ∧ ((∃ p, itemOf n i = .pair p) ∨ ∃ t, itemOf n i = .transform t)) := by
  unfold itemOf
  split
  · split
    · rename_i hx
      exact .inr ⟨by rw [hx]; decide, .inl ⟨_, rfl⟩⟩
    · exact .inl rfl
  · split
    · rename_i hx
      refine .inr ⟨by rw [hx]; decide, .inr ?_⟩
      split
      · exact ⟨_, rfl⟩
      · split <;> exact ⟨_, rfl⟩
    · exact .inl rfl
  · exact .inl rfl

theorem betas_known (nodes : List (Node Lookup.Data)) (y : ℤ) (h0 : -1 ≤ y) :
    betasOf nodes (knownIn (hypotheses nodes) y) = nodes.zipIdx.filterMap (betaAt y) := by
  rw [known_split nodes y h0]
  unfold betasOf
  rw [List.filterMap_append, List.filterMap_map]
  have e0 : ∀ f : Item → Option Beta.Hyp, f (.pair trivialPair) = none → List.filterMap f [.pair trivialPair] = [] := by
    intro f hf
    rw [List.filterMap_cons_none hf]; rfl
  rw [e0 _ rfl, List.append_nil, List.filterMap_filter]
  apply List.filterMap_congr
  intro e he
  unfold betaAt
  cases hk : known y e.1.ref.year with
  | false => rfl
  | true =>
    simp only [if_true, Function.comp]
    have hn := List.mem_zipIdx_iff_getElem?.mp he
    rcases item_cases e.1 e.2 with h | ⟨h1, ⟨p, h⟩ | ⟨t, h⟩⟩
    · rw [h]
      simp only [hn]
    · rw [h, if_neg h1]
    · rw [h, if_neg h1]

theorem betas_list (nodes : List (Node Lookup.Data)) (hf : Facts89 nodes) (y : ℤ) (h0 : -1 ≤ y) (h1 : y ≤ 1991) :
    betasOf nodes (knownIn (hypotheses nodes) y) =
      if y < 1989 then [] else if y < 1991 then [⟨0, wattBound⟩] else [⟨0, wattBound⟩, ⟨1, hkBound⟩] := by
  rw [betas_known nodes y h0]
  obtain ⟨n, m, rest, hn, ht, hd, hy, ht', hd', hy', hr⟩ := hf.beta
  have hrest : (rest.zipIdx 2).filterMap (betaAt y) = [] := by
    rw [List.filterMap_eq_nil_iff]
    intro e he
    unfold betaAt
    cases hk : known y e.1.ref.year with
    | false => rfl
    | true =>
      rw [if_pos rfl]
      by_cases hb : e.1.htype = "Upper bound on beta"
      · obtain ⟨v, hv, hv'⟩ := hr e.1 (List.fst_mem_of_mem_zipIdx he) hb
        rw [hv] at hk
        have := known_of_yr hk
        omega
      · rw [if_neg hb]
  have hz : nodes.zipIdx = (n, 0) :: (m, 1) :: rest.zipIdx 2 := by rw [hn, List.zipIdx_cons, List.zipIdx_cons]
  have hk : ∀ v : ℤ, ¬ v ≤ y → known y (LitMu.yr v) = false := by
    intro v hv
    rw [Bool.eq_false_iff]
    exact fun h => hv (known_of_yr h)
  rw [hz, List.filterMap_cons, List.filterMap_cons, hrest]
  have b1 : betaAt y (n, 0) = if 1989 ≤ y then some ⟨0, wattBound⟩ else none := by
    unfold betaAt
    simp only [ht, hd, hy, if_true]
    by_cases h : 1989 ≤ y
    · rw [known_yr h, if_pos rfl, if_pos h]
    · rw [hk _ h, if_neg Bool.false_ne_true, if_neg h]
  have b2 : betaAt y (m, 1) = if 1991 ≤ y then some ⟨1, hkBound⟩ else none := by
    unfold betaAt
    simp only [ht', hd', hy', if_true]
    by_cases h : 1991 ≤ y
    · rw [known_yr h, if_pos rfl, if_pos h]
    · rw [hk _ h, if_neg Bool.false_ne_true, if_neg h]
  rw [b1, b2]
  by_cases c1 : 1989 ≤ y
  · rw [if_pos c1, if_neg (by omega : ¬ y < 1989)]
    by_cases c2 : 1991 ≤ y
    · rw [if_pos c2, if_neg (by omega : ¬ y < 1991)]
    · rw [if_neg c2, if_pos (by omega : y < 1991)]
  · rw [if_neg c1, if_neg (by omega : ¬ 1991 ≤ y), if_pos (by omega : y < 1989)]

theorem beta_none (nodes : List (Node Lookup.Data)) (hf : Facts89 nodes) (betaPairs : List Item → Py (List Ep)) (hb : BetaSpec nodes betaPairs)
    (order : List Dated) (hp : order.Perm (hypotheses nodes)) (y : ℤ) (h0 : -1 ≤ y) (h1 : y ≤ 1990) : betaPairs (knownIn order y) = .ok [] := by
  have h : (betasOf nodes (knownIn order y)).Perm (betasOf nodes (knownIn (hypotheses nodes) y)) := (perm_known hp y).filterMap _
  rw [betas_list nodes hf y h0 (by omega)] at h
  by_cases c : y < 1989
  · rw [if_pos c, List.perm_nil] at h
    exact hb _ [] (by rw [h]; rfl) (.inl rfl)
  · rw [if_neg c, if_pos (by omega), List.perm_singleton] at h
    refine hb _ [.existing ⟨0, wattBound⟩] (by rw [h]; rfl) (.inr (.inl ⟨.existing ⟨0, wattBound⟩, by simp, ?_⟩))
    decide +kernel

/-- The loop over the years: the years before `y₀` raise no exception, something new is known in `y₀`, and the attempt there does not give `None`. Then the
loop gives what some year up to `y₀` gives first. -/
theorem dateLoop_first (att : List Item → Py Proof) (hs : List Dated) (y₀ : ℤ) (hatt : att (knownIn hs y₀) ≠ .ok .none)
    (post : List ℤ) : ∀ (pre : List ℤ) (num : ℕ), (∀ y ∈ pre, (∃ r, att (knownIn hs y) = .ok r) ∧ (knownIn hs y).length < (knownIn hs y₀).length) →
      num < (knownIn hs y₀).length → ∃ y, (y ∈ pre ∨ y = y₀) ∧ att (knownIn hs y) ≠ .ok .none ∧
        dateLoop att hs (pre ++ y₀ :: post) num = att (knownIn hs y)
  | [], num, _, hn => by
    refine ⟨y₀, .inr rfl, hatt, ?_⟩
    show (if (knownIn hs y₀).length = num then _ else _) = _
    rw [if_neg (by omega)]
    cases h : att (knownIn hs y₀) with
    | error e => rfl
    | ok r =>
      rw [h] at hatt
      simp only [bind, Except.bind, if_neg (fun h : r = .none => hatt (by rw [h]))]
      rfl
  | y :: pre, num, h, hn => by
    obtain ⟨⟨r, a1⟩, a2⟩ := h y List.mem_cons_self
    have ih := fun num hn => dateLoop_first att hs y₀ hatt post pre num (fun y hy => h y (List.mem_cons_of_mem _ hy)) hn
    have ih' : ∀ num, num < (knownIn hs y₀).length → ∃ z, (z ∈ y :: pre ∨ z = y₀) ∧ att (knownIn hs z) ≠ .ok .none ∧
        dateLoop att hs (pre ++ y₀ :: post) num = att (knownIn hs z) := by
      intro num hn
      obtain ⟨z, hz, h1, h2⟩ := ih num hn
      exact ⟨z, hz.imp_left (List.mem_cons_of_mem _), h1, h2⟩
    by_cases hy : (knownIn hs y).length = num
    · obtain ⟨z, h1, h2, h3⟩ := ih' num hn
      refine ⟨z, h1, h2, ?_⟩
      rw [← h3]
      show (if (knownIn hs y).length = num then _ else _) = _
      rw [if_pos hy]; rfl
    · by_cases hr : r = .none
      · obtain ⟨z, h1, h2, h3⟩ := ih' _ a2
        refine ⟨z, h1, h2, ?_⟩
        rw [← h3]
        show (if (knownIn hs y).length = num then _ else _) = _
        rw [if_neg hy, a1]
        simp only [bind, Except.bind, if_pos hr]
        rfl
      · refine ⟨y, .inl List.mem_cons_self, by rw [a1]; exact fun h => hr (Except.ok.inj h), ?_⟩
        show (if (knownIn hs y).length = num then _ else _) = _
        rw [if_neg hy, a1]
        simp only [bind, Except.bind, if_neg hr]
        rfl

theorem search (att : List Item → Py Proof) (order : List Dated) (y₀ : ℤ) (hatt : att (knownIn order y₀) ≠ .ok .none)
    (hyears : ∀ z ∈ yearsOf order, ∃ v : ℤ, z = (v : WithTop ℤ) ∧ -1 ≤ v) (hmin : ((-1 : ℤ) : WithTop ℤ) ∈ yearsOf order)
    (hmax : (y₀ : WithTop ℤ) ∈ yearsOf order) (h0 : -1 < y₀)
    (hbefore : ∀ y, -1 ≤ y → y < y₀ → (∃ r, att (knownIn order y) = .ok r) ∧ (knownIn order y).length < (knownIn order y₀).length) :
    ∃ y, -1 ≤ y ∧ y ≤ y₀ ∧ att (knownIn order y) ≠ .ok .none ∧ findBestProofDate att order = att (knownIn order y) := by
  unfold findBestProofDate
  match hys : yearsOf order with
  | [] => rw [hys] at hmin; simp at hmin
  | z :: zs =>
    rw [hys] at hmin hmax hyears
    obtain ⟨m1, m2⟩ := foldl_min_spec zs z
    obtain ⟨n1, n2⟩ := foldl_max_spec zs z
    obtain ⟨a, ha, ha'⟩ := hyears _ m1
    obtain ⟨b, hb, hb'⟩ := hyears _ n1
    have ha1 : a = -1 := by
      have := m2 _ hmin
      rw [ha] at this
      have := WithTop.coe_le_coe.mp this
      omega
    have hb1 : y₀ ≤ b := by
      have := n2 _ hmax
      rw [hb] at this
      exact WithTop.coe_le_coe.mp this
    simp only [ha, hb]
    show ∃ y, -1 ≤ y ∧ y ≤ y₀ ∧ att (knownIn order y) ≠ .ok .none ∧ dateLoop att order (yearRange a b) 0 = att (knownIn order y)
    obtain ⟨pre, post, hpre, hz⟩ := yearRange_split a b y₀ (by omega) hb1
    rw [hpre]
    obtain ⟨y, h1, h2, h3⟩ := dateLoop_first att order y₀ hatt post pre 0 (by
      intro y hy
      have := hz y hy
      exact hbefore y (by omega) this.2) (by
      have := (hbefore (-1) le_rfl h0).2
      omega)
    refine ⟨y, ?_, ?_, h2, h3⟩
    · rcases h1 with h1 | rfl
      · have := hz y h1; omega
      · omega
    · rcases h1 with h1 | rfl
      · have := hz y h1; omega
      · exact le_rfl

theorem two_orders {ts : List Tr} (h : ts.Perm [trA, trB]) : ∃ s t, ts = [s, t] ∧ ((s = trA ∧ t = trB) ∨ (s = trB ∧ t = trA)) := by
  have hlen := h.length_eq
  match ts, hlen with
  | [a, b], _ =>
    have ha : a ∈ [trA, trB] := h.subset (by simp)
    rcases List.mem_cons.mp ha with rfl | ha
    · have := List.perm_singleton.mp ((List.perm_cons _).mp h)
      exact ⟨_, _, rfl, .inl ⟨rfl, by simpa using this⟩⟩
    · have ha := List.mem_singleton.mp ha
      subst ha
      have := List.perm_singleton.mp ((List.perm_cons trB).mp (h.trans (List.Perm.swap _ _ _)))
      exact ⟨_, _, rfl, .inr ⟨rfl, by simpa using this⟩⟩

theorem known_sublist (order : List Dated) {y z : ℤ} (h : y ≤ z) : (knownIn order y).Sublist (knownIn order z) := by
  rw [knownIn_eq, knownIn_eq]
  apply List.Sublist.map
  apply List.monotone_filter_right
  intro d hd
  unfold known at hd ⊢
  cases hy : d.year with
  | none => rfl
  | some w =>
    rw [hy] at hd
    exact decide_eq_true ((of_decide_eq_true hd).trans (WithTop.coe_le_coe.mpr h))

theorem years_ok (nodes : List (Node Lookup.Data)) (hf : Facts nodes) (order : List Dated) (hp : order.Perm (hypotheses nodes)) :
    (∀ z ∈ yearsOf order, ∃ v : ℤ, z = (v : WithTop ℤ) ∧ -1 ≤ v) ∧ ((-1 : ℤ) : WithTop ℤ) ∈ yearsOf order ∧
      ∀ n ∈ nodes, ∀ v : ℤ, n.ref.year = LitMu.yr v → (v : WithTop ℤ) ∈ yearsOf order := by
  refine ⟨fun z hz => ?_, ?_, fun n hn v hy => ?_⟩
  · obtain ⟨d, hd, hdz⟩ := List.mem_filterMap.mp hz
    have hd := hp.subset hd
    rcases List.mem_append.mp hd with hd | hd
    · obtain ⟨e, he, rfl⟩ := List.mem_map.mp hd
      exact hf.years e.1 (List.fst_mem_of_mem_zipIdx he) z hdz
    · rw [List.mem_singleton.mp hd] at hdz
      exact ⟨-1, (Option.some.inj hdz).symm, le_rfl⟩
  · exact List.mem_filterMap.mpr ⟨⟨LitMu.yr (-1), .pair trivialPair⟩, hp.symm.subset (List.mem_append_right _ (by simp)), rfl⟩
  · obtain ⟨i, hi⟩ := List.getElem?_of_mem hn
    exact List.mem_filterMap.mpr ⟨⟨n.ref.year, itemOf n i⟩, hp.symm.subset (List.mem_append_left _ (List.mem_map.mpr
      ⟨(n, i), List.mem_zipIdx_iff_getElem?.mpr hi, rfl⟩)), hy⟩

/-- The years up to 1990, for any pair other than the trivial one. -/
theorem year_result (nodes : List (Node Lookup.Data)) (hf : Facts nodes) (hf89 : Facts89 nodes) (hull : List (ℚ × ℚ) → Py (List ℕ))
    (inHull : List (ℚ × ℚ) → ℚ × ℚ → Bool) (cx : Ep → ℕ) (betaPairs : List Item → Py (List Ep)) (hh : HullSpec hull) (hin : InHullSpec inHull)
    (hb : BetaSpec nodes betaPairs) (order : List Dated) (hp : order.Perm (hypotheses nodes)) (c : ℚ × ℚ) (hc : (0, 1) ≠ (c.1, c.2)) (y : ℤ)
    (h0 : -1 ≤ y) (h1 : y ≤ 1990) : ∃ r, attempt hull inHull cx betaPairs c.1 c.2 (knownIn order y) = .ok r ∧
      (r = .none ∨ Rests (baseOf y) c.1 c.2 r) ∧
      (c ∈ (pairsIn (knownIn order y)).map Ep.key → r ≠ .none) ∧
      ((89 / 560, 369 / 560) ∈ (pairsIn (knownIn order y)).map Ep.key → (c.1, c.2) = (lastCall.1, lastCall.2) → r ≠ .none) := by
  have hbeta := beta_none nodes hf89 betaPairs hb order hp y h0 h1
  have hpairs : ∀ e ∈ pairsIn (knownIn order y), From (baseOf y) e := by
    intro e he
    obtain ⟨i, k, l, rfl, h⟩ := mem_pairs nodes hf89 order hp y h0 h1 e he
    exact .known i k l h
  have htrans : (transformsIn (knownIn order y)).Perm (if 1920 ≤ y then [trA, trB] else []) := by
    have h : (transformsIn (knownIn order y)).Perm (transformsIn (knownIn (hypotheses nodes) y)) := (perm_known hp y).filterMap _
    rwa [transforms_known nodes hf y h0 (by omega)] at h
  have hsmall : y ≤ 1987 → pairsIn (knownIn order y) = [trivialPair] := by
    intro h1
    have h : (pairsIn (knownIn order y)).Perm (pairsIn (knownIn (hypotheses nodes) y)) := (perm_known hp y).filterMap _
    rw [pairs_known nodes hf y h0 h1] at h
    exact List.perm_singleton.mp h
  have hkey : [trivialPair].map Ep.key = [(0, 1)] := rfl
  have hw : ((89 / 560 : ℚ), (369 / 560 : ℚ)) ∉ [((0 : ℚ), (1 : ℚ))] := by decide +kernel
  by_cases h2 : 1920 ≤ y
  · rw [if_pos h2] at htrans
    obtain ⟨s, t, hts, hst⟩ := two_orders htrans
    by_cases h3 : y ≤ 1987
    · have : ∃ d, computeExpPairs hull (pairsIn (knownIn order y)) (transformsIn (knownIn order y)) 5 true = .ok d ∧ (∀ e ∈ d, VdC e) ∧
          ¬ Flat (d.map Ep.key) := by
        rw [hsmall h3, hts]
        rcases hst with ⟨rfl, rfl⟩ | ⟨rfl, rfl⟩
        · obtain ⟨d, a1, a2, a3, _⟩ := five_AB hull hh
          exact ⟨d, a1, a2, a3⟩
        · obtain ⟨d, a1, a2, a3, _⟩ := five_BA hull hh
          exact ⟨d, a1, a2, a3⟩
      obtain ⟨d, a1, a2, a3⟩ := this
      obtain ⟨r, b1, _, b3⟩ := attempt_gen hull hh inHull hin cx betaPairs (knownIn order y) hbeta c (baseOf y) hpairs d a1
        (fun e he => .of_vdC (baseOf_trivial y) (a2 e he)) a3
      refine ⟨r, b1, b3, fun h => ?_, fun h => ?_⟩
      · rw [hsmall h3, hkey, List.mem_singleton] at h
        exact absurd h.symm hc
      · rw [hsmall h3, hkey] at h
        exact absurd h hw
    · obtain ⟨e1, e2, e3⟩ := dictOf_spec (pairsIn (knownIn order y))
      obtain ⟨d, g1, g2, g3, g4, g5⟩ := five (baseOf y) (fun q hq => region90 q (baseOf_sub y q hq)) hull hh s t hst (dictOf (pairsIn (knownIn order y)))
        (fun e he => hpairs e (e1 e he)) e2
        ((e3 _).mpr (has_trivial nodes order hp y (by omega)))
        ((e3 _).mpr (has_pair nodes order hp y 1988 (by omega) (by omega) _ _ hf89.hw))
      obtain ⟨r, b1, b2, b3⟩ := attempt_gen hull hh inHull hin cx betaPairs (knownIn order y) hbeta c (baseOf y) hpairs d (by rw [hts]; exact g1) g2 g3
      refine ⟨r, b1, b3, fun h => b2 (g4 _ (.point _ ((e3 _).mpr h))), fun h hcl => b2 ?_⟩
      have hA := g5 _ (.point _ ((e3 _).mpr h)) _ (fA _ _ (89 / 1298) (509 / 649) (by decide +kernel))
      have hABA := hA.2 _ (fB _ _ (369 / 1298) (369 / 649) (by decide +kernel)) _ (fA _ _ (369 / 3334) (2405 / 3334) (by decide +kernel))
      rw [hcl]
      exact target _ (g4 _ (.point _ ((e3 _).mpr (has_trivial nodes order hp y (by omega))))) hA.1 hABA
  · rw [if_neg h2, List.perm_nil] at htrans
    refine ⟨.none, attempt_before hull inHull hin cx betaPairs _ hbeta (hsmall (by omega)) htrans c hc, .inl rfl, fun h => ?_, fun h => ?_⟩
    · rw [hsmall (by omega), hkey, List.mem_singleton] at h
      exact absurd h.symm hc
    · rw [hsmall (by omega), hkey] at h
      exact absurd h hw

/-- Something new is known in a year in which a pair is found. -/
theorem more_known (nodes : List (Node Lookup.Data)) (hf89 : Facts89 nodes) (order : List Dated) (hp : order.Perm (hypotheses nodes)) (y₀ : ℤ) (k l : ℚ)
    (hk : (k, l) ∈ (pairsIn (knownIn order y₀)).map Ep.key) (y : ℤ) (h0 : -1 ≤ y) (h1 : y < y₀) (h2 : y ≤ 1990) (hn : (k, l) ∉ baseOf y) :
    (knownIn order y).length < (knownIn order y₀).length := by
  have hsub := known_sublist order h1.le
  rcases lt_or_eq_of_le hsub.length_le with h | h
  · exact h
  · exfalso
    rw [← hsub.eq_of_length h] at hk
    obtain ⟨e, he, hk⟩ := List.mem_map.mp hk
    obtain ⟨i, k', l', rfl, h⟩ := mem_pairs nodes hf89 order hp y h0 h2 e he
    exact hn (hk ▸ h)

theorem Rests.mono {b b' : List (ℚ × ℚ)} (h : ∀ q ∈ b, q ∈ b') {k l : ℚ} {r : Proof} (hr : Rests b k l r) : Rests b' k l r := by
  cases r with
  | none => exact hr
  | exact e => exact ⟨hr.1.mono h, hr.2⟩
  | convex k' l' deps => exact ⟨hr.1, fun e he => (hr.2.1 e he).mono h, hr.2.2⟩

/-- **C110.** The last call of `prove_exponent_pairs` (derived.py:214), for the pair `(3/40, 31/40)`, finds a proof that rests on the trivial pair, the pairs
`(9/56, 37/56)` of 1988 and `(89/560, 369/560)` of 1989, A and B only, and this proof is of the earliest possible date: none rests on the two older pairs
alone. `order` is the order in which python iterates over the set of hypotheses. The convex hull of scipy, the membership test of the polytope, the complexity
of proofs and the conversion of bounds on beta are parameters. -/
theorem C110_watt : ∃ nodes, Lookup.literature = .ok nodes ∧
    ∀ (hull : List (ℚ × ℚ) → Py (List ℕ)) (inHull : List (ℚ × ℚ) → ℚ × ℚ → Bool) (cx : Ep → ℕ) (betaPairs : List Item → Py (List Ep)),
      HullSpec hull → InHullSpec inHull → BetaSpec nodes betaPairs → ∀ order : List Dated, order.Perm (hypotheses nodes) →
        ∃ r, bestProof hull inHull cx betaPairs order lastCall.1 lastCall.2 = .ok r ∧ Rests base89 (3 / 40) (31 / 40) r ∧
          ∀ r', ¬ Rests base88 (3 / 40) (31 / 40) r' := by
  obtain ⟨nodes, hl, hf, hf89, -⟩ := facts89
  refine ⟨nodes, hl, fun hull inHull cx betaPairs hh hin hb order hp => ?_⟩
  have Y := year_result nodes hf hf89 hull inHull cx betaPairs hh hin hb order hp lastCall (by decide +kernel)
  obtain ⟨z1, z2, z3⟩ := years_ok nodes hf order hp
  have hw := has_pair nodes order hp 1989 1989 (by norm_num) le_rfl _ _ hf89.watt
  obtain ⟨r, a1, a2, _, a4⟩ := Y 1989 (by norm_num) (by norm_num)
  obtain ⟨y, b1, b2, b3, b4⟩ := search (attempt hull inHull cx betaPairs lastCall.1 lastCall.2) order 1989
    (by rw [a1]; exact fun h => a4 hw rfl (Except.ok.inj h)) z1 z2
    (by obtain ⟨n, hn, _, _, hy⟩ := hf89.watt; exact z3 n hn 1989 hy) (by norm_num) (by
      intro y h0 h1
      obtain ⟨r, c1, _⟩ := Y y h0 (by omega)
      refine ⟨⟨r, c1⟩, more_known nodes hf89 order hp 1989 _ _ hw y h0 h1 (by omega) ?_⟩
      rcases baseOf_cases y with ⟨h, _⟩ | ⟨h, _⟩ | ⟨h, _⟩ | ⟨h, _⟩ <;> rw [h] <;> first | (exfalso; omega) | decide +kernel)
  obtain ⟨r, c1, c2, _⟩ := Y y b1 (by omega)
  rw [c1] at b3
  have hr := c2.resolve_left (fun h => b3 (by rw [h]))
  refine ⟨r, b4.trans c1, hr.mono ?_, no_earlier⟩
  rcases baseOf_cases y with ⟨h, _⟩ | ⟨h, _⟩ | ⟨h, _⟩ | ⟨h, _⟩ <;> rw [h] <;> first | (exfalso; omega) | decide +kernel

/-- C110 applies: there are convex hulls and membership tests as required, and the model of the conversion of bounds on beta; the set may be listed in the
reverse order. -/
example : ∃ nodes hull inHull betaPairs r, Lookup.literature = .ok nodes ∧ HullSpec hull ∧ InHullSpec inHull ∧
    betaPairs = (fun hs => (BetaPairs.fromBeta hull (betasOf nodes hs) (pairsIn hs) true).map (List.map (fun o => Ep.known 0 o.key.1 o.key.2))) ∧
    bestProof hull inHull (fun _ => 1) betaPairs (hypotheses nodes).reverse (3 / 40) (31 / 40) = .ok r ∧ Rests base89 (3 / 40) (31 / 40) r := by
  classical
  obtain ⟨nodes, h1, h2⟩ := C110_watt
  obtain ⟨hull, hs⟩ := hullSpec_satisfiable
  have hin : InHullSpec (fun ps p => decide (InConv ps p)) := by intro ps p; simp
  obtain ⟨r, h3, h4, _⟩ := h2 hull _ (fun _ => 1) _ hs hin (betaSpec_model nodes hull (fun o => Ep.known 0 o.key.1 o.key.2) (fun _ => true)) _
    (List.reverse_perm _)
  exact ⟨nodes, hull, _, _, r, h1, hs, hin, rfl, h3, h4⟩

/-! ### Property C111: proofs of the pairs of the literature -/

/-- **C111** (partial: only for the pairs of the literature published up to 1990). `best_proof_of_exponent_pair` finds a proof, in any order in which python iterates
over the set, and it rests on pairs published up to 1990, A and B only. For later pairs see `C111_order_counterexample`. -/
theorem C111_found_partial : ∃ nodes, Lookup.literature = .ok nodes ∧
    ∀ (hull : List (ℚ × ℚ) → Py (List ℕ)) (inHull : List (ℚ × ℚ) → ℚ × ℚ → Bool) (cx : Ep → ℕ) (betaPairs : List Item → Py (List Ep)),
      HullSpec hull → InHullSpec inHull → BetaSpec nodes betaPairs → ∀ order : List Dated, order.Perm (hypotheses nodes) →
        ∀ n ∈ nodes, n.htype = "Exponent pair" → ∀ k l, n.data = .pair k l → ∀ v : ℤ, n.ref.year = LitMu.yr v → v ≤ 1990 →
          ∃ r, bestProof hull inHull cx betaPairs order k l = .ok r ∧ Rests base90 k l r := by
  obtain ⟨nodes, hl, hf, hf89, -⟩ := facts89
  refine ⟨nodes, hl, fun hull inHull cx betaPairs hh hin hb order hp n hn ht k l hd v hv hv' => ?_⟩
  have hkl : (k, l) ≠ (0, 1) ∧ 1987 < v ∧ ∀ y, y < v → (k, l) ∉ baseOf y := by
    obtain ⟨v', hv1, hv2⟩ := hf89.pairs n hn k l hd
    have : v' = v := by
      rw [hv] at hv1
      exact (WithTop.coe_injective (Option.some.inj hv1)).symm
    subst this
    rcases hv2 with h | ⟨rfl, h⟩ | ⟨rfl, h⟩ | ⟨rfl, h⟩
    · omega
    all_goals
      rw [h]
      refine ⟨by decide +kernel, by norm_num, fun y hy => ?_⟩
      rcases baseOf_cases y with ⟨h, _⟩ | ⟨h, _⟩ | ⟨h, _⟩ | ⟨h, _⟩ <;> rw [h] <;> first | (exfalso; omega) | decide +kernel
  obtain ⟨hne, hv7, hnot⟩ := hkl
  have Y := year_result nodes hf hf89 hull inHull cx betaPairs hh hin hb order hp (k, l) (fun h => hne h.symm)
  obtain ⟨z1, z2, z3⟩ := years_ok nodes hf order hp
  have hw := has_pair nodes order hp v v (by omega) le_rfl _ _ ⟨n, hn, ht, hd, hv⟩
  obtain ⟨r, a1, a2, a3, _⟩ := Y v (by omega) hv'
  obtain ⟨y, b1, b2, b3, b4⟩ := search (attempt hull inHull cx betaPairs k l) order v
    (by rw [a1]; exact fun h => a3 hw (Except.ok.inj h)) z1 z2 (z3 n hn v hv) (by omega) (by
      intro y h0 h1
      obtain ⟨r, c1, _⟩ := Y y h0 (by omega)
      exact ⟨⟨r, c1⟩, more_known nodes hf89 order hp v _ _ hw y h0 h1 (by omega) (hnot y h1)⟩)
  obtain ⟨r, c1, c2, _⟩ := Y y b1 (by omega)
  rw [c1] at b3
  exact ⟨r, b4.trans c1, (c2.resolve_left (fun h => b3 (by rw [h]))).mono (baseOf_sub y)⟩

/-- C111 applies: Watt's own pair is found. -/
example : ∃ nodes hull inHull betaPairs r, Lookup.literature = .ok nodes ∧ HullSpec hull ∧ InHullSpec inHull ∧
    betaPairs = (fun hs => (BetaPairs.fromBeta hull (betasOf nodes hs) (pairsIn hs) true).map (List.map (fun o => Ep.known 0 o.key.1 o.key.2))) ∧
    bestProof hull inHull (fun _ => 1) betaPairs (hypotheses nodes) (89 / 560) (369 / 560) = .ok r ∧ Rests base90 (89 / 560) (369 / 560) r := by
  classical
  obtain ⟨nodes, h1, h2⟩ := C111_found_partial
  obtain ⟨nodes', h1', _, hf89, _⟩ := facts89
  rw [h1] at h1'
  cases h1'
  obtain ⟨hull, hs⟩ := hullSpec_satisfiable
  have hin : InHullSpec (fun ps p => decide (InConv ps p)) := by intro ps p; simp
  obtain ⟨n, a1, a2, a3, a4⟩ := hf89.watt
  obtain ⟨r, h3, h4⟩ := h2 hull _ (fun _ => 1) _ hs hin (betaSpec_model nodes hull (fun o => Ep.known 0 o.key.1 o.key.2) (fun _ => true)) _
    (List.Perm.refl _) n a1 a2 _ _ a3 1989 a4 (by norm_num)
  exact ⟨nodes, hull, _, _, r, h1, hs, hin, rfl, h3, h4⟩

/-- Three half planes that A and B map into themselves. -/
def Inv' (k l : ℚ) : Prop := (0 ≤ k ∧ k ≤ 1 / 2 ∧ 1 / 2 ≤ l ∧ l ≤ 1) ∧ 17 / 21 < k + l ∧ 13 / 21 < 8 / 21 * k + l ∧ 13 / 42 < k + 8 / 21 * l

theorem inv'_A {k l : ℚ} (h : Inv' k l) : Inv' (k / (2 * k + 2)) ((k + l + 1) / (2 * k + 2)) := by
  obtain ⟨⟨h0, h1, h2, h3⟩, c1, c2, c3⟩ := h
  have hd : 0 < 2 * k + 2 := by linarith
  have hk : k / (2 * k + 2) * (2 * k + 2) = k := div_mul_cancel₀ _ hd.ne'
  have hl : (k + l + 1) / (2 * k + 2) * (2 * k + 2) = k + l + 1 := div_mul_cancel₀ _ hd.ne'
  have key : ∀ a b c : ℚ, c * (2 * k + 2) < a * k + b * (k + l + 1) → c < a * (k / (2 * k + 2)) + b * ((k + l + 1) / (2 * k + 2)) := by
    intro a b c h
    by_contra hn
    have hn := mul_le_mul_of_nonneg_right (not_lt.mp hn) hd.le
    have e : (a * (k / (2 * k + 2)) + b * ((k + l + 1) / (2 * k + 2))) * (2 * k + 2) = a * k + b * (k + l + 1) := by
      rw [add_mul, mul_assoc, mul_assoc, hk, hl]
    rw [e] at hn
    linarith
  refine ⟨⟨div_nonneg h0 hd.le, ?_, ?_, ?_⟩, ?_, ?_, ?_⟩
  · rw [div_le_iff₀ hd]; linarith
  · rw [le_div_iff₀ hd]; linarith
  · rw [div_le_iff₀ hd]; linarith
  · have := key 1 1 (17 / 21) (by linarith); linarith
  · have := key (8 / 21) 1 (13 / 21) (by linarith); linarith
  · have := key 1 (8 / 21) (13 / 42) (by linarith); linarith

theorem inv'_B {k l : ℚ} (h : Inv' k l) : Inv' (l - 1 / 2) (k + 1 / 2) := by
  obtain ⟨⟨h0, h1, h2, h3⟩, c1, c2, c3⟩ := h
  refine ⟨⟨?_, ?_, ?_, ?_⟩, ?_, ?_, ?_⟩ <;> linarith

theorem From.inv' {e : Ep} (h : From base90 e) : Inv' e.k e.l := by
  induction h with
  | known i k l h =>
    simp only [base90, List.mem_cons, List.not_mem_nil, or_false, Prod.mk.injEq] at h
    show Inv' k l
    unfold Inv'
    rcases h with ⟨rfl, rfl⟩ | ⟨rfl, rfl⟩ | ⟨rfl, rfl⟩ | ⟨rfl, rfl⟩ <;> norm_num
  | A p _ ih => exact inv'_A ih
  | B p _ ih => exact inv'_B ih

/-- Pairs with `k + l ≤ 17/21` have no proof that rests on what was known in 1990. -/
theorem none_before_1991 {k l : ℚ} (hkl : k + l ≤ 17 / 21) (r : Proof) : ¬ Rests base90 k l r := by
  intro h
  cases r with
  | none => exact h
  | exact e =>
    obtain ⟨h1, h2⟩ := h
    have := h1.inv'.2.1
    rw [(Prod.mk.inj h2).1, (Prod.mk.inj h2).2] at this
    linarith
  | convex k' l' deps =>
    obtain ⟨_, h1, h2⟩ := h
    have := h2.linear_pos 1 1 (-(17 / 21)) (by
      intro q hq
      obtain ⟨e, he, rfl⟩ := List.mem_map.mp hq
      have := (h1 e he).inv'.2.1
      show 0 < 1 * e.k + 1 * e.l + -(17 / 21)
      linarith)
    have : 0 < 1 * k + 1 * l + -(17 / 21) := this
    linarith

/-- **C111** fails: if the members of the set are listed in the order in which they were added to the literature (python's order of a set of objects is arbitrary),
`best_proof_of_exponent_pair` raises `TypeError` for every pair with `k + l ≤ 17/21`, for example for the pair `(13/84, 55/84)` of Bourgain, which is in the literature
itself. The search fails in the year 1991: the bound on beta of Watt on `[3/7, 1/2]` comes before that of Huxley and Kolesnik on `[2/5, 1/2]`, and the list of best
bounds contains the latter object twice (compare `C51_counterexample`). -/
theorem C111_order_counterexample : ∃ nodes, Lookup.literature = .ok nodes ∧
    (∃ n ∈ nodes, n.htype = "Exponent pair" ∧ n.data = .pair (13 / 84) (55 / 84)) ∧
    ∀ (hull : List (ℚ × ℚ) → Py (List ℕ)) (inHull : List (ℚ × ℚ) → ℚ × ℚ → Bool) (cx : Ep → ℕ) (enc : BetaPairs.Out → Ep) (hasB : List Item → Bool),
      HullSpec hull → InHullSpec inHull → ∀ k l : ℚ, k + l ≤ 17 / 21 →
        bestProof hull inHull cx (fun hs => (BetaPairs.fromBeta hull (betasOf nodes hs) (pairsIn hs) (hasB hs)).map (List.map enc)) (hypotheses nodes) k l =
          .error .typeError := by
  obtain ⟨nodes, hl, hf, hf89, hex⟩ := facts89
  refine ⟨nodes, hl, hex, fun hull inHull cx enc hasB hh hin k l hkl => ?_⟩
  set betaPairs : List Item → Py (List Ep) := fun hs => (BetaPairs.fromBeta hull (betasOf nodes hs) (pairsIn hs) (hasB hs)).map (List.map enc)
  have hb : BetaSpec nodes betaPairs := betaSpec_model nodes hull enc hasB
  have hc : ((0 : ℚ), (1 : ℚ)) ≠ (k, l) := by
    intro h
    rw [← (Prod.mk.inj h).1, ← (Prod.mk.inj h).2] at hkl
    norm_num at hkl
  have Y := year_result nodes hf hf89 hull inHull cx betaPairs hh hin hb (hypotheses nodes) (List.Perm.refl _) (k, l) hc
  obtain ⟨z1, z2, z3⟩ := years_ok nodes hf (hypotheses nodes) (List.Perm.refl _)
  have h91 : betasOf nodes (knownIn (hypotheses nodes) 1991) = [⟨0, wattBound⟩, ⟨1, hkBound⟩] := by
    rw [betas_list nodes hf89 1991 (by norm_num) le_rfl, if_neg (by norm_num), if_neg (by norm_num)]
  have hte : Beta.computeBest [⟨0, wattBound⟩, ⟨1, hkBound⟩] BetaPairs.half = .error .typeError := by decide +kernel
  have herr : attempt hull inHull cx betaPairs k l (knownIn (hypotheses nodes) 1991) = .error .typeError := by
    have : betaPairs (knownIn (hypotheses nodes) 1991) = .error .typeError := by
      show (BetaPairs.fromBeta hull (betasOf nodes (knownIn (hypotheses nodes) 1991)) (pairsIn (knownIn (hypotheses nodes) 1991))
        (hasB (knownIn (hypotheses nodes) 1991))).map (List.map enc) = _
      rw [h91]
      unfold BetaPairs.fromBeta
      rw [hte]
      rfl
    unfold attempt
    rw [this]
    rfl
  have hnone : ∀ y, -1 ≤ y → y < 1991 → attempt hull inHull cx betaPairs k l (knownIn (hypotheses nodes) y) = .ok .none := by
    intro y h0 h1
    obtain ⟨r, c1, c2, _⟩ := Y y h0 (by omega)
    rcases c2 with rfl | c2
    · exact c1
    · exact absurd (c2.mono (baseOf_sub y)) (none_before_1991 hkl r)
  obtain ⟨y, b1, b2, b3, b4⟩ := search (attempt hull inHull cx betaPairs k l) (hypotheses nodes) 1991
    (by rw [herr]; intro h; cases h) z1 z2
    (by obtain ⟨n, m, rest, hn, _, _, _, _, _, hy, _⟩ := hf89.beta; exact z3 m (by rw [hn]; simp) 1991 hy) (by norm_num) (by
      intro y h0 h1
      refine ⟨⟨_, hnone y h0 h1⟩, ?_⟩
      have hsub := known_sublist (hypotheses nodes) h1.le
      rcases lt_or_eq_of_le hsub.length_le with h | h
      · exact h
      · exfalso
        have e := h91
        rw [← hsub.eq_of_length h, betas_list nodes hf89 y h0 (by omega)] at e
        have e := congrArg List.length e
        revert e
        split
        · simp
        · simp)
  have hy : y = 1991 := by
    by_contra hne
    exact b3 (hnone y b1 (by omega))
  rw [hy, herr] at b4
  exact b4

end Watt
end BestProof
end Expdb
