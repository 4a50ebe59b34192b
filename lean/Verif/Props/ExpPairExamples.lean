import Verif.Props.BestProofWatt
import Verif.Model.ExpPairExamples

/-!
# Property C112: the earliest proof in `exp_pair_examples` (examples.py:88-132)

The example adds the pairs found by `compute_exp_pairs` to the set before it searches. Their dates keep the search honest: the proof found rests on pairs
published up to 1989.
-/

namespace Expdb
namespace BestProof
namespace Example

open EP Hull EP.Prune Watt

/-! ### The dates -/

theorem trYear_A : trYear 0 = LitMu.yr 1920 := rfl
theorem trYear_B : trYear 1 = LitMu.yr 1920 := rfl
theorem trYear_C : trYear 2 = LitMu.yr 2003 := by
  have : (Lookup.bib.find? (fun e => e.label = "sargos_analog_2003")).map (fun e => e.year) = some 2003 := by decide +kernel
  unfold trYear
  cases h : Lookup.bib.find? (fun e => e.label = "sargos_analog_2003") with
  | none => rw [h] at this; cases this
  | some e =>
    rw [h] at this
    have : e.year = 2003 := Option.some.inj this
    show LitMu.yr e.year = _
    rw [this]

theorem year_step (nodes : List (Node Lookup.Data)) (t : ℕ) (k l : ℚ) (p : Ep) (v w : ℤ) (h1 : yearOf nodes p = LitMu.yr v) (h2 : trYear t = LitMu.yr w) :
    yearOf nodes (.derived t k l p) = LitMu.yr (max v w) := by
  unfold yearOf
  rw [h1, h2]
  simp [Reference.maxYear, Reference.maxFrom, Reference.derived, LitMu.yr]

/-- What is known of an exponent pair of the set: its date, and from 1920 to 1990 what it rests on. -/
def Good (nodes : List (Node Lookup.Data)) (e : Ep) : Prop :=
  ∃ v : ℤ, yearOf nodes e = LitMu.yr v ∧ -1 ≤ v ∧ ∀ y, v ≤ y → y ≤ 1990 → From (baseOf y) e

theorem good_pairs (nodes : List (Node Lookup.Data)) (hf89 : Facts89 nodes) :
    ∀ e ∈ pairsIn ((assumed nodes).map Dated.item), Good nodes e := by
  intro e he
  obtain ⟨it, hit, hit'⟩ := List.mem_filterMap.mp he
  have hit' : asPair it = some e := hit'
  obtain ⟨dt, hdt, rfl⟩ := List.mem_map.mp hit
  rcases List.mem_append.mp hdt with hdt | hdt
  · obtain ⟨x, hx, rfl⟩ := List.mem_map.mp hdt
    have hx1 := (List.mem_filter.mp hx).1
    obtain ⟨k, l, hd, rfl⟩ := pair_item hit'
    have hx2 := List.mem_zipIdx_iff_getElem?.mp hx1
    obtain ⟨v, hv, hv'⟩ := hf89.pairs x.1 (List.fst_mem_of_mem_zipIdx hx1) k l hd
    refine ⟨v, ?_, ?_, fun y h1 h2 => .known _ k l ?_⟩
    · show (nodes[x.2]?).bind (fun n => n.ref.year) = _
      rw [hx2]; exact hv
    · rcases hv' with hv' | ⟨hv1, _⟩ | ⟨hv1, _⟩ | ⟨hv1, _⟩ <;> omega
    · rcases hv' with hv' | ⟨hv1, hv'⟩ | ⟨hv1, hv'⟩ | ⟨hv1, hv'⟩
      · omega
      all_goals
        rw [hv']
        rcases baseOf_cases y with ⟨h, _⟩ | ⟨h, _⟩ | ⟨h, _⟩ | ⟨h, _⟩ <;> rw [h] <;> first | (exfalso; omega) | decide +kernel
  · rw [List.mem_singleton.mp hdt] at hit'
    rw [← Option.some.inj hit']
    exact ⟨-1, rfl, le_rfl, fun y _ _ => .known 0 0 1 (baseOf_trivial y)⟩

theorem asTr_cases {n : Node Lookup.Data} {i : ℕ} {t : Tr} (h : asTr (itemOf n i) = some t) : t = trA ∨ t = trB ∨ t = trC := by
  unfold itemOf at h
  split at h
  · split at h <;> cases h
  · split at h
    · split at h
      · exact .inl (Option.some.inj h).symm
      · split at h
        · exact .inr (.inl (Option.some.inj h).symm)
        · exact .inr (.inr (Option.some.inj h).symm)
    · cases h
  · cases h

theorem three (nodes : List (Node Lookup.Data)) : ∀ t ∈ transformsIn ((assumed nodes).map Dated.item), t = trA ∨ t = trB ∨ t = trC := by
  intro t ht
  obtain ⟨it, hit, hit'⟩ := List.mem_filterMap.mp ht
  have hit' : asTr it = some t := hit'
  obtain ⟨dt, hdt, rfl⟩ := List.mem_map.mp hit
  rcases List.mem_append.mp hdt with hdt | hdt
  · obtain ⟨x, hx, rfl⟩ := List.mem_map.mp hdt
    exact asTr_cases hit'
  · rw [List.mem_singleton.mp hdt] at hit'
    cases hit'

theorem good_step (nodes : List (Node Lookup.Data)) (t : Tr) (ht : t = trA ∨ t = trB ∨ t = trC) (p : Ep) (hp : Good nodes p) (k l : ℚ)
    (hk : t.f p.k p.l = .ok (k, l)) : ∃ v : ℤ, yearOf nodes (.derived t.id k l p) = LitMu.yr v ∧ 1920 ≤ v ∧
      ∀ y, v ≤ y → y ≤ 1990 → From (baseOf y) (.derived t.id k l p) := by
  obtain ⟨v, h1, h2, h3⟩ := hp
  have hAB : t = trA ∨ t = trB → ∀ y, max v 1920 ≤ y → y ≤ 1990 → From (baseOf y) (.derived t.id k l p) := fun ht y a b =>
    From.step (fun q hq => region90 q (baseOf_sub y q hq)) t ht p k l (h3 y (by omega) b) hk
  rcases ht with rfl | rfl | rfl
  · exact ⟨_, year_step nodes 0 k l p v 1920 h1 trYear_A, le_max_right _ _, hAB (.inl rfl)⟩
  · exact ⟨_, year_step nodes 1 k l p v 1920 h1 trYear_B, le_max_right _ _, hAB (.inr rfl)⟩
  · exact ⟨_, year_step nodes 2 k l p v 2003 h1 trYear_C, by omega, fun y a b => by omega⟩

/-- The pairs that `compute_exp_pairs` adds. -/
theorem good_derived (nodes : List (Node Lookup.Data)) (hf89 : Facts89 nodes) (order : List Dated) (hp : order.Perm (assumed nodes))
    (e : Ep) (he : Derivable (pairsIn (order.map Dated.item)) (transformsIn (order.map Dated.item)) e) :
    Good nodes e ∧ (e ∈ pairsIn (order.map Dated.item) ∨ ∃ v : ℤ, yearOf nodes e = LitMu.yr v ∧ 1920 ≤ v) := by
  have p1 : (pairsIn (order.map Dated.item)).Perm (pairsIn ((assumed nodes).map Dated.item)) := (hp.map _).filterMap _
  have p2 : (transformsIn (order.map Dated.item)).Perm (transformsIn ((assumed nodes).map Dated.item)) := (hp.map _).filterMap _
  induction he with
  | input e h => exact ⟨good_pairs nodes hf89 e (p1.subset h), .inl h⟩
  | step t ht p _ k l hk ih =>
    obtain ⟨v, h1, h2, h3⟩ := good_step nodes t (three nodes t (p2.subset ht)) p ih.1 k l hk
    exact ⟨⟨v, h1, by omega, h3⟩, .inr ⟨v, h1, h2⟩⟩

/-! ### The set known in a year -/

theorem sel {β : Type} (f : Item → Option β) (hf : ∀ i, f (.other i) = none) (nodes : List (Node Lookup.Data)) (y : ℤ) :
    (knownIn (assumed nodes) y).filterMap f = (knownIn (hypotheses nodes) y).filterMap f := by
  rw [knownIn_eq, knownIn_eq, assumed, hypotheses, List.filter_append, List.filter_append, List.map_append, List.map_append, List.filterMap_append,
    List.filterMap_append]
  congr 1
  rw [List.filter_map, List.filter_map, List.map_map, List.map_map, List.filter_filter, List.filterMap_map, List.filterMap_map, List.filterMap_filter,
    List.filterMap_filter]
  apply List.filterMap_congr
  intro e _
  by_cases hw : wanted e.1 = true
  · simp [hw]
  · have : itemOf e.1 e.2 = .other e.2 := by
      unfold wanted at hw
      simp only [Bool.or_eq_true, decide_eq_true_eq, not_or] at hw
      unfold itemOf
      split
      · rw [if_neg hw.1.1]
      · rw [if_neg hw.1.2]
      · rfl
    simp [this, hf]

theorem withComputed_perm (nodes : List (Node Lookup.Data)) {order : List Dated} (hp : order.Perm (assumed nodes)) (d : List Ep) (y : ℤ) :
    (transformsIn (knownIn (withComputed nodes order d) y)).Perm (transformsIn (knownIn (hypotheses nodes) y)) ∧
    (pairsIn (knownIn (withComputed nodes order d) y)).Perm (pairsIn (knownIn (hypotheses nodes) y) ++
      (d.filter (fun e => e ∉ pairsIn (order.map Dated.item))).filter (fun e => known y (yearOf nodes e))) := by
  have hs : knownIn (withComputed nodes order d) y = knownIn order y ++
      ((d.filter (fun e => e ∉ pairsIn (order.map Dated.item))).filter (fun e => known y (yearOf nodes e))).map Item.pair := by
    rw [knownIn_eq, withComputed, List.filter_append, List.map_append, List.filter_map, List.map_map]
    rfl
  have e1 := (perm_known hp y).filterMap asTr
  have e2 := (perm_known hp y).filterMap asPair
  rw [sel asTr (fun _ => rfl)] at e1
  rw [sel asPair (fun _ => rfl)] at e2
  rw [hs]
  constructor
  · show (List.filterMap asTr _).Perm (List.filterMap asTr _)
    rw [List.filterMap_append]
    have : ∀ l : List Ep, (l.map Item.pair).filterMap asTr = [] := by
      intro l
      rw [List.filterMap_map, List.filterMap_eq_nil_iff]
      intro _ _; rfl
    rw [this, List.append_nil]
    exact e1
  · show (List.filterMap asPair _).Perm (List.filterMap asPair _ ++ _)
    rw [List.filterMap_append]
    have : ∀ l : List Ep, (l.map Item.pair).filterMap asPair = l := by
      intro l
      rw [List.filterMap_map]
      exact List.filterMap_some
    rw [this]
    exact e2.append_right _

/-! ### The years from 1920 to 1987 -/

/-- The pairs from `(0, 1)`, A and B on the line `k + l = 1`. -/
def OnLine (e : Ep) : Prop := e.k + e.l ≤ 1 ∧ 0 ≤ e.k ∧ (e.k + e.l = 1 → e.key = (0, 1) ∨ e.key = (1 / 2, 1 / 2))

theorem onLine {e : Ep} (h : From [(0, 1)] e) : OnLine e := by
  have hB : ∀ q ∈ [((0 : ℚ), (1 : ℚ))], InRegion q := fun q hq => region90 q (by rw [List.mem_singleton.mp hq]; decide +kernel)
  induction h with
  | known i k l h =>
    have h := List.mem_singleton.mp h
    simp only [Prod.mk.injEq] at h
    obtain ⟨rfl, rfl⟩ := h
    exact ⟨by show (0 : ℚ) + 1 ≤ 1; norm_num, le_rfl, fun _ => .inl rfl⟩
  | A p hp ih =>
    obtain ⟨a1, a2, a3⟩ := ih
    have hl : p.l ≤ 1 := (hp.region hB).2.2.2
    have hpos : 0 < 2 * p.k + 2 := by linarith
    refine ⟨?_, div_nonneg a2 hpos.le, fun h => .inl ?_⟩
    · show p.k / (2 * p.k + 2) + (p.k + p.l + 1) / (2 * p.k + 2) ≤ 1
      rw [← add_div, div_le_one hpos]; linarith
    · have h : p.k / (2 * p.k + 2) + (p.k + p.l + 1) / (2 * p.k + 2) = 1 := h
      rw [← add_div, div_eq_one_iff_eq hpos.ne'] at h
      have hl1 : p.l = 1 := by linarith
      have hk0 : p.k = 0 := by linarith
      show (p.k / (2 * p.k + 2), (p.k + p.l + 1) / (2 * p.k + 2)) = (0, 1)
      rw [hl1, hk0]; norm_num
  | B p hp ih =>
    obtain ⟨a1, a2, a3⟩ := ih
    have hl : 1 / 2 ≤ p.l := (hp.region hB).2.2.1
    refine ⟨?_, ?_, fun h => ?_⟩
    · show p.l - 1 / 2 + (p.k + 1 / 2) ≤ 1; linarith
    · show 0 ≤ p.l - 1 / 2; linarith
    · have h : p.l - 1 / 2 + (p.k + 1 / 2) = 1 := h
      show (p.l - 1 / 2, p.k + 1 / 2) = (0, 1) ∨ (p.l - 1 / 2, p.k + 1 / 2) = (1 / 2, 1 / 2)
      rcases a3 (by linarith) with h | h
      · have h : (p.k, p.l) = (0, 1) := h
        simp only [Prod.mk.injEq] at h
        rw [h.1, h.2]; right; norm_num
      · have h : (p.k, p.l) = (1 / 2, 1 / 2) := h
        simp only [Prod.mk.injEq] at h
        rw [h.1, h.2]; left; norm_num

theorem flat_half (s t : Tr) (hst : (s = trA ∧ t = trB) ∨ (s = trB ∧ t = trA)) (d : List Ep) (nd : KeysNodup d) (h0 : (0, 1) ∈ d.map Ep.key)
    (hb : (1 / 2, 1 / 2) ∈ d.map Ep.key) (d1 : List Ep) (hd1 : applyTransforms [s, t] d = .ok d1)
    (hsub : ∀ key ∈ d.map Ep.key, key ∈ d1.map Ep.key) : ¬ Flat (d1.map Ep.key) := by
  intro hflat
  obtain ⟨_, _, a3, a4⟩ := applyTransforms_spec (fun _ => True) [s, t] (by simp) d d1 (by simp) nd hd1
  have ha : ((1 / 6 : ℚ), (2 / 3 : ℚ)) ∈ d1.map Ep.key :=
    a4 trA (by rcases hst with ⟨rfl, rfl⟩ | ⟨rfl, rfl⟩ <;> simp) (1 / 2, 1 / 2) hb _ (fA _ _ (1 / 6) (2 / 3) (by decide +kernel))
  have := hflat _ (hsub _ h0) _ (hsub _ hb) _ ha
  revert this; decide +kernel

theorem early_five (hull : List (ℚ × ℚ) → Py (List ℕ)) (hh : HullSpec hull) (s t : Tr)
    (hst : (s = trA ∧ t = trB) ∨ (s = trB ∧ t = trA)) (d : List Ep) (hd : ∀ e ∈ d, From [(0, 1)] e) (nd : KeysNodup d)
    (h0 : (0, 1) ∈ d.map Ep.key) :
    ∃ d', iterateN hull true [s, t] 5 d = .ok d' ∧ (∀ e ∈ d', From [(0, 1)] e) ∧ ¬ Flat (d'.map Ep.key) := by
  have hB : ∀ q ∈ [((0 : ℚ), (1 : ℚ))], InRegion q := fun q hq => region90 q (by rw [List.mem_singleton.mp hq]; decide +kernel)
  have hs : s = trA ∨ s = trB := by rcases hst with h | h <;> simp [h.1]
  have ht : t = trA ∨ t = trB := by rcases hst with h | h <;> simp [h.2]
  have hS : ∀ u : Tr, u = trA ∨ u = trB → u ∈ [trA, trB, trC] := by rintro u (rfl | rfl) <;> simp
  have P := fun d hd nd hf => passP (From [(0, 1)]) (fun _ h => h.region hB) (fun u hu p k l hp hq => From.step hB u hu p k l hp hq) hull hh s t hs ht d hd nd hf
  have first : ∃ d1, iterate hull true [s, t] d = .ok d1 ∧ (∀ e ∈ d1, From [(0, 1)] e) ∧ KeysNodup d1 ∧
      ∀ d2, applyTransforms [s, t] d1 = .ok d2 → (∀ key ∈ d1.map Ep.key, key ∈ d2.map Ep.key) → ¬ Flat (d2.map Ep.key) := by
    by_cases hb : (1 / 2, 1 / 2) ∈ d.map Ep.key
    · obtain ⟨d1, i1, v1, n1, f1, _⟩ := P d hd nd (flat_half s t hst d nd h0 hb)
      exact ⟨d1, i1, v1, n1, keep _ _ f1⟩
    · by_cases hq : ∃ e ∈ d, e.k + e.l ≠ 1
      · obtain ⟨e, he, hne⟩ := hq
        obtain ⟨d1, i1, v1, n1, f1, _⟩ := P d hd nd (by
          intro d1 hd1 hsub hflat
          obtain ⟨_, _, a3, a4⟩ := applyTransforms_spec (fun _ => True) [s, t] (by simp) d d1 (by simp) nd hd1
          have hb : ((1 / 2 : ℚ), (1 / 2 : ℚ)) ∈ d1.map Ep.key :=
            a4 trB (by rcases hst with ⟨rfl, rfl⟩ | ⟨rfl, rfl⟩ <;> simp) (0, 1) h0 _ (fB _ _ (1 / 2) (1 / 2) (by decide +kernel))
          have := hflat _ (hsub _ h0) _ hb _ (hsub _ (List.mem_map_of_mem he))
          have : area (0, 1) (1 / 2, 1 / 2) (e.k, e.l) = 0 := this
          unfold area at this
          apply hne
          simp only at this
          linarith)
        exact ⟨d1, i1, v1, n1, keep _ _ f1⟩
      · push Not at hq
        have hk : ∀ e ∈ d, e.key = (0, 1) := by
          intro e he
          rcases (onLine (hd e he)).2.2 (hq e he) with h | h
          · exact h
          · exact absurd (h ▸ List.mem_map_of_mem he) hb
        match d, hk, nd, h0, hd with
        | [], _, _, h0, _ => simp at h0
        | a :: b :: rest, hk, nd, _, _ =>
          exfalso
          unfold KeysNodup at nd
          rw [List.map_cons, List.nodup_cons] at nd
          apply nd.1
          have h1 := hk a (by simp)
          have h2 := hk b (by simp)
          exact List.mem_map.mpr ⟨b, by simp, h2.trans h1.symm⟩
        | [e], hk, nd, h0, hd =>
          have hek : e.key = (0, 1) := hk e (by simp)
          have h1 : e.k = 0 := congrArg Prod.fst hek
          have h2 : e.l = 1 := congrArg Prod.snd hek
          rcases hst with ⟨rfl, rfl⟩ | ⟨rfl, rfl⟩
          · have ha : applyTransforms [trA, trB] [e] = .ok [e, .derived 1 (1 / 2) (1 / 2) e] := by
              have tA : trA.apply e = .ok (.derived 0 0 1 e) := by
                unfold Tr.apply
                rw [show trA.f e.k e.l = .ok (0, 1) by rw [h1, h2]; decide +kernel]
                rfl
              have tB : trB.apply e = .ok (.derived 1 (1 / 2) (1 / 2) e) := by
                unfold Tr.apply
                rw [show trB.f e.k e.l = .ok (1 / 2, 1 / 2) by rw [h1, h2]; decide +kernel]
                rfl
              have k1 : hasKey [e] (Ep.key (.derived 0 0 1 e)) = true := by
                simp only [hasKey, List.any_cons, List.any_nil, Bool.or_false, decide_eq_true_eq]
                exact hek
              have k2 : hasKey [e] (Ep.key (.derived 1 (1 / 2) (1 / 2) e)) = false := by
                simp only [hasKey, List.any_cons, List.any_nil, Bool.or_false, decide_eq_false_iff_not]
                rw [hek]
                show ¬ ((0 : ℚ), (1 : ℚ)) = (1 / 2, 1 / 2)
                decide +kernel
              have k3 : dictSet [e] (.derived 1 (1 / 2) (1 / 2) e) = [e, .derived 1 (1 / 2) (1 / 2) e] := by
                have : ¬ e.key = Ep.key (.derived 1 (1 / 2) (1 / 2) e) := by
                  rw [hek]
                  show ¬ ((0 : ℚ), (1 : ℚ)) = (1 / 2, 1 / 2)
                  decide +kernel
                simp only [dictSet, if_neg this]
              simp only [applyTransforms, applyAll, tA, bind, Except.bind, k1, if_true, tB, k2, k3]
              simp
            have hi : iterate hull true [trA, trB] [e] = .ok [e, .derived 1 (1 / 2) (1 / 2) e] := by
              unfold iterate
              rw [ha]; rfl
            have hn : KeysNodup [e, .derived 1 (1 / 2) (1 / 2) e] := by
              unfold KeysNodup
              rw [List.map_cons, List.map_cons, List.map_nil, hek]
              show [((0 : ℚ), (1 : ℚ)), (1 / 2, 1 / 2)].Nodup
              decide +kernel
            refine ⟨_, hi, ?_, hn, flat_half trA trB (.inl ⟨rfl, rfl⟩) _ hn ?_ ?_⟩
            · intro x hx
              simp only [List.mem_cons, List.not_mem_nil, or_false] at hx
              rcases hx with rfl | rfl
              · exact hd _ (by simp)
              · exact From.step hB trB (.inr rfl) e _ _ (hd e (by simp)) (by rw [h1, h2]; decide +kernel)
            · rw [List.map_cons, hek]; simp
            · exact List.mem_map.mpr ⟨.derived 1 (1 / 2) (1 / 2) e, by simp, rfl⟩
          · obtain ⟨d1, i1, v1, n1, f1, _⟩ := P [e] hd nd (by
              intro d1 hd1 hsub hflat
              obtain ⟨_, _, _, a4⟩ := two_conv trB trA (by simp) (by simp) [e] d1 (fun e he => (hd e he).region hB) nd hd1
              have b1 := a4 _ (.point _ h0) _ (fB _ _ (1 / 2) (1 / 2) (by decide +kernel))
              have b2 := b1.2 _ (fA _ _ (1 / 6) (2 / 3) (by decide +kernel))
              refine not_flat3 (flat_of_inConv _ _ ?_ (flat_line _ hflat))
              intro q hq
              simp only [List.mem_cons, List.not_mem_nil, or_false] at hq
              rcases hq with rfl | rfl | rfl
              · exact .point _ (hsub _ h0)
              · exact b1.1
              · exact b2)
            exact ⟨d1, i1, v1, n1, keep _ _ f1⟩
  obtain ⟨d1, i1, v1, n1, f1⟩ := first
  obtain ⟨d2, i2, v2, n2, f2, _⟩ := P d1 v1 n1 f1
  obtain ⟨d3, i3, v3, n3, f3, _⟩ := P d2 v2 n2 (keep _ _ f2)
  obtain ⟨d4, i4, v4, n4, f4, _⟩ := P d3 v3 n3 (keep _ _ f3)
  obtain ⟨d5, i5, v5, n5, f5, _⟩ := P d4 v4 n4 (keep _ _ f4)
  exact ⟨d5, by simp only [iterateN, i1, i2, i3, i4, i5, bind, Except.bind], v5, f5⟩

/-! ### One year -/

/-- No bound on beta is in the set. -/
theorem no_beta (nodes : List (Node Lookup.Data)) (betaPairs : List Item → Py (List Ep)) (hb : NoBeta nodes betaPairs) (order : List Dated)
    (hp : order.Perm (assumed nodes)) (d : List Ep) (order' : List Dated) (hp' : order'.Perm (withComputed nodes order d)) (y : ℤ) :
    betaPairs (knownIn order' y) = .ok [] := by
  apply hb
  intro i n hi hn ht
  have hi := (perm_known hp' y).subset hi
  rw [knownIn_eq] at hi
  obtain ⟨x, hx, hxi⟩ := List.mem_map.mp hi
  have hx := (List.mem_filter.mp hx).1
  rcases List.mem_append.mp hx with hx | hx
  · rcases List.mem_append.mp (hp.subset hx) with hx | hx
    · obtain ⟨e, he, rfl⟩ := List.mem_map.mp hx
      obtain ⟨he1, he2⟩ := List.mem_filter.mp he
      have hid : e.2 = i := by
        rcases item_cases e.1 e.2 with h | ⟨_, ⟨_, h⟩ | ⟨_, h⟩⟩
        · exact Item.other.inj (h.symm.trans hxi)
        · cases h.symm.trans hxi
        · cases h.symm.trans hxi
      have hen := List.mem_zipIdx_iff_getElem?.mp he1
      rw [hid, hn] at hen
      rw [← Option.some.inj hen] at he2
      unfold wanted at he2
      rw [ht] at he2
      revert he2; decide
    · rw [List.mem_singleton.mp hx] at hxi
      cases hxi
  · obtain ⟨e, _, rfl⟩ := List.mem_map.mp hx
    cases hxi

theorem pairs_from (nodes : List (Node Lookup.Data)) (hf : Facts nodes) (hf89 : Facts89 nodes) (order : List Dated) (hp : order.Perm (assumed nodes))
    (d : List Ep) (hd : ∀ e ∈ d, Derivable (pairsIn (order.map Dated.item)) (transformsIn (order.map Dated.item)) e) (order' : List Dated)
    (hp' : order'.Perm (withComputed nodes order d)) (y : ℤ) (h0 : -1 ≤ y) (h1 : y ≤ 1990) :
    (∀ e ∈ pairsIn (knownIn order' y), From (baseOf y) e) ∧ (y < 1920 → pairsIn (knownIn order' y) = [trivialPair]) := by
  have p1 : (pairsIn (knownIn order' y)).Perm (pairsIn (knownIn (withComputed nodes order d) y)) := (perm_known hp' y).filterMap _
  have p2 := p1.trans (withComputed_perm nodes hp d y).2
  constructor
  · intro e he
    rcases List.mem_append.mp (p2.subset he) with he | he
    · obtain ⟨i, k, l, rfl, h⟩ := mem_pairs nodes hf89 (hypotheses nodes) (List.Perm.refl _) y h0 h1 e he
      exact .known i k l h
    · obtain ⟨he, hk⟩ := List.mem_filter.mp he
      obtain ⟨⟨v, g1, g2, g3⟩, _⟩ := good_derived nodes hf89 order hp e (hd e (List.mem_filter.mp he).1)
      rw [g1] at hk
      exact g3 y (known_of_yr hk) h1
  · intro hy
    have : (d.filter (fun e => e ∉ pairsIn (order.map Dated.item))).filter (fun e => known y (yearOf nodes e)) = [] := by
      rw [List.filter_eq_nil_iff]
      intro e he hk
      obtain ⟨he1, he2⟩ := List.mem_filter.mp he
      obtain ⟨_, h | ⟨v, g1, g2⟩⟩ := good_derived nodes hf89 order hp e (hd e he1)
      · exact (of_decide_eq_true he2) h
      · rw [g1] at hk
        have := known_of_yr hk
        omega
    rw [this, List.append_nil, pairs_known nodes hf y h0 (by omega)] at p2
    exact List.perm_singleton.mp p2

theorem year_result (nodes : List (Node Lookup.Data)) (hf : Facts nodes) (hf89 : Facts89 nodes) (hull : List (ℚ × ℚ) → Py (List ℕ))
    (inHull : List (ℚ × ℚ) → ℚ × ℚ → Bool) (cx : Ep → ℕ) (betaPairs : List Item → Py (List Ep)) (hh : HullSpec hull) (hin : InHullSpec inHull)
    (hb : NoBeta nodes betaPairs) (order : List Dated) (hp : order.Perm (assumed nodes))
    (d : List Ep) (hd : ∀ e ∈ d, Derivable (pairsIn (order.map Dated.item)) (transformsIn (order.map Dated.item)) e) (order' : List Dated)
    (hp' : order'.Perm (withComputed nodes order d)) (y : ℤ) (h0 : -1 ≤ y) (h1 : y ≤ 1990) :
    ∃ r, attempt hull inHull cx betaPairs (3 / 40) (31 / 40) (knownIn order' y) = .ok r ∧ (r = .none ∨ Rests (baseOf y) (3 / 40) (31 / 40) r) ∧
      (1989 ≤ y → r ≠ .none) := by
  have hbeta := no_beta nodes betaPairs hb order hp d order' hp' y
  obtain ⟨hpairs, hsmall⟩ := pairs_from nodes hf hf89 order hp d hd order' hp' y h0 h1
  have htrans : (transformsIn (knownIn order' y)).Perm (if 1920 ≤ y then [trA, trB] else []) := by
    have h : (transformsIn (knownIn order' y)).Perm (transformsIn (knownIn (withComputed nodes order d) y)) := (perm_known hp' y).filterMap _
    have := h.trans (withComputed_perm nodes hp d y).1
    rwa [transforms_known nodes hf y h0 (by omega)] at this
  have hsub : ∀ key ∈ (pairsIn (knownIn (hypotheses nodes) y)).map Ep.key, key ∈ (pairsIn (knownIn order' y)).map Ep.key := by
    have h : (pairsIn (knownIn order' y)).Perm (pairsIn (knownIn (withComputed nodes order d) y)) := (perm_known hp' y).filterMap _
    have h := (h.trans (withComputed_perm nodes hp d y).2).symm
    intro key hk
    obtain ⟨e, he, rfl⟩ := List.mem_map.mp hk
    exact List.mem_map_of_mem (h.subset (List.mem_append_left _ he))
  have htriv := hsub _ (has_trivial nodes (hypotheses nodes) (List.Perm.refl _) y h0)
  by_cases h2 : 1920 ≤ y
  · rw [if_pos h2] at htrans
    obtain ⟨s, t, hts, hst⟩ := two_orders htrans
    obtain ⟨e1, e2, e3⟩ := dictOf_spec (pairsIn (knownIn order' y))
    by_cases h3 : y ≤ 1987
    · have hbase : baseOf y = [(0, 1)] := by
        rcases baseOf_cases y with ⟨h, _⟩ | ⟨h, _⟩ | ⟨h, _⟩ | ⟨h, _⟩ <;> first | exact h | (exfalso; omega)
      obtain ⟨d', g1, g2, g3⟩ := early_five hull hh s t hst (dictOf (pairsIn (knownIn order' y))) (fun e he => hbase ▸ hpairs e (e1 e he)) e2
        ((e3 _).mpr htriv)
      obtain ⟨r, b1, _, b3⟩ := attempt_gen hull hh inHull hin cx betaPairs (knownIn order' y) hbeta (3 / 40, 31 / 40) (baseOf y) hpairs d'
        (by rw [hts]; exact g1) (fun e he => hbase ▸ g2 e he) g3
      exact ⟨r, b1, b3, fun h => by omega⟩
    · obtain ⟨d', g1, g2, g3, g4, g5⟩ := five (baseOf y) (fun q hq => region90 q (baseOf_sub y q hq)) hull hh s t hst
        (dictOf (pairsIn (knownIn order' y))) (fun e he => hpairs e (e1 e he)) e2 ((e3 _).mpr htriv)
        ((e3 _).mpr (hsub _ (has_pair nodes (hypotheses nodes) (List.Perm.refl _) y 1988 (by omega) (by omega) _ _ hf89.hw)))
      obtain ⟨r, b1, b2, b3⟩ := attempt_gen hull hh inHull hin cx betaPairs (knownIn order' y) hbeta (3 / 40, 31 / 40) (baseOf y) hpairs d'
        (by rw [hts]; exact g1) g2 g3
      refine ⟨r, b1, b3, fun h => b2 ?_⟩
      have hw := hsub _ (has_pair nodes (hypotheses nodes) (List.Perm.refl _) y 1989 (by omega) h _ _ hf89.watt)
      have hA := g5 _ (.point _ ((e3 _).mpr hw)) _ (fA _ _ (89 / 1298) (509 / 649) (by decide +kernel))
      have hABA := hA.2 _ (fB _ _ (369 / 1298) (369 / 649) (by decide +kernel)) _ (fA _ _ (369 / 3334) (2405 / 3334) (by decide +kernel))
      exact target _ (g4 _ (.point _ ((e3 _).mpr htriv))) hA.1 hABA
  · rw [if_neg h2, List.perm_nil] at htrans
    exact ⟨.none, attempt_before hull inHull hin cx betaPairs _ hbeta (hsmall (by omega)) htrans (3 / 40, 31 / 40) (by decide +kernel), .inl rfl,
      fun h => by omega⟩

theorem years_ok (nodes : List (Node Lookup.Data)) (hf : Facts nodes) (hf89 : Facts89 nodes) (order : List Dated) (hp : order.Perm (assumed nodes))
    (d : List Ep) (hd : ∀ e ∈ d, Derivable (pairsIn (order.map Dated.item)) (transformsIn (order.map Dated.item)) e) (order' : List Dated)
    (hp' : order'.Perm (withComputed nodes order d)) :
    (∀ z ∈ yearsOf order', ∃ v : ℤ, z = (v : WithTop ℤ) ∧ -1 ≤ v) ∧ ((-1 : ℤ) : WithTop ℤ) ∈ yearsOf order' := by
  refine ⟨fun z hz => ?_, ?_⟩
  · obtain ⟨x, hx, hxz⟩ := List.mem_filterMap.mp hz
    rcases List.mem_append.mp (hp'.subset hx) with hx | hx
    · rcases List.mem_append.mp (hp.subset hx) with hx | hx
      · obtain ⟨e, he, rfl⟩ := List.mem_map.mp hx
        exact hf.years e.1 (List.fst_mem_of_mem_zipIdx (List.mem_filter.mp he).1) z hxz
      · rw [List.mem_singleton.mp hx] at hxz
        exact ⟨-1, (Option.some.inj hxz).symm, le_rfl⟩
    · obtain ⟨e, he, rfl⟩ := List.mem_map.mp hx
      obtain ⟨⟨v, g1, g2, _⟩, _⟩ := good_derived nodes hf89 order hp e (hd e (List.mem_filter.mp he).1)
      have hxz : yearOf nodes e = some z := hxz
      rw [g1] at hxz
      exact ⟨v, (Option.some.inj hxz).symm, g2⟩
  · exact List.mem_filterMap.mpr ⟨⟨Reference.trivial.year, .pair trivialPair⟩, hp'.symm.subset (List.mem_append_left _ (hp.symm.subset
      (List.mem_append_right _ (by simp)))), rfl⟩

/-! ### The computed pairs exist -/

/-- With some of the transforms A, B and C in any order, the pruning raises nothing if the pairs are not on one line. -/
theorem total_nonflat (hull : List (ℚ × ℚ) → Py (List ℕ)) (hh : HullSpec hull) (ts : List Tr) (hts : ∀ t ∈ ts, t ∈ [trA, trB, trC]) :
    ∀ (n : ℕ) (d : List Ep), (∀ e ∈ d, InRegion (e.k, e.l)) → KeysNodup d → ¬ Flat (d.map Ep.key) → ∃ d', iterateN hull true ts n d = .ok d' := by
  have happ : ∀ ts : List Tr, (∀ t ∈ ts, t ∈ [trA, trB, trC]) → ∀ d : List Ep, (∀ e ∈ d, InRegion (e.k, e.l)) → ∃ d1, applyTransforms ts d = .ok d1 := by
    intro ts
    induction ts with
    | nil => exact fun _ d _ => ⟨d, rfl⟩
    | cons t ts ih =>
      intro h d hd
      obtain ⟨d2, e2, p2⟩ := applyAll_total (fun e => InRegion (e.k, e.l)) t (by
        intro p hp
        have ht := h t List.mem_cons_self
        simp only [List.mem_cons, List.not_mem_nil, or_false] at ht
        rcases ht with rfl | rfl | rfl
        · exact C30_A p.k p.l hp
        · exact C30_B p.k p.l hp
        · exact C30_C p.k p.l hp) d d hd hd
      obtain ⟨d1, e1⟩ := ih (fun t ht => h t (List.mem_cons_of_mem _ ht)) d2 p2
      exact ⟨d1, by simp only [applyTransforms, e2, bind, Except.bind, e1]⟩
  intro n
  induction n with
  | zero => exact fun d _ _ _ => ⟨d, rfl⟩
  | succ n ih =>
    intro d hd nd hf
    obtain ⟨d1, ha⟩ := happ ts hts d hd
    obtain ⟨a1, a2, a3, _⟩ := applyTransforms_spec (fun e => InRegion (e.k, e.l)) ts
      (fun t ht p k l hp hq => region_step t (hts t ht) p k l hp hq) d d1 hd nd ha
    have hf1 := keep ts d hf d1 ha a3
    have hit : ∃ d', iterate hull true ts d = .ok d' := by
      unfold iterate
      rw [ha]
      simp only [bind, Except.bind, if_true]
      split
      · exact ⟨_, rfl⟩
      · obtain ⟨idx, vs, h1, h2, _⟩ := hh.ok _ hf1
        obtain ⟨es, h5, _⟩ := Hull.pick_map Ep.key d1 idx vs h2
        rw [h1]
        exact ⟨_, by simp only [h5]; rfl⟩
    obtain ⟨d2, hd2⟩ := hit
    obtain ⟨c1, c2, c3, _⟩ := iterate_prune hull hh ts d d1 d2 ha a2 hd2
    obtain ⟨d', hd'⟩ := ih d2 (fun e he => a1 e (c2 e he)) c3 (fun hflat => hf1 (flat_of_inConv _ _ c1 (flat_line _ hflat)))
    exact ⟨d', by simp only [iterateN, hd2, bind, Except.bind, hd']⟩

theorem others_region : (match Lookup.others with
    | .ok l => l.all (fun n => match n.data with | .pair k l => decide (0 ≤ k ∧ k ≤ 1 / 2 ∧ 1 / 2 ≤ l ∧ l ≤ 1) | _ => true)
    | .error _ => false) = true := by decide +kernel

theorem pairs_region (nodes : List (Node Lookup.Data)) (hl : Lookup.literature = .ok nodes) :
    ∀ e ∈ pairsIn ((assumed nodes).map Dated.item), InRegion (e.k, e.l) := by
  obtain ⟨bs, os, nodes', hb, ho, hl', hn, -⟩ := Lookup.literature_eq
  rw [hl] at hl'
  cases hl'
  have hbeta := BestProof.beta_nodes (Lookup.betaCalls_ok 20) hb
  have h1 := others_region
  rw [ho] at h1
  simp only [List.all_eq_true] at h1
  intro e he
  obtain ⟨it, hit, hit'⟩ := List.mem_filterMap.mp he
  have hit' : asPair it = some e := hit'
  obtain ⟨dt, hdt, rfl⟩ := List.mem_map.mp hit
  rcases List.mem_append.mp hdt with hdt | hdt
  · obtain ⟨x, hx, rfl⟩ := List.mem_map.mp hdt
    have hx1 := List.fst_mem_of_mem_zipIdx (List.mem_filter.mp hx).1
    obtain ⟨k, l, hd, rfl⟩ := pair_item hit'
    rw [hn] at hx1
    rcases List.mem_append.mp hx1 with hx1 | hx1
    · obtain ⟨_, ⟨b, hb'⟩, _⟩ := hbeta _ hx1
      rw [hd] at hb'; cases hb'
    · have := h1 _ hx1
      rw [hd] at this
      have : 0 ≤ k ∧ k ≤ 1 / 2 ∧ 1 / 2 ≤ l ∧ l ≤ 1 := of_decide_eq_true this
      exact this
  · rw [List.mem_singleton.mp hdt] at hit'
    rw [← Option.some.inj hit']
    exact ⟨by decide +kernel, by decide +kernel, by decide +kernel, by decide +kernel⟩

/-- The set of the example gives the pairs to be added, in whatever order it is listed. -/
theorem computed_ok (nodes : List (Node Lookup.Data)) (hl : Lookup.literature = .ok nodes) (hf89 : Facts89 nodes) (hull : List (ℚ × ℚ) → Py (List ℕ))
    (hh : HullSpec hull) (order : List Dated) (hp : order.Perm (assumed nodes)) : ∃ d, computed hull order = .ok d := by
  have p1 : (pairsIn (order.map Dated.item)).Perm (pairsIn ((assumed nodes).map Dated.item)) := (hp.map _).filterMap _
  have p2 : (transformsIn (order.map Dated.item)).Perm (transformsIn ((assumed nodes).map Dated.item)) := (hp.map _).filterMap _
  obtain ⟨e1, e2, e3⟩ := dictOf_spec (pairsIn (order.map Dated.item))
  have hmem : ∀ k l v, (∃ n ∈ nodes, n.htype = "Exponent pair" ∧ n.data = .pair k l ∧ n.ref.year = LitMu.yr v) →
      (k, l) ∈ (dictOf (pairsIn (order.map Dated.item))).map Ep.key := by
    rintro k l v ⟨n, hn, ht, hd, _⟩
    obtain ⟨i, hi⟩ := List.getElem?_of_mem hn
    have hit : itemOf n i = .pair (.known (i + 1) k l) := by
      unfold itemOf
      rw [hd]
      simp only [ht, if_true]
    rw [e3]
    have : Ep.known (i + 1) k l ∈ pairsIn (order.map Dated.item) := p1.symm.subset (List.mem_filterMap.mpr ⟨_, List.mem_map.mpr ⟨_,
      List.mem_append_left _ (List.mem_map.mpr ⟨(n, i), List.mem_filter.mpr ⟨List.mem_zipIdx_iff_getElem?.mpr hi, by unfold wanted; rw [ht]; decide⟩, rfl⟩),
      hit⟩, rfl⟩)
    exact List.mem_map.mpr ⟨_, this, rfl⟩
  have h0 : ((0 : ℚ), (1 : ℚ)) ∈ (dictOf (pairsIn (order.map Dated.item))).map Ep.key := by
    rw [e3]
    have : trivialPair ∈ pairsIn (order.map Dated.item) := p1.symm.subset (List.mem_filterMap.mpr ⟨.pair trivialPair, List.mem_map.mpr ⟨_,
      List.mem_append_right _ (List.mem_singleton.mpr rfl), rfl⟩, rfl⟩)
    exact List.mem_map.mpr ⟨_, this, rfl⟩
  refine total_nonflat hull hh _ (fun t ht => ?_) 5 _ (fun e he => pairs_region nodes hl e (p1.subset (e1 e he))) e2 (fun hflat => ?_)
  · rcases three nodes t (p2.subset ht) with rfl | rfl | rfl <;> simp
  · have := hflat _ h0 _ (hmem _ _ _ hf89.hw) _ (hmem _ _ _ hf89.watt)
    revert this; decide +kernel

/-- **C112.** The search for the earliest proof of `(3/40, 31/40)` in `exp_pair_examples` (examples.py:118-120) finds a proof that rests on the trivial pair, the
pairs `(9/56, 37/56)` of 1988 and `(89/560, 369/560)` of 1989, A and B only, although the set also holds everything that `compute_exp_pairs` derives from all the
pairs of the literature and the transforms A, B and C; and no proof rests on the two older pairs alone. `order` and `order'` are the orders in which python
iterates over the set before and after the computed pairs are added, and neither step raises an exception. The convex hull of scipy, the membership test of the polytope, the complexity of proofs and
the conversion of bounds on beta are parameters. -/
theorem C112_earliest : ∃ nodes, Lookup.literature = .ok nodes ∧
    ∀ (hull : List (ℚ × ℚ) → Py (List ℕ)) (inHull : List (ℚ × ℚ) → ℚ × ℚ → Bool) (cx : Ep → ℕ) (betaPairs : List Item → Py (List Ep)),
      HullSpec hull → InHullSpec inHull → NoBeta nodes betaPairs → ∀ order : List Dated, order.Perm (assumed nodes) →
        ∃ d, computed hull order = .ok d ∧ ∀ order' : List Dated, order'.Perm (withComputed nodes order d) →
          ∃ r, earliest hull inHull cx betaPairs order' = .ok r ∧ Rests base89 (3 / 40) (31 / 40) r ∧
            ∀ r', ¬ Rests base88 (3 / 40) (31 / 40) r' := by
  obtain ⟨nodes, hl, hf, hf89, -⟩ := facts89
  refine ⟨nodes, hl, fun hull inHull cx betaPairs hh hin hb order hp => ?_⟩
  obtain ⟨d, hd⟩ := computed_ok nodes hl hf89 hull hh order hp
  refine ⟨d, hd, fun order' hp' => ?_⟩
  have hd := (C31_sound hull _ _ 5 true d hd).1
  have Y := year_result nodes hf hf89 hull inHull cx betaPairs hh hin hb order hp d hd order' hp'
  obtain ⟨z1, z2⟩ := years_ok nodes hf hf89 order hp d hd order' hp'
  obtain ⟨n, hn, ht, hdat, hy⟩ := hf89.watt
  obtain ⟨i, hi⟩ := List.getElem?_of_mem hn
  have hitem : itemOf n i = .pair (.known (i + 1) (89 / 560) (369 / 560)) := by
    unfold itemOf
    rw [hdat]
    simp only [ht, if_true]
  have hmem : (⟨n.ref.year, itemOf n i⟩ : Dated) ∈ order' := hp'.symm.subset (List.mem_append_left _ (hp.symm.subset (List.mem_append_left _
    (List.mem_map.mpr ⟨(n, i), List.mem_filter.mpr ⟨List.mem_zipIdx_iff_getElem?.mpr hi, by unfold wanted; rw [ht]; decide⟩, rfl⟩))))
  have hw : Item.pair (.known (i + 1) (89 / 560) (369 / 560)) ∈ knownIn order' 1989 := by
    rw [knownIn_eq, ← hitem]
    exact List.mem_map.mpr ⟨_, List.mem_filter.mpr ⟨hmem, by show known 1989 n.ref.year = true; rw [hy]; exact known_yr le_rfl⟩, rfl⟩
  obtain ⟨r, a1, a2, a4⟩ := Y 1989 (by norm_num) (by norm_num)
  obtain ⟨y, b1, b2, b3, b4⟩ := search (attempt hull inHull cx betaPairs (3 / 40) (31 / 40)) order' 1989
    (by rw [a1]; exact fun h => a4 le_rfl (Except.ok.inj h)) z1 z2
    (List.mem_filterMap.mpr ⟨_, hmem, hy⟩) (by norm_num) (by
      intro y h0 h1
      obtain ⟨r, c1, _⟩ := Y y h0 (by omega)
      refine ⟨⟨r, c1⟩, ?_⟩
      have hsub := known_sublist order' h1.le
      rcases lt_or_eq_of_le hsub.length_le with h | h
      · exact h
      · exfalso
        rw [← hsub.eq_of_length h] at hw
        have := (pairs_from nodes hf hf89 order hp d hd order' hp' y h0 (by omega)).1 _ (List.mem_filterMap.mpr ⟨_, hw, rfl⟩)
        cases this with
        | known _ _ _ h =>
          revert h
          rcases baseOf_cases y with ⟨h, _⟩ | ⟨h, _⟩ | ⟨h, _⟩ | ⟨h, _⟩ <;> rw [h] <;> first | (exfalso; omega) | decide +kernel)
  obtain ⟨r, c1, c2, _⟩ := Y y b1 (by omega)
  rw [c1] at b3
  have hr := c2.resolve_left (fun h => b3 (by rw [h]))
  refine ⟨r, b4.trans c1, hr.mono ?_, no_earlier⟩
  rcases baseOf_cases y with ⟨h, _⟩ | ⟨h, _⟩ | ⟨h, _⟩ | ⟨h, _⟩ <;> rw [h] <;> first | (exfalso; omega) | decide +kernel

/-- C112 applies: with the set in the order of the literature and the extended set in the reverse order. -/
example : ∃ nodes hull inHull d r, Lookup.literature = .ok nodes ∧ HullSpec hull ∧ InHullSpec inHull ∧ computed hull (assumed nodes) = .ok d ∧
    earliest hull inHull (fun _ => 1) (fun _ => .ok []) (withComputed nodes (assumed nodes) d).reverse = .ok r ∧ Rests base89 (3 / 40) (31 / 40) r := by
  classical
  obtain ⟨nodes, h1, h2⟩ := C112_earliest
  obtain ⟨hull, hs⟩ := hullSpec_satisfiable
  have hin : InHullSpec (fun ps p => decide (InConv ps p)) := by intro ps p; simp
  obtain ⟨d, hd, h2⟩ := h2 hull _ (fun _ => 1) (fun _ => .ok []) hs hin (fun _ _ => rfl) _ (List.Perm.refl _)
  obtain ⟨r, h3, h4, _⟩ := h2 _ (List.reverse_perm _)
  exact ⟨nodes, hull, _, d, r, h1, hs, hin, hd, h3, h4⟩

end Example
end BestProof
end Expdb
