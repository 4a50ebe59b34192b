import Verif.Props.LargeValueRegion
import Verif.Props.SupRatio
import Verif.Props.LargeValues

/-!
# Property C66: zero density estimates from large value estimates
-/

namespace Expdb
namespace ZeroDensity

open Rational SupRatio Mat Region

/-! ### Two suprema -/

/-- What is used of the result of `compute_sup_rho_on_tau` for the polytopes `ps`. -/
structure SupOut (edges : Mat → List (Pt × Pt)) (D : Ival ℝ) (ps : List Mat) (o : List (Rational.Piece ℝ)) : Prop where
  args : ∀ p ∈ o, ArgOk (p.fn, p.dom)
  fns : ∀ p ∈ o, p.fn = RF.make [-1000000] none ∨ ∃ m ∈ ps, ∃ s1 t1 r1 s2 t2 r2, ([s1, t1, r1], [s2, t2, r2]) ∈ edges m ∧
    s1 ≠ s2 ∧ p.fn = quotient (alongEdge s1 r1 s2 r2) (alongEdge s1 t1 s2 t2)
  le : ∀ s : ℚ, D.x0 ≤ s → (s : ℝ) < D.x1 → ∀ v ∈ Ratios ps s, ∃ p ∈ o, p.dom.x0 ≤ s ∧ s < p.dom.x1 ∧ v ≤ p.fn.at s
  val : ∀ s : ℚ, D.x0 ≤ s → (s : ℝ) < D.x1 → ∀ p ∈ o, p.dom.x0 ≤ s → s < p.dom.x1 →
    p.fn.at s = -1000000 ∨ p.fn.at s ∈ Ratios ps s

theorem supOut_nil (edges : Mat → List (Pt × Pt)) (D : Ival ℝ) : SupOut edges D [] [] := by
  refine ⟨by simp, by simp, ?_, by simp⟩
  rintro s _ _ v ⟨p, hp, _⟩
  simp at hp

theorem supOut_chain (edges : Mat → List (Pt × Pt)) (solve : RF ℝ → RF ℝ → List ℝ) (hs : SolveSpec solve)
    (isZero : Expr ℝ → Bool) (hz : ZeroSpec isZero) (polys : List Mat) (D : Ival ℝ) (hD : D.x0 < D.x1)
    (hp : ∀ p ∈ polys, EdgesSpec edges p ∧ p.cols = 4 ∧ ∀ s t r, p.Contains [s, t, r] → 0 < t) :
    ∃ out, supRhoOnTau edges solve isZero polys D = .ok out ∧ SupOut edges D polys out ∧ Chain D.x0 D.x1 out := by
  obtain ⟨out, h1, h2⟩ := C41_sup_partial edges solve hs isZero hz polys D hD hp
  have shape : ∀ p ∈ polys, ∀ v, p.Contains v → ∃ a b c, v = [a, b, c] := by
    intro p hp' v hv
    have := Mat.contains_length hv
    rw [(hp p hp').2.1] at this
    match v, this with
    | [a, b, c], _ => exact ⟨a, b, c, rfl⟩
  obtain ⟨fs, e1, e2, _⟩ := edgeLoop_spec (polys.flatMap edges) (by
    intro e he
    obtain ⟨p, hp', he⟩ := List.mem_flatMap.mp he
    obtain ⟨k1, k2⟩ := (hp p hp').1.ends e he
    obtain ⟨_, _, _, e1⟩ := shape p hp' _ k1
    obtain ⟨_, _, _, e2⟩ := shape p hp' _ k2
    rw [e1, e2]
    exact ⟨rfl, rfl⟩) []
  have hfs : ∀ f ∈ fs, ArgOk f := by
    intro f hf
    obtain ⟨e, he, s1, t1, r1, s2, t2, r2, rfl, hne, rfl⟩ := e2 f hf
    obtain ⟨p, hp', he⟩ := List.mem_flatMap.mp he
    obtain ⟨k1, k2⟩ := (hp p hp').1.ends _ he
    exact quotient_def _ _ _ _ _ _ ((hp p hp').2.2 _ _ _ k1) ((hp p hp').2.2 _ _ _ k2) hne
  have hout : out = rfMax solve isZero fs D true := by
    unfold supRhoOnTau at h1
    rw [e1] at h1
    exact (Except.ok.inj h1).symm
  obtain ⟨c1, c2⟩ := C08_max_partial solve hs isZero hz fs hfs D hD
  rw [← hout] at c1 c2
  refine ⟨out, h1, ⟨fun p hp' x l1 l2 => ((c2 p hp').2.2 x l1 l2).1, ?_, ?_, ?_⟩, c1⟩
  · intro p hp'
    rcases (c2 p hp').2.1 with ⟨_, k⟩ | ⟨i, _, J, k, _⟩
    · exact .inl k
    · right
      obtain ⟨e, he, s1, t1, r1, s2, t2, r2, rfl, hne, ef⟩ := e2 _ (List.mem_of_getElem? k)
      obtain ⟨m, hm, he⟩ := List.mem_flatMap.mp he
      exact ⟨m, hm, s1, t1, r1, s2, t2, r2, he, hne, congrArg Prod.fst ef⟩
  · intro s l1 l2 v hv
    obtain ⟨q, q1, q2, q3, _, q4⟩ := h2 s l1 l2
    exact ⟨q, q1, q2, q3, q4.2 (.inr hv)⟩
  · intro s l1 l2 p hp' k1 k2
    obtain ⟨q, _, _, _, q3, q4⟩ := h2 s l1 l2
    rw [q3 p hp' k1 k2]
    exact q4.1

theorem supOut_of_sup (edges : Mat → List (Pt × Pt)) (solve : RF ℝ → RF ℝ → List ℝ) (hs : SolveSpec solve)
    (isZero : Expr ℝ → Bool) (hz : ZeroSpec isZero) (polys : List Mat) (D : Ival ℝ) (hD : D.x0 < D.x1)
    (hp : ∀ p ∈ polys, EdgesSpec edges p ∧ p.cols = 4 ∧ ∀ s t r, p.Contains [s, t, r] → 0 < t) :
    ∃ out, supRhoOnTau edges solve isZero polys D = .ok out ∧ SupOut edges D polys out := by
  obtain ⟨out, h1, h2, _⟩ := supOut_chain edges solve hs isZero hz polys D hD hp
  exact ⟨out, h1, h2⟩

/-- Along the line through any edge of the polytopes, `tau` and `rho` do not both vanish at a `sigma` in the interval. -/
def NoPole (edges : Mat → List (Pt × Pt)) (ps : List Mat) (D : Ival ℝ) : Prop :=
  ∀ m ∈ ps, ∀ s1 t1 r1 s2 t2 r2, ([s1, t1, r1], [s2, t2, r2]) ∈ edges m → s1 ≠ s2 → ∀ x : ℝ, D.x0 ≤ x → x < D.x1 →
    t1 * (x - s2) = t2 * (x - s1) → r1 * (x - s2) ≠ r2 * (x - s1)

theorem default_def (c x : ℝ) : (RF.make [c] none : RF ℝ).Def x := by
  unfold RF.Def RF.make
  simp [polyExpr, polyLoop, Expr.eval]

theorem quotient_values (s1 t1 r1 s2 t2 r2 : ℚ) (h : s1 ≠ s2) (x : ℝ) :
    (quotient (alongEdge s1 r1 s2 r2) (alongEdge s1 t1 s2 t2) : RF ℝ).num.eval x = (r1 * (x - s2) - r2 * (x - s1)) / (s1 - s2) ∧
    (quotient (alongEdge s1 r1 s2 r2) (alongEdge s1 t1 s2 t2) : RF ℝ).den.eval x = (t1 * (x - s2) - t2 * (x - s1)) / (s1 - s2) := by
  have hd : (s1 : ℝ) - s2 ≠ 0 := sub_ne_zero.mpr (by exact_mod_cast h)
  unfold quotient
  simp only [Expr.eval]
  rw [(alongEdge_eval s1 r1 s2 r2 _).2, (alongEdge_eval s1 t1 s2 t2 _).2, (alongEdge_eval s1 t1 s2 t2 _).1,
    (alongEdge_eval s1 r1 s2 r2 _).1]
  push_cast
  constructor <;> field_simp <;> ring

theorem noCommonZero_of_noPole {edges : Mat → List (Pt × Pt)} {D : Ival ℝ} {ps : List Mat} {o : List (Rational.Piece ℝ)}
    (h : SupOut edges D ps o) (hpole : NoPole edges ps D) : ∀ p ∈ o, ∀ x, D.x0 ≤ x → x < D.x1 → p.fn.NoCommonZero x := by
  intro p hp x l1 l2
  rcases h.fns p hp with k | ⟨m, hm, s1, t1, r1, s2, t2, r2, he, hne, k⟩
  · rw [k]; exact .inl (default_def _ _)
  · rw [k]
    obtain ⟨e1, e2⟩ := quotient_values s1 t1 r1 s2 t2 r2 hne x
    have hd : (s1 : ℝ) - s2 ≠ 0 := sub_ne_zero.mpr (by exact_mod_cast hne)
    unfold RF.NoCommonZero RF.Def
    rw [e1, e2, or_iff_not_imp_left, not_not, div_eq_zero_iff, Ne, div_eq_zero_iff]
    rintro (h0 | h0)
    · rintro (h1 | h1)
      · exact hpole m hm _ _ _ _ _ _ he hne x l1 l2 (by linarith) (by linarith)
      · exact hd h1
    · exact absurd h0 hd

theorem max2_core {edges : Mat → List (Pt × Pt)} {solve : RF ℝ → RF ℝ → List ℝ} (hs : SolveSpec solve)
    {isZero : Expr ℝ → Bool} (hz : ZeroSpec isZero) {D : Ival ℝ} (hD : D.x0 < D.x1) {ps1 ps2 : List Mat}
    {o1 o2 : List (Rational.Piece ℝ)} (h1 : SupOut edges D ps1 o1) (h2 : SupOut edges D ps2 o2) (track : Bool)
    (hpole : track = false → ∀ p ∈ o1 ++ o2, ∀ x, D.x0 ≤ x → x < D.x1 → p.fn.NoCommonZero x) (s : ℚ) (hs1 : D.x0 ≤ s)
    (hs2 : (s : ℝ) < D.x1) :
    ∃ q ∈ rfMax solve isZero (funcDomains o1 ++ funcDomains o2) D track, q.dom.x0 ≤ s ∧ s < q.dom.x1 ∧
      (∀ q' ∈ rfMax solve isZero (funcDomains o1 ++ funcDomains o2) D track, q'.dom.x0 ≤ s → s < q'.dom.x1 → q' = q) ∧
      IsGreatest ({-1000000} ∪ Ratios (ps1 ++ ps2) s) (q.fn.at s) := by
  have hfs : ∀ t ∈ funcDomains o1 ++ funcDomains o2, ArgOk t := by
    intro t ht
    rcases List.mem_append.mp ht with ht | ht
    · obtain ⟨p, hp, rfl⟩ := List.mem_map.mp ht
      exact h1.args p hp
    · obtain ⟨p, hp, rfl⟩ := List.mem_map.mp ht
      exact h2.args p hp
  have hdef : track = false → ∀ x, D.x0 ≤ x → x < D.x1 → ∀ t ∈ funcDomains o1 ++ funcDomains o2, t.1.NoCommonZero x := by
    intro htr x l1 l2 t ht
    rcases List.mem_append.mp ht with ht | ht
    · obtain ⟨p, hp, rfl⟩ := List.mem_map.mp ht
      exact hpole htr p (by simp [hp]) x l1 l2
    · obtain ⟨p, hp, rfl⟩ := List.mem_map.mp ht
      exact hpole htr p (by simp [hp]) x l1 l2
  obtain ⟨q, g1, g2, g3, g4, g5⟩ := C08_max_value_partial solve hs isZero hz _ hfs D hD track hdef s hs1 hs2
  refine ⟨q, g1, g2, g3, g4, ?_, ?_⟩
  · have lift1 : ∀ v, v ∈ Ratios ps1 s → v ∈ Ratios (ps1 ++ ps2) s := by
      rintro v ⟨p, hp, h⟩
      exact ⟨p, by simp [hp], h⟩
    have lift2 : ∀ v, v ∈ Ratios ps2 s → v ∈ Ratios (ps1 ++ ps2) s := by
      rintro v ⟨p, hp, h⟩
      exact ⟨p, by simp [hp], h⟩
    rcases g5.1 with h | ⟨t, ht, k1, k2, h⟩
    · exact .inl h
    · rw [h]
      rcases List.mem_append.mp ht with ht | ht
      · obtain ⟨p, hp, rfl⟩ := List.mem_map.mp ht
        exact (h1.val s hs1 hs2 p hp k1 k2).imp id (lift1 _)
      · obtain ⟨p, hp, rfl⟩ := List.mem_map.mp ht
        exact (h2.val s hs1 hs2 p hp k1 k2).imp id (lift2 _)
  · rintro v (hv | ⟨p, hp, hv⟩)
    · rw [Set.mem_singleton_iff] at hv
      subst hv
      exact g5.2 (.inl rfl)
    · rcases List.mem_append.mp hp with hp | hp
      · obtain ⟨q', a1, a2, a3, a4⟩ := h1.le s hs1 hs2 v ⟨p, hp, hv⟩
        exact a4.trans (g5.2 (.inr ⟨(q'.fn, q'.dom), List.mem_append_left _ (List.mem_map.mpr ⟨q', a1, rfl⟩), a2, a3, rfl⟩))
      · obtain ⟨q', a1, a2, a3, a4⟩ := h2.le s hs1 hs2 v ⟨p, hp, hv⟩
        exact a4.trans (g5.2 (.inr ⟨(q'.fn, q'.dom), List.mem_append_right _ (List.mem_map.mpr ⟨q', a1, rfl⟩), a2, a3, rfl⟩))

/-! ### C66 -/

/-- The triples `(sigma, tau, rho)` with `sigma` in `[x0, x1]`, `tau` in `[a, b]` and `rho` in `[0, 1000000]` that are in all regions. -/
def Allowed (x0 x1 a b : ℚ) (rs : List (Region ℕ)) (x : Pt) : Prop :=
  ∃ s t r, x = [s, t, r] ∧ (x0 ≤ s ∧ s ≤ x1) ∧ (a ≤ t ∧ t ≤ b) ∧ (0 ≤ r ∧ r ≤ 1000000) ∧ ∀ R ∈ rs, R.Mem x

/-- `(s, t, r)` is a limit of interior points of `S` with larger first coordinate. -/
def RightLimit (S : Pt → Prop) (s t r : ℚ) : Prop :=
  ∀ ε : ℚ, 0 < ε → ∃ s' t' r', Near ε [s, t, r] [s', t', r'] ∧ s < s' ∧ ∃ δ : ℚ, 0 < δ ∧ ∀ z, Near δ [s', t', r'] z → S z

theorem allowed_iff (x0 x1 a b : ℚ) (rs : List (Region ℕ)) (x : Pt) :
    Allowed x0 x1 a b rs x ↔ ∀ R ∈ Region.polytope (ZeroDensity.box3 x0 x1 a b 0 1000000) none :: rs, R.Mem x := by
  simp only [List.mem_cons, forall_eq_or_imp, Mem]
  rw [ZeroDensity.box3_contains]
  constructor
  · rintro ⟨s, t, r, rfl, h1, h2, h3, h4⟩
    exact ⟨⟨s, t, r, rfl, h1, h2, h3⟩, h4⟩
  · rintro ⟨⟨s, t, r, rfl, h1, h2, h3⟩, h4⟩
    exact ⟨s, t, r, rfl, h1, h2, h3, h4⟩

/-- Points reached from the right lie in a polytope that reaches further right. -/
theorem rightLimit_ratio {P : Mat → Prop} (hP : ∀ m, P m → Base 4 m) {M : Mat → Pt → Prop} {G : Mat → Prop}
    (hM : ∀ m x, M m x → m.Contains x) (hG : ∀ m, G m → m.cols = 4) (rs : List (Region ℕ)) (hrs : ∀ r ∈ rs, Hyp 4 P r)
    {ms : List Mat} (h : AppM M G (Generic 4 (leavesList rs)) (fun x => ∀ r ∈ rs, r.Mem x) ms) {s t r : ℚ}
    (hlim : RightLimit (fun x => ∀ R ∈ rs, R.Mem x) s t r) : ((r / t : ℚ) : ℝ) ∈ Ratios ms s := by
  obtain ⟨m, hm, hQ, hc⟩ := cover_near (n := 4) ms (fun m => ∃ s' t' r', m.Contains [s', t', r'] ∧ s < s') [s, t, r] rfl
    (fun m hm => hG m (h.good m hm)) (by
      intro ε hε
      obtain ⟨s', t', r', h1, h2, δ, h3, h4⟩ := hlim (ε / 2) (by linarith)
      have hε' : 0 < min (ε / 2) (s' - s) := lt_min (by linarith) (by linarith)
      obtain ⟨z, z1, z2, z3⟩ := cover_interior hP rs hrs [s', t', r'] rfl (fun R hR => ⟨δ, h3, fun y hy => h4 y hy R hR⟩) hε'
      obtain ⟨m, hm, hmz⟩ := h.cover z z2 z3
      have hmz := hM _ _ hmz
      refine ⟨z, (h1.trans (z1.mono (min_le_left _ _))).mono (by linarith), m, hm, ?_, hmz⟩
      have hl := z1.length
      match z, hl with
      | [a, b, c], _ =>
        refine ⟨a, b, c, hmz, ?_⟩
        have := (List.forall₂_cons.mp (z1.mono (min_le_right _ _))).1
        linarith [(abs_lt.mp this).1])
  exact ⟨m, hm, t, r, hc, hQ, rfl⟩

/-- The common first part of the computation. -/
theorem lvZlv_eq (eng : Engine) (edges : Mat → List (Pt × Pt)) (solve : RF ℝ → RF ℝ → List ℝ) (isZero : Expr ℝ → Bool)
    (lvs : List (Region ℕ)) (transforms : List (Region ℕ → Py (Region ℕ))) (tl : List (Region ℕ))
    (ht : LargeValues.applyTransforms lvs transforms = .ok tl) (zlvs : List (Region ℕ)) (x0 x1 : ℚ) (incL incU : Bool)
    (tau0 : ℚ) (ms1 ms2 : List Mat) (d1 d2 : List ℕ)
    (h1 : largeValueRegion eng (.polytope (ZeroDensity.box3 x0 x1 tau0 (2 * tau0) 0 1000000) none) (lvs ++ tl) = .ok (ms1, d1))
    (h2 : largeValueRegion eng (.polytope (ZeroDensity.box3 x0 x1 2 tau0 0 1000000) none) (lvs ++ tl ++ zlvs) = .ok (ms2, d2))
    (o1 o2 : List (Rational.Piece ℝ)) (g1 : supRhoOnTau edges solve isZero ms1 ⟨x0, x1, incL, incU⟩ = .ok o1)
    (g2 : supRhoOnTau edges solve isZero ms2 ⟨x0, x1, incL, incU⟩ = .ok o2) :
    lvZlvToZd eng edges solve isZero lvs transforms zlvs x0 x1 incL incU tau0 =
      .ok (rfMax solve isZero (funcDomains o1 ++ funcDomains o2) ⟨x0, x1, incL, incU⟩ false) := by
  unfold lvZlvToZd allHyps
  rw [ht]
  simp only [bind, Except.bind, pure, Except.pure, LargeValues.lvLimit, ZeroDensity.box3_rect, Bool.false_eq_true, if_false,
    List.append_nil, if_true]
  rw [h1]
  simp only
  rw [g1]
  simp only
  rw [h2]
  simp only
  rw [g2]

/-- What the two calls of `compute_large_value_region` and `compute_sup_rho_on_tau` give. -/
theorem zd_core {eng : Engine} (heng : EngineSpec eng) {edges : Mat → List (Pt × Pt)}
    (hed : ∀ p : Mat, p.cols = 4 → p.Bounded → EdgesSpec edges p) {solve : RF ℝ → RF ℝ → List ℝ} (hs : SolveSpec solve)
    {isZero : Expr ℝ → Bool} (hz : ZeroSpec isZero) (lvs : List (Region ℕ)) (transforms : List (Region ℕ → Py (Region ℕ)))
    (tl : List (Region ℕ)) (ht : LargeValues.applyTransforms lvs transforms = .ok tl) (zlvs : List (Region ℕ))
    (hne : lvs ≠ []) (hrs : ∀ r ∈ lvs ++ tl ++ zlvs, Hyp 4 (FullDim 4) r)
    (hneg : UnboundedNeg eng.lp ∨ ∀ r ∈ lvs ++ tl ++ zlvs, Plain false r ∧ ∀ m ∈ r.leaves, FullDim 4 m)
    (x0 x1 tau0 : ℚ) (hx : x0 < x1) (htau : 2 < tau0) (incL incU : Bool) :
    ∃ ms1 d1 ms2 d2 o1 o2,
      largeValueRegion eng (.polytope (ZeroDensity.box3 x0 x1 tau0 (2 * tau0) 0 1000000) none) (lvs ++ tl) = .ok (ms1, d1) ∧
      largeValueRegion eng (.polytope (ZeroDensity.box3 x0 x1 2 tau0 0 1000000) none) (lvs ++ tl ++ zlvs) = .ok (ms2, d2) ∧
      lvZlvToZd eng edges solve isZero lvs transforms zlvs x0 x1 incL incU tau0 =
        .ok (rfMax solve isZero (funcDomains o1 ++ funcDomains o2) ⟨x0, x1, incL, incU⟩ false) ∧
      (SupOut edges ⟨x0, x1, incL, incU⟩ ms1 o1 ∧ Chain x0 x1 o1 ∧
        (∀ s t r, RightLimit (Allowed x0 x1 tau0 (2 * tau0) (lvs ++ tl)) s t r → ((r / t : ℚ) : ℝ) ∈ Ratios ms1 s) ∧
        (∀ s, ∀ v ∈ Ratios ms1 s, ∃ t r, Allowed x0 x1 tau0 (2 * tau0) (lvs ++ tl) [s, t, r] ∧ v = ((r / t : ℚ) : ℝ))) ∧
      (SupOut edges ⟨x0, x1, incL, incU⟩ ms2 o2 ∧ Chain x0 x1 o2 ∧
        (∀ s t r, RightLimit (Allowed x0 x1 2 tau0 (lvs ++ tl ++ zlvs)) s t r → ((r / t : ℚ) : ℝ) ∈ Ratios ms2 s) ∧
        (∀ s, ∀ v ∈ Ratios ms2 s, ∃ t r, Allowed x0 x1 2 tau0 (lvs ++ tl ++ zlvs) [s, t, r] ∧ v = ((r / t : ℚ) : ℝ))) := by
  have hbox : ∀ a b : ℚ, a < b → Plain false (.polytope (ZeroDensity.box3 x0 x1 a b 0 1000000) none : Region ℕ) ∧
      ∀ m ∈ leaves (.polytope (ZeroDensity.box3 x0 x1 a b 0 1000000) none : Region ℕ), FullDim 4 m := by
    intro a b hab
    refine ⟨by simp [Plain], ?_⟩
    intro m hm
    rw [leaves, List.mem_singleton] at hm
    subst hm
    exact ZeroDensity.box3_fullDim _ _ _ _ _ _ hx hab (by norm_num)
  have go : ∀ (a b : ℚ) (rs : List (Region ℕ)), a < b → 0 < a → rs ≠ [] → (∀ r ∈ rs, r ∈ lvs ++ tl ++ zlvs) →
      ∃ ms deps, largeValueRegion eng (.polytope (ZeroDensity.box3 x0 x1 a b 0 1000000) none) rs = .ok (ms, deps) ∧
        (∀ p ∈ ms, EdgesSpec edges p ∧ p.cols = 4 ∧ ∀ s t r, p.Contains [s, t, r] → 0 < t) ∧
        (∀ s t r, RightLimit (Allowed x0 x1 a b rs) s t r → ((r / t : ℚ) : ℝ) ∈ Ratios ms s) ∧
        (∀ s, ∀ v ∈ Ratios ms s, ∃ t r, Allowed x0 x1 a b rs [s, t, r] ∧ v = ((r / t : ℚ) : ℝ)) := by
    intro a b rs hab ha hne hsub
    have hall : ∀ r ∈ Region.polytope (ZeroDensity.box3 x0 x1 a b 0 1000000) none :: rs, Hyp 4 (FullDim 4) r := by
      intro r hr
      rcases List.mem_cons.mp hr with rfl | hr
      · exact .inl (hbox a b hab)
      · exact hrs r (hsub r hr)
    obtain ⟨ms, deps, h1, h2, _⟩ := region_full heng (n := 4) (by norm_num)
      (.polytope (ZeroDensity.box3 x0 x1 a b 0 1000000) none) rs hne hall (hneg.imp_right (fun h r hr => by
        rcases List.mem_cons.mp hr with rfl | hr
        · exact hbox a b hab
        · exact h r (hsub r hr)))
    refine ⟨ms, deps, h1, ?_, ?_, ?_⟩
    · intro p hp
      refine ⟨hed p (h2.good p hp).cols (h2.good p hp).bounded, (h2.good p hp).cols, ?_⟩
      intro s t r hc
      obtain ⟨s', t', r', e, _, h, _⟩ := (allowed_iff x0 x1 a b rs _).mpr (h2.sound p hp _ hc)
      simp only [List.cons.injEq, and_true] at e
      rw [e.2.1]
      linarith [h.1]
    · intro s t r hl
      refine rightLimit_ratio (P := FullDim 4) (fun m hm => base_of_fullDim hm) (fun _ _ h => h) (fun m hm => hm.cols) _ hall h2 ?_
      intro ε hε
      obtain ⟨s', t', r', k1, k2, δ, k3, k4⟩ := hl ε hε
      exact ⟨s', t', r', k1, k2, δ, k3, fun z hz => (allowed_iff x0 x1 a b rs z).mp (k4 z hz)⟩
    · rintro s v ⟨p, hp, t, r, hc, _, rfl⟩
      exact ⟨t, r, (allowed_iff x0 x1 a b rs _).mpr (h2.sound p hp _ hc), rfl⟩
  obtain ⟨ms1, d1, a1, a2, a3, a4⟩ := go tau0 (2 * tau0) (lvs ++ tl) (by linarith) (by linarith)
    (by simp [hne]) (fun r hr => List.mem_append_left _ hr)
  obtain ⟨ms2, d2, b1, b2, b3, b4⟩ := go 2 tau0 (lvs ++ tl ++ zlvs) htau (by norm_num) (by simp [hne]) (fun r hr => hr)
  have hD : ((⟨x0, x1, incL, incU⟩ : Ival ℝ)).x0 < (⟨x0, x1, incL, incU⟩ : Ival ℝ).x1 := by
    simpa using hx
  obtain ⟨o1, g1, g2, g5⟩ := supOut_chain edges solve hs isZero hz ms1 ⟨x0, x1, incL, incU⟩ hD a2
  obtain ⟨o2, g3, g4, g6⟩ := supOut_chain edges solve hs isZero hz ms2 ⟨x0, x1, incL, incU⟩ hD b2
  exact ⟨ms1, d1, ms2, d2, o1, o2, a1, b1,
    lvZlv_eq eng edges solve isZero lvs transforms tl ht zlvs x0 x1 incL incU tau0 ms1 ms2 d1 d2 a1 b1 o1 o2 g1 g3,
    ⟨g2, g5, a3, a4⟩, g4, g6, b3, b4⟩

/-- `v` bounds `rho / tau` for all triples above `s` that are approached from the right, and is attained by an allowed triple (or
is the placeholder). -/
def ValueAt (A1 A2 : Pt → Prop) (s : ℚ) (v : ℝ) : Prop :=
  (∀ t r, RightLimit A1 s t r ∨ RightLimit A2 s t r → ((r / t : ℚ) : ℝ) ≤ v) ∧
    (v = -1000000 ∨ ∃ t r, (A1 [s, t, r] ∨ A2 [s, t, r]) ∧ v = ((r / t : ℚ) : ℝ))

theorem zd_finish {edges : Mat → List (Pt × Pt)} {solve : RF ℝ → RF ℝ → List ℝ} (hs : SolveSpec solve)
    {isZero : Expr ℝ → Bool} (hz : ZeroSpec isZero) {x0 x1 : ℚ} (hx : x0 < x1) {incL incU : Bool} {ms1 ms2 : List Mat}
    {o1 o2 : List (Rational.Piece ℝ)} {A1 A2 : Pt → Prop} (g2 : SupOut edges ⟨x0, x1, incL, incU⟩ ms1 o1)
    (a3 : ∀ s t r, RightLimit A1 s t r → ((r / t : ℚ) : ℝ) ∈ Ratios ms1 s)
    (a4 : ∀ s, ∀ v ∈ Ratios ms1 s, ∃ t r, A1 [s, t, r] ∧ v = ((r / t : ℚ) : ℝ))
    (g4 : SupOut edges ⟨x0, x1, incL, incU⟩ ms2 o2)
    (b3 : ∀ s t r, RightLimit A2 s t r → ((r / t : ℚ) : ℝ) ∈ Ratios ms2 s)
    (b4 : ∀ s, ∀ v ∈ Ratios ms2 s, ∃ t r, A2 [s, t, r] ∧ v = ((r / t : ℚ) : ℝ))
    (hpole : ∀ p ∈ o1 ++ o2, ∀ x, (x0 : ℝ) ≤ x → x < x1 → p.fn.NoCommonZero x) (s : ℚ) (l1 : x0 ≤ s) (l2 : s < x1) :
    ∃ q ∈ rfMax solve isZero (funcDomains o1 ++ funcDomains o2) ⟨x0, x1, incL, incU⟩ false, q.dom.x0 ≤ s ∧ s < q.dom.x1 ∧
      (∀ q' ∈ rfMax solve isZero (funcDomains o1 ++ funcDomains o2) ⟨x0, x1, incL, incU⟩ false,
        q'.dom.x0 ≤ s → s < q'.dom.x1 → q' = q) ∧ ValueAt A1 A2 s (q.fn.at s) := by
  have hD : ((⟨x0, x1, incL, incU⟩ : Ival ℝ)).x0 < (⟨x0, x1, incL, incU⟩ : Ival ℝ).x1 := by
    simpa using hx
  obtain ⟨q, q1, q2, q3, q4, q5⟩ := max2_core hs hz hD g2 g4 false (fun _ => hpole) s (by simpa using l1) (by simpa using l2)
  refine ⟨q, q1, q2, q3, q4, ?_, ?_⟩
  · rintro t r (h | h)
    · obtain ⟨p, hp, k⟩ := a3 s t r h
      exact q5.2 (.inr ⟨p, by simp [hp], k⟩)
    · obtain ⟨p, hp, k⟩ := b3 s t r h
      exact q5.2 (.inr ⟨p, by simp [hp], k⟩)
  · rcases q5.1 with h | ⟨p, hp, k⟩
    · exact .inl h
    · right
      rcases List.mem_append.mp hp with hp | hp
      · obtain ⟨t, r, k1, k2⟩ := a4 s _ ⟨p, hp, k⟩
        exact ⟨t, r, .inl k1, k2⟩
      · obtain ⟨t, r, k1, k2⟩ := b4 s _ ⟨p, hp, k⟩
        exact ⟨t, r, .inr k1, k2⟩

/-- **C66** For large value estimates and zeta large value estimates whose regions are as in C65 and `tau0 > 2`, let `ms1`
and `ms2` be the polytopes that `compute_large_value_region` returns for `tau` in `[tau0, 2 tau0]` and in `[2, tau0]`. If no line
through an edge of them meets the line `tau = rho = 0` above the interval, `lv_zlv_to_zd` does not raise, and at each `s` of the interval
exactly one of the returned pieces gives a value: it is at least `rho / tau` for every triple `(s, tau, rho)` that can be
approached from the right by interior points of the allowed triples of either kind, and it is equal to `rho / tau` for an
allowed triple (or the placeholder `-1000000`). Missing: triples that cannot be approached in this way (for these the value
can be too small, `C41_right_end_counterexample`), lower-dimensional polytopes (`C66_thin_partial`), and poles. -/
theorem C66_zeroDensity_partial {eng : Engine} (heng : EngineSpec eng) {edges : Mat → List (Pt × Pt)}
    (hed : ∀ p : Mat, p.cols = 4 → p.Bounded → EdgesSpec edges p) {solve : RF ℝ → RF ℝ → List ℝ} (hs : SolveSpec solve)
    {isZero : Expr ℝ → Bool} (hz : ZeroSpec isZero) (lvs : List (Region ℕ)) (transforms : List (Region ℕ → Py (Region ℕ)))
    (tl : List (Region ℕ)) (ht : LargeValues.applyTransforms lvs transforms = .ok tl) (zlvs : List (Region ℕ))
    (hne : lvs ≠ []) (hrs : ∀ r ∈ lvs ++ tl ++ zlvs, Hyp 4 (FullDim 4) r)
    (hneg : UnboundedNeg eng.lp ∨ ∀ r ∈ lvs ++ tl ++ zlvs, Plain false r ∧ ∀ m ∈ r.leaves, FullDim 4 m)
    (x0 x1 tau0 : ℚ) (hx : x0 < x1) (htau : 2 < tau0) (incL incU : Bool) :
    ∃ ms1 d1 ms2 d2,
      largeValueRegion eng (.polytope (ZeroDensity.box3 x0 x1 tau0 (2 * tau0) 0 1000000) none) (lvs ++ tl) = .ok (ms1, d1) ∧
      largeValueRegion eng (.polytope (ZeroDensity.box3 x0 x1 2 tau0 0 1000000) none) (lvs ++ tl ++ zlvs) = .ok (ms2, d2) ∧
      (NoPole edges (ms1 ++ ms2) ⟨x0, x1, incL, incU⟩ →
        ∃ out, lvZlvToZd eng edges solve isZero lvs transforms zlvs x0 x1 incL incU tau0 = .ok out ∧
          ∀ s, x0 ≤ s → s < x1 → ∃ q ∈ out, q.dom.x0 ≤ s ∧ s < q.dom.x1 ∧
            (∀ q' ∈ out, q'.dom.x0 ≤ s → s < q'.dom.x1 → q' = q) ∧
            (∀ t r, RightLimit (Allowed x0 x1 tau0 (2 * tau0) (lvs ++ tl)) s t r ∨
              RightLimit (Allowed x0 x1 2 tau0 (lvs ++ tl ++ zlvs)) s t r → ((r / t : ℚ) : ℝ) ≤ q.fn.at s) ∧
            (q.fn.at s = -1000000 ∨ ∃ t r, (Allowed x0 x1 tau0 (2 * tau0) (lvs ++ tl) [s, t, r] ∨
              Allowed x0 x1 2 tau0 (lvs ++ tl ++ zlvs) [s, t, r]) ∧ q.fn.at s = ((r / t : ℚ) : ℝ))) := by
  obtain ⟨ms1, d1, ms2, d2, o1, o2, h1, h2, h3, ⟨a1, a2, a3, a4⟩, b1, b2, b3, b4⟩ :=
    zd_core heng hed hs hz lvs transforms tl ht zlvs hne hrs hneg x0 x1 tau0 hx htau incL incU
  refine ⟨ms1, d1, ms2, d2, h1, h2, fun hpole => ⟨_, h3, fun s l1 l2 => ?_⟩⟩
  refine zd_finish hs hz hx a1 a3 a4 b1 b3 b4 (fun p hp => ?_) s l1 l2
  rcases List.mem_append.mp hp with hp | hp
  · exact noCommonZero_of_noPole a1 (fun m hm => hpole m (List.mem_append_left _ hm)) p hp
  · exact noCommonZero_of_noPole b1 (fun m hm => hpole m (List.mem_append_right _ hm)) p hp

/-- **C66, lower-dimensional polytopes** Without the assumption that the polytopes have interior points, the values are still at
least `rho / tau` for all triples that can be approached from the right, provided that the polytopes which
`compute_large_value_region` returns are bounded and have `tau > 0`. The value can be larger than necessary. -/
theorem C66_thin_partial {eng : Engine} (heng : EngineSpec eng) {edges : Mat → List (Pt × Pt)}
    (hed : ∀ p : Mat, p.cols = 4 → p.Bounded → EdgesSpec edges p) {solve : RF ℝ → RF ℝ → List ℝ} (hs : SolveSpec solve)
    {isZero : Expr ℝ → Bool} (hz : ZeroSpec isZero) (lvs : List (Region ℕ)) (transforms : List (Region ℕ → Py (Region ℕ)))
    (tl : List (Region ℕ)) (ht : LargeValues.applyTransforms lvs transforms = .ok tl) (zlvs : List (Region ℕ))
    (hne : lvs ≠ []) (hrs : ∀ r ∈ lvs ++ tl ++ zlvs, Hyp 4 (Leaf 4) r)
    (hneg : UnboundedNeg eng.lp ∨ ∀ r ∈ lvs ++ tl ++ zlvs, Plain false r ∧ ∀ m ∈ r.leaves, Leaf 4 m)
    (x0 x1 tau0 : ℚ) (hx : x0 < x1) (htau : 2 < tau0) (incL incU : Bool) :
    ∃ ms1 d1 ms2 d2,
      largeValueRegion eng (.polytope (ZeroDensity.box3 x0 x1 tau0 (2 * tau0) 0 1000000) none) (lvs ++ tl) = .ok (ms1, d1) ∧
      largeValueRegion eng (.polytope (ZeroDensity.box3 x0 x1 2 tau0 0 1000000) none) (lvs ++ tl ++ zlvs) = .ok (ms2, d2) ∧
      ((∀ p ∈ ms1 ++ ms2, p.Bounded ∧ ∀ s t r, p.Contains [s, t, r] → 0 < t) →
        NoPole edges (ms1 ++ ms2) ⟨x0, x1, incL, incU⟩ →
        ∃ out, lvZlvToZd eng edges solve isZero lvs transforms zlvs x0 x1 incL incU tau0 = .ok out ∧
          ∀ s, x0 ≤ s → s < x1 → ∃ q ∈ out, q.dom.x0 ≤ s ∧ s < q.dom.x1 ∧
            (∀ q' ∈ out, q'.dom.x0 ≤ s → s < q'.dom.x1 → q' = q) ∧
            (∀ t r, RightLimit (Allowed x0 x1 tau0 (2 * tau0) (lvs ++ tl)) s t r ∨
              RightLimit (Allowed x0 x1 2 tau0 (lvs ++ tl ++ zlvs)) s t r → ((r / t : ℚ) : ℝ) ≤ q.fn.at s)) := by
  have hbox : ∀ a b : ℚ, a < b → Plain false (.polytope (ZeroDensity.box3 x0 x1 a b 0 1000000) none : Region ℕ) ∧
      ∀ m ∈ leaves (.polytope (ZeroDensity.box3 x0 x1 a b 0 1000000) none : Region ℕ), Leaf 4 m := by
    intro a b hab
    refine ⟨by simp [Plain], ?_⟩
    intro m hm
    rw [leaves, List.mem_singleton] at hm
    subst hm
    have h := ZeroDensity.box3_fullDim x0 x1 a b 0 1000000 hx hab (by norm_num)
    exact ⟨base_of_fullDim h, fun _ => h.bounded⟩
  have go : ∀ (a b : ℚ) (rs : List (Region ℕ)), a < b → rs ≠ [] → (∀ r ∈ rs, r ∈ lvs ++ tl ++ zlvs) →
      ∃ ms deps, largeValueRegion eng (.polytope (ZeroDensity.box3 x0 x1 a b 0 1000000) none) rs = .ok (ms, deps) ∧
        (∀ p ∈ ms, p.cols = 4) ∧
        (∀ s t r, RightLimit (Allowed x0 x1 a b rs) s t r → ((r / t : ℚ) : ℝ) ∈ Ratios ms s) := by
    intro a b rs hab hne hsub
    have hall : ∀ r ∈ Region.polytope (ZeroDensity.box3 x0 x1 a b 0 1000000) none :: rs, Hyp 4 (Leaf 4) r := by
      intro r hr
      rcases List.mem_cons.mp hr with rfl | hr
      · exact .inl (hbox a b hab)
      · exact hrs r (hsub r hr)
    obtain ⟨ms, deps, h1, h2, _⟩ := region_thin heng (n := 4) (by norm_num)
      (.polytope (ZeroDensity.box3 x0 x1 a b 0 1000000) none) rs hne hall (hneg.imp_right (fun h r hr => by
        rcases List.mem_cons.mp hr with rfl | hr
        · exact hbox a b hab
        · exact h r (hsub r hr)))
    refine ⟨ms, deps, h1, fun p hp => (h2.good p hp).cols, ?_⟩
    intro s t r hl
    refine rightLimit_ratio (P := Leaf 4) (fun m hm => hm.1) (fun _ _ h => h.2) (fun m hm => hm.cols) _ hall h2 ?_
    intro ε hε
    obtain ⟨s', t', r', k1, k2, δ, k3, k4⟩ := hl ε hε
    exact ⟨s', t', r', k1, k2, δ, k3, fun z hz => (allowed_iff x0 x1 a b rs z).mp (k4 z hz)⟩
  obtain ⟨ms1, d1, a1, a2, a3⟩ := go tau0 (2 * tau0) (lvs ++ tl) (by linarith) (by simp [hne]) (fun r hr => List.mem_append_left _ hr)
  obtain ⟨ms2, d2, b1, b2, b3⟩ := go 2 tau0 (lvs ++ tl ++ zlvs) htau (by simp [hne]) (fun r hr => hr)
  refine ⟨ms1, d1, ms2, d2, a1, b1, fun hpos hpole => ?_⟩
  have hD : ((⟨x0, x1, incL, incU⟩ : Ival ℝ)).x0 < (⟨x0, x1, incL, incU⟩ : Ival ℝ).x1 := by
    simpa using hx
  obtain ⟨o1, g1, g2⟩ := supOut_of_sup edges solve hs isZero hz ms1 ⟨x0, x1, incL, incU⟩ hD (fun p hp => by
    have := hpos p (List.mem_append_left _ hp)
    exact ⟨hed p (a2 p hp) this.1, a2 p hp, this.2⟩)
  obtain ⟨o2, g3, g4⟩ := supOut_of_sup edges solve hs isZero hz ms2 ⟨x0, x1, incL, incU⟩ hD (fun p hp => by
    have := hpos p (List.mem_append_right _ hp)
    exact ⟨hed p (b2 p hp) this.1, b2 p hp, this.2⟩)
  refine ⟨_, lvZlv_eq eng edges solve isZero lvs transforms tl ht zlvs x0 x1 incL incU tau0 ms1 ms2 d1 d2 a1 b1 o1 o2 g1 g3, ?_⟩
  intro s l1 l2
  obtain ⟨q, q1, q2, q3, q4, q5⟩ := max2_core hs hz hD g2 g4 false (fun _ p hp => by
    rcases List.mem_append.mp hp with hp | hp
    · exact noCommonZero_of_noPole g2 (fun m hm => hpole m (List.mem_append_left _ hm)) p hp
    · exact noCommonZero_of_noPole g4 (fun m hm => hpole m (List.mem_append_right _ hm)) p hp) s (by simpa using l1) (by simpa using l2)
  refine ⟨q, q1, q2, q3, q4, ?_⟩
  rintro t r (h | h)
  · obtain ⟨p, hp, k⟩ := a3 s t r h
    exact q5.2 (.inr ⟨p, by simp [hp], k⟩)
  · obtain ⟨p, hp, k⟩ := b3 s t r h
    exact q5.2 (.inr ⟨p, by simp [hp], k⟩)

/-! ### An instance -/

/-- The edges of a box along the first axis. -/
def boxEdges (a b c d e f : ℚ) : List (Pt × Pt) :=
  [([a, c, e], [b, c, e]), ([a, c, f], [b, c, f]), ([a, d, e], [b, d, e]), ([a, d, f], [b, d, f])]

theorem boxEdges_spec (edges : Mat → List (Pt × Pt)) (a b c d e f : ℚ) (hab : a < b) (hcd : c ≤ d) (hef : e ≤ f)
    (h : edges (ZeroDensity.box3 a b c d e f) = boxEdges a b c d e f) : EdgesSpec edges (ZeroDensity.box3 a b c d e f) := by
  refine ⟨?_, ?_⟩
  · intro p hp
    rw [h] at hp
    simp only [boxEdges, List.mem_cons, List.not_mem_nil, or_false] at hp
    rcases hp with rfl | rfl | rfl | rfl <;> refine ⟨(ZeroDensity.box3_contains _ _ _ _ _ _ _).mpr ⟨_, _, _, rfl, ?_⟩,
      (ZeroDensity.box3_contains _ _ _ _ _ _ _).mpr ⟨_, _, _, rfl, ?_⟩⟩ <;> simp [hab.le, hcd, hef]
  · intro s t r hc ⟨s', t', r', hc', hlt⟩ u v
    obtain ⟨_, _, _, h1, ⟨h2, h3⟩, ⟨h4, h5⟩, h6, h7⟩ := (ZeroDensity.box3_contains _ _ _ _ _ _ _).mp hc
    obtain ⟨_, _, _, h8, ⟨h9, h10⟩, _⟩ := (ZeroDensity.box3_contains _ _ _ _ _ _ _).mp hc'
    simp only [List.cons.injEq, and_true] at h1 h8
    obtain ⟨rfl, rfl, rfl⟩ := h1
    obtain ⟨rfl, rfl, rfl⟩ := h8
    have key : ∀ t1 r1, ([a, t1, r1], [b, t1, r1]) ∈ edges (ZeroDensity.box3 a b c d e f) → u * t + v * r ≤ u * t1 + v * r1 →
        ∃ s1 t1 r1 s2 t2 r2 l, ([s1, t1, r1], [s2, t2, r2]) ∈ edges (ZeroDensity.box3 a b c d e f) ∧ min s1 s2 ≤ s ∧ s < max s1 s2 ∧
          0 ≤ l ∧ l ≤ 1 ∧ s = s1 + l * (s2 - s1) ∧
          u * t + v * r ≤ u * (t1 + l * (t2 - t1)) + v * (r1 + l * (r2 - r1)) := by
      intro t1 r1 hm hle
      refine ⟨a, t1, r1, b, t1, r1, (s - a) / (b - a), hm, (min_le_left _ _).trans h2, lt_max_of_lt_right (by linarith), ?_, ?_, ?_, ?_⟩
      · exact div_nonneg (by linarith) (by linarith)
      · rw [div_le_one (by linarith)]; linarith
      · rw [div_mul_cancel₀ _ (by linarith)]; ring
      · simpa using hle
    rw [h] at key
    rcases le_total 0 u with hu | hu <;> rcases le_total 0 v with hv | hv
    · rw [h]; exact key d f (by simp [boxEdges]) (add_le_add (mul_le_mul_of_nonneg_left h5 hu) (mul_le_mul_of_nonneg_left h7 hv))
    · rw [h]; exact key d e (by simp [boxEdges]) (add_le_add (mul_le_mul_of_nonneg_left h5 hu) (mul_le_mul_of_nonpos_left h6 hv))
    · rw [h]; exact key c f (by simp [boxEdges]) (add_le_add (mul_le_mul_of_nonpos_left h4 hu) (mul_le_mul_of_nonneg_left h7 hv))
    · rw [h]; exact key c e (by simp [boxEdges]) (add_le_add (mul_le_mul_of_nonpos_left h4 hu) (mul_le_mul_of_nonpos_left h6 hv))

theorem simplifyUnion_one (U : List Mat → Py (Option Mat)) (order : List ℕ → List ℕ) (ho : ∀ l, (order l).Perm l) (track : Bool)
    (p : Piece ℕ) : simplifyUnion U order track [p] = .ok [p] := by
  have h0 : order [0] = [0] := List.perm_singleton.mp (ho [0])
  unfold simplifyUnion
  rw [simpLoop]
  simp only [simpRound, List.length_singleton, List.range_one, h0, combos2, List.map, List.append_nil, List.foldlM, pure, Except.pure,
    Bool.false_eq_true, if_false, bind, Except.bind, pick, List.getElem?_cons_zero]

/-- A hypothesis that does not restrict the domain. -/
theorem region_whole {eng : Engine} (heng : EngineSpec eng) {D m : Mat} (hD : FullDim 4 D) (hm : FullDim 4 m)
    (h : ∀ x, D.Contains x → m.Contains x) :
    largeValueRegion eng (.polytope D none) [.polytope m none] = .ok ([D], [0]) := by
  have hsub := (subset_iff heng hD hm).mpr h
  have e1 : asDisjoint eng false (.intersect [.polytope D none, .polytope m none]) = .ok [⟨D, []⟩] :=
    asDisjoint_pair D none (.polytope m none) [⟨m, []⟩] [⟨D, []⟩] [⟨D, []⟩] (by unfold asDisjoint leafPieces; rfl)
      (by unfold inters inters pieceInter; simp only [hsub, if_true]; rfl) (by unfold mergeInters; simp)
  have e2 : clip eng (.polytope D none) (.polytope m none) = .ok (.disjoint [.polytope D none]) := by
    unfold clip asDisjointUnion
    rw [e1]
    simp only [bind, Except.bind, pure, Except.pure, List.map, simplify, simplifyChildren, polyMats,
      simplifyUnion_one _ _ heng.order]
  obtain ⟨ss, e3, _⟩ := Printing.regionStrs_polytopes (L := ℕ) [D] (by simpa using hD.wf)
  have e4 : Printing.regionStr none (.disjoint [.polytope D none] : Region ℕ) = .ok (Printing.joinStr "Disjoint union" ss) := by
    rw [Printing.regionStr]
    simp only [List.map] at e3
    rw [e3]
    rfl
  have e5 : asDisjoint eng true (.intersect [.disjoint [.polytope D (some 0)]]) = .ok [⟨D, [0]⟩] := by
    unfold asDisjoint asDisjointList asDisjointList asDisjoint asDisjointList asDisjointList asDisjoint leafPieces
    rfl
  unfold largeValueRegion clipLoop clipLoop
  rw [e2]
  simp only [bind, Except.bind, pure, Except.pure]
  rw [e4]
  simp only [List.not_mem_nil, if_false, setLabel, setLabelList]
  rw [e5]
  rfl

/-- Non-vacuity of `C66_zeroDensity_partial`: for one large value estimate, the interval from `0` to `1` and `tau0 = 3` there are
libraries which meet all requirements, no line through an edge has a pole, and the value at `1/2` is `1000000 / 2`. -/
example : ∃ (eng : Engine) (edges : Mat → List (Pt × Pt)) (solve : RF ℝ → RF ℝ → List ℝ) (isZero : Expr ℝ → Bool)
    (out : List (Rational.Piece ℝ)),
    EngineSpec eng ∧ (∀ p : Mat, p.cols = 4 → p.Bounded → EdgesSpec edges p) ∧ SolveSpec solve ∧ ZeroSpec isZero ∧
    lvZlvToZd eng edges solve isZero [.polytope (ZeroDensity.box3 0 1 0 9 0 1000000) none] [] [] 0 1 true false 3 = .ok out ∧
    ∃ q ∈ out, q.fn.at ((1 / 2 : ℚ) : ℝ) = 500000 := by
  obtain ⟨eng, heng, _⟩ := engineNeg_satisfiable
  obtain ⟨edges, solve, isZero, hs, hz, hed⟩ := C41_satisfiable
  let B1 := ZeroDensity.box3 0 1 3 (2 * 3) 0 1000000
  let B2 := ZeroDensity.box3 0 1 2 3 0 1000000
  let E : Mat → List (Pt × Pt) := fun p => if p = B1 then boxEdges 0 1 3 (2 * 3) 0 1000000
    else if p = B2 then boxEdges 0 1 2 3 0 1000000 else edges p
  have hB : B2 ≠ B1 := by
    simp only [B1, B2, ZeroDensity.box3]
    intro h
    injection h with _ h
    simp at h
  have hE1 : E B1 = boxEdges 0 1 3 (2 * 3) 0 1000000 := by simp only [E, if_true]
  have hE2 : E B2 = boxEdges 0 1 2 3 0 1000000 := by simp only [E, hB, if_false, if_true]
  have hE : ∀ p : Mat, p.cols = 4 → p.Bounded → EdgesSpec E p := by
    intro p h1 h2
    by_cases e1 : p = B1
    · rw [e1]; exact boxEdges_spec E _ _ _ _ _ _ (by norm_num) (by norm_num) (by norm_num) hE1
    by_cases e2 : p = B2
    · rw [e2]; exact boxEdges_spec E _ _ _ _ _ _ (by norm_num) (by norm_num) (by norm_num) hE2
    · have he : E p = edges p := by simp only [E, e1, e2, if_false]
      obtain ⟨k1, k2⟩ := hed p h1 h2
      rw [← he] at k1 k2
      exact ⟨k1, k2⟩
  have hP : Plain false (.polytope (ZeroDensity.box3 0 1 0 9 0 1000000) none : Region ℕ) ∧
      ∀ m ∈ leaves (.polytope (ZeroDensity.box3 0 1 0 9 0 1000000) none : Region ℕ), FullDim 4 m :=
    ⟨by simp [Plain], by simpa [leaves] using ZeroDensity.box3_fullDim _ _ _ _ _ _ (by norm_num) (by norm_num) (by norm_num)⟩
  have hW : ∀ a b : ℚ, 0 ≤ a → a < b → b ≤ 9 →
      largeValueRegion eng (.polytope (ZeroDensity.box3 0 1 a b 0 1000000) none) [.polytope (ZeroDensity.box3 0 1 0 9 0 1000000) none] =
        .ok ([ZeroDensity.box3 0 1 a b 0 1000000], [0]) := by
    intro a b ha hab hb
    refine region_whole heng (ZeroDensity.box3_fullDim _ _ _ _ _ _ (by norm_num) hab (by norm_num)) 
      (ZeroDensity.box3_fullDim _ _ _ _ _ _ (by norm_num) (by norm_num) (by norm_num)) ?_
    intro x hx
    rw [ZeroDensity.box3_contains] at hx ⊢
    obtain ⟨s, t, r, rfl, h1, h2, h3⟩ := hx
    exact ⟨s, t, r, rfl, h1, ⟨by linarith [h2.1], by linarith [h2.2]⟩, h3⟩
  obtain ⟨ms1, d1, ms2, d2, h1, h2, h3⟩ := C66_zeroDensity_partial heng hE hs hz
    [.polytope (ZeroDensity.box3 0 1 0 9 0 1000000) none] [] [] rfl [] (by simp) (by
      intro r hr
      simp only [List.append_nil, List.mem_singleton] at hr
      subst hr
      exact .inl hP) (.inr (by
      intro r hr
      simp only [List.append_nil, List.mem_singleton] at hr
      subst hr
      exact hP)) 0 1 3 (by norm_num) (by norm_num) true false
  simp only [List.append_nil] at h1 h2
  rw [hW _ _ (by norm_num) (by norm_num) (by norm_num)] at h1 h2
  simp only [Except.ok.injEq, Prod.mk.injEq] at h1 h2
  obtain ⟨rfl, _⟩ := h1
  obtain ⟨rfl, _⟩ := h2
  obtain ⟨out, g1, g2⟩ := h3 (by
    intro m hm s1 t1 r1 s2 t2 r2 he hne x _ _ h
    exfalso
    simp only [List.cons_append, List.nil_append, List.mem_cons, List.not_mem_nil, or_false] at hm
    have key : ∃ t : ℚ, 0 < t ∧ t1 = t ∧ t2 = t := by
      rcases hm with rfl | rfl
      · rw [hE1] at he
        simp only [boxEdges, List.mem_cons, List.not_mem_nil, or_false, Prod.mk.injEq, List.cons.injEq, and_true] at he
        rcases he with h | h | h | h <;> exact ⟨_, by norm_num, h.1.2.1, h.2.2.1⟩
      · rw [hE2] at he
        simp only [boxEdges, List.mem_cons, List.not_mem_nil, or_false, Prod.mk.injEq, List.cons.injEq, and_true] at he
        rcases he with h | h | h | h <;> exact ⟨_, by norm_num, h.1.2.1, h.2.2.1⟩
    obtain ⟨t, ht, e1, e2⟩ := key
    rw [e1, e2] at h
    have ht' : (0 : ℝ) < (t : ℝ) := by exact_mod_cast ht
    have := mul_left_cancel₀ ht'.ne' h
    apply hne
    have h' : (s1 : ℝ) = s2 := by linarith
    exact_mod_cast h')
  refine ⟨eng, E, solve, isZero, out, heng, hE, hs, hz, g1, ?_⟩
  obtain ⟨q, q1, _, _, _, q2, q3⟩ := g2 (1 / 2) (by norm_num) (by norm_num)
  refine ⟨q, q1, le_antisymm ?_ ?_⟩
  · rcases q3 with q3 | ⟨t, r, q3, q4⟩
    · rw [q3]; norm_num
    · rw [q4]
      have : 2 ≤ t ∧ r ≤ 1000000 := by
        rcases q3 with ⟨_, _, _, e, _, k1, k2, _⟩ | ⟨_, _, _, e, _, k1, k2, _⟩ <;>
          simp only [List.cons.injEq, and_true] at e <;> rw [e.2.1, e.2.2]
        · exact ⟨by linarith [k1.1], k2.2⟩
        · exact ⟨k1.1, k2.2⟩
      have : r / t ≤ 500000 := by rw [div_le_iff₀ (by linarith)]; linarith
      exact_mod_cast this
  · have := q2 2 1000000 (.inr ?_)
    · norm_num at this ⊢
      exact this
    · intro ε hε
      let η := min (ε / 2) (1 / 4)
      have η0 : 0 < η := lt_min (by linarith) (by norm_num)
      have η1 : η < ε := (min_le_left _ _).trans_lt (by linarith)
      have η2 : η ≤ 1 / 4 := min_le_right _ _
      refine ⟨1 / 2 + η, 2 + η, 1000000 - η, ?_, by linarith, η / 2, by linarith, ?_⟩
      · refine .cons ?_ (.cons ?_ (.cons ?_ .nil)) <;> rw [abs_lt] <;> constructor <;> linarith
      · intro z hz
        match z, hz with
        | [a, b, c], .cons h1 (.cons h2 (.cons h3 .nil)) =>
          rw [abs_lt] at h1 h2 h3
          refine ⟨a, b, c, rfl, ⟨by linarith [h1.1], by linarith [h1.2]⟩, ⟨by linarith [h2.1], by linarith [h2.2]⟩,
            ⟨by linarith [h3.1], by linarith [h3.2]⟩, ?_⟩
          intro R hR
          simp only [List.append_nil, List.mem_singleton] at hR
          subst hR
          rw [Mem, ZeroDensity.box3_contains]
          exact ⟨a, b, c, rfl, ⟨by linarith [h1.1], by linarith [h1.2]⟩, ⟨by linarith [h2.1], by linarith [h2.2]⟩,
            ⟨by linarith [h3.1], by linarith [h3.2]⟩⟩

/-! ### C70: the domains of `lv_zlv_to_zd2` -/

/-- **C70** For `tau0 = m sigma + c` the domain of the large value estimates in `lv_zlv_to_zd2` contains exactly the points
`(sigma, tau, rho)` with `sigma` in the interval, `2/3 tau0 <= tau <= tau0` and `0 <= rho <= 1000000`. -/
theorem C70_domain (m c x0 x1 : ℚ) : ∃ D, zd2Domain m c x0 x1 = .ok D ∧ ∀ x, D.Contains x ↔
    ∃ s t r, x = [s, t, r] ∧ (x0 ≤ s ∧ s ≤ x1) ∧ (2 / 3 * (m * s + c) ≤ t ∧ t ≤ m * s + c) ∧ (0 ≤ r ∧ r ≤ 1000000) := by
  refine ⟨⟨4, [⟨false, -(2 / 3) * c, [-(2 / 3) * m, 1, 0]⟩, ⟨false, c, [m, -1, 0]⟩, ⟨false, -x0, [1, 0, 0]⟩, ⟨false, x1, [-1, 0, 0]⟩,
    ⟨false, 0, [0, 0, 1]⟩, ⟨false, 1000000, [0, 0, -1]⟩]⟩, ?_, ?_⟩
  · simp [zd2Domain, sigmaRho, Mat.ofConstraints, Mat.ofRows, LargeValues.rowOf, Row.isZero, LargeValues.lvLimit]
  · intro x
    constructor
    · intro h
      have hl := Mat.contains_length h
      have h' := (Mat.contains_iff_holds _ _ hl).mp h
      match x, hl with
      | [s, t, r], _ =>
        have h1 := (h' ⟨false, -(2 / 3) * c, [-(2 / 3) * m, 1, 0]⟩ (by simp)).2 rfl
        have h2 := (h' ⟨false, c, [m, -1, 0]⟩ (by simp)).2 rfl
        have h3 := (h' ⟨false, -x0, [1, 0, 0]⟩ (by simp)).2 rfl
        have h4 := (h' ⟨false, x1, [-1, 0, 0]⟩ (by simp)).2 rfl
        have h5 := (h' ⟨false, 0, [0, 0, 1]⟩ (by simp)).2 rfl
        have h6 := (h' ⟨false, 1000000, [0, 0, -1]⟩ (by simp)).2 rfl
        simp at h1 h2 h3 h4 h5 h6
        exact ⟨s, t, r, rfl, ⟨by linarith, by linarith⟩, ⟨by linarith, by linarith⟩, by linarith, by linarith⟩
    · rintro ⟨s, t, r, rfl, h1, h2, h3⟩
      refine (Mat.contains_iff_holds _ _ rfl).mpr ?_
      intro q hq
      simp only [List.mem_cons, List.not_mem_nil, or_false] at hq
      rcases hq with rfl | rfl | rfl | rfl | rfl | rfl <;> refine ⟨fun h => (by cases h), fun _ => ?_⟩ <;> simp <;> linarith

/-- **Finding** (zero_density_estimate.py:440-443) The domain of the zeta large value estimates in `lv_zlv_to_zd2` should be
`2 <= tau <= 4/3 tau0`, but the sign of `tau` in the second row is wrong and the constraints on `sigma` and `rho` are missing:
whenever `tau0 >= 0` at `sigma`, every `tau >= 2` and every `rho` is in the domain, also above `4/3 tau0`, and the domain is
unbounded. -/
theorem C70_zeta_counterexample (m c : ℚ) : ∃ D, zd2ZetaDomain m c = .ok D ∧
    (∀ s t r, 0 ≤ m * s + c → 2 ≤ t → D.Contains [s, t, r]) ∧
    (∀ s, 0 ≤ m * s + c → ∃ t, 4 / 3 * (m * s + c) < t ∧ ∀ r, D.Contains [s, t, r]) ∧ ((∃ s, 0 ≤ m * s + c) → ¬ D.Bounded) := by
  have key : ∃ D, zd2ZetaDomain m c = .ok D ∧ ∀ s t r, 0 ≤ m * s + c → 2 ≤ t → D.Contains [s, t, r] := by
    refine ⟨⟨4, [⟨false, -2, [0, 1, 0]⟩, ⟨false, 4 / 3 * c, [4 / 3 * m, 1, 0]⟩]⟩, ?_, ?_⟩
    · simp [zd2ZetaDomain, Mat.ofConstraints, Mat.ofRows, LargeValues.rowOf, Row.isZero]
    · intro s t r h1 h2
      refine (Mat.contains_iff_holds _ _ rfl).mpr ?_
      intro q hq
      simp only [List.mem_cons, List.not_mem_nil, or_false] at hq
      rcases hq with rfl | rfl <;> refine ⟨fun h => (by cases h), fun _ => ?_⟩ <;> simp <;> linarith
  obtain ⟨D, h1, h2⟩ := key
  refine ⟨D, h1, h2, ?_, ?_⟩
  · intro s hs
    exact ⟨max 2 (4 / 3 * (m * s + c) + 1), lt_of_lt_of_le (by linarith) (le_max_right _ _), fun r => h2 _ _ _ hs (le_max_left _ _)⟩
  · rintro ⟨s, hs⟩ ⟨B, hB⟩
    have := hB _ (h2 s 2 (|B| + 1) hs le_rfl) (|B| + 1) (by simp)
    rw [abs_of_nonneg (by positivity)] at this
    linarith [le_abs_self B]

/-- For `tau0 = 3` on `[1/2, 1]` the point `tau = 5/2` is in the first domain and `tau = 3/2` is not; the second domain contains
`tau = 100 > 4`. -/
example : ∃ D E, zd2Domain 0 3 (1 / 2) 1 = .ok D ∧ zd2ZetaDomain 0 3 = .ok E ∧ D.Contains [3 / 4, 5 / 2, 1] ∧
    ¬ D.Contains [3 / 4, 3 / 2, 1] ∧ E.Contains [3 / 4, 100, -7] := by
  obtain ⟨D, h1, h2⟩ := C70_domain 0 3 (1 / 2) 1
  obtain ⟨E, h3, h4, _⟩ := C70_zeta_counterexample 0 3
  refine ⟨D, E, h1, h3, (h2 _).mpr ⟨_, _, _, rfl, by norm_num, by norm_num, by norm_num⟩, fun h => ?_, h4 _ _ _ (by norm_num) (by norm_num)⟩
  obtain ⟨s, t, r, e, _, k, _⟩ := (h2 _).mp h
  simp only [List.cons.injEq, and_true] at e
  rw [← e.2.1] at k
  norm_num at k

end ZeroDensity
end Expdb
