import Verif.Model.Affine2
import Verif.Props.RegionDisjoint

/-!
# Property C07: the minimum of affine functions on polytopes
-/

namespace Expdb

open Mat

/-- A well-formed polytope in `n - 1` variables that is bounded and has no zero row. -/
structure BddPoly (n : ℕ) (m : Mat) : Prop where
  wf : m.WF
  cols : m.cols = n
  noZero : m.NoZero
  bounded : m.Bounded

theorem Mat.FullDim.poly {n : ℕ} {m : Mat} (h : FullDim n m) : BddPoly n m := ⟨h.wf, h.cols, h.noZero, h.bounded⟩

/-- The intersection of two polytopes. -/
theorem intersect_poly {eng : Engine} (heng : EngineSpec eng) {n : ℕ} {p q : Mat} (hp : BddPoly n p) (hqw : q.WF)
    (hqc : q.cols = n) (hqz : q.NoZero) : ∃ m, intersect eng.canon p q = .ok m ∧ BddPoly n m ∧
      ∀ x, m.Contains x ↔ p.Contains x ∧ q.Contains x := by
  obtain ⟨m, h1, h2, h3, h4⟩ := C10_intersection_exact eng.canon heng.canon true [p, q] (by simp) n
    (fun r hr => by
      simp only [List.mem_cons, List.not_mem_nil, or_false] at hr
      rcases hr with rfl | rfl
      exacts [⟨hp.wf, hp.cols⟩, ⟨hqw, hqc⟩])
  have h5 : ∀ x, m.Contains x ↔ p.Contains x ∧ q.Contains x := by
    intro x; rw [h4]; simp
  refine ⟨m, h1, ⟨h2, h3, ?_, ?_⟩, h5⟩
  · have h := h1
    have hlen : ∀ (b : Bool), ∀ r ∈ q.asList b, r.cs.length + 1 = p.cols := fun b r hr => by
      rw [hp.cols, ← hqc]; exact hqw r ((mem_asList _ _ _).mp hr).1
    unfold intersection at h
    simp only [List.flatMap_cons, List.flatMap_nil, List.append_nil, bind, Except.bind] at h
    rw [extendIf_ok p _ (hlen false)] at h
    simp only at h
    rw [extendIf_ok _ _ (fun r hr => by simpa using hlen true r hr)] at h
    simp only [if_true, Except.ok.injEq] at h
    rw [← h]
    apply heng.canonNoZero
    · intro r hr
      simp only [List.mem_append] at hr ⊢
      rcases hr with (hr | hr) | hr
      · exact hp.wf r hr
      · exact hlen false r hr
      · exact hlen true r hr
    · intro r hr
      simp only [List.mem_append] at hr
      rcases hr with (hr | hr) | hr
      · exact hp.noZero r hr
      · exact hqz r ((mem_asList _ _ _).mp hr).1
      · exact hqz r ((mem_asList _ _ _).mp hr).1
  · obtain ⟨B, hB⟩ := hp.bounded
    exact ⟨B, fun x hx => hB x ((h5 x).mp hx).1⟩

/-- The emptiness test of the interior. -/
theorem BddPoly.empty_iff {eng : Engine} (heng : EngineSpec eng) {n : ℕ} (hn : 1 ≤ n) {m : Mat} (hm : BddPoly n m) :
    isEmptyExcl eng.lp m = false ↔ ∃ s, s.length + 1 = n ∧ m.Interior s := by
  rw [← Bool.not_eq_true, C14_isEmptyExcl_iff eng.lp heng.lp m hm.wf hm.noZero (by rw [hm.cols]; exact hn)]
  push Not
  rw [hm.cols]

theorem BddPoly.fullDim {n : ℕ} {m : Mat} (hm : BddPoly n m) (h : ∃ s, s.length + 1 = n ∧ m.Interior s) : FullDim n m :=
  ⟨hm.wf, hm.cols, hm.noZero, hm.bounded, h⟩

namespace Affine2

/-- A function in `n - 1` variables on a bounded polytope. -/
structure Ok (n : ℕ) (f : Affine2) : Prop where
  dom : BddPoly n f.dom
  len : f.cs.length + 1 = n

/-- The function `f` on `d`. -/
def On (f : Affine2) (d : Mat) (p : Affine2) : Prop := p.c0 = f.c0 ∧ p.cs = f.cs ∧ p.label = f.label ∧ p.dom = d

theorem diff_val {f g : Affine2} (h : f.cs.length = g.cs.length) (x : Pt) :
    (diff f g).c0 + dot (diff f g).cs x = f.ev x - g.ev x := by
  unfold diff ev
  rw [dot_sub_left _ _ _ h]
  ring

theorem zipWith_sub_zero {a b : List ℚ} (h : a.length = b.length) (h0 : ∀ c ∈ List.zipWith (· - ·) a b, c = 0) : a = b := by
  induction a generalizing b with
  | nil => cases b with
    | nil => rfl
    | cons _ _ => simp at h
  | cons u a ih => cases b with
    | nil => simp at h
    | cons v b =>
      simp only [List.zipWith_cons_cons, List.mem_cons, forall_eq_or_imp] at h0
      rw [ih (by simpa using h) h0.2, sub_eq_zero.mp h0.1]

theorem sameFn_iff {f g : Affine2} (h : f.cs.length = g.cs.length) : sameFn f g = true ↔ f.c0 = g.c0 ∧ f.cs = g.cs := by
  unfold sameFn
  rw [h, List.take_length]
  simp

theorem diff_isZero {f g : Affine2} (h : f.cs.length = g.cs.length) (hs : sameFn f g = false) : (diff f g).isZero = false := by
  rw [← Bool.not_eq_true] at hs ⊢
  intro hz
  apply hs
  rw [Row.isZero_iff] at hz
  rw [sameFn_iff h]
  exact ⟨sub_eq_zero.mp hz.1, zipWith_sub_zero h hz.2⟩

/-- The half-space where a row is non-negative. -/
theorem ofConstraints_one {r : Row} (hz : r.isZero = false) : ofConstraints [r] = .ok ⟨r.cs.length + 1, [r]⟩ := by
  unfold ofConstraints
  simp only [List.filter_cons, hz, Bool.not_false, if_true, List.filter_nil]
  exact ofRows_ok [r] r.cs.length (by simp) (by simp)

/-- The part of a polytope with interior where an inequality that is positive somewhere on it holds has interior
itself. -/
theorem half_interior {n : ℕ} {m m' : Mat} {h : Row} (hm : FullDim n m) (hm' : m'.cols = n)
    (hiff : ∀ x, m'.Contains x ↔ m.Contains x ∧ 0 ≤ h.c0 + dot h.cs x) (hpos : ∃ x, m.Contains x ∧ 0 < h.c0 + dot h.cs x) :
    ∃ s, s.length + 1 = n ∧ m'.Interior s := by
  obtain ⟨s, hs1, hs2⟩ := hm.inner
  obtain ⟨x, hx1, hx2⟩ := hpos
  have hxl := contains_length hx1
  rw [hm.cols] at hxl
  have hstr := hs2.strict hm.wf hm.noZero (by rw [hm.cols]; exact hs1)
  have hxh := (contains_iff_holds m x (by rw [hm.cols]; exact hxl)).mp hx1
  obtain ⟨ε, hε, hε2⟩ := pos_near _ _ _ hx2
  obtain ⟨y, hy1, hy2⟩ := strict_dense (by omega : s.length = x.length) hstr hxh hε
  have hyl : y.length + 1 = n := by rw [hy1.length]; exact hxl
  obtain ⟨δ, hδ, hδ2⟩ := hy2.interior
  obtain ⟨γ, hγ, hγ2⟩ := pos_near _ _ _ (hε2 y hy1)
  refine ⟨y, hyl, min δ γ, lt_min hδ hγ, fun z hz => ?_⟩
  have hzl : z.length + 1 = n := by rw [hz.length]; exact hyl
  rw [← contains_iff_holds m' z (by rw [hm']; exact hzl), hiff, contains_iff_holds m z (by rw [hm.cols]; exact hzl)]
  exact ⟨hδ2 z (hz.mono (min_le_left _ _)), (hγ2 z (hz.mono (min_le_right _ _))).le⟩

/-- **C07** (one function of the list; partial: the labels must be comparable if the functions are equal) If the labels can be compared, the call succeeds; every
returned piece has a domain with interior points inside both domains, is the restriction of one of the two functions
(with its label), and its value is the smaller of the two values at every point of its domain. If the domains have a
common interior point then the pieces cover the intersection of the domains. -/
theorem C07_two_partial (eng : Engine) (heng : EngineSpec eng) (n : ℕ) (hn : 1 ≤ n) (f g : Affine2) (hf : f.Ok n) (hg : g.Ok n)
    (hlab : f.label ≠ none ∧ g.label ≠ none ∨ (f.c0, f.cs) ≠ (g.c0, g.cs)) :
    ∃ ps, minPieces eng.canon eng.lp eng.verts f g = .ok ps ∧
      (∀ p ∈ ps, FullDim n p.dom ∧ (On f p.dom p ∨ On g p.dom p) ∧
        ∀ x, p.dom.Contains x → f.dom.Contains x ∧ g.dom.Contains x ∧ p.ev x = min (f.ev x) (g.ev x)) ∧
      ((∃ s, s.length + 1 = n ∧ f.dom.Interior s ∧ g.dom.Interior s) →
        ∀ x, f.dom.Contains x → g.dom.Contains x → ∃ p ∈ ps, p.dom.Contains x) := by
  have hlen : f.cs.length = g.cs.length := by have := hf.len; have := hg.len; omega
  obtain ⟨d, hd1, hd2, hd3⟩ := intersect_poly heng hf.dom hg.dom.wf hg.dom.cols hg.dom.noZero
  unfold minPieces
  rw [hd1]
  simp only [bind, Except.bind]
  cases hE : isEmptyExcl eng.lp d with
  | true =>
    refine ⟨[], rfl, by simp, ?_⟩
    rintro ⟨s, hs1, hs2, hs3⟩
    have := (hd2.empty_iff heng hn).mpr ⟨s, hs1, interior_inter n hf.dom.cols hg.dom.cols hd2.cols hd3 hs1 hs2 hs3⟩
    rw [hE] at this
    cases this
  | false =>
    have hfull := hd2.fullDim ((hd2.empty_iff heng hn).mp hE)
    simp only [Bool.false_eq_true, if_false]
    rw [if_neg (by omega)]
    cases hS : sameFn f g with
    | true =>
      obtain ⟨e1, e2⟩ := (sameFn_iff hlen).mp hS
      rcases hlab with ⟨l1, l2⟩ | h
      swap
      · exact absurd (by rw [e1, e2]) h
      have hev : ∀ x, f.ev x = g.ev x := fun x => by unfold ev; rw [e1, e2]
      obtain ⟨a, ha⟩ := Option.ne_none_iff_exists'.mp l1
      obtain ⟨b, hb⟩ := Option.ne_none_iff_exists'.mp l2
      rw [ha, hb]
      simp only [if_true, labelLt]
      by_cases hab : a < b
      · simp only [hab, decide_true, if_true, pure, Except.pure]
        refine ⟨_, rfl, ?_, fun _ x h1 h2 => ⟨_, List.mem_singleton.mpr rfl, (hd3 x).mpr ⟨h1, h2⟩⟩⟩
        intro p hp
        rw [List.mem_singleton] at hp
        subst hp
        refine ⟨hfull, Or.inl ⟨rfl, rfl, ha.symm, rfl⟩, fun x hx => ⟨((hd3 x).mp hx).1, ((hd3 x).mp hx).2, ?_⟩⟩
        rw [← hev, min_self]
        rfl
      · simp only [hab, decide_false, Bool.false_eq_true, if_false, pure, Except.pure]
        refine ⟨_, rfl, ?_, fun _ x h1 h2 => ⟨_, List.mem_singleton.mpr rfl, (hd3 x).mpr ⟨h1, h2⟩⟩⟩
        intro p hp
        rw [List.mem_singleton] at hp
        subst hp
        refine ⟨hfull, Or.inr ⟨rfl, rfl, hb.symm, rfl⟩, fun x hx => ⟨((hd3 x).mp hx).1, ((hd3 x).mp hx).2, ?_⟩⟩
        rw [hev, min_self]
        rfl
    | false =>
      simp only [Bool.false_eq_true, if_false]
      have hvs := heng.verts d (by rw [hd2.cols]; exact hn) hd2.bounded
      have hlen' : (diff f g).cs.length + 1 = n := by
        unfold diff; simp only [List.length_zipWith]; have := hf.len; have := hg.len; omega
      have hlen'' : (diff g f).cs.length + 1 = n := by
        unfold diff; simp only [List.length_zipWith]; have := hf.len; have := hg.len; omega
      have hz1 := diff_isZero hlen hS
      have hz2 : (diff g f).isZero = false := by
        apply diff_isZero hlen.symm
        rw [← Bool.not_eq_true, sameFn_iff hlen.symm]
        rintro ⟨h1, h2⟩
        have := (sameFn_iff hlen).mpr ⟨h1.symm, h2.symm⟩
        rw [hS] at this
        cases this
      cases hI : intersects eng.verts d (diff f g) with
      | true =>
        simp only [if_true]
        unfold splitPieces
        rw [ofConstraints_one hz1, ofConstraints_one hz2]
        simp only [bind, Except.bind]
        have hhalf : ∀ r : Row, r.lin = false → r.isZero = false → r.cs.length + 1 = n →
            ∃ m, intersect eng.canon d ⟨r.cs.length + 1, [r]⟩ = .ok m ∧ BddPoly n m ∧
              ∀ x, m.Contains x ↔ d.Contains x ∧ 0 ≤ r.c0 + dot r.cs x := by
          intro r hl hz hr
          obtain ⟨m, h1, h2, h3⟩ := intersect_poly heng hd2 (q := ⟨r.cs.length + 1, [r]⟩)
            (fun s hs => by rw [List.mem_singleton.mp hs]) hr (fun s hs => by rw [List.mem_singleton.mp hs]; exact hz)
          refine ⟨m, h1, h2, fun x => ?_⟩
          rw [h3]
          apply and_congr_right
          intro hx
          have hxl := contains_length hx
          rw [hd2.cols] at hxl
          rw [contains_iff_holds _ x (by simp only; omega)]
          unfold Mat.Holds
          simp only [List.mem_singleton, forall_eq, Row.Holds, hl, Bool.false_eq_true, false_imp_iff, true_and, forall_const]
        obtain ⟨d1, a1, a2, a3⟩ := hhalf _ rfl hz1 hlen'
        obtain ⟨d2, b1, b2, b3⟩ := hhalf _ rfl hz2 hlen''
        rw [a1]
        simp only
        rw [b1]
        simp only
        obtain ⟨⟨u, hu1, hu2⟩, ⟨v, hv1, hv2⟩⟩ := (C19_intersects_iff eng.verts d hvs _).mp hI
        have i1 := half_interior hfull a2.cols a3 ⟨v, hv1, hv2⟩
        have i2 := half_interior hfull b2.cols b3 ⟨u, hu1, by
          rw [diff_val hlen] at hu2; rw [diff_val hlen.symm]; linarith⟩
        unfold keep
        rw [(a2.empty_iff heng hn).mpr i1, (b2.empty_iff heng hn).mpr i2]
        simp only [Bool.false_eq_true, if_false]
        refine ⟨_, rfl, ?_, ?_⟩
        · intro p hp
          simp only [List.cons_append, List.nil_append, List.mem_cons, List.not_mem_nil, or_false] at hp
          rcases hp with rfl | rfl
          · refine ⟨a2.fullDim i1, Or.inr ⟨rfl, rfl, rfl, rfl⟩, fun x hx => ?_⟩
            obtain ⟨h1, h2⟩ := (a3 x).mp hx
            rw [diff_val hlen] at h2
            exact ⟨((hd3 x).mp h1).1, ((hd3 x).mp h1).2, (min_eq_right (show g.ev x ≤ f.ev x by linarith)).symm⟩
          · refine ⟨b2.fullDim i2, Or.inl ⟨rfl, rfl, rfl, rfl⟩, fun x hx => ?_⟩
            obtain ⟨h1, h2⟩ := (b3 x).mp hx
            rw [diff_val hlen.symm] at h2
            exact ⟨((hd3 x).mp h1).1, ((hd3 x).mp h1).2, (min_eq_left (show f.ev x ≤ g.ev x by linarith)).symm⟩
        · intro _ x h1 h2
          have hx := (hd3 x).mpr ⟨h1, h2⟩
          rcases le_total (g.ev x) (f.ev x) with h | h
          · exact ⟨_, List.mem_append_left _ (List.mem_singleton.mpr rfl), (a3 x).mpr ⟨hx, by rw [diff_val hlen]; linarith⟩⟩
          · exact ⟨_, List.mem_append_right _ (List.mem_singleton.mpr rfl), (b3 x).mpr ⟨hx, by
              rw [diff_val hlen.symm]; linarith⟩⟩
      | false =>
        simp only [Bool.false_eq_true, if_false]
        have hne : eng.verts d ≠ [] := by
          obtain ⟨x, hx⟩ := hfull.nonempty
          obtain ⟨ws, h1, _, h2, _⟩ := (hvs.2 x).mp hx
          intro h
          rw [h] at h1
          rw [List.length_eq_zero_iff.mp h1] at h2
          norm_num at h2
        obtain ⟨c, hc1, hc2, hc3⟩ := C19_centroid_side eng.verts d hvs (by rw [hd2.cols]; exact hn) hne
        obtain ⟨s1, s2, s3⟩ := hc3 _ hI
        have hcl := contains_length hc2
        rw [hd2.cols] at hcl
        unfold onePiece
        rw [hc1]
        simp only [bind, Except.bind, «at»]
        rw [if_neg (by have := hf.len; omega), if_neg (by have := hg.len; omega)]
        simp only [diff_val hlen] at s1 s2 s3
        by_cases huv : f.ev c < g.ev c
        · simp only [huv, if_true, pure, Except.pure]
          refine ⟨_, rfl, ?_, fun _ x h1 h2 => ⟨_, List.mem_singleton.mpr rfl, (hd3 x).mpr ⟨h1, h2⟩⟩⟩
          intro p hp
          rw [List.mem_singleton] at hp
          subst hp
          refine ⟨hfull, Or.inl ⟨rfl, rfl, rfl, rfl⟩, fun x hx => ⟨((hd3 x).mp hx).1, ((hd3 x).mp hx).2, ?_⟩⟩
          have := s1 (by linarith) x hx
          exact (min_eq_left (show f.ev x ≤ g.ev x by linarith)).symm
        · simp only [huv, if_false, pure, Except.pure]
          refine ⟨_, rfl, ?_, fun _ x h1 h2 => ⟨_, List.mem_singleton.mpr rfl, (hd3 x).mpr ⟨h1, h2⟩⟩⟩
          intro p hp
          rw [List.mem_singleton] at hp
          subst hp
          refine ⟨hfull, Or.inr ⟨rfl, rfl, rfl, rfl⟩, fun x hx => ⟨((hd3 x).mp hx).1, ((hd3 x).mp hx).2, ?_⟩⟩
          rcases lt_or_eq_of_le (not_lt.mp huv) with h | h
          · have := s2 (by linarith) x hx
            exact (min_eq_right (show g.ev x ≤ f.ev x by linarith)).symm
          · have := s3 (by linarith) x hx
            exact (min_eq_right (show g.ev x ≤ f.ev x by linarith)).symm

end Affine2

namespace Piecewise

open Affine2
open Region (engineSpec_satisfiable ivl_fullDim)

/-- Specification of the minimum of two lists of pieces: every piece has a domain with interior points and carries
one of the functions with its label, its value is the smaller one on its domain; and if two domains have a common
interior point then their intersection is covered. -/
structure MinSpec (n : ℕ) (fs gs ps : List Affine2) : Prop where
  piece : ∀ p ∈ ps, FullDim n p.dom ∧ p.cs.length + 1 = n ∧ ∃ f ∈ fs, ∃ g ∈ gs, (On f p.dom p ∨ On g p.dom p) ∧
    ∀ x, p.dom.Contains x → f.dom.Contains x ∧ g.dom.Contains x ∧ p.ev x = min (f.ev x) (g.ev x)
  cover : ∀ f ∈ fs, ∀ g ∈ gs, (∃ s, s.length + 1 = n ∧ f.dom.Interior s ∧ g.dom.Interior s) →
    ∀ x, f.dom.Contains x → g.dom.Contains x → ∃ p ∈ ps, p.dom.Contains x

/-- The labels can be compared where `min_with` compares them. -/
def Comparable (fs gs : List Affine2) : Prop :=
  ∀ f ∈ fs, ∀ g ∈ gs, f.label ≠ none ∧ g.label ≠ none ∨ (f.c0, f.cs) ≠ (g.c0, g.cs)

/-- **C07** `Affine2.min_with` for a list of functions (partial: comparable labels). -/
theorem C07_min_with_partial (eng : Engine) (heng : EngineSpec eng) (n : ℕ) (hn : 1 ≤ n) (f : Affine2) (gs : List Affine2)
    (hf : f.Ok n) (hgs : ∀ g ∈ gs, g.Ok n) (hlab : Comparable [f] gs) :
    ∃ ps, f.minWith eng.canon eng.lp eng.verts gs = .ok ps ∧ MinSpec n [f] gs ps := by
  induction gs with
  | nil => exact ⟨[], rfl, by simp, by simp⟩
  | cons g gs ih =>
    obtain ⟨a, h1, h2, h3⟩ := C07_two_partial eng heng n hn f g hf (hgs g (by simp)) (hlab f (by simp) g (by simp))
    obtain ⟨b, h4, h5⟩ := ih (fun g' hg' => hgs g' (by simp [hg'])) (fun f' hf' g' hg' => hlab f' hf' g' (by simp [hg']))
    refine ⟨a ++ b, ?_, ?_, ?_⟩
    · unfold Affine2.minWith
      rw [h1, h4]
      rfl
    · intro p hp
      rcases List.mem_append.mp hp with hp | hp
      · obtain ⟨k1, k2, k3⟩ := h2 p hp
        refine ⟨k1, ?_, f, by simp, g, by simp, k2, k3⟩
        rcases k2 with k | k
        · rw [k.2.1]; exact hf.len
        · rw [k.2.1]; exact (hgs g (by simp)).len
      · obtain ⟨k1, k2, f', hf', g', hg', k3⟩ := h5.piece p hp
        exact ⟨k1, k2, f', hf', g', by simp [hg'], k3⟩
    · intro f' hf' g' hg' hs x hx1 hx2
      rcases List.mem_cons.mp hg' with rfl | hg'
      · obtain rfl := List.mem_singleton.mp hf'
        obtain ⟨p, hp, hpx⟩ := h3 hs x hx1 hx2
        exact ⟨p, List.mem_append_left _ hp, hpx⟩
      · obtain ⟨p, hp, hpx⟩ := h5.cover f' hf' g' hg' hs x hx1 hx2
        exact ⟨p, List.mem_append_right _ hp, hpx⟩

/-- **C07** `Piecewise.min_with` (partial: comparable labels). -/
theorem C07_piecewise_partial (eng : Engine) (heng : EngineSpec eng) (n : ℕ) (hn : 1 ≤ n) (fs gs : List Affine2)
    (hfs : ∀ f ∈ fs, f.Ok n) (hgs : ∀ g ∈ gs, g.Ok n) (hlab : Comparable fs gs) :
    ∃ ps, minWith eng.canon eng.lp eng.verts gs fs = .ok ps ∧ MinSpec n fs gs ps := by
  induction fs with
  | nil => exact ⟨[], rfl, by simp, by simp⟩
  | cons f fs ih =>
    obtain ⟨a, h1, h2⟩ := C07_min_with_partial eng heng n hn f gs (hfs f (by simp)) hgs (fun f' hf' => by
      rw [List.mem_singleton.mp hf']; exact hlab f (by simp))
    obtain ⟨b, h4, h5⟩ := ih (fun g' hg' => hfs g' (by simp [hg'])) (fun f' hf' g' hg' => hlab f' (by simp [hf']) g' hg')
    refine ⟨a ++ b, ?_, ?_, ?_⟩
    · unfold minWith
      rw [h1, h4]
      rfl
    · intro p hp
      rcases List.mem_append.mp hp with hp | hp
      · obtain ⟨k1, k2, f', hf', g', hg', k3⟩ := h2.piece p hp
        rw [List.mem_singleton.mp hf'] at k3
        exact ⟨k1, k2, f, by simp, g', hg', k3⟩
      · obtain ⟨k1, k2, f', hf', g', hg', k3⟩ := h5.piece p hp
        exact ⟨k1, k2, f', by simp [hf'], g', hg', k3⟩
    · intro f' hf' g' hg' hs x hx1 hx2
      rcases List.mem_cons.mp hf' with rfl | hf'
      · obtain ⟨p, hp, hpx⟩ := h2.cover f' (by simp) g' hg' hs x hx1 hx2
        exact ⟨p, List.mem_append_left _ hp, hpx⟩
      · obtain ⟨p, hp, hpx⟩ := h5.cover f' hf' g' hg' hs x hx1 hx2
        exact ⟨p, List.mem_append_right _ hp, hpx⟩

/-- Pieces covering a full-dimensional polytope: every neighbourhood of each of its points contains a point that is
interior to a piece of both lists. -/
theorem generic_point {n : ℕ} {fs gs : List Affine2} (hfs : ∀ f ∈ fs, Affine2.Ok n f) (hgs : ∀ g ∈ gs, Affine2.Ok n g)
    {R : Mat} (hR : FullDim n R) (hcf : ∀ x, R.Contains x → ∃ f ∈ fs, f.dom.Contains x)
    (hcg : ∀ x, R.Contains x → ∃ g ∈ gs, g.dom.Contains x) {x : Pt} (hx : R.Contains x) {ε : ℚ} (hε : 0 < ε) :
    ∃ y, Near ε x y ∧ ∃ f ∈ fs, ∃ g ∈ gs, y.length + 1 = n ∧ f.dom.Interior y ∧ g.dom.Interior y := by
  have hxl := contains_length hx
  rw [hR.cols] at hxl
  obtain ⟨s, hs1, hs2⟩ := hR.inner
  obtain ⟨y, hy1, hy2⟩ := strict_dense (by omega : s.length = x.length) (hs2.strict hR.wf hR.noZero (by rw [hR.cols]; exact hs1))
    ((contains_iff_holds R x (by rw [hR.cols]; exact hxl)).mp hx) (half_pos hε)
  have hyl : y.length + 1 = n := by rw [hy1.length]; exact hxl
  obtain ⟨δ, hδ, hδ2⟩ := hy2.interior
  have hrows : ∀ r ∈ (fs ++ gs).flatMap (fun f => f.dom.rows), r.isZero = false ∧ r.cs.length = y.length := by
    intro r hr
    obtain ⟨f, hf, hrf⟩ := List.mem_flatMap.mp hr
    have hok : Affine2.Ok n f := (List.mem_append.mp hf).elim (hfs f) (hgs f)
    refine ⟨hok.dom.noZero r hrf, ?_⟩
    have h1 := hok.dom.wf r hrf
    rw [hok.dom.cols] at h1
    omega
  obtain ⟨z, hz1, hz2⟩ := exists_generic _ y hrows (lt_min (half_pos hε) hδ)
  have hzl : z.length + 1 = n := by rw [hz1.length]; exact hyl
  have hzR : R.Contains z := (contains_iff_holds R z (by rw [hR.cols]; exact hzl)).mpr (hδ2 z (hz1.mono (min_le_right _ _)))
  have key : ∀ f ∈ fs ++ gs, f.dom.Contains z → f.dom.Interior z := by
    intro f hf hfz
    have hok : Affine2.Ok n f := (List.mem_append.mp hf).elim (hfs f) (hgs f)
    have hh := (contains_iff_holds _ z (by rw [hok.dom.cols]; exact hzl)).mp hfz
    apply Strict.interior
    intro r hr
    have h1 := hz2 r (List.mem_flatMap.mpr ⟨f, hf, hr⟩)
    obtain ⟨h2, h3⟩ := hh r hr
    cases hl : r.lin with
    | true => exact absurd (h2 hl) h1
    | false => exact ⟨hl, lt_of_le_of_ne (h3 hl) (Ne.symm h1)⟩
  obtain ⟨f, hf, hfz⟩ := hcf z hzR
  obtain ⟨g, hg, hgz⟩ := hcg z hzR
  refine ⟨z, (hy1.trans hz1).mono ?_, f, hf, g, hg, hzl, key f (by simp [hf]) hfz, key g (by simp [hg]) hgz⟩
  have := min_le_left (ε / 2) δ
  linarith

/-- **C07** If the pieces of both functions cover a polytope with interior points, so do the pieces of the minimum. -/
theorem C07_tiling {n : ℕ} {fs gs ps : List Affine2} (hfs : ∀ f ∈ fs, Affine2.Ok n f) (hgs : ∀ g ∈ gs, Affine2.Ok n g)
    (h : MinSpec n fs gs ps) {R : Mat} (hR : FullDim n R) (hcf : ∀ x, R.Contains x → ∃ f ∈ fs, f.dom.Contains x)
    (hcg : ∀ x, R.Contains x → ∃ g ∈ gs, g.dom.Contains x) (x : Pt) (hx : R.Contains x) :
    ∃ p ∈ ps, p.dom.Contains x := by
  have hxl := contains_length hx
  rw [hR.cols] at hxl
  obtain ⟨d, hd, hdx⟩ := union_closed (ps.map (·.dom)) x (fun ε hε => by
    obtain ⟨y, hy, f, hf, g, hg, hyl, h1, h2⟩ := generic_point hfs hgs hR hcf hcg hx hε
    obtain ⟨p, hp, hpy⟩ := h.cover f hf g hg ⟨y, hyl, h1, h2⟩ y
      ((contains_iff_holds _ y (by rw [(hfs f hf).dom.cols]; exact hyl)).mpr h1.holds)
      ((contains_iff_holds _ y (by rw [(hgs g hg).dom.cols]; exact hyl)).mpr h2.holds)
    exact ⟨y, hy, p.dom, List.mem_map.mpr ⟨p, hp, rfl⟩,
      (contains_iff_holds _ y (by rw [(h.piece p hp).1.cols]; exact hyl)).mp hpy⟩)
  obtain ⟨p, hp, rfl⟩ := List.mem_map.mp hd
  exact ⟨p, hp, (contains_iff_holds _ x (by rw [(h.piece p hp).1.cols]; exact hxl)).mpr hdx⟩

/-- No point has two values. -/
def SingleValued (ps : List Affine2) : Prop :=
  ∀ p ∈ ps, ∀ q ∈ ps, ∀ x, p.dom.Contains x → q.dom.Contains x → p.ev x = q.ev x

/-- `at` returns the value of a piece containing the point, and `None` only if there is none. -/
theorem at_spec {n : ℕ} (ps : List Affine2) (h : ∀ p ∈ ps, p.dom.cols = n ∧ p.cs.length + 1 = n) (x : Pt)
    (hx : x.length + 1 = n) : (Piecewise.at ps x = .ok none ∧ ∀ p ∈ ps, ¬ p.dom.Contains x) ∨
      ∃ p ∈ ps, p.dom.Contains x ∧ Piecewise.at ps x = .ok (some (p.ev x)) := by
  induction ps with
  | nil => exact Or.inl ⟨rfl, by simp⟩
  | cons p ps ih =>
    obtain ⟨h1, h2⟩ := h p (by simp)
    have hc : ∃ b, p.dom.contains x = .ok b := (contains_eq p.dom x (by rw [h1]; exact hx)).imp fun _ h => h.1
    obtain ⟨b, hb⟩ := hc
    unfold Piecewise.at
    rw [hb]
    simp only [bind, Except.bind]
    cases b with
    | true =>
      refine Or.inr ⟨p, by simp, hb, ?_⟩
      simp only [if_true, Affine2.at]
      rw [if_neg (by omega)]
      rfl
    | false =>
      simp only [Bool.false_eq_true, if_false]
      rcases ih (fun q hq => h q (by simp [hq])) with ⟨k1, k2⟩ | ⟨q, hq, k1, k2⟩
      · refine Or.inl ⟨k1, ?_⟩
        intro q hq
        rcases List.mem_cons.mp hq with rfl | hq
        · unfold Mat.Contains; rw [hb]; simp
        · exact k2 q hq
      · exact Or.inr ⟨q, by simp [hq], k1, k2⟩

/-- **C07** (evaluation) For two single-valued piecewise functions covering a polytope with interior points, the
result of `min_with` evaluates at each of its points to the smaller of the two values (partial: comparable labels). -/
theorem C07_at_partial (eng : Engine) (heng : EngineSpec eng) (n : ℕ) (hn : 1 ≤ n) (fs gs : List Affine2)
    (hfs : ∀ f ∈ fs, f.Ok n) (hgs : ∀ g ∈ gs, g.Ok n) (hlab : Comparable fs gs) (hf1 : SingleValued fs)
    (hg1 : SingleValued gs) (R : Mat) (hR : FullDim n R) (hcf : ∀ x, R.Contains x → ∃ f ∈ fs, f.dom.Contains x)
    (hcg : ∀ x, R.Contains x → ∃ g ∈ gs, g.dom.Contains x) :
    ∃ ps, minWith eng.canon eng.lp eng.verts gs fs = .ok ps ∧ SingleValued ps ∧ ∀ x, R.Contains x →
      ∃ u v, Piecewise.at fs x = .ok (some u) ∧ Piecewise.at gs x = .ok (some v) ∧
        Piecewise.at ps x = .ok (some (min u v)) := by
  obtain ⟨ps, h1, h2⟩ := C07_piecewise_partial eng heng n hn fs gs hfs hgs hlab
  refine ⟨ps, h1, ?_, fun x hx => ?_⟩
  · intro p hp q hq x hpx hqx
    obtain ⟨_, _, f, hf, g, hg, _, k1⟩ := h2.piece p hp
    obtain ⟨_, _, f', hf', g', hg', _, k2⟩ := h2.piece q hq
    obtain ⟨a1, a2, a3⟩ := k1 x hpx
    obtain ⟨b1, b2, b3⟩ := k2 x hqx
    rw [a3, b3, hf1 f hf f' hf' x a1 b1, hg1 g hg g' hg' x a2 b2]
  · have hxl := contains_length hx
    rw [hR.cols] at hxl
    obtain ⟨f, hf, hfx⟩ := hcf x hx
    obtain ⟨g, hg, hgx⟩ := hcg x hx
    obtain ⟨p, hp, hpx⟩ := C07_tiling hfs hgs h2 hR hcf hcg x hx
    rcases at_spec fs (fun f hf => ⟨(hfs f hf).dom.cols, (hfs f hf).len⟩) x hxl with ⟨_, k⟩ | ⟨f', hf', a1, a2⟩
    · exact absurd hfx (k f hf)
    rcases at_spec gs (fun f hf => ⟨(hgs f hf).dom.cols, (hgs f hf).len⟩) x hxl with ⟨_, k⟩ | ⟨g', hg', b1, b2⟩
    · exact absurd hgx (k g hg)
    rcases at_spec ps (fun f hf => ⟨(h2.piece f hf).1.cols, (h2.piece f hf).2.1⟩) x hxl with ⟨_, k⟩ | ⟨q, hq, c1, c2⟩
    · exact absurd hpx (k p hp)
    refine ⟨_, _, a2, b2, ?_⟩
    obtain ⟨_, _, f'', hf'', g'', hg'', _, k1⟩ := h2.piece q hq
    obtain ⟨d1, d2, d3⟩ := k1 x c1
    rw [c2, d3, hf1 f'' hf'' f' hf' x d1 a1, hg1 g'' hg'' g' hg' x d2 b1]

/-- Non-vacuity of C07: `x + 1` on `[0,2]` with label 1 and `3 - x` on `[0,2]` with label 2, covering `[0,2]`. -/
example : ∃ eng : Engine, EngineSpec eng ∧ Affine2.Ok 2 ⟨1, [1], ivl 0 2, some 1⟩ ∧ Affine2.Ok 2 ⟨3, [-1], ivl 0 2, some 2⟩ ∧
    Comparable [⟨1, [1], ivl 0 2, some 1⟩] [⟨3, [-1], ivl 0 2, some 2⟩] ∧ SingleValued [⟨1, [1], ivl 0 2, some 1⟩] ∧
    SingleValued [⟨3, [-1], ivl 0 2, some 2⟩] ∧ FullDim 2 (ivl 0 2) := by
  obtain ⟨eng, h⟩ := engineSpec_satisfiable
  have hd := ivl_fullDim 0 2 (by norm_num)
  refine ⟨eng, h, ⟨hd.poly, rfl⟩, ⟨hd.poly, rfl⟩, ?_, ?_, ?_, hd⟩
  · intro f hf g hg
    rw [List.mem_singleton] at hf hg
    subst hf hg
    exact Or.inl ⟨by simp, by simp⟩
  · intro p hp q hq x _ _
    rw [List.mem_singleton] at hp hq
    rw [hp, hq]
  · intro p hp q hq x _ _
    rw [List.mem_singleton] at hp hq
    rw [hp, hq]

/-- Finding: two equal functions made without labels (the default) make `min_with` raise `TypeError`, because it
compares `None` with `None`. -/
theorem C07_label_counterexample (eng : Engine) (heng : EngineSpec eng) : ∃ f g : Affine2, f.Ok 2 ∧ g.Ok 2 ∧
    (∃ s : Pt, s.length + 1 = 2 ∧ f.dom.Interior s ∧ g.dom.Interior s) ∧
    f.minWith eng.canon eng.lp eng.verts [g] = .error .typeError := by
  have hd := ivl_fullDim 0 2 (by norm_num)
  refine ⟨⟨1, [1], ivl 0 2, none⟩, ⟨1, [1], ivl 0 2, none⟩, ⟨hd.poly, rfl⟩, ⟨hd.poly, rfl⟩, ?_, ?_⟩
  · obtain ⟨s, h1, h2⟩ := hd.inner
    exact ⟨s, h1, h2, h2⟩
  · obtain ⟨d, d1, d2, d3⟩ := intersect_poly heng hd.poly hd.wf hd.cols hd.noZero
    obtain ⟨s, h1, h2⟩ := hd.inner
    have hE := (d2.empty_iff heng (by norm_num)).mpr ⟨s, h1, interior_inter 2 hd.cols hd.cols d2.cols d3 h1 h2 h2⟩
    unfold Affine2.minWith minPieces
    simp only [d1, bind, Except.bind, hE, Bool.false_eq_true, if_false]
    rfl

/-- Finding: domains that only share boundary points are not covered: the functions 1 on `[0,1]` and 2 on `[1,2]` are
both defined at 1 but the result is empty. -/
theorem C07_boundary_counterexample (eng : Engine) (heng : EngineSpec eng) : ∃ f g : Affine2, f.Ok 2 ∧ g.Ok 2 ∧
    f.dom.Contains [1] ∧ g.dom.Contains [1] ∧ f.minWith eng.canon eng.lp eng.verts [g] = .ok [] := by
  have hd := ivl_fullDim 0 1 (by norm_num)
  have hd' := ivl_fullDim 1 2 (by norm_num)
  refine ⟨⟨1, [0], ivl 0 1, some 1⟩, ⟨2, [0], ivl 1 2, some 2⟩, ⟨hd.poly, rfl⟩, ⟨hd'.poly, rfl⟩,
    (ivl_contains _ _ _).mpr ⟨1, rfl, by norm_num, by norm_num⟩, (ivl_contains _ _ _).mpr ⟨1, rfl, by norm_num, by norm_num⟩, ?_⟩
  obtain ⟨d, d1, d2, d3⟩ := intersect_poly heng hd.poly hd'.wf hd'.cols hd'.noZero
  have hE : isEmptyExcl eng.lp d = true := by
    rw [← Bool.not_eq_false]
    intro hE
    obtain ⟨s, h1, ε, h2, h3⟩ := (d2.empty_iff heng (by norm_num)).mp hE
    have key : ∀ y, Near ε s y → y = [1] := by
      intro y hy
      have hyl : y.length + 1 = 2 := by rw [hy.length]; exact h1
      have := (d3 y).mp ((contains_iff_holds d y (by rw [d2.cols]; exact hyl)).mpr (h3 y hy))
      rw [ivl_contains, ivl_contains] at this
      obtain ⟨⟨a, ha, h4, h5⟩, ⟨b, hb, h6, h7⟩⟩ := this
      rw [ha] at hb
      obtain rfl : a = b := by simpa using hb
      rw [ha, le_antisymm h5 h6]
    have hs := key s (Near.refl h2 s)
    have hy := key [1 + ε / 2] (by
      rw [hs]
      refine .cons ?_ .nil
      rw [add_sub_cancel_left, abs_of_pos (by linarith)]
      linarith)
    simp only [List.cons.injEq, and_true] at hy
    linarith
  unfold Affine2.minWith minPieces Affine2.minWith
  simp only [d1, bind, Except.bind, hE, if_true, pure, Except.pure, List.append_nil]

/-! ### C57: scaling -/

/-- **C57** (partial) `scale` (coordinate `j`, counted from 0) scales the domain and imposes the additional constraints; the value at a point of the new domain
is the value of the old function at the scaled-back point if and only if the coefficient of the coordinate, the
coordinate or the change of scale vanishes. The full claim - the value is always that of the old function at the
scaled-back point - is false, see the counterexample. -/
theorem C57_scale_partial (canon : Mat → Mat) (hc : CanonSpec canon) (f : Affine2) (hwf : f.dom.WF)
    (hlen : f.cs.length + 1 = f.dom.cols) (j : ℕ) (t : ℚ) (hj : j + 1 < f.dom.cols) (ht : t ≠ 0)
    (hrow : ∃ r ∈ f.dom.rows, r.lin = false ∧ r.isZero = false) (additional : List Row)
    (hadd : ∀ r ∈ additional, r.cs.length + 1 = f.dom.cols) :
    ∃ g, f.scale canon (j + 1) t additional = .ok g ∧ g.label = none ∧ ∀ x : Pt, x.length + 1 = f.dom.cols →
      (g.dom.Contains x ↔ f.dom.Contains (x.modify j (· / t)) ∧ ∀ r ∈ additional, r.Holds x) ∧
      (g.ev x = f.ev (x.modify j (· / t)) ↔ f.cs.getD j 0 * (x.getD j 0 * (t - 1)) = 0) := by
  obtain ⟨d, h1, _, h2, h3⟩ := C11_scale_exact canon hc f.dom hwf j t hj ht hrow additional hadd
  refine ⟨⟨f.c0, f.cs, d, none⟩, ?_, rfl, fun x hx => ⟨h3 x hx, ?_⟩⟩
  · unfold Affine2.scale
    rw [h1]
    rfl
  · have key : ∀ (a : List ℚ) (x : Pt) (j : ℕ), dot a x - dot a (x.modify j (· / t)) = a.getD j 0 * (x.getD j 0 * (1 - 1 / t)) := by
      intro a
      induction a with
      | nil => intro x j; simp
      | cons c a ih =>
        intro x j
        cases x with
        | nil => simp
        | cons u x => cases j with
          | zero => simp; ring
          | succ j =>
            have := ih x j
            simp only [dot_cons, List.modify_succ_cons, List.getD_cons_succ]
            linarith
    have h4 := key f.cs x j
    unfold Affine2.ev
    simp only
    have h5 : (1 - 1 / t) = (t - 1) * t⁻¹ := by field_simp
    rw [h5] at h4
    constructor
    · intro h
      have h6 : f.cs.getD j 0 * (x.getD j 0 * (t - 1)) * t⁻¹ = 0 := by linarith
      rcases mul_eq_zero.mp h6 with h6 | h6
      · exact h6
      · exact absurd h6 (inv_ne_zero ht)
    · intro h
      have h6 : f.cs.getD j 0 * (x.getD j 0 * (t - 1)) * t⁻¹ = 0 := by rw [h, zero_mul]
      linarith

/-- Finding: `scale` keeps the coefficients, so scaling the function `x` on `[0,1]` by 2 gives a function with the value 2 at
2 instead of 1, and it drops the label. -/
theorem C57_scale_counterexample (canon : Mat → Mat) (hc : CanonSpec canon) : ∃ f g : Affine2,
    f.label = some 1 ∧ f.scale canon 1 2 [] = .ok g ∧ g.dom.Contains [2] ∧ f.dom.Contains [1] ∧ f.at [1] = .ok 1 ∧
      g.at [2] = .ok 2 ∧ g.label = none := by
  have hwf := (ivl_fullDim 0 1 (by norm_num)).wf
  obtain ⟨d, h1, _, h2, h3⟩ := C11_scale_exact canon hc (ivl 0 1) hwf 0 2 (by decide) (by norm_num)
    ⟨⟨false, 1, [-1]⟩, by simp [ivl], rfl, rfl⟩ [] (by simp)
  refine ⟨⟨0, [1], ivl 0 1, some 1⟩, ⟨0, [1], d, none⟩, rfl, ?_, ?_, ?_, by decide +kernel, ?_, rfl⟩
  · unfold Affine2.scale
    rw [h1]
    rfl
  · rw [h3 [2] rfl]
    refine ⟨?_, by simp⟩
    unfold Contains
    decide +kernel
  · unfold Contains
    decide +kernel
  · show (if _ then _ else _) = _
    rw [if_neg (by simp)]
    simp [Affine2.ev, dot]

/-! ### C49: simplification -/

/-- Contract of a union function on polytopes with the property `P`: it succeeds on non-empty lists, and a returned
polytope has `P` and is exactly the union. -/
def UnionOk (P : Mat → Prop) (unionFn : List Mat → Py (Option Mat)) : Prop :=
  ∀ ds, ds ≠ [] → (∀ d ∈ ds, P d) → ∃ o, unionFn ds = .ok o ∧
    ∀ U, o = some U → P U ∧ ∀ x, U.Contains x ↔ ∃ d ∈ ds, d.Contains x

/-- `Polytope.try_union` meets the contract on bounded polytopes with interior points. -/
theorem tryUnion_ok {eng : Engine} (heng : EngineSpec eng) {n : ℕ} (hn : 2 ≤ n) :
    UnionOk (FullDim n) (tryUnion eng.canon eng.lp eng.verts) := by
  intro ds hne hds
  obtain ⟨o, h1, h2⟩ := tryUnion_good heng hn (ps := ds) (Gen := fun _ => False)
    (fun d hd => ⟨hds d hd, fun _ h => h.elim⟩) hne
  exact ⟨o, h1, fun U hU => ⟨(h2 U hU).1.toFullDim, (h2 U hU).2⟩⟩

theorem combinations_sublist (n : ℕ) (l : List ℕ) : ∀ c ∈ combinations n l, c.Sublist l ∧ c.length = n := by
  induction l generalizing n with
  | nil => cases n with
    | zero => intro c hc; rw [List.mem_singleton.mp hc]; exact ⟨List.Sublist.refl _, rfl⟩
    | succ n => intro c hc; cases hc
  | cons a l ih => cases n with
    | zero => intro c hc; rw [List.mem_singleton.mp hc]; exact ⟨List.nil_sublist _, rfl⟩
    | succ n =>
      intro c hc
      unfold combinations at hc
      rcases List.mem_append.mp hc with hc | hc
      · obtain ⟨c', h1, rfl⟩ := List.mem_map.mp hc
        obtain ⟨h2, h3⟩ := ih n c' h1
        exact ⟨h2.cons_cons a, by simp [h3]⟩
      · obtain ⟨h2, h3⟩ := ih (n + 1) c hc
        exact ⟨h2.cons a, h3⟩

theorem pickDoms_ok (group : List Affine2) (c : List ℕ) (hc : ∀ i ∈ c, i < group.length) :
    ∃ ds, pickDoms group c = .ok ds ∧ ds.length = c.length ∧
      ∀ d, d ∈ ds ↔ ∃ i ∈ c, ∃ f, group[i]? = some f ∧ f.dom = d := by
  induction c with
  | nil => exact ⟨[], rfl, rfl, by simp⟩
  | cons i c ih =>
    obtain ⟨ds, h1, h2, h3⟩ := ih (fun j hj => hc j (by simp [hj]))
    have hi := List.getElem?_eq_getElem (hc i (by simp))
    refine ⟨(group[i]'(hc i (by simp))).dom :: ds, ?_, by simp [h2], fun d => ?_⟩
    · unfold pickDoms
      rw [hi, h1]
      rfl
    · rw [List.mem_cons, h3]
      constructor
      · rintro (rfl | ⟨j, hj, f, hf, rfl⟩)
        · exact ⟨i, by simp, _, hi, rfl⟩
        · exact ⟨j, by simp [hj], f, hf, rfl⟩
      · rintro ⟨j, hj, f, hf, rfl⟩
        rcases List.mem_cons.mp hj with rfl | hj
        · rw [hi] at hf
          cases hf
          exact Or.inl rfl
        · exact Or.inr ⟨j, hj, f, hf, rfl⟩

theorem mem_replaced (group : List Affine2) (c : List ℕ) (hc : ∀ i ∈ c, i < group.length) (f : Affine2) (u : Mat)
    (p : Affine2) : p ∈ replaced group c f u ↔ p = ⟨f.c0, f.cs, u, f.label⟩ ∨ ∃ i, group[i]? = some p ∧ i ∉ c := by
  unfold replaced
  simp only [List.mem_map, List.mem_filter, Prod.exists, List.mem_zipIdx_iff_getElem?, Bool.not_eq_true', decide_eq_false_iff_not]
  constructor
  · rintro ⟨q, i, ⟨h1, h2⟩, rfl⟩
    by_cases hi : i < group.length
    · rw [List.getElem?_append_left hi] at h1
      exact Or.inr ⟨i, h1, h2⟩
    · rw [List.getElem?_append_right (by omega)] at h1
      left
      have := List.mem_of_getElem? h1
      simpa using this
  · rintro (rfl | ⟨i, h1, h2⟩)
    · refine ⟨_, group.length, ⟨?_, fun h => absurd (hc _ h) (lt_irrefl _)⟩, rfl⟩
      rw [List.getElem?_append_right (le_refl _), Nat.sub_self]
      rfl
    · refine ⟨p, i, ⟨?_, h2⟩, rfl⟩
      rw [List.getElem?_append_left]
      · exact h1
      · by_contra hcon
        rw [List.getElem?_eq_none (by omega)] at h1
        cases h1

theorem replaced_length (group : List Affine2) (c : List ℕ) (hc : ∀ i ∈ c, i < group.length) (hnd : c.Nodup)
    (f : Affine2) (u : Mat) : (replaced group c f u).length + c.length = group.length + 1 := by
  unfold replaced
  rw [List.length_map]
  have h1 : ∀ l : List (Affine2 × ℕ), (l.filter (fun t => !decide (t.2 ∈ c))).length +
      (l.filter (fun t => decide (t.2 ∈ c))).length = l.length := by
    intro l
    induction l with
    | nil => rfl
    | cons a l ih =>
      by_cases h : a.2 ∈ c
      · simp [h]; omega
      · simp [h]; omega
  have h2 := h1 (group ++ [(⟨f.c0, f.cs, u, f.label⟩ : Affine2)]).zipIdx
  rw [List.length_zipIdx, List.length_append] at h2
  have h3 : ((group ++ [(⟨f.c0, f.cs, u, f.label⟩ : Affine2)]).zipIdx.filter (fun t => decide (t.2 ∈ c))).length = c.length := by
    rw [← List.length_map (f := Prod.snd)]
    have h4 : (((group ++ [(⟨f.c0, f.cs, u, f.label⟩ : Affine2)]).zipIdx.filter (fun t => decide (t.2 ∈ c))).map Prod.snd) =
        (List.range (group.length + 1)).filter (fun i => decide (i ∈ c)) := by
      rw [show (fun t : Affine2 × ℕ => decide (t.2 ∈ c)) = (fun i => decide (i ∈ c)) ∘ Prod.snd from rfl, ← List.filter_map,
        List.zipIdx_map_snd, List.length_append, List.range_eq_range']
      rfl
    rw [h4]
    apply List.Perm.length_eq
    rw [List.perm_ext_iff_of_nodup (List.Nodup.filter _ List.nodup_range) hnd]
    intro i
    simp only [List.mem_filter, List.mem_range, decide_eq_true_eq]
    exact ⟨fun h => h.2, fun h => ⟨by have := hc i h; omega, h⟩⟩
  simp only [List.length_cons, List.length_nil] at h2
  omega

/-- A step on one group: the coverage is the same, all members keep the key and the property, and the group has become
smaller. -/
structure StepOk (P : Mat → Prop) (k : Option ℤ × ℚ × List ℚ) (g g' : List Affine2) : Prop where
  mem : ∀ p ∈ g', key p = k ∧ P p.dom
  iff : ∀ x, (∃ p ∈ g', p.dom.Contains x) ↔ ∃ p ∈ g, p.dom.Contains x
  less : g'.length < g.length

theorem tryCombos_ok {P : Mat → Prop} {unionFn : List Mat → Py (Option Mat)} (hU : UnionOk P unionFn) {n : ℕ} (hn : 2 ≤ n)
    {k : Option ℤ × ℚ × List ℚ} {g : List Affine2} (hg : ∀ p ∈ g, key p = k ∧ P p.dom) (cs : List (List ℕ))
    (hcs : ∀ c ∈ cs, c.Sublist (List.range g.length) ∧ c.length = n) :
    ∃ o, tryCombos unionFn g cs = .ok o ∧ ∀ g', o = some g' → StepOk P k g g' := by
  induction cs with
  | nil => exact ⟨none, rfl, by simp⟩
  | cons c cs ih =>
    obtain ⟨hc1, hc2⟩ := hcs c (by simp)
    have hlt : ∀ i ∈ c, i < g.length := fun i hi => List.mem_range.mp (hc1.subset hi)
    have hnd : c.Nodup := hc1.nodup List.nodup_range
    obtain ⟨ds, h1, h2, h3⟩ := pickDoms_ok g c hlt
    obtain ⟨o, h4, h5⟩ := hU ds (by intro h; rw [h] at h2; simp at h2; omega) (fun d hd => by
      obtain ⟨i, hi, f, hf, rfl⟩ := (h3 d).mp hd
      exact (hg f (List.mem_of_getElem? hf)).2)
    unfold tryCombos
    rw [h1]
    simp only [bind, Except.bind, h4]
    cases o with
    | none => exact ih (fun c' hc' => hcs c' (by simp [hc']))
    | some u =>
      obtain ⟨h6, h7⟩ := h5 u rfl
      have hhead : ∃ i, c.head? = some i := by
        cases c with
        | nil => simp at hc2; omega
        | cons i c => exact ⟨i, rfl⟩
      obtain ⟨i, hi⟩ := hhead
      have hic : i ∈ c := List.mem_of_head? hi
      have hgi := List.getElem?_eq_getElem (hlt i hic)
      have hb : c.head?.bind (fun i => g[i]?) = some (g[i]'(hlt i hic)) := by rw [hi]; exact hgi
      simp only [hi, Option.bind_some, hgi]
      refine ⟨_, rfl, ?_⟩
      intro g' hg'
      cases hg'
      obtain ⟨hk, _⟩ := hg _ (List.mem_of_getElem? hgi)
      refine ⟨?_, fun x => ?_, ?_⟩
      · intro p hp
        rcases (mem_replaced g c hlt _ u p).mp hp with rfl | ⟨j, hj, _⟩
        · exact ⟨hk, h6⟩
        · exact hg p (List.mem_of_getElem? hj)
      · constructor
        · rintro ⟨p, hp, hpx⟩
          rcases (mem_replaced g c hlt _ u p).mp hp with rfl | ⟨j, hj, _⟩
          · obtain ⟨d, hd, hdx⟩ := (h7 x).mp hpx
            obtain ⟨j, _, f, hf, rfl⟩ := (h3 d).mp hd
            exact ⟨f, List.mem_of_getElem? hf, hdx⟩
          · exact ⟨p, List.mem_of_getElem? hj, hpx⟩
        · rintro ⟨p, hp, hpx⟩
          obtain ⟨j, hj⟩ := List.getElem?_of_mem hp
          by_cases hjc : j ∈ c
          · exact ⟨_, (mem_replaced g c hlt _ u _).mpr (Or.inl rfl), (h7 x).mpr ⟨p.dom, (h3 _).mpr ⟨j, hjc, p, hj, rfl⟩, hpx⟩⟩
          · exact ⟨p, (mem_replaced g c hlt _ u _).mpr (Or.inr ⟨j, hj, hjc⟩), hpx⟩
      · have := replaced_length g c hlt hnd (g[i]'(hlt i hic)) u
        omega

/-- The invariant of the dictionary. -/
def GroupsOk (P : Mat → Prop) (gs : List Group) : Prop := ∀ g ∈ gs, ∀ p ∈ g.2, key p = g.1 ∧ P p.dom

/-- A point is covered by a piece with the given key. -/
def Covered (ps : List Affine2) (k : Option ℤ × ℚ × List ℚ) (x : Pt) : Prop := ∃ p ∈ ps, key p = k ∧ p.dom.Contains x

theorem covered_cons (g : List Affine2) (gs : List Affine2) (k : Option ℤ × ℚ × List ℚ) (x : Pt) :
    Covered (g ++ gs) k x ↔ Covered g k x ∨ Covered gs k x := by
  unfold Covered
  simp only [List.mem_append]
  constructor
  · rintro ⟨p, hp | hp, h⟩
    exacts [Or.inl ⟨p, hp, h⟩, Or.inr ⟨p, hp, h⟩]
  · rintro (⟨p, hp, h⟩ | ⟨p, hp, h⟩)
    exacts [⟨p, Or.inl hp, h⟩, ⟨p, Or.inr hp, h⟩]

theorem iteration_ok {P : Mat → Prop} {unionFn : List Mat → Py (Option Mat)} (hU : UnionOk P unionFn) {n : ℕ} (hn : 2 ≤ n)
    (gs : List Group) (hgs : GroupsOk P gs) : ∃ gs' changed, iteration unionFn n gs = .ok (gs', changed) ∧ GroupsOk P gs' ∧
      (∀ k x, Covered (gs'.flatMap (·.2)) k x ↔ Covered (gs.flatMap (·.2)) k x) ∧ total gs' ≤ total gs ∧
      (changed = true → total gs' < total gs) := by
  induction gs with
  | nil => exact ⟨[], false, rfl, by intro g hg; simp at hg, fun _ _ => Iff.rfl, le_refl _, by simp⟩
  | cons g gs ih =>
    obtain ⟨gs', ch, h1, h2, h3, h4, h5⟩ := ih (fun g' hg' => hgs g' (by simp [hg']))
    obtain ⟨o, h6, h7⟩ := tryCombos_ok hU hn (hgs g (by simp)) (combinations n (List.range g.2.length))
      (combinations_sublist n _)
    unfold iteration
    simp only [h6, h1, bind, Except.bind]
    cases o with
    | none =>
      refine ⟨g :: gs', ch, rfl, ?_, fun k x => ?_, ?_, fun hc => ?_⟩
      · intro g' hg'
        rcases List.mem_cons.mp hg' with rfl | hg'
        · exact hgs g' (by simp)
        · exact h2 g' hg'
      · simp only [List.flatMap_cons, covered_cons, h3]
      · unfold total at h4 ⊢; simp only [List.map_cons, List.sum_cons]; omega
      · have := h5 hc
        unfold total at this ⊢; simp only [List.map_cons, List.sum_cons]; omega
    | some g' =>
      have hst := h7 g' rfl
      refine ⟨(g.1, g') :: gs', true, rfl, ?_, fun k x => ?_, ?_, fun _ => ?_⟩
      · intro q hq
        rcases List.mem_cons.mp hq with rfl | hq
        · exact hst.mem
        · exact h2 q hq
      · simp only [List.flatMap_cons, covered_cons, h3]
        apply or_congr_left
        unfold Covered
        constructor
        · rintro ⟨p, hp, rfl, hpx⟩
          obtain ⟨q, hq, hqx⟩ := (hst.iff x).mp ⟨p, hp, hpx⟩
          exact ⟨q, hq, by rw [(hgs g (by simp) q hq).1, (hst.mem p hp).1], hqx⟩
        · rintro ⟨p, hp, rfl, hpx⟩
          obtain ⟨q, hq, hqx⟩ := (hst.iff x).mpr ⟨p, hp, hpx⟩
          exact ⟨q, hq, by rw [(hgs g (by simp) p hp).1, (hst.mem q hq).1], hqx⟩
      · have := hst.less
        unfold total at h4 ⊢; simp only [List.map_cons, List.sum_cons]; omega
      · have := hst.less
        unfold total at h4 ⊢; simp only [List.map_cons, List.sum_cons]; omega

theorem whileLoop_ok {P : Mat → Prop} {unionFn : List Mat → Py (Option Mat)} (hU : UnionOk P unionFn) {n : ℕ} (hn : 2 ≤ n)
    (gs : List Group) (hgs : GroupsOk P gs) : ∃ gs', whileLoop unionFn n gs = .ok gs' ∧ GroupsOk P gs' ∧
      (∀ k x, Covered (gs'.flatMap (·.2)) k x ↔ Covered (gs.flatMap (·.2)) k x) ∧ total gs' ≤ total gs := by
  induction hT : total gs using Nat.strong_induction_on generalizing gs with
  | _ T ih =>
    obtain ⟨gs', ch, h1, h2, h3, h4, h5⟩ := iteration_ok hU hn gs hgs
    unfold whileLoop
    rw [h1]
    cases ch with
    | false => exact ⟨gs', rfl, h2, h3, by omega⟩
    | true =>
      have hlt := h5 rfl
      simp only [if_true, dif_pos hlt]
      obtain ⟨gs'', k1, k2, k3, k4⟩ := ih (total gs') (by omega) gs' h2 rfl
      exact ⟨gs'', k1, k2, fun k x => (k3 k x).trans (h3 k x), by omega⟩

theorem forLoop_ok {P : Mat → Prop} {unionFn : List Mat → Py (Option Mat)} (hU : UnionOk P unionFn) (ns : List ℕ)
    (hns : ∀ n ∈ ns, 2 ≤ n) (gs : List Group) (hgs : GroupsOk P gs) : ∃ gs', forLoop unionFn ns gs = .ok gs' ∧ GroupsOk P gs' ∧
      (∀ k x, Covered (gs'.flatMap (·.2)) k x ↔ Covered (gs.flatMap (·.2)) k x) ∧ total gs' ≤ total gs := by
  induction ns generalizing gs with
  | nil => exact ⟨gs, rfl, hgs, fun _ _ => Iff.rfl, le_refl _⟩
  | cons n ns ih =>
    obtain ⟨gs', h1, h2, h3, h4⟩ := whileLoop_ok hU (hns n (by simp)) gs hgs
    obtain ⟨gs'', k1, k2, k3, k4⟩ := ih (fun m hm => hns m (by simp [hm])) gs' h2
    refine ⟨gs'', ?_, k2, fun k x => (k3 k x).trans (h3 k x), by omega⟩
    unfold forLoop
    rw [h1]
    exact k1

theorem insertGroup_ok {P : Mat → Prop} (p : Affine2) (hp : P p.dom) (gs : List Group) (hgs : GroupsOk P gs) :
    GroupsOk P (insertGroup p gs) ∧ (∀ q, q ∈ (insertGroup p gs).flatMap (·.2) ↔ q = p ∨ q ∈ gs.flatMap (·.2)) ∧
      total (insertGroup p gs) = total gs + 1 := by
  induction gs with
  | nil =>
    refine ⟨?_, by simp [insertGroup], rfl⟩
    intro g hg q hq
    rw [insertGroup, List.mem_singleton] at hg
    subst hg
    rw [List.mem_singleton.mp hq]
    exact ⟨rfl, hp⟩
  | cons g gs ih =>
    obtain ⟨h1, h2, h3⟩ := ih (fun g' hg' => hgs g' (by simp [hg']))
    unfold insertGroup
    by_cases hk : g.1 = key p
    · rw [if_pos hk]
      refine ⟨?_, fun q => ?_, ?_⟩
      · intro g' hg' q hq
        rcases List.mem_cons.mp hg' with rfl | hg'
        · rcases List.mem_append.mp hq with hq | hq
          · exact hgs g (by simp) q hq
          · rw [List.mem_singleton.mp hq]
            exact ⟨hk.symm, hp⟩
        · exact hgs g' (by simp [hg']) q hq
      · simp only [List.flatMap_cons, List.mem_append, List.mem_singleton]
        tauto
      · unfold total; simp only [List.map_cons, List.sum_cons, List.length_append, List.length_singleton]; omega
    · rw [if_neg hk]
      refine ⟨?_, fun q => ?_, ?_⟩
      · intro g' hg' q hq
        rcases List.mem_cons.mp hg' with rfl | hg'
        · exact hgs g' (by simp) q hq
        · exact h1 g' hg' q hq
      · simp only [List.flatMap_cons, List.mem_append, h2]
        tauto
      · unfold total at h3 ⊢; simp only [List.map_cons, List.sum_cons]; omega

theorem groups_ok {P : Mat → Prop} (ps : List Affine2) (hps : ∀ p ∈ ps, P p.dom) :
    GroupsOk P (groups ps) ∧ (∀ q, q ∈ (groups ps).flatMap (·.2) ↔ q ∈ ps) ∧ total (groups ps) = ps.length := by
  have key : ∀ (ps : List Affine2) (gs : List Group), (∀ p ∈ ps, P p.dom) → GroupsOk P gs →
      GroupsOk P (ps.foldl (fun gs p => insertGroup p gs) gs) ∧
      (∀ q, q ∈ (ps.foldl (fun gs p => insertGroup p gs) gs).flatMap (·.2) ↔ q ∈ ps ∨ q ∈ gs.flatMap (·.2)) ∧
      total (ps.foldl (fun gs p => insertGroup p gs) gs) = ps.length + total gs := by
    intro ps
    induction ps with
    | nil => intro gs _ h; exact ⟨h, by simp, by simp⟩
    | cons p ps ih =>
      intro gs h1 h2
      obtain ⟨k1, k2, k3⟩ := insertGroup_ok p (h1 p (by simp)) gs h2
      obtain ⟨l1, l2, l3⟩ := ih (insertGroup p gs) (fun q hq => h1 q (by simp [hq])) k1
      refine ⟨l1, fun q => ?_, ?_⟩
      · rw [List.foldl_cons, l2, k2, List.mem_cons]
        tauto
      · rw [List.foldl_cons, l3, k3, List.length_cons]
        omega
  obtain ⟨h1, h2, h3⟩ := key ps [] hps (by intro g hg; simp at hg)
  refine ⟨h1, fun q => (h2 q).trans (by simp), ?_⟩
  unfold groups
  rw [h3]
  rfl

theorem total_eq (gs : List Group) : (gs.flatMap (·.2)).length = total gs := by
  unfold total
  rw [List.length_flatMap]

/-- **C49** For an exact union function on polytopes with the property `P`, `simplify` terminates without error, the
number of pieces does not grow, and for every affine function and label the points covered by pieces with that
function and label are the same before and after. -/
theorem C49_simplify (P : Mat → Prop) (unionFn : List Mat → Py (Option Mat)) (hU : UnionOk P unionFn) (maxGrouping : ℕ)
    (ps : List Affine2) (hps : ∀ p ∈ ps, P p.dom) : ∃ qs, simplify unionFn maxGrouping ps = .ok qs ∧
      (∀ q ∈ qs, P q.dom) ∧ qs.length ≤ ps.length ∧ ∀ (l : Option ℤ) (c0 : ℚ) (cs : List ℚ) (x : Pt),
        (∃ q ∈ qs, q.label = l ∧ q.c0 = c0 ∧ q.cs = cs ∧ q.dom.Contains x) ↔
          ∃ p ∈ ps, p.label = l ∧ p.c0 = c0 ∧ p.cs = cs ∧ p.dom.Contains x := by
  obtain ⟨h1, h2, h3⟩ := groups_ok ps hps
  obtain ⟨gs', k1, k2, k3, k4⟩ := forLoop_ok hU ((List.range (maxGrouping - 1)).map (· + 2)) (fun n hn => by
    obtain ⟨m, _, rfl⟩ := List.mem_map.mp hn
    omega) (groups ps) h1
  refine ⟨gs'.flatMap (·.2), ?_, ?_, ?_, fun l c0 cs x => ?_⟩
  · unfold simplify
    rw [k1]
    rfl
  · intro q hq
    obtain ⟨g, hg, hqg⟩ := List.mem_flatMap.mp hq
    exact (k2 g hg q hqg).2
  · rw [total_eq]
    omega
  · have := k3 (l, c0, cs) x
    unfold Covered key at this
    simp only [Prod.mk.injEq, h2] at this
    simp only [and_assoc] at this
    exact this

/-- **C49** With `Polytope.try_union` on bounded polytopes with interior points (in at least one variable): the values
at every point are the same before and after, and evaluation of the simplified function gives one of the values of
the original function. -/
theorem C49_values (eng : Engine) (heng : EngineSpec eng) (n : ℕ) (hn : 2 ≤ n) (maxGrouping : ℕ)
    (ps : List Affine2) (hps : ∀ p ∈ ps, FullDim n p.dom ∧ p.cs.length + 1 = n) :
    ∃ qs, simplify (tryUnion eng.canon eng.lp eng.verts) maxGrouping ps = .ok qs ∧ qs.length ≤ ps.length ∧
      (∀ x v, (∃ q ∈ qs, q.dom.Contains x ∧ q.ev x = v) ↔ ∃ p ∈ ps, p.dom.Contains x ∧ p.ev x = v) ∧
      ∀ x, x.length + 1 = n → (Piecewise.at qs x = .ok none ↔ Piecewise.at ps x = .ok none) ∧
        ∀ v, Piecewise.at qs x = .ok (some v) → ∃ p ∈ ps, p.dom.Contains x ∧ p.ev x = v := by
  obtain ⟨qs, h1, h2, h3, h4⟩ := C49_simplify (FullDim n) _ (tryUnion_ok heng hn) maxGrouping ps (fun p hp => (hps p hp).1)
  have hval : ∀ x v, (∃ q ∈ qs, q.dom.Contains x ∧ q.ev x = v) ↔ ∃ p ∈ ps, p.dom.Contains x ∧ p.ev x = v := by
    intro x v
    constructor
    · rintro ⟨q, hq, hqx, rfl⟩
      obtain ⟨p, hp, _, e1, e2, hpx⟩ := (h4 q.label q.c0 q.cs x).mp ⟨q, hq, rfl, rfl, rfl, hqx⟩
      exact ⟨p, hp, hpx, by unfold Affine2.ev; rw [e1, e2]⟩
    · rintro ⟨q, hq, hqx, rfl⟩
      obtain ⟨p, hp, _, e1, e2, hpx⟩ := (h4 q.label q.c0 q.cs x).mpr ⟨q, hq, rfl, rfl, rfl, hqx⟩
      exact ⟨p, hp, hpx, by unfold Affine2.ev; rw [e1, e2]⟩
  have hlen : ∀ q ∈ qs, q.cs.length + 1 = n := by
    intro q hq
    obtain ⟨x, hx⟩ := (h2 q hq).nonempty
    obtain ⟨p, hp, _, _, e2, _⟩ := (h4 q.label q.c0 q.cs x).mp ⟨q, hq, rfl, rfl, rfl, hx⟩
    rw [← e2]
    exact (hps p hp).2
  refine ⟨qs, h1, h3, hval, fun x hx => ?_⟩
  rcases at_spec qs (fun q hq => ⟨(h2 q hq).cols, hlen q hq⟩) x hx with ⟨a1, a2⟩ | ⟨q, hq, a1, a2⟩
  · refine ⟨⟨fun _ => ?_, fun _ => a1⟩, fun v hv => by rw [a1] at hv; cases hv⟩
    rcases at_spec ps (fun q hq => ⟨(hps q hq).1.cols, (hps q hq).2⟩) x hx with ⟨b1, b2⟩ | ⟨p, hp, b1, b2⟩
    · exact b1
    · obtain ⟨q, hq, hqx, _⟩ := (hval x _).mpr ⟨p, hp, b1, rfl⟩
      exact absurd hqx (a2 q hq)
  · obtain ⟨p, hp, hpx, hpv⟩ := (hval x _).mp ⟨q, hq, a1, rfl⟩
    refine ⟨⟨fun h => (by rw [a2] at h; cases h), fun h => ?_⟩, fun v hv => ?_⟩
    · rcases at_spec ps (fun q hq => ⟨(hps q hq).1.cols, (hps q hq).2⟩) x hx with ⟨b1, b2⟩ | ⟨p', hp', b1, b2⟩
      · exact absurd hpx (b2 p hp)
      · rw [b2] at h; cases h
    · rw [a2] at hv
      cases hv
      exact ⟨p, hp, hpx, hpv⟩

/-- Non-vacuity of C49: the constant 1 on `[0,2]` and on `[1,3]`. -/
example : ∃ eng : Engine, EngineSpec eng ∧ ∀ p ∈ [(⟨1, [0], ivl 0 2, some 1⟩ : Affine2), ⟨1, [0], ivl 1 3, some 1⟩],
    FullDim 2 p.dom ∧ p.cs.length + 1 = 2 := by
  obtain ⟨eng, h⟩ := engineSpec_satisfiable
  refine ⟨eng, h, fun p hp => ?_⟩
  simp only [List.mem_cons, List.not_mem_nil, or_false] at hp
  rcases hp with rfl | rfl
  exacts [⟨ivl_fullDim 0 2 (by norm_num), rfl⟩, ⟨ivl_fullDim 1 3 (by norm_num), rfl⟩]

end Piecewise
end Expdb
