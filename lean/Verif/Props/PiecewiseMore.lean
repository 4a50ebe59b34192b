import Verif.Props.Affine2

/-!
# Properties C57 and C64: scaling and cropping of piecewise affine functions
-/

namespace Expdb

open Mat Region

/-- Evaluation is defined exactly at the points with as many coordinates as the function has variables (functions.py:374-377). -/
theorem Affine2.C07_at_dimension (f : Affine2) (x : Pt) :
    (∀ v, f.at x = .ok v ↔ x.length = f.cs.length ∧ v = f.c0 + (List.zipWith (· * ·) f.cs x).sum) ∧
      (x.length ≠ f.cs.length → f.at x = .error .valueError) := by
  unfold Affine2.at
  have hdot : f.ev x = f.c0 + (List.zipWith (· * ·) f.cs x).sum := by
    have : ∀ (a : List ℚ) (x : Pt), dot a x = (List.zipWith (· * ·) a x).sum := by
      intro a
      induction a with
      | nil => intro x; simp
      | cons c a ih => intro x; cases x with
        | nil => simp
        | cons u x => simp [ih]
    unfold Affine2.ev
    rw [this]
  constructor
  · intro v
    split
    · rename_i h
      simp [h]
    · rename_i h
      rw [hdot]
      push Not at h
      simp only [Except.ok.injEq, h, true_and]
      exact eq_comm
  · intro h
    rw [if_pos h]

example : (⟨1, [2, 3], box2 0 1 0 1, none⟩ : Affine2).at [1, 2] = .ok 9 ∧
    (⟨1, [2, 3], box2 0 1 0 1, none⟩ : Affine2).at [1, 2, 3] = .error .valueError := by decide +kernel

namespace Piecewise

/-- `q` is `p` on the part of its domain cut out by `C`. -/
structure Restricts (C : Pt → Prop) (p q : Affine2) : Prop where
  c0 : q.c0 = p.c0
  cs : q.cs = p.cs
  label : q.label = p.label
  dom : ∀ x, q.dom.Contains x ↔ p.dom.Contains x ∧ C x

theorem cropDoms_spec (eng : Engine) (heng : EngineSpec eng) (n : ℕ) (domain : Mat) (hw : domain.WF) (hc : domain.cols = n)
    (hz : domain.NoZero) (ps : List Affine2) (hps : ∀ p ∈ ps, p.Ok n) :
    ∃ qs, cropDoms eng.canon domain ps = .ok qs ∧ (∀ q ∈ qs, q.Ok n) ∧ List.Forall₂ (Restricts domain.Contains) ps qs := by
  induction ps with
  | nil => exact ⟨[], rfl, by simp, .nil⟩
  | cons p ps ih =>
    obtain ⟨d, h1, h2, h3⟩ := intersect_poly heng (hps p (by simp)).dom hw hc hz
    obtain ⟨qs, h4, h5, h6⟩ := ih (fun q hq => hps q (by simp [hq]))
    refine ⟨⟨p.c0, p.cs, d, p.label⟩ :: qs, ?_, ?_, .cons ⟨rfl, rfl, rfl, h3⟩ h6⟩
    · unfold cropDoms
      rw [h1, h4]
      rfl
    · intro q hq
      rcases List.mem_cons.mp hq with rfl | hq
      · exact ⟨h2, (hps p (by simp)).len⟩
      · exact h5 q hq

/-- **C64** (`crop(domain, simplify=False)`) The function is restricted to the domain: it keeps its pieces, and it has the old value at
every point of the domain and no value elsewhere. -/
theorem C64_crop (eng : Engine) (heng : EngineSpec eng) (n : ℕ) (domain : Mat) (hw : domain.WF) (hc : domain.cols = n)
    (hz : domain.NoZero) (ps : List Affine2) (hps : ∀ p ∈ ps, p.Ok n) :
    ∃ qs, crop eng.canon eng.lp domain false ps = .ok qs ∧ List.Forall₂ (Restricts domain.Contains) ps qs ∧
      ∀ x, x.length + 1 = n → (domain.Contains x → Piecewise.at qs x = Piecewise.at ps x) ∧
        (¬ domain.Contains x → Piecewise.at qs x = .ok none) := by
  obtain ⟨qs, h1, h2, h3⟩ := cropDoms_spec eng heng n domain hw hc hz ps hps
  refine ⟨qs, by unfold crop; rw [h1]; rfl, h3, fun x hx => ?_⟩
  clear h1
  induction h3 with
  | nil => exact ⟨fun _ => rfl, fun _ => rfl⟩
  | @cons p q ps qs hpq _ ih =>
    obtain ⟨i1, i2⟩ := ih (fun p hp => hps p (by simp [hp])) (fun p hp => h2 p (by simp [hp]))
    have hp := (hps p (by simp)).dom.cols
    have hq := (h2 q (by simp)).dom.cols
    obtain ⟨b, hb, _⟩ := contains_eq p.dom x (by rw [hp]; exact hx)
    obtain ⟨b', hb', _⟩ := contains_eq q.dom x (by rw [hq]; exact hx)
    have hat : q.at x = p.at x := by
      unfold Affine2.at Affine2.ev
      rw [hpq.c0, hpq.cs]
    have hd := hpq.dom x
    unfold Mat.Contains at hd
    rw [hb, hb'] at hd
    simp only [Except.ok.injEq] at hd
    constructor
    · intro hx'
      have hbb : b' = b := by
        rw [Bool.eq_iff_iff, hd]
        exact and_iff_left hx'
      unfold Piecewise.at
      rw [hb, hb', hbb, hat, i1 hx']
    · intro hx'
      have hbb : b' = false := by
        rw [← Bool.not_eq_true, hd]
        exact fun h => hx' h.2
      unfold Piecewise.at
      rw [hb', hbb, i2 hx']
      rfl

/-- **C64** (`crop(domain)`, partial) With simplification the remaining pieces are the restrictions whose domain has interior points;
so a value of the result is a value of a piece of the old function at a point of the domain, and the result has a value at every
point of the domain that lies in a piece whose domain meets the given one in a set with interior. What is missing: the old value at
all points of the domain, which is false, see the counterexample. -/
theorem C64_crop_partial (eng : Engine) (heng : EngineSpec eng) (n : ℕ) (hn : 1 ≤ n) (domain : Mat) (hw : domain.WF)
    (hc : domain.cols = n) (hz : domain.NoZero) (ps : List Affine2) (hps : ∀ p ∈ ps, p.Ok n) :
    ∃ qs, crop eng.canon eng.lp domain true ps = .ok qs ∧
      (∀ q ∈ qs, FullDim n q.dom ∧ ∃ p ∈ ps, Restricts domain.Contains p q) ∧
      (∀ p ∈ ps, (∃ s, s.length + 1 = n ∧ p.dom.Interior s ∧ domain.Interior s) → ∃ q ∈ qs, Restricts domain.Contains p q) ∧
      ∀ x, x.length + 1 = n →
        (∀ v, Piecewise.at qs x = .ok (some v) → domain.Contains x ∧ ∃ p ∈ ps, p.dom.Contains x ∧ p.ev x = v) ∧
        (domain.Contains x → (∃ p ∈ ps, p.dom.Contains x ∧ ∃ s, s.length + 1 = n ∧ p.dom.Interior s ∧ domain.Interior s) →
          ∃ v, Piecewise.at qs x = .ok (some v)) := by
  obtain ⟨qs, h1, h2, h3⟩ := cropDoms_spec eng heng n domain hw hc hz ps hps
  have hmem : ∀ q ∈ qs.filter (fun p => !Mat.isEmptyExcl eng.lp p.dom), FullDim n q.dom ∧ ∃ p ∈ ps, Restricts domain.Contains p q := by
    intro q hq
    obtain ⟨k1, k2⟩ := List.mem_filter.mp hq
    obtain ⟨p, hp, hpq⟩ : ∃ p ∈ ps, Restricts domain.Contains p q := by
      clear h1 h2 hq k2 hps
      induction h3 with
      | nil => cases k1
      | cons h _ ih =>
        rcases List.mem_cons.mp k1 with rfl | k1
        · exact ⟨_, by simp, h⟩
        · obtain ⟨p, hp, h⟩ := ih k1
          exact ⟨p, by simp [hp], h⟩
    refine ⟨(h2 q k1).dom.fullDim (((h2 q k1).dom.empty_iff heng hn).mp (by simpa using k2)), p, hp, hpq⟩
  have hkeep : ∀ p ∈ ps, (∃ s, s.length + 1 = n ∧ p.dom.Interior s ∧ domain.Interior s) →
      ∃ q ∈ qs.filter (fun p => !Mat.isEmptyExcl eng.lp p.dom), Restricts domain.Contains p q := by
    rintro p hp ⟨s, s1, s2, s3⟩
    obtain ⟨q, hq, hpq⟩ : ∃ q ∈ qs, Restricts domain.Contains p q := by
      clear h1 h2 hmem hps s2
      induction h3 with
      | nil => cases hp
      | cons h _ ih =>
        rcases List.mem_cons.mp hp with rfl | hp
        · exact ⟨_, by simp, h⟩
        · obtain ⟨q, hq, h⟩ := ih hp
          exact ⟨q, by simp [hq], h⟩
    refine ⟨q, List.mem_filter.mpr ⟨hq, ?_⟩, hpq⟩
    have := ((h2 q hq).dom.empty_iff heng hn).mpr
      ⟨s, s1, interior_inter n (hps p hp).dom.cols hc (h2 q hq).dom.cols hpq.dom s1 s2 s3⟩
    simp [this]
  refine ⟨_, by unfold crop; rw [h1]; rfl, hmem, hkeep, fun x hx => ?_⟩
  have hsp := at_spec (n := n) (qs.filter (fun p => !Mat.isEmptyExcl eng.lp p.dom)) (fun q hq =>
    ⟨(h2 q (List.mem_filter.mp hq).1).dom.cols, (h2 q (List.mem_filter.mp hq).1).len⟩) x hx
  constructor
  · intro v hv
    rcases hsp with ⟨k1, _⟩ | ⟨q, hq, k1, k2⟩
    · rw [k1] at hv
      simp at hv
    · rw [k2] at hv
      obtain ⟨_, p, hp, hpq⟩ := hmem q hq
      obtain ⟨a1, a2⟩ := (hpq.dom x).mp k1
      refine ⟨a2, p, hp, a1, ?_⟩
      simp only [Except.ok.injEq, Option.some.injEq] at hv
      rw [← hv]
      unfold Affine2.ev
      rw [hpq.c0, hpq.cs]
  · rintro hd ⟨p, hp, hpx, hs⟩
    obtain ⟨q, hq, hpq⟩ := hkeep p hp hs
    rcases hsp with ⟨_, k2⟩ | ⟨q', _, _, k2⟩
    · exact absurd ((hpq.dom x).mpr ⟨hpx, hd⟩) (k2 q hq)
    · exact ⟨_, k2⟩

/-- Non-vacuity: the function `x + 1` on `[0,2]` and `[1,3]`. -/
example (eng : Engine) (heng : EngineSpec eng) : ∃ qs,
    crop eng.canon eng.lp (ivl 1 3) true [⟨1, [1], ivl 0 2, some 1⟩] = .ok qs ∧
      Piecewise.at qs [3 / 2] = .ok (some (5 / 2)) ∧ Piecewise.at qs [1 / 2] = .ok none := by
  have hd := ivl_fullDim 0 2 (by norm_num)
  have hd' := ivl_fullDim 1 3 (by norm_num)
  obtain ⟨qs, h1, h2, h3, h4⟩ := C64_crop_partial eng heng 2 (by norm_num) (ivl 1 3) hd'.wf hd'.cols hd'.noZero
    [⟨1, [1], ivl 0 2, some 1⟩] (by
      intro p hp
      rw [List.mem_singleton] at hp
      subst hp
      exact ⟨hd.poly, rfl⟩)
  refine ⟨qs, h1, ?_, ?_⟩
  · have hin : ∀ a b : ℚ, a < 3 / 2 → 3 / 2 < b → (ivl a b).Interior [3 / 2] := by
      intro a b ha hb
      refine ⟨min (3 / 2 - a) (b - 3 / 2), lt_min (by linarith) (by linarith), fun y hy => ?_⟩
      have hyl := hy.length
      match y, hyl with
      | [c], _ =>
        have hc := (List.forall₂_cons.mp hy).1
        rw [abs_lt] at hc
        have e1 := min_le_left (3 / 2 - a) (b - 3 / 2)
        have e2 := min_le_right (3 / 2 - a) (b - 3 / 2)
        rw [← contains_iff_holds _ _ rfl, ivl_contains]
        exact ⟨c, rfl, by linarith, by linarith⟩
    obtain ⟨v, hv⟩ := (h4 [3 / 2] rfl).2 ((ivl_contains _ _ _).mpr ⟨3 / 2, rfl, by norm_num, by norm_num⟩)
      ⟨_, List.mem_singleton.mpr rfl, (ivl_contains _ _ _).mpr ⟨3 / 2, rfl, by norm_num, by norm_num⟩, [3 / 2], rfl,
        hin _ _ (by norm_num) (by norm_num), hin _ _ (by norm_num) (by norm_num)⟩
    obtain ⟨_, p, hp, _, k⟩ := (h4 [3 / 2] rfl).1 v hv
    rw [List.mem_singleton] at hp
    subst hp
    rw [hv, ← k]
    norm_num [Affine2.ev, dot]
  · rcases at_spec (n := 2) qs (fun q hq => by
      obtain ⟨k1, p, hp, k2⟩ := h2 q hq
      rw [List.mem_singleton] at hp
      subst hp
      exact ⟨k1.cols, by rw [k2.cs]; rfl⟩) [1 / 2] rfl with ⟨k, _⟩ | ⟨q, hq, k1, k2⟩
    · exact k
    · obtain ⟨_, p, _, k3⟩ := h2 q hq
      obtain ⟨c, hc, hc1, _⟩ := (ivl_contains _ _ _).mp ((k3.dom _).mp k1).2
      simp only [List.cons.injEq, and_true] at hc
      rw [← hc] at hc1
      norm_num at hc1

/-- **Finding** (functions.py:528-532) Cropping to a domain that meets a piece in a set without interior removes the piece: the
function `1` on `[0,1]` cropped to `[1,2]` is nowhere defined, although 1 belongs to both. -/
theorem C64_crop_counterexample (eng : Engine) (heng : EngineSpec eng) :
    crop eng.canon eng.lp (ivl 1 2) true [⟨1, [0], ivl 0 1, some 1⟩] = .ok [] ∧
      Piecewise.at [⟨1, [0], ivl 0 1, some 1⟩] [1] = .ok (some 1) ∧ (ivl 1 2).Contains [1] := by
  have hd := ivl_fullDim 0 1 (by norm_num)
  have hd' := ivl_fullDim 1 2 (by norm_num)
  refine ⟨?_, by decide +kernel, (ivl_contains _ _ _).mpr ⟨1, rfl, by norm_num, by norm_num⟩⟩
  obtain ⟨qs, h1, h2, _⟩ := C64_crop_partial eng heng 2 (by norm_num) (ivl 1 2) hd'.wf hd'.cols hd'.noZero
    [⟨1, [0], ivl 0 1, some 1⟩] (by
      intro p hp
      rw [List.mem_singleton] at hp
      subst hp
      exact ⟨hd.poly, rfl⟩)
  rw [h1]
  cases qs with
  | nil => rfl
  | cons q qs =>
    exfalso
    obtain ⟨k1, p, hp, k2⟩ := h2 q (by simp)
    rw [List.mem_singleton] at hp
    subst hp
    obtain ⟨s, s1, ε, hε, s2⟩ := k1.inner
    match s, s1 with
    | [c], _ =>
      have hin : ∀ y : ℚ, |y - c| < ε → y = 1 := by
        intro y hy
        have := (contains_iff_holds q.dom [y] (by rw [k1.cols]; rfl)).mpr (s2 [y] (by
          refine List.Forall₂.cons ?_ .nil
          exact hy))
        obtain ⟨a1, a2⟩ := (k2.dom [y]).mp this
        obtain ⟨y1, e1, _, l1⟩ := (ivl_contains _ _ _).mp a1
        obtain ⟨y2, e2, l2, _⟩ := (ivl_contains _ _ _).mp a2
        simp only [List.cons.injEq, and_true] at e1 e2
        linarith
      have e1 := hin c (by simpa using hε)
      have e2 := hin (c + ε / 2) (by
        rw [add_sub_cancel_left, abs_of_pos (by linarith)]
        linarith)
      linarith

/-! ### Scaling all pieces -/

/-- **C57** (piecewise functions, partial) `scale` scales the domains of all pieces, imposes the additional constraints and keeps the
coefficients; labels are dropped. As for one function, the values are not carried along. -/
theorem C57_piecewise_partial (canon : Mat → Mat) (hc : CanonSpec canon) (n j : ℕ) (t : ℚ) (hj : j + 1 < n) (ht : t ≠ 0)
    (additional : List Row) (hadd : ∀ r ∈ additional, r.cs.length + 1 = n) (ps : List Affine2)
    (hps : ∀ p ∈ ps, p.dom.WF ∧ p.dom.cols = n ∧ p.cs.length + 1 = n ∧ ∃ r ∈ p.dom.rows, r.lin = false ∧ r.isZero = false) :
    ∃ qs, Piecewise.scale canon (j + 1) t additional ps = .ok qs ∧ List.Forall₂ (fun p q => q.c0 = p.c0 ∧ q.cs = p.cs ∧
      q.label = none ∧ ∀ x : Pt, x.length + 1 = n →
        (q.dom.Contains x ↔ p.dom.Contains (x.modify j (· / t)) ∧ ∀ r ∈ additional, r.Holds x)) ps qs := by
  induction ps with
  | nil => exact ⟨[], rfl, .nil⟩
  | cons p ps ih =>
    obtain ⟨k1, k2, k3, k4⟩ := hps p (by simp)
    obtain ⟨d, h1, _, h2, h3⟩ := C11_scale_exact canon hc p.dom k1 j t (by omega) ht k4 additional (by rw [k2]; exact hadd)
    obtain ⟨qs, h4, h5⟩ := ih (fun q hq => hps q (by simp [hq]))
    refine ⟨⟨p.c0, p.cs, d, none⟩ :: qs, ?_, .cons ⟨rfl, rfl, rfl, fun x hx => h3 x (by rw [k2]; exact hx)⟩ h5⟩
    unfold Piecewise.scale Affine2.scale
    rw [h1, h4]
    rfl

/-- Non-vacuity: a function on `[0,1]`, doubled, with `x ≤ 1`. -/
example : ∃ canon, CanonSpec canon ∧ (∀ p ∈ [(⟨0, [1], ivl 0 1, some 1⟩ : Affine2)],
    p.dom.WF ∧ p.dom.cols = 2 ∧ p.cs.length + 1 = 2 ∧ ∃ r ∈ p.dom.rows, r.lin = false ∧ r.isZero = false) ∧
    ∀ r ∈ [(⟨false, 1, [-1]⟩ : Row)], r.cs.length + 1 = 2 := by
  refine ⟨id, fun m hm => ⟨rfl, hm, fun _ _ => Iff.rfl⟩, ?_, by simp⟩
  intro p hp
  rw [List.mem_singleton] at hp
  subst hp
  exact ⟨(ivl_fullDim 0 1 (by norm_num)).wf, rfl, rfl, ⟨false, 1, [-1]⟩, by simp [ivl], rfl, rfl⟩

end Piecewise
end Expdb
