import Verif.Lemmas.Affine

/-!
# The cells of the envelope computation
-/

namespace Expdb
namespace Affine

open Expdb.Interval

variable {L : Type}

/-- On the cell `I` with test point `t` every function of `args` is defined everywhere or nowhere,
and the order of two functions is the same at all points. -/
structure IsCell (s : ℚ) (args : List (Affine L)) (I : Interval) (t : ℚ) : Prop where
  le : I.x0 ≤ I.x1
  mid : I.midpoint = t
  tmem : I.contains t = true
  cov : ∀ g ∈ args, ∀ x, I.contains x = true → (g.dom.contains x = true ↔ g.dom.contains t = true)
  ord : ∀ g ∈ args, ∀ h ∈ args, g.dom.contains t = true → h.dom.contains t = true → ∀ x,
    I.contains x = true → (s * g.ev x < s * h.ev x ↔ s * g.ev t < s * h.ev t)

/-- A candidate for the piece on the cell. -/
def Cand (args : List (Affine L)) (I : Interval) (t : ℚ) (p : Affine L) : Prop :=
  p.dom.x0 ≤ p.dom.x1 ∧ (∀ x, I.contains x = true → p.dom.contains x = true) ∧
    ∃ g ∈ args, g.dom.contains t = true ∧ g.m = p.m ∧ g.c = p.c ∧ g.label = p.label

variable {s : ℚ} {args : List (Affine L)} {I : Interval} {t : ℚ}

theorem crop_spec (hI : I.x0 ≤ I.x1) (p : Affine L) (hp : Cand args I t p) :
    ∃ r, p.crop I = .ok r ∧ Cand args I t r ∧
      (∀ x, r.dom.contains x = true ↔ I.contains x = true) ∧ r.m = p.m ∧ r.c = p.c := by
  obtain ⟨h1, h2, h3⟩ := hp
  obtain ⟨K, k1, k2, k3⟩ := C01_intersect_exact p.dom I ((constructible_iff _).mpr h1)
    ((constructible_iff _).mpr hI)
  refine ⟨⟨p.m, p.c, K, p.label⟩, ?_, ⟨(constructible_iff _).mp k2, ?_, h3⟩, ?_, rfl, rfl⟩
  · unfold crop; rw [k1]; rfl
  · intro x hx; exact (k3 x).mpr ⟨h2 x hx, hx⟩
  · intro x; rw [k3]; exact ⟨fun h => h.2, fun h => ⟨h2 x h, h⟩⟩

theorem compareF_spec (cmp : ℚ → ℚ → Bool) (hcmp : ∀ u v, cmp u v = decide (s * u < s * v))
    (hc : IsCell s args I t) (p : Option (Affine L)) (hp : ∀ p', p = some p' → Cand args I t p')
    (q : Affine L) (hq : Cand args I t q) :
    ∃ r, compareF cmp p q I = .ok r ∧ Cand args I t r ∧
      (∀ x, r.dom.contains x = true ↔ I.contains x = true) ∧ s * r.ev t ≤ s * q.ev t ∧
      ∀ p', p = some p' → s * r.ev t ≤ s * p'.ev t := by
  cases p with
  | none =>
    obtain ⟨r, h1, h2, h3, h4, h5⟩ := crop_spec hc.le q hq
    refine ⟨r, h1, h2, h3, ?_, fun p' h => by cases h⟩
    unfold ev; rw [h4, h5]
  | some p =>
    have hp := hp p rfl
    have e1 : p.at t = some (p.ev t) := by unfold «at»; rw [if_pos (hp.2.1 t hc.tmem)]
    have e2 : q.at t = some (q.ev t) := by unfold «at»; rw [if_pos (hq.2.1 t hc.tmem)]
    unfold compareF compareAt
    rw [hc.mid]
    simp only [e1, e2, bind, Except.bind, hcmp]
    by_cases hlt : s * p.ev t < s * q.ev t
    · obtain ⟨r, h1, h2, h3, h4, h5⟩ := crop_spec hc.le p hp
      have er : r.ev t = p.ev t := by unfold ev; rw [h4, h5]
      rw [if_pos (by simpa using hlt)]
      refine ⟨r, h1, h2, h3, by rw [er]; exact hlt.le, ?_⟩
      rintro p' hp'; cases hp'; rw [er]
    · obtain ⟨r, h1, h2, h3, h4, h5⟩ := crop_spec hc.le q hq
      have er : r.ev t = q.ev t := by unfold ev; rw [h4, h5]
      rw [if_neg (by simpa using hlt)]
      refine ⟨r, h1, h2, h3, by rw [er], ?_⟩
      rintro p' hp'; cases hp'; rw [er]; exact not_lt.mp hlt

theorem bestOn_spec (cmp : ℚ → ℚ → Bool) (hcmp : ∀ u v, cmp u v = decide (s * u < s * v))
    (hc : IsCell s args I t) (fs : List (Affine L)) (hfs : ∀ f ∈ fs, f ∈ args)
    (hle : ∀ f ∈ fs, f.dom.x0 ≤ f.dom.x1) (p : Option (Affine L))
    (hp : ∀ p', p = some p' → Cand args I t p') :
    ∃ o, bestOn cmp I t p fs = .ok o ∧
      (∀ r, o = some r → Cand args I t r ∧
        (∀ f ∈ fs, f.dom.contains t = true → s * r.ev t ≤ s * f.ev t) ∧
        (∀ p', p = some p' → s * r.ev t ≤ s * p'.ev t) ∧
        (((∃ p', p = some p' ∧ ∀ x, p'.dom.contains x = true ↔ I.contains x = true) ∨
            ∃ f ∈ fs, f.dom.contains t = true) →
          ∀ x, r.dom.contains x = true ↔ I.contains x = true)) ∧
      (o = none → p = none ∧ ∀ f ∈ fs, ¬ f.dom.contains t = true) := by
  induction fs generalizing p with
  | nil =>
    refine ⟨p, rfl, fun r hr => ⟨hp r hr, by simp, ?_, ?_⟩, fun h => ⟨h, by simp⟩⟩
    · intro p' hp'; rw [hr] at hp'; cases hp'; exact le_refl _
    · rintro (⟨p', hp', h⟩ | ⟨f, hf, _⟩)
      · rw [hr] at hp'; cases hp'; exact h
      · simp at hf
  | cons f fs ih =>
    unfold bestOn
    by_cases hf : f.dom.contains t = true
    · rw [if_pos hf]
      have hq : Cand args I t f := ⟨hle f (by simp),
        fun x hx => (hc.cov f (hfs f (by simp)) x hx).mpr hf, f, hfs f (by simp), hf, rfl, rfl, rfl⟩
      obtain ⟨q, q1, q2, q3, q4, q5⟩ := compareF_spec cmp hcmp hc p hp f hq
      obtain ⟨o, o1, o2, o3⟩ := ih (fun g hg => hfs g (by simp [hg]))
        (fun g hg => hle g (by simp [hg])) (some q) (fun p' h => by cases h; exact q2)
      refine ⟨o, ?_, ?_, ?_⟩
      · rw [q1]; exact o1
      · intro r hr
        obtain ⟨r1, r2, r3, r4⟩ := o2 r hr
        refine ⟨r1, ?_, fun p' hp' => (r3 q rfl).trans (q5 p' hp'), fun _ =>
          r4 (Or.inl ⟨q, rfl, q3⟩)⟩
        intro g hg hgt
        rcases List.mem_cons.mp hg with rfl | hg
        · exact (r3 q rfl).trans q4
        · exact r2 g hg hgt
      · intro ho; have := (o3 ho).1; cases this
    · rw [if_neg hf]
      obtain ⟨o, o1, o2, o3⟩ := ih (fun g hg => hfs g (by simp [hg]))
        (fun g hg => hle g (by simp [hg])) p hp
      refine ⟨o, o1, ?_, ?_⟩
      · intro r hr
        obtain ⟨r1, r2, r3, r4⟩ := o2 r hr
        refine ⟨r1, ?_, r3, ?_⟩
        · intro g hg hgt
          rcases List.mem_cons.mp hg with rfl | hg
          · exact absurd hgt hf
          · exact r2 g hg hgt
        · rintro (h | ⟨g, hg, hgt⟩)
          · exact r4 (Or.inl h)
          · rcases List.mem_cons.mp hg with rfl | hg
            · exact absurd hgt hf
            · exact r4 (Or.inr ⟨g, hg, hgt⟩)
      · intro ho
        refine ⟨(o3 ho).1, fun g hg => ?_⟩
        rcases List.mem_cons.mp hg with rfl | hg
        · exact hf
        · exact (o3 ho).2 g hg

/-- The specification of a piece on a cell: its domain is the cell, it is one of the functions
there, and it is best among all functions there. -/
def PieceOn (s : ℚ) (args : List (Affine L)) (I : Interval) (q : Affine L) : Prop :=
  q.dom.x0 ≤ q.dom.x1 ∧ (∀ x, q.dom.contains x = true ↔ I.contains x = true) ∧
    (∃ g ∈ args, g.m = q.m ∧ g.c = q.c ∧ g.label = q.label ∧
      ∀ x, I.contains x = true → g.dom.contains x = true) ∧
    ∀ x, I.contains x = true → ∀ h ∈ args, h.dom.contains x = true → s * q.ev x ≤ s * h.ev x

/-- The result on one cell. -/
def CellRes (s : ℚ) (self : Affine L) (f2 : List (Affine L)) (e : Interval × List (Ref L)) : Prop :=
  Proper e.1 ∧
  ((e.2 = [] ∧ ∀ x, e.1.contains x = true → ∀ g ∈ self :: f2, ¬ g.dom.contains x = true) ∨
   (e.2 = [Ref.self] ∧ ∀ x, e.1.contains x = true → self.dom.contains x = true ∧
      ∀ f ∈ f2, ¬ f.dom.contains x = true) ∨
   ∃ q, e.2 = [Ref.new q] ∧ PieceOn s (self :: f2) e.1 q ∧
     ∀ x, e.1.contains x = true → ∃ f ∈ f2, f.dom.contains x = true)

theorem cellPiece_spec (cmp : ℚ → ℚ → Bool) (hcmp : ∀ u v, cmp u v = decide (s * u < s * v))
    (self : Affine L) (f2 : List (Affine L)) (hle : ∀ f ∈ self :: f2, f.dom.x0 ≤ f.dom.x1)
    (hc : IsCell s (self :: f2) I t) :
    ∃ ps, cellPiece cmp self f2 I t = .ok ps ∧ CellRes s self f2 (I, ps) := by
  have hprop : Proper I := ⟨hc.le, t, hc.tmem⟩
  unfold cellPiece
  by_cases hany : f2.any (fun f => f.dom.contains t) = true
  · rw [if_pos hany]
    rw [List.any_eq_true] at hany
    obtain ⟨o, o1, o2, o3⟩ := bestOn_spec cmp hcmp hc f2 (fun f hf => by simp [hf])
      (fun f hf => hle f (by simp [hf])) (if self.dom.contains t then some self else none) (by
        intro p' hp'
        split at hp'
        · rename_i h
          cases hp'
          exact ⟨hle _ (by simp), fun x hx => (hc.cov _ (by simp) x hx).mpr h, _, by simp, h, rfl, rfl, rfl⟩
        · cases hp')
    rw [o1]
    cases o with
    | none =>
      obtain ⟨f, hf, hft⟩ := hany
      exact absurd hft ((o3 rfl).2 f hf)
    | some r =>
      obtain ⟨r1, r2, r3, r4⟩ := o2 r rfl
      refine ⟨[Ref.new r], rfl, hprop, Or.inr (Or.inr ⟨r, rfl, ⟨r1.1, r4 (Or.inr hany), ?_, ?_⟩, ?_⟩)⟩
      · obtain ⟨g, hg, hgt, e1, e2, e3⟩ := r1.2.2
        exact ⟨g, hg, e1, e2, e3, fun x hx => (hc.cov g hg x hx).mpr hgt⟩
      · intro x hx h hh hhx
        have hht := (hc.cov h hh x hx).mp hhx
        obtain ⟨g, hg, hgt, e1, e2, e3⟩ := r1.2.2
        have er : ∀ y, r.ev y = g.ev y := fun y => by unfold ev; rw [e1, e2]
        have hle' : s * r.ev t ≤ s * h.ev t := by
          rcases List.mem_cons.mp hh with rfl | hh'
          · exact r3 h (by rw [if_pos hht])
          · exact r2 h hh' hht
        rw [er] at hle' ⊢
        have := (hc.ord h hh g hg hht hgt x hx)
        by_contra hcon
        exact absurd (this.mp (not_le.mp hcon)) (not_lt.mpr hle')
      · intro x hx
        obtain ⟨f, hf, hft⟩ := hany
        exact ⟨f, hf, (hc.cov f (by simp [hf]) x hx).mpr hft⟩
  · rw [if_neg hany]
    have hnone : ∀ f ∈ f2, ¬ f.dom.contains t = true := fun f hf h =>
      hany (List.any_eq_true.mpr ⟨f, hf, h⟩)
    by_cases hs : self.dom.contains t = true
    · refine ⟨[Ref.self], by rw [if_pos hs], hprop, Or.inr (Or.inl ⟨rfl, fun x hx => ⟨?_, ?_⟩⟩)⟩
      · exact (hc.cov self (by simp) x hx).mpr hs
      · exact fun f hf h => hnone f hf ((hc.cov f (by simp [hf]) x hx).mp h)
    · refine ⟨[], by rw [if_neg hs], hprop, Or.inl ⟨rfl, fun x hx g hg h => ?_⟩⟩
      have hgt := (hc.cov g hg x hx).mp h
      rcases List.mem_cons.mp hg with rfl | hg
      · exact hs hgt
      · exact hnone g hg hgt

/-! ### Cells are cells -/

theorem isCell_point (s : ℚ) (args : List (Affine L)) (x : ℚ) : IsCell s args ⟨x, x, true, true⟩ x := by
  have hpt : ∀ y, (⟨x, x, true, true⟩ : Interval).contains y = true → y = x := by
    intro y hy
    rw [contains_iff] at hy; unfold Mem at hy
    simp only at hy
    rcases hy.1 with h1 | ⟨_, h1⟩ <;> rcases hy.2 with h2 | ⟨_, h2⟩ <;> linarith
  refine ⟨le_refl _, by unfold midpoint; simp, ?_, ?_, ?_⟩
  · rw [contains_iff]; unfold Mem; simp
  · intro g _ y hy; rw [hpt y hy]
  · intro g _ h _ _ _ y hy; rw [hpt y hy]

theorem intersection_symm (f g : Affine L) : f.intersection g = g.intersection f := by
  unfold intersection
  by_cases h : f.m = g.m
  · rw [if_pos h, if_pos h.symm]
  · have h1 : f.m - g.m ≠ 0 := sub_ne_zero.mpr h
    have h2 : g.m - f.m ≠ 0 := sub_ne_zero.mpr (Ne.symm h)
    have : (g.c - f.c) / (f.m - g.m) = (f.c - g.c) / (g.m - f.m) := by field_simp; ring
    rw [if_neg h, if_neg (Ne.symm h), this]
    simp only [Bool.and_comm]

theorem mem_pairInters (fs : List (Affine L)) (f g : Affine L) (hf : f ∈ fs) (hg : g ∈ fs) (c : ℚ)
    (h : f.intersection g = some c) : c ∈ pairInters fs := by
  induction fs with
  | nil => simp at hf
  | cons a fs ih =>
    have hself : a.intersection a = none := by unfold intersection; simp
    unfold pairInters
    rw [List.mem_append, List.mem_filterMap]
    rcases List.mem_cons.mp hf with hfa | hf' <;> rcases List.mem_cons.mp hg with hga | hg'
    · rw [hfa, hga, hself] at h; cases h
    · left; exact ⟨g, hg', by rw [intersection_symm, ← hfa]; exact h⟩
    · left; exact ⟨f, hf', by rw [← hga]; exact h⟩
    · right; exact ih hf' hg'

theorem mem_rawCrits_inter (self : Affine L) (f2 : List (Affine L)) (f g : Affine L)
    (hf : f ∈ self :: f2) (hg : g ∈ self :: f2) (c : ℚ) (h : f.intersection g = some c) :
    c ∈ rawCrits self f2 := by
  unfold rawCrits
  simp only [List.mem_append, List.mem_filterMap]
  have hself : self.intersection self = none := by unfold intersection; simp
  rcases List.mem_cons.mp hf with hfa | hf' <;> rcases List.mem_cons.mp hg with hga | hg'
  · rw [hfa, hga, hself] at h; cases h
  · left; right; exact ⟨g, hg', by rw [← hfa]; exact h⟩
  · left; right; exact ⟨f, hf', by rw [intersection_symm, ← hga]; exact h⟩
  · right; exact mem_pairInters f2 f g hf' hg' c h

theorem mem_rawCrits_end (self : Affine L) (f2 : List (Affine L)) (f : Affine L)
    (hf : f ∈ self :: f2) : f.dom.x0 ∈ rawCrits self f2 ∧ f.dom.x1 ∈ rawCrits self f2 := by
  unfold rawCrits
  simp only [List.mem_append, List.mem_map, List.mem_cons]
  rcases List.mem_cons.mp hf with rfl | hf
  · simp
  · exact ⟨Or.inl (Or.inl (Or.inl (Or.inr ⟨f, hf, rfl⟩))), Or.inl (Or.inl (Or.inr ⟨f, hf, rfl⟩))⟩

theorem open_contains (x y z : ℚ) : (⟨x, y, false, false⟩ : Interval).contains z = true ↔ x < z ∧ z < y := by
  rw [contains_iff]; unfold Mem; simp

theorem isCell_open (s : ℚ) (self : Affine L) (f2 : List (Affine L)) (x y : ℚ) (hxy : x < y)
    (hno : ∀ c ∈ rawCrits self f2, ¬ (x < c ∧ c < y)) :
    IsCell s (self :: f2) ⟨x, y, false, false⟩ ((x + y) / 2) := by
  have hcov : ∀ g ∈ self :: f2, ∀ z w, x < z → z < y → x < w → w < y →
      g.dom.contains z = true → g.dom.contains w = true := by
    intro g hg z w hz1 hz2 hw1 hw2 h
    obtain ⟨e0, e1⟩ := mem_rawCrits_end self f2 g hg
    have h0 := hno _ e0
    have h1 := hno _ e1
    rw [contains_iff] at h ⊢
    unfold Mem at h ⊢
    have a0 : g.dom.x0 ≤ x := by
      by_contra hcon
      apply h0
      refine ⟨not_le.mp hcon, ?_⟩
      rcases h.1 with h2 | ⟨_, h2⟩ <;> linarith
    have a1 : y ≤ g.dom.x1 := by
      by_contra hcon
      apply h1
      refine ⟨?_, not_le.mp hcon⟩
      rcases h.2 with h2 | ⟨_, h2⟩ <;> linarith
    exact ⟨Or.inl (by linarith), Or.inl (by linarith)⟩
  refine ⟨hxy.le, rfl, ?_, ?_, ?_⟩
  · rw [open_contains]; constructor <;> linarith
  · intro g hg z hz
    rw [open_contains] at hz
    exact ⟨hcov g hg _ _ hz.1 hz.2 (by linarith) (by linarith),
      hcov g hg _ _ (by linarith) (by linarith) hz.1 hz.2⟩
  · intro g hg h hh hgt hht z hz
    rw [open_contains] at hz
    set t := (x + y) / 2 with ht
    have ht1 : x < t := by rw [ht]; linarith
    have ht2 : t < y := by rw [ht]; linarith
    unfold ev
    by_cases hm : g.m = h.m
    · rw [hm]
      constructor <;> intro hlt <;> nlinarith
    · have hm' : g.m - h.m ≠ 0 := sub_ne_zero.mpr hm
      set c := (h.c - g.c) / (g.m - h.m) with hcdef
      have hcm : (g.m - h.m) * c = h.c - g.c := by rw [hcdef]; field_simp
      have hcout : ¬ (x < c ∧ c < y) := by
        rintro ⟨c1, c2⟩
        refine hno c (mem_rawCrits_inter self f2 g h hg hh c ?_) ⟨c1, c2⟩
        unfold intersection
        rw [if_neg hm]
        simp only [← hcdef]
        rw [hcov g hg t c ht1 ht2 c1 c2 hgt, hcov h hh t c ht1 ht2 c1 c2 hht]
        rfl
      have key : ∀ w, s * (g.m * w + g.c) < s * (h.m * w + h.c) ↔ s * ((g.m - h.m) * (w - c)) < 0 := by
        intro w
        have : s * ((g.m - h.m) * (w - c)) = s * (g.m * w + g.c) - s * (h.m * w + h.c) := by
          have : (g.m - h.m) * (w - c) = (g.m * w + g.c) - (h.m * w + h.c) := by linarith
          rw [this]; ring
        rw [this, sub_neg]
      rw [key, key]
      have hsgn : (0 < z - c ∧ 0 < t - c) ∨ (z - c < 0 ∧ t - c < 0) := by
        by_cases hcx : x < c
        · right
          have : y ≤ c := by by_contra hcon; exact hcout ⟨hcx, not_le.mp hcon⟩
          constructor <;> linarith
        · left; constructor <;> linarith
      have e1 : ∀ w, s * ((g.m - h.m) * (w - c)) = (s * (g.m - h.m)) * (w - c) := fun w => by ring
      rw [e1, e1]
      generalize s * (g.m - h.m) = k
      rcases hsgn with ⟨p1, p2⟩ | ⟨p1, p2⟩
      · constructor <;> intro hk
        · have : k < 0 := by by_contra hcon; have := mul_nonneg (not_lt.mp hcon) p1.le; linarith
          exact mul_neg_of_neg_of_pos this p2
        · have : k < 0 := by by_contra hcon; have := mul_nonneg (not_lt.mp hcon) p2.le; linarith
          exact mul_neg_of_neg_of_pos this p1
      · constructor <;> intro hk
        · have : 0 < k := by
            by_contra hcon; have := mul_nonneg_of_nonpos_of_nonpos (not_lt.mp hcon) p1.le; linarith
          exact mul_neg_of_pos_of_neg this p2
        · have : 0 < k := by
            by_contra hcon; have := mul_nonneg_of_nonpos_of_nonpos (not_lt.mp hcon) p2.le; linarith
          exact mul_neg_of_pos_of_neg this p1

/-! ### The loop over the cells -/

theorem pointPiece_spec (cmp : ℚ → ℚ → Bool) (hcmp : ∀ u v, cmp u v = decide (s * u < s * v))
    (self : Affine L) (f2 : List (Affine L)) (hle : ∀ f ∈ self :: f2, f.dom.x0 ≤ f.dom.x1)
    (domain : Option Interval) (x : ℚ) :
    (InD domain x → ∃ ps, pointPiece cmp self f2 domain x = .ok ps ∧
      CellRes s self f2 (⟨x, x, true, true⟩, ps)) ∧
    (¬ InD domain x → pointPiece cmp self f2 domain x = .ok []) := by
  have hiff : domain.all (fun D => D.contains x) = true ↔ InD domain x := by
    unfold InD
    cases domain <;> simp
  unfold pointPiece
  constructor
  · intro h
    rw [if_pos (hiff.mpr h)]
    have : Interval.make x x true true = .ok ⟨x, x, true, true⟩ := by
      unfold Interval.make; rw [if_neg (by linarith)]
    rw [this]
    exact cellPiece_spec cmp hcmp self f2 hle (isCell_point s _ x)
  · intro h
    rw [if_neg (fun hh => h (hiff.mp hh))]

theorem point_contains (x z : ℚ) : (⟨x, x, true, true⟩ : Interval).contains z = true ↔ z = x := by
  rw [contains_iff]; unfold Mem; simp only [true_and]
  constructor
  · rintro ⟨h1 | h1, h2 | h2⟩ <;> linarith
  · intro h; exact ⟨Or.inr h, Or.inr h⟩

theorem cellLoop_spec (cmp : ℚ → ℚ → Bool) (hcmp : ∀ u v, cmp u v = decide (s * u < s * v))
    (self : Affine L) (f2 : List (Affine L)) (hle : ∀ f ∈ self :: f2, f.dom.x0 ≤ f.dom.x1)
    (domain : Option Interval) (x : ℚ) (cs : List ℚ) (hsort : (x :: cs).Pairwise (· < ·))
    (hall : ∀ c ∈ rawCrits self f2, InD domain c → c ∈ x :: cs ∨ c < x)
    (hin : ∀ c ∈ x :: cs, ∀ D, domain = some D → D.x0 ≤ c ∧ c ≤ D.x1) :
    ∃ cells : List (Interval × List (Ref L)),
      cellLoop cmp self f2 domain (x :: cs) = .ok (cells.flatMap (·.2)) ∧
      (∀ e ∈ cells, CellRes s self f2 e) ∧
      cells.Pairwise (fun a b => Before a.1 b.1) ∧
      (∀ e ∈ cells, ∀ z, e.1.contains z = true → x ≤ z ∧ InD domain z) ∧
      ∀ z, InD domain z → x ≤ z → (∃ c ∈ x :: cs, z ≤ c) → ∃ e ∈ cells, e.1.contains z = true := by
  induction cs generalizing x with
  | nil =>
    obtain ⟨h1, h2⟩ := pointPiece_spec cmp hcmp self f2 hle domain x
    unfold cellLoop
    by_cases hx : InD domain x
    · obtain ⟨ps, p1, p2⟩ := h1 hx
      refine ⟨[(⟨x, x, true, true⟩, ps)], by simpa using p1, ?_, List.pairwise_singleton _ _, ?_, ?_⟩
      · intro e he; rw [List.mem_singleton] at he; subst he; exact p2
      · intro e he z hz
        rw [List.mem_singleton] at he; subst he
        rw [point_contains] at hz
        subst hz; exact ⟨le_refl _, hx⟩
      · intro z hz hxz ⟨c, hc, hzc⟩
        rw [List.mem_singleton] at hc
        refine ⟨_, List.mem_singleton.mpr rfl, ?_⟩
        rw [point_contains]; linarith
    · refine ⟨[], by simpa using h2 hx, by simp, List.Pairwise.nil, by simp, ?_⟩
      intro z hz hxz ⟨c, hc, hzc⟩
      rw [List.mem_singleton] at hc
      have : z = x := by linarith
      rw [this] at hz; exact absurd hz hx
  | cons y cs ih =>
    rw [List.pairwise_cons] at hsort
    have hxy : x < y := hsort.1 y (by simp)
    have hno : ∀ z, x < z → z < y → InD domain z := by
      intro z h1 h2 D hD
      have := hin x (by simp) D hD
      have := hin y (by simp) D hD
      rw [contains_iff]; unfold Mem
      exact ⟨Or.inl (by linarith), Or.inl (by linarith)⟩
    obtain ⟨cells, c1, c2, c3, c4, c5⟩ := ih y hsort.2 (by
      intro c hc hcD
      rcases hall c hc hcD with h | h
      · rcases List.mem_cons.mp h with rfl | h
        · exact Or.inr hxy
        · exact Or.inl h
      · exact Or.inr (by linarith)) (fun c hc => hin c (by simp only [List.mem_cons] at hc ⊢; tauto))
    have hcell := isCell_open s self f2 x y hxy (by
      rintro c hc ⟨h1, h2⟩
      rcases hall c hc (hno c h1 h2) with h | h
      · rcases List.mem_cons.mp h with rfl | h
        · linarith
        · rcases List.mem_cons.mp h with rfl | h
          · linarith
          · rw [List.pairwise_cons] at hsort
            have := hsort.2.1 c h; linarith
      · linarith)
    obtain ⟨ps, p1, p2⟩ := cellPiece_spec cmp hcmp self f2 hle hcell
    have hopen : openPiece cmp self f2 x y = .ok ps := by
      unfold openPiece
      have : Interval.make x y false false = .ok ⟨x, y, false, false⟩ := by
        unfold Interval.make; rw [if_neg (by linarith)]
      rw [this]
      exact p1
    -- cells from `(x,y)` on
    have tail : (∀ e ∈ (⟨x, y, false, false⟩, ps) :: cells, CellRes s self f2 e) ∧
        ((⟨x, y, false, false⟩, ps) :: cells).Pairwise (fun a b => Before a.1 b.1) ∧
        (∀ e ∈ (⟨x, y, false, false⟩, ps) :: cells, ∀ z, e.1.contains z = true →
          x < z ∧ InD domain z) ∧
        ∀ z, InD domain z → x < z → (∃ c ∈ x :: y :: cs, z ≤ c) →
          ∃ e ∈ (⟨x, y, false, false⟩, ps) :: cells, e.1.contains z = true := by
      refine ⟨?_, ?_, ?_, ?_⟩
      · intro e he
        rcases List.mem_cons.mp he with rfl | he
        · exact p2
        · exact c2 e he
      · rw [List.pairwise_cons]
        refine ⟨?_, c3⟩
        intro e he z w hz hw
        rw [open_contains] at hz
        have := (c4 e he w hw).1
        linarith
      · intro e he z hz
        rcases List.mem_cons.mp he with rfl | he
        · rw [open_contains] at hz
          exact ⟨hz.1, hno z hz.1 hz.2⟩
        · have := c4 e he z hz
          exact ⟨by linarith, this.2⟩
      · rintro z hz hxz ⟨c, hc, hzc⟩
        by_cases hzy : z < y
        · exact ⟨_, List.mem_cons_self, by rw [open_contains]; exact ⟨hxz, hzy⟩⟩
        · obtain ⟨e, he, hez⟩ := c5 z hz (not_lt.mp hzy) (by
            rcases List.mem_cons.mp hc with rfl | hc
            · linarith
            · exact ⟨c, hc, hzc⟩)
          exact ⟨e, List.mem_cons_of_mem _ he, hez⟩
    obtain ⟨t1, t2, t3, t4⟩ := tail
    obtain ⟨h1, h2⟩ := pointPiece_spec cmp hcmp self f2 hle domain x
    unfold cellLoop
    rw [c1, hopen]
    by_cases hx : InD domain x
    · obtain ⟨qs, q1, q2⟩ := h1 hx
      rw [q1]
      refine ⟨(⟨x, x, true, true⟩, qs) :: (⟨x, y, false, false⟩, ps) :: cells, ?_, ?_, ?_, ?_, ?_⟩
      · simp [List.flatMap_cons, bind, Except.bind, pure, Except.pure, List.append_assoc]
      · intro e he
        rcases List.mem_cons.mp he with rfl | he
        · exact q2
        · exact t1 e he
      · rw [List.pairwise_cons]
        refine ⟨?_, t2⟩
        intro e he z w hz hw
        rw [point_contains] at hz
        rw [hz]; exact (t3 e he w hw).1
      · intro e he z hz
        rcases List.mem_cons.mp he with rfl | he
        · rw [point_contains] at hz; subst hz; exact ⟨le_refl _, hx⟩
        · exact ⟨(t3 e he z hz).1.le, (t3 e he z hz).2⟩
      · intro z hz hxz hc
        rcases eq_or_lt_of_le hxz with rfl | hxz
        · exact ⟨_, List.mem_cons_self, by rw [point_contains]⟩
        · obtain ⟨e, he, hez⟩ := t4 z hz hxz hc
          exact ⟨e, List.mem_cons_of_mem _ he, hez⟩
    · rw [h2 hx]
      refine ⟨(⟨x, y, false, false⟩, ps) :: cells, ?_, t1, t2, ?_, ?_⟩
      · simp [List.flatMap_cons, bind, Except.bind, pure, Except.pure]
      · intro e he z hz; exact ⟨(t3 e he z hz).1.le, (t3 e he z hz).2⟩
      · intro z hz hxz hc
        rcases eq_or_lt_of_le hxz with rfl | hxz
        · exact absurd hz hx
        · exact t4 z hz hxz hc

end Affine
end Expdb
