import Verif.Model.Interval
import Verif.Tactics

/-!
# Properties C01, C02 of intervals
-/

namespace Expdb
namespace Interval

/-! ### Specification (independent of the model's functions) -/

/-- The set of rationals denoted by an interval with the given end points and flags. -/
def Mem (x0 x1 : ℚ) (l u : Bool) (x : ℚ) : Prop :=
  (x0 < x ∨ (l = true ∧ x = x0)) ∧ (x < x1 ∨ (u = true ∧ x = x1))

/-- An interval object that the constructor can return. -/
def Constructible (I : Interval) : Prop := ∃ x0 x1 l u, make x0 x1 l u = .ok I

theorem constructible_iff (I : Interval) : I.Constructible ↔ I.x0 ≤ I.x1 := by
  unfold Constructible make
  constructor
  · rintro ⟨x0, x1, l, u, h⟩
    split at h
    · cases h
    · cases h; simp only; linarith
  · intro h
    refine ⟨I.x0, I.x1, I.incL, I.incU, ?_⟩
    rw [if_neg (by linarith)]

/-- `contains` is membership in the denoted set. -/
theorem contains_iff (I : Interval) (x : ℚ) :
    I.contains x = true ↔ Mem I.x0 I.x1 I.incL I.incU x := by
  obtain ⟨a, b, l, u⟩ := I
  have e1 : (0 ≤ x - a) ↔ (a < x ∨ x = a) := by
    rw [sub_nonneg, le_iff_lt_or_eq, eq_comm]
  have e2 : (0 ≤ b - x) ↔ (x < b ∨ x = b) := by
    rw [sub_nonneg, le_iff_lt_or_eq]
  have e3 : (0 < x - a) ↔ a < x := sub_pos
  have e4 : (0 < b - x) ↔ x < b := sub_pos
  cases l <;> cases u <;>
    simp only [contains, Mem, Bool.and_eq_true, decide_eq_true_eq, ge_iff_le, gt_iff_lt, if_true,
      e1, e2, e3, e4, true_and, false_and, or_false, Bool.false_eq_true, if_false]

/-- **C01** Interval intersection is set intersection, and never raises, on all constructible
intervals. -/
theorem C01_intersect_exact (I J : Interval) (hI : I.Constructible) (hJ : J.Constructible) :
    ∃ K, I.intersect J = .ok K ∧ K.Constructible ∧
      ∀ x, K.contains x = true ↔ (I.contains x = true ∧ J.contains x = true) := by
  rw [constructible_iff] at hI hJ
  obtain ⟨a, b, l, u⟩ := I
  obtain ⟨c, d, l', u'⟩ := J
  simp only at hI hJ
  unfold intersect
  by_cases h : max a c > min b d
  · refine ⟨⟨0, 0, false, false⟩, ?_, ?_, ?_⟩
    · simp only [h, if_true, make]; norm_num
    · rw [constructible_iff]
    · intro x
      simp only [contains_iff, Mem]
      constructor
      · rintro ⟨h1, h2⟩
        simp at h1 h2
        linarith
      · rintro ⟨⟨h1, h2⟩, h3, h4⟩
        exfalso
        have h5 : a ≤ x := by rcases h1 with h | ⟨_, h⟩ <;> linarith
        have h6 : c ≤ x := by rcases h3 with h | ⟨_, h⟩ <;> linarith
        have h7 : x ≤ b := by rcases h2 with h | ⟨_, h⟩ <;> linarith
        have h8 : x ≤ d := by rcases h4 with h | ⟨_, h⟩ <;> linarith
        have := max_le h5 h6
        have := le_min h7 h8
        linarith
  · have h' : max a c ≤ min b d := not_lt.mp h
    simp only [if_neg h]
    unfold make
    rw [if_neg (by linarith)]
    refine ⟨_, rfl, ?_, ?_⟩
    · rw [constructible_iff]; exact h'
    · intro x
      simp only [contains_iff, Mem]
      have key : ∀ (p q r s : Prop), (p ↔ r) → (q ↔ s) → ((p ∧ q) ↔ (r ∧ s)) :=
        fun _ _ _ _ h1 h2 => and_congr h1 h2
      rw [show ∀ p q r s : Prop, ((p ∧ q) ∧ (r ∧ s)) = ((p ∧ r) ∧ (q ∧ s)) from
        fun p q r s => propext (by tauto)]
      apply key
      · rcases lt_trichotomy a c with hac | hac | hac
        · rw [max_eq_right hac.le, if_neg (by exact not_lt.mpr hac.le), if_pos hac]
          constructor
          · intro h; refine ⟨Or.inl ?_, h⟩
            rcases h with h | ⟨_, h⟩ <;> linarith
          · exact fun h => h.2
        · subst hac
          rw [max_self, if_neg (lt_irrefl _), if_neg (lt_irrefl _)]
          rw [Bool.and_eq_true]
          tauto
        · rw [max_eq_left hac.le, if_pos hac]
          constructor
          · intro h; refine ⟨h, Or.inl ?_⟩
            rcases h with h | ⟨_, h⟩ <;> linarith
          · exact fun h => h.1
      · rcases lt_trichotomy b d with hbd | hbd | hbd
        · rw [min_eq_left hbd.le, if_pos hbd]
          constructor
          · intro h; refine ⟨h, Or.inl ?_⟩
            rcases h with h | ⟨_, h⟩ <;> linarith
          · exact fun h => h.1
        · subst hbd
          rw [min_self, if_neg (lt_irrefl _), if_neg (lt_irrefl _)]
          rw [Bool.and_eq_true]
          tauto
        · rw [min_eq_right hbd.le, if_neg (by exact not_lt.mpr hbd.le), if_pos hbd]
          constructor
          · intro h; refine ⟨Or.inl ?_, h⟩
            rcases h with h | ⟨_, h⟩ <;> linarith
          · exact fun h => h.2

/-- Non-vacuity of C01: a half-open and a closed interval sharing an end point. -/
example : (⟨0, 1, true, false⟩ : Interval).Constructible ∧
    (⟨1/2, 1, false, true⟩ : Interval).Constructible ∧
    (⟨0, 1, true, false⟩ : Interval).intersect ⟨1/2, 1, false, true⟩
      = .ok ⟨1/2, 1, false, false⟩ := by
  refine ⟨?_, ?_, by decide +kernel⟩ <;> rw [constructible_iff] <;> norm_num

/-- **C02 (first half)** `is_empty` decides emptiness of the denoted set. -/
theorem C02_isEmpty_iff (I : Interval) (hI : I.Constructible) :
    I.isEmpty = true ↔ ∀ x, I.contains x = false := by
  rw [constructible_iff] at hI
  have hc : ∀ x, I.contains x = false ↔ ¬ Mem I.x0 I.x1 I.incL I.incU x := by
    intro x; rw [← contains_iff]; simp
  simp only [hc]
  obtain ⟨a, b, l, u⟩ := I
  simp only at hI
  unfold isEmpty length
  by_cases h : b - a = 0
  · have hab : a = b := by linarith
    subst hab
    simp only [sub_self, if_true, Bool.not_eq_true', Bool.and_eq_false_iff]
    constructor
    · rintro h x ⟨h1, h2⟩
      rcases h with h | h <;> subst h <;> simp at h1 h2
      · rcases h2 with h2 | ⟨_, h2⟩ <;> linarith
      · rcases h1 with h1 | ⟨_, h1⟩ <;> linarith
    · intro h
      by_contra hh
      push Not at hh
      have h1 : l = true := by simpa using hh.1
      have h2 : u = true := by simpa using hh.2
      exact h a ⟨Or.inr ⟨h1, rfl⟩, Or.inr ⟨h2, rfl⟩⟩
  · simp only [if_neg h, Bool.false_eq_true, false_iff, not_forall, not_not]
    have hlt : a < b := lt_of_le_of_ne hI (fun h' => h (by rw [h']; ring))
    exact ⟨(a + b) / 2, Or.inl (by linarith), Or.inl (by linarith)⟩

private theorem ends_le {a b c d : ℚ} {l u l' u' : Bool} (hne : ∃ x, Mem a b l u x)
    (h : ∀ x, Mem a b l u x → Mem c d l' u' x) : c ≤ a ∧ b ≤ d := by
  obtain ⟨x, hx⟩ := hne
  have hax : a ≤ x := by rcases hx.1 with h | ⟨_, h⟩ <;> linarith
  have hxb : x ≤ b := by rcases hx.2 with h | ⟨_, h⟩ <;> linarith
  constructor
  · by_contra hc
    push Not at hc
    have hcx : c ≤ x := by rcases (h x hx).1 with h | ⟨_, h⟩ <;> linarith
    rcases lt_or_eq_of_le hax with h1 | h1
    · -- point strictly between a and min c x
      have hm : Mem a b l u ((a + c) / 2) := by
        refine ⟨Or.inl (by linarith), Or.inl (by linarith)⟩
      rcases (h _ hm).1 with h2 | ⟨_, h2⟩ <;> linarith
    · linarith
  · by_contra hc
    push Not at hc
    have hcx : x ≤ d := by rcases (h x hx).2 with h | ⟨_, h⟩ <;> linarith
    rcases lt_or_eq_of_le hxb with h1 | h1
    · have hm : Mem a b l u ((b + d) / 2) := by
        refine ⟨Or.inl (by linarith), Or.inl (by linarith)⟩
      rcases (h _ hm).2 with h2 | ⟨_, h2⟩ <;> linarith
    · linarith

/-- **C02 (second half)** `==` on intervals is equality of the denoted sets. -/
theorem C02_eq_iff (I J : Interval) (hI : I.Constructible) (hJ : J.Constructible) :
    I.pyEq J = true ↔ ∀ x, I.contains x = J.contains x := by
  have eI := C02_isEmpty_iff I hI
  have eJ := C02_isEmpty_iff J hJ
  unfold pyEq
  by_cases h : (I.isEmpty && J.isEmpty) = true
  · simp only [h, if_true, true_iff]
    rw [Bool.and_eq_true] at h
    intro x
    rw [eI.mp h.1 x, eJ.mp h.2 x]
  · rw [if_neg h]
    simp only [Bool.and_eq_true, beq_iff_eq]
    constructor
    · rintro ⟨⟨⟨h1, h2⟩, h3⟩, h4⟩ x
      obtain ⟨a, b, l, u⟩ := I
      obtain ⟨c, d, l', u'⟩ := J
      simp only at h1 h2 h3 h4
      subst h1; subst h2; subst h3; subst h4; rfl
    · intro hx
      have hmem : ∀ x, Mem I.x0 I.x1 I.incL I.incU x ↔ Mem J.x0 J.x1 J.incL J.incU x := by
        intro x; rw [← contains_iff, ← contains_iff, hx x]
      have hex : ∃ x, Mem I.x0 I.x1 I.incL I.incU x := by
        by_contra hno
        push Not at hno
        apply h
        rw [Bool.and_eq_true, eI, eJ]
        refine ⟨fun x => ?_, fun x => ?_⟩
        · rw [Bool.eq_false_iff, Ne, contains_iff]; exact hno x
        · rw [Bool.eq_false_iff, Ne, contains_iff, ← hmem]; exact hno x
      have hex' : ∃ x, Mem J.x0 J.x1 J.incL J.incU x := by
        obtain ⟨x, hx⟩ := hex; exact ⟨x, (hmem x).mp hx⟩
      have h1 := ends_le hex (fun x => (hmem x).mp)
      have h2 := ends_le hex' (fun x => (hmem x).mpr)
      have e0 : I.x0 = J.x0 := le_antisymm h2.1 h1.1
      have e1 : I.x1 = J.x1 := le_antisymm h1.2 h2.2
      obtain ⟨a, b, l, u⟩ := I
      obtain ⟨c, d, l', u'⟩ := J
      simp only at e0 e1 hmem hex
      subst e0; subst e1
      obtain ⟨x, hxm⟩ := hex
      have hax : a ≤ x := by rcases hxm.1 with h | ⟨_, h⟩ <;> linarith
      have hxb : x ≤ b := by rcases hxm.2 with h | ⟨_, h⟩ <;> linarith
      refine ⟨⟨⟨rfl, rfl⟩, ?_⟩, ?_⟩
      · rcases eq_or_lt_of_le (hax.trans hxb) with hab | hab
        · have hxa : x = a := by linarith
          subst hxa
          have hl := hxm.1
          have hl' := ((hmem x).mp hxm).1
          simp at hl hl'
          simp only; rw [hl, hl']
        · have ha := hmem a
          simp only [Mem, lt_irrefl, and_true, false_or, hab, true_or] at ha
          cases l <;> cases l' <;> simp_all
      · rcases eq_or_lt_of_le (hax.trans hxb) with hab | hab
        · have hxa : x = b := by linarith
          subst hxa
          have hl := hxm.2
          have hl' := ((hmem x).mp hxm).2
          simp at hl hl'
          simp only; rw [hl, hl']
        · have ha := hmem b
          simp only [Mem, lt_irrefl, and_true, false_or, hab, true_or, true_and] at ha
          cases u <;> cases u' <;> simp_all

/-- Non-vacuity of C02: an open and a closed interval with the same end points are different,
two different degenerate intervals are equal. -/
example : (⟨0, 1, true, false⟩ : Interval).pyEq ⟨0, 1, true, true⟩ = false ∧
    (⟨0, 0, true, false⟩ : Interval).pyEq ⟨3, 3, false, false⟩ = true ∧
    (⟨0, 0, true, false⟩ : Interval).Constructible := by
  refine ⟨by decide +kernel, by decide +kernel, ?_⟩
  rw [constructible_iff]

/-- The midpoint of a constructible non-empty interval is contained in it. -/
theorem C02_midpoint_mem (I : Interval) (hI : I.Constructible) (hne : I.isEmpty = false) :
    I.contains I.midpoint = true := by
  rw [constructible_iff] at hI
  rw [contains_iff]
  obtain ⟨a, b, l, u⟩ := I
  simp only at hI
  unfold isEmpty length at hne
  unfold midpoint
  simp only at hne ⊢
  rcases eq_or_lt_of_le hI with hab | hab
  · subst hab
    simp at hne
    refine ⟨Or.inr ⟨hne.1, by ring⟩, Or.inr ⟨hne.2, by ring⟩⟩
  · exact ⟨Or.inl (by linarith), Or.inl (by linarith)⟩

example : (⟨1, 1, true, true⟩ : Interval).isEmpty = false := by decide +kernel

end Interval
end Expdb
