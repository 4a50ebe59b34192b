import Verif.Model.Hull
import Verif.Tactics
import Mathlib.Data.List.Nodup
import Mathlib.Data.List.Perm.Basic
import Mathlib.Data.List.Dedup
import Mathlib.Data.Nat.Find

/-!
# Planar convex hulls: consequences of the contract, and its satisfiability
-/

namespace Expdb
namespace Hull

theorem area_cycle (a b c : ℚ × ℚ) : area a b c = area b c a := by unfold area; ring

theorem area_swap (a b c : ℚ × ℚ) : area a c b = - area a b c := by unfold area; ring

theorem area_self (a b : ℚ × ℚ) : area a b b = 0 ∧ area a b a = 0 ∧ area a a b = 0 := by
  unfold area; refine ⟨?_, ?_, ?_⟩ <;> ring

theorem area_mix (a b p q : ℚ × ℚ) (t : ℚ) :
    area a b ((1 - t) * p.1 + t * q.1, (1 - t) * p.2 + t * q.2) = (1 - t) * area a b p + t * area a b q := by
  unfold area; simp only; ring

theorem InConv.mono {ps qs : List (ℚ × ℚ)} {p : ℚ × ℚ} (h : InConv ps p) (hs : ∀ q ∈ ps, q ∈ qs) : InConv qs p := by
  induction h with
  | point p hp => exact .point _ (hs p hp)
  | mix p q t _ _ h0 h1 ih1 ih2 => exact .mix _ _ _ ih1 ih2 h0 h1

theorem InConv.trans {ps qs : List (ℚ × ℚ)} {p : ℚ × ℚ} (h : InConv ps p) (hs : ∀ q ∈ ps, InConv qs q) :
    InConv qs p := by
  induction h with
  | point p hp => exact hs p hp
  | mix p q t _ _ h0 h1 ih1 ih2 => exact .mix _ _ _ ih1 ih2 h0 h1

/-- A linear inequality that holds at the points holds at their convex combinations. -/
theorem InConv.linear {ps : List (ℚ × ℚ)} {p : ℚ × ℚ} (h : InConv ps p) (x y z : ℚ)
    (hs : ∀ q ∈ ps, 0 ≤ x * q.1 + y * q.2 + z) : 0 ≤ x * p.1 + y * p.2 + z := by
  induction h with
  | point p hp => exact hs p hp
  | mix p q t _ _ h0 h1 ih1 ih2 =>
    have a := mul_nonneg (by linarith : 0 ≤ 1 - t) ih1
    have b := mul_nonneg h0 ih2
    simp only
    linarith

/-- A strict linear inequality that holds at the points holds at their convex combinations. -/
theorem InConv.linear_pos {ps : List (ℚ × ℚ)} {p : ℚ × ℚ} (h : InConv ps p) (x y z : ℚ)
    (hs : ∀ q ∈ ps, 0 < x * q.1 + y * q.2 + z) : 0 < x * p.1 + y * p.2 + z := by
  induction h with
  | point p hp => exact hs p hp
  | mix p q t _ _ h0 h1 ih1 ih2 =>
    simp only
    have e : x * ((1 - t) * p.1 + t * q.1) + y * ((1 - t) * p.2 + t * q.2) + z
        = (1 - t) * (x * p.1 + y * p.2 + z) + t * (x * q.1 + y * q.2 + z) := by ring
    rw [e]
    rcases eq_or_lt_of_le h0 with h | h
    · rw [← h]; linarith
    · have a := mul_nonneg (by linarith : 0 ≤ 1 - t) ih1.le
      have b := mul_pos h ih2
      linarith

theorem InConv.area_nonneg {ps : List (ℚ × ℚ)} {p : ℚ × ℚ} (h : InConv ps p) (a b : ℚ × ℚ)
    (hs : ∀ q ∈ ps, 0 ≤ area a b q) : 0 ≤ area a b p := by
  induction h with
  | point p hp => exact hs p hp
  | mix p q t _ _ h0 h1 ih1 ih2 =>
    rw [area_mix]
    have a := mul_nonneg (by linarith : 0 ≤ 1 - t) ih1
    have b := mul_nonneg h0 ih2
    linarith

theorem area_sum (a b c p : ℚ × ℚ) : area b c p + area c a p + area a b p = area a b c := by
  unfold area; ring

theorem area_combo (a b c p : ℚ × ℚ) :
    area a b c * p.1 = area b c p * a.1 + area c a p * b.1 + area a b p * c.1 ∧
    area a b c * p.2 = area b c p * a.2 + area c a p * b.2 + area a b p * c.2 := by
  unfold area; constructor <;> ring

/-- Three weights give a convex combination. -/
theorem inConv_of_weights (a b c p : ℚ × ℚ) (u v w : ℚ) (hu : 0 ≤ u) (hv : 0 ≤ v) (hw : 0 ≤ w)
    (hs : u + v + w = 1) (e1 : p.1 = u * a.1 + v * b.1 + w * c.1) (e2 : p.2 = u * a.2 + v * b.2 + w * c.2) :
    InConv [a, b, c] p := by
  have ha : InConv [a, b, c] a := .point _ (by simp)
  have hb : InConv [a, b, c] b := .point _ (by simp)
  have hc : InConv [a, b, c] c := .point _ (by simp)
  by_cases h1 : u + v = 0
  · have hu0 : u = 0 := by linarith
    have hv0 : v = 0 := by linarith
    have hw1 : w = 1 := by linarith
    have : p = c := by
      ext
      · rw [e1, hu0, hv0, hw1]; ring
      · rw [e2, hu0, hv0, hw1]; ring
    rw [this]; exact hc
  · have hpos : 0 < u + v := lt_of_le_of_ne (by linarith) (Ne.symm h1)
    have hab := InConv.mix a b (v / (u + v)) ha hb (div_nonneg hv hpos.le)
      ((div_le_one hpos).mpr (by linarith))
    have := InConv.mix _ c w hab hc hw (by linarith)
    have e : p = ((1 - w) * ((1 - v / (u + v)) * a.1 + v / (u + v) * b.1) + w * c.1,
        (1 - w) * ((1 - v / (u + v)) * a.2 + v / (u + v) * b.2) + w * c.2) := by
      have hw' : 1 - w = u + v := by linarith
      have f1 : (u + v) * (1 - v / (u + v)) = u := by field_simp; ring
      have f2 : (u + v) * (v / (u + v)) = v := by field_simp
      ext
      · simp only
        rw [e1, hw', mul_add, ← mul_assoc, ← mul_assoc, f1, f2]
      · simp only
        rw [e2, hw', mul_add, ← mul_assoc, ← mul_assoc, f1, f2]
    rw [e]; exact this

theorem inConv_of_areas (a b c p : ℚ × ℚ) (h : 0 < area a b c) (h1 : 0 ≤ area b c p) (h2 : 0 ≤ area c a p)
    (h3 : 0 ≤ area a b p) : InConv [a, b, c] p := by
  have hs := area_sum a b c p
  obtain ⟨e1, e2⟩ := area_combo a b c p
  refine inConv_of_weights a b c p (area b c p / area a b c) (area c a p / area a b c) (area a b p / area a b c)
    (div_nonneg h1 h.le) (div_nonneg h2 h.le) (div_nonneg h3 h.le) ?_ ?_ ?_
  · rw [← add_div, ← add_div, hs, div_self h.ne']
  · rw [div_mul_eq_mul_div, div_mul_eq_mul_div, div_mul_eq_mul_div, ← add_div, ← add_div, eq_div_iff h.ne', mul_comm]
    exact e1
  · rw [div_mul_eq_mul_div, div_mul_eq_mul_div, div_mul_eq_mul_div, ← add_div, ← add_div, eq_div_iff h.ne', mul_comm]
    exact e2

/-! ### Edges -/

/-- All vertices are on the left of an edge between consecutive vertices. -/
theorem Ccw.edge {vs : List (ℚ × ℚ)} (h : Ccw vs) (p q : List (ℚ × ℚ)) (a b : ℚ × ℚ) (hv : vs = p ++ a :: b :: q) :
    ∀ c ∈ vs, 0 ≤ area a b c := by
  intro c hc
  subst hv
  rw [List.mem_append, List.mem_cons, List.mem_cons] at hc
  rcases hc with hc | rfl | rfl | hc
  · rw [← area_cycle]
    refine (h c a b ?_).le
    exact (List.Sublist.append (List.singleton_sublist.mpr hc) (List.Sublist.cons_cons a (List.Sublist.cons_cons b (List.nil_sublist q))))
  · rw [(area_self c b).2.1]
  · rw [(area_self a c).1]
  · refine (h a b c ?_).le
    exact List.Sublist.trans (List.Sublist.cons_cons a (List.Sublist.cons_cons b (List.singleton_sublist.mpr hc)))
      (List.sublist_append_right p _)

/-- All vertices are on the left of the edge from the last to the first vertex. -/
theorem Ccw.last_edge {vs : List (ℚ × ℚ)} (h : Ccw vs) (m : List (ℚ × ℚ)) (a b : ℚ × ℚ) (hv : vs = b :: (m ++ [a])) :
    ∀ c ∈ vs, 0 ≤ area a b c := by
  intro c hc
  subst hv
  rw [List.mem_cons, List.mem_append, List.mem_singleton] at hc
  rcases hc with rfl | hc | rfl
  · rw [(area_self a c).1]
  · rw [area_cycle]
    refine (h b c a ?_).le
    exact List.Sublist.cons_cons b (List.Sublist.append (List.singleton_sublist.mpr hc) (List.Sublist.refl [a]))
  · rw [(area_self c b).2.1]

/-- In a strictly convex polygon every convex combination of the vertices lies in a triangle formed
by the first vertex and two consecutive others. -/
theorem Ccw.fan {v0 : ℚ × ℚ} {vs : List (ℚ × ℚ)} (h : Ccw (v0 :: vs)) (hlen : 2 ≤ vs.length) (x : ℚ × ℚ)
    (hx : InConv (v0 :: vs) x) :
    ∃ p a b q, vs = p ++ a :: b :: q ∧ 0 ≤ area v0 a x ∧ area v0 b x ≤ 0 ∧ 0 ≤ area a b x := by
  -- the sign of `area v0 v x` changes from nonnegative to nonpositive along the list
  have first : ∀ a q, vs = a :: q → 0 ≤ area v0 a x := by
    intro a q hv
    refine hx.area_nonneg v0 a ?_
    exact h.edge [] q v0 a (by rw [hv]; rfl)
  have last : ∀ p b, vs = p ++ [b] → area v0 b x ≤ 0 := by
    intro p b hv
    have := hx.area_nonneg b v0 (h.last_edge p b v0 (by rw [hv]))
    have e : area v0 b x = - area b v0 x := by unfold area; ring
    linarith
  have find : ∀ (ws : List (ℚ × ℚ)) (a : ℚ × ℚ), 0 ≤ area v0 a x → (∃ p b, a :: ws = p ++ [b] ∧ area v0 b x ≤ 0) →
      ws ≠ [] → ∃ p a' b' q, a :: ws = p ++ a' :: b' :: q ∧ 0 ≤ area v0 a' x ∧ area v0 b' x ≤ 0 := by
    intro ws
    induction ws with
    | nil => intro a _ _ h; exact absurd rfl h
    | cons b ws ih =>
      intro a ha hlast _
      by_cases hb : area v0 b x ≤ 0
      · exact ⟨[], a, b, ws, rfl, ha, hb⟩
      · cases ws with
        | nil =>
          obtain ⟨p, b', e, hb'⟩ := hlast
          have : b = b' := by
            have := congrArg List.getLast? e
            simpa using this
          exact absurd (this ▸ hb') hb
        | cons c ws =>
          obtain ⟨p, b', e, hb'⟩ := hlast
          have h2 : ∃ p b', b :: c :: ws = p ++ [b'] ∧ area v0 b' x ≤ 0 := by
            cases p with
            | nil => simp at e
            | cons p0 p =>
              simp only [List.cons_append, List.cons.injEq] at e
              exact ⟨p, b', e.2, hb'⟩
          obtain ⟨p', a', b'', q, e1, e2, e3⟩ := ih b (le_of_lt (lt_of_not_ge hb)) h2 (by simp)
          exact ⟨a :: p', a', b'', q, by rw [List.cons_append, ← e1], e2, e3⟩
  cases vs with
  | nil => simp at hlen
  | cons a ws =>
    have hne : ws ≠ [] := by rintro rfl; simp at hlen
    have hl : ∃ p b, a :: ws = p ++ [b] ∧ area v0 b x ≤ 0 := by
      have hne' : a :: ws ≠ [] := by simp
      refine ⟨(a :: ws).dropLast, (a :: ws).getLast hne', (List.dropLast_append_getLast hne').symm, ?_⟩
      exact last _ _ (List.dropLast_append_getLast hne').symm
    obtain ⟨p, a', b', q, e1, e2, e3⟩ := find ws a (first a ws rfl) hl hne
    refine ⟨p, a', b', q, e1, e2, e3, ?_⟩
    refine hx.area_nonneg a' b' ?_
    exact h.edge (v0 :: p) q a' b' (by rw [e1]; rfl)

/-! ### The cyclic edges -/

theorem cyclic_mem {α : Type} (vs : List α) (e : α × α) (h : e ∈ cyclic vs) : e.1 ∈ vs ∧ e.2 ∈ vs := by
  cases vs with
  | nil => simp [cyclic] at h
  | cons v vs =>
    simp only [cyclic] at h
    have h1 := (List.of_mem_zip h).1
    have h2 := (List.of_mem_zip h).2
    refine ⟨h1, ?_⟩
    simp only [List.mem_append, List.mem_singleton] at h2
    rcases h2 with h2 | h2
    · exact List.mem_cons_of_mem _ h2
    · rw [h2]; exact List.mem_cons_self

theorem zip_split {α : Type} : ∀ (vs : List α) (v w : α) (e : α × α), e ∈ (v :: vs).zip (vs ++ [w]) →
    (∃ p q, v :: vs = p ++ e.1 :: e.2 :: q) ∨ (∃ p, v :: vs = p ++ [e.1] ∧ e.2 = w) := by
  intro vs
  induction vs with
  | nil =>
    intro v w e h
    simp at h
    right
    exact ⟨[], by rw [h]; rfl, by rw [h]⟩
  | cons u vs ih =>
    intro v w e h
    rw [List.cons_append, List.zip_cons_cons, List.mem_cons] at h
    rcases h with h | h
    · left; exact ⟨[], vs, by rw [h]; rfl⟩
    · rcases ih u w e h with ⟨p, q, h1⟩ | ⟨p, h1, h2⟩
      · left; exact ⟨v :: p, q, by rw [h1]; rfl⟩
      · right; exact ⟨v :: p, by rw [h1]; rfl, h2⟩

theorem cyclic_split {α : Type} (vs : List α) (e : α × α) (h : e ∈ cyclic vs) :
    (∃ p q, vs = p ++ e.1 :: e.2 :: q) ∨ (∃ m, vs = e.2 :: (m ++ [e.1])) ∨ (vs = [e.1] ∧ e.1 = e.2) := by
  cases vs with
  | nil => simp [cyclic] at h
  | cons v vs =>
    simp only [cyclic] at h
    rcases zip_split vs v v e h with h | ⟨p, h1, h2⟩
    · exact Or.inl h
    · right
      cases p with
      | nil =>
        right
        simp only [List.nil_append, List.cons.injEq] at h1
        refine ⟨by rw [h1.1, h1.2], by rw [h2, h1.1]⟩
      | cons p0 p =>
        left
        simp only [List.cons_append, List.cons.injEq] at h1
        exact ⟨p, by rw [h2, h1.2]⟩

theorem cyclic_map {α β : Type} (f : α → β) (vs : List α) :
    cyclic (vs.map f) = (cyclic vs).map (fun e => (f e.1, f e.2)) := by
  cases vs with
  | nil => rfl
  | cons v vs =>
    simp only [cyclic, List.map_cons]
    have e1 : vs.map f ++ [f v] = (vs ++ [v]).map f := by simp
    have e2 : f v :: vs.map f = (v :: vs).map f := rfl
    rw [e1, e2, List.zip_map]
    rfl

/-- All vertices are on the left of every edge. -/
theorem Ccw.cyclic_edge {vs : List (ℚ × ℚ)} (h : Ccw vs) (e : (ℚ × ℚ) × (ℚ × ℚ)) (he : e ∈ cyclic vs) :
    ∀ c ∈ vs, 0 ≤ area e.1 e.2 c := by
  rcases cyclic_split vs e he with ⟨p, q, h1⟩ | ⟨m, h1⟩ | ⟨h1, h2⟩
  · exact h.edge p q _ _ h1
  · exact h.last_edge m _ _ h1
  · intro c _
    rw [h2, (area_self e.2 c).2.2]

/-- A vertex other than the end points is strictly on the left of an edge. -/
theorem Ccw.cyclic_edge_pos {vs : List (ℚ × ℚ)} (h : Ccw vs) (e : (ℚ × ℚ) × (ℚ × ℚ)) (he : e ∈ cyclic vs) :
    ∀ c ∈ vs, c ≠ e.1 → c ≠ e.2 → 0 < area e.1 e.2 c := by
  intro c hc n1 n2
  rcases cyclic_split vs e he with ⟨p, q, h1⟩ | ⟨m, h1⟩ | ⟨h1, h2⟩
  · rw [h1, List.mem_append, List.mem_cons, List.mem_cons] at hc
    rcases hc with hc | hc | hc | hc
    · rw [← area_cycle]
      refine h _ _ _ ?_
      rw [h1]
      exact (List.Sublist.append (List.singleton_sublist.mpr hc) (List.Sublist.cons_cons _ (List.Sublist.cons_cons _ (List.nil_sublist q))))
    · exact absurd hc n1
    · exact absurd hc n2
    · refine h _ _ _ ?_
      rw [h1]
      exact List.Sublist.trans (List.Sublist.cons_cons _ (List.Sublist.cons_cons _ (List.singleton_sublist.mpr hc)))
        (List.sublist_append_right p _)
  · rw [h1, List.mem_cons, List.mem_append, List.mem_singleton] at hc
    rcases hc with hc | hc | hc
    · exact absurd hc n2
    · rw [area_cycle]
      refine h _ _ _ ?_
      rw [h1]
      exact List.Sublist.cons_cons _ (List.Sublist.append (List.singleton_sublist.mpr hc) (List.Sublist.refl _))
    · exact absurd hc n1
  · rw [h1, List.mem_singleton] at hc
    exact absurd hc n1

theorem zip_cross {α : Type} (P : α → Prop) : ∀ (vs : List α) (v w : α), P v → ¬ P w →
    ∃ e ∈ (v :: vs).zip (vs ++ [w]), P e.1 ∧ ¬ P e.2 := by
  intro vs
  induction vs with
  | nil => intro v w h1 h2; exact ⟨(v, w), by simp, h1, h2⟩
  | cons u vs ih =>
    intro v w h1 h2
    rw [List.cons_append, List.zip_cons_cons]
    by_cases hu : P u
    · obtain ⟨e, he, h⟩ := ih u w hu h2
      exact ⟨e, List.mem_cons_of_mem _ he, h⟩
    · exact ⟨(v, u), List.mem_cons_self, h1, hu⟩

theorem zip_cross_mem {α : Type} (P : α → Prop) : ∀ (vs : List α) (v w : α),
    ((∃ a ∈ v :: vs, P a) → ¬ P w → ∃ e ∈ (v :: vs).zip (vs ++ [w]), P e.1 ∧ ¬ P e.2) ∧
    (P v → (∃ b ∈ vs, ¬ P b) → ∃ e ∈ (v :: vs).zip (vs ++ [w]), P e.1 ∧ ¬ P e.2) := by
  intro vs
  induction vs with
  | nil =>
    intro v w
    refine ⟨?_, ?_⟩
    · rintro ⟨a, ha, h1⟩ h2
      rw [List.mem_singleton] at ha
      subst ha
      exact ⟨(a, w), by simp, h1, h2⟩
    · rintro _ ⟨b, hb, _⟩; simp at hb
  | cons u vs ih =>
    intro v w
    rw [List.cons_append, List.zip_cons_cons]
    refine ⟨?_, ?_⟩
    · rintro ⟨a, ha, h1⟩ h2
      by_cases hv : P v ∧ ¬ P u
      · exact ⟨(v, u), List.mem_cons_self, hv⟩
      · have : ∃ a ∈ u :: vs, P a := by
          rcases List.mem_cons.mp ha with e | e
          · subst e
            refine ⟨u, List.mem_cons_self, ?_⟩
            by_contra hu; exact hv ⟨h1, hu⟩
          · exact ⟨a, e, h1⟩
        obtain ⟨e, he, h⟩ := (ih u w).1 this h2
        exact ⟨e, List.mem_cons_of_mem _ he, h⟩
    · intro h1 h2
      by_cases hu : P u
      · have : ∃ b ∈ vs, ¬ P b := by
          obtain ⟨b, hb, h⟩ := h2
          rcases List.mem_cons.mp hb with e | e
          · subst e; exact absurd hu h
          · exact ⟨b, e, h⟩
        obtain ⟨e, he, h⟩ := (ih u w).2 hu this
        exact ⟨e, List.mem_cons_of_mem _ he, h⟩
      · exact ⟨(v, u), List.mem_cons_self, h1, hu⟩

/-- Going around, one passes from the vertices with a property to those without. -/
theorem cyclic_cross {α : Type} (P : α → Prop) (vs : List α) (a b : α) (ha : a ∈ vs) (hb : b ∈ vs)
    (h1 : P a) (h2 : ¬ P b) : ∃ e ∈ cyclic vs, P e.1 ∧ ¬ P e.2 := by
  cases vs with
  | nil => simp at ha
  | cons v vs =>
    simp only [cyclic]
    by_cases hv : P v
    · have : ∃ b ∈ vs, ¬ P b := by
        rcases List.mem_cons.mp hb with e | e
        · subst e; exact absurd hv h2
        · exact ⟨b, e, h2⟩
      exact (zip_cross_mem P vs v v).2 hv this
    · exact (zip_cross_mem P vs v v).1 ⟨a, ha, h1⟩ hv

/-! ### Flat sets -/

theorem flat_of_inConv (vs ps : List (ℚ × ℚ)) (h : ∀ p ∈ ps, InConv vs p)
    (hf : ∃ a b, a ≠ b ∧ ∀ c ∈ vs, area a b c = 0) : Flat ps := by
  obtain ⟨a, b, hab, hc⟩ := hf
  have h0 : ∀ p ∈ ps, area a b p = 0 := by
    intro p hp
    have h1 := (h p hp).area_nonneg a b (fun q hq => (hc q hq).ge)
    have h2 := (h p hp).area_nonneg b a (fun q hq => by
      have : area b a q = - area a b q := by unfold area; ring
      rw [this, hc q hq]; simp)
    have : area b a p = - area a b p := by unfold area; ring
    linarith
  intro x hx y hy z hz
  have e1 := h0 x hx
  have e2 := h0 y hy
  have e3 := h0 z hz
  -- area x y z is the determinant of three points on the line through a and b
  have k1 : (b.1 - a.1) * area x y z = 0 := by
    have : (b.1 - a.1) * area x y z = (x.1 - y.1) * (area a b x - area a b z) - (x.1 - z.1) * (area a b x - area a b y) := by
      unfold area; ring
    rw [this, e1, e2, e3]; ring
  have k2 : (b.2 - a.2) * area x y z = 0 := by
    have : (b.2 - a.2) * area x y z = (x.2 - y.2) * (area a b x - area a b z) - (x.2 - z.2) * (area a b x - area a b y) := by
      unfold area; ring
    rw [this, e1, e2, e3]; ring
  rcases mul_eq_zero.mp k1 with h1 | h1
  · rcases mul_eq_zero.mp k2 with h2 | h2
    · exfalso; apply hab
      ext <;> linarith
    · exact h2
  · exact h1

/-- Hulls of points that do not lie on a line have at least three vertices. -/
theorem three_vertices (vs ps : List (ℚ × ℚ)) (h : ∀ p ∈ ps, InConv vs p) (hf : ¬ Flat ps) : 3 ≤ vs.length := by
  by_contra hlt
  apply hf
  apply flat_of_inConv vs ps h
  match vs, hlt with
  | [], _ => exact ⟨(0, 0), (1, 0), by decide, by simp⟩
  | [a], _ =>
    refine ⟨a, (a.1 + 1, a.2), ?_, ?_⟩
    · intro e
      have := congrArg Prod.fst e
      simp at this
    · intro c hc
      rw [List.mem_singleton] at hc
      subst hc
      exact (area_self _ _).2.1
  | [a, b], _ =>
    by_cases hab : a = b
    · refine ⟨a, (a.1 + 1, a.2), ?_, ?_⟩
      · intro e
        have := congrArg Prod.fst e
        simp at this
      · intro c hc
        subst hab
        simp only [List.mem_cons, List.not_mem_nil, or_false, or_self] at hc
        subst hc
        exact (area_self _ _).2.1
    · refine ⟨a, b, hab, ?_⟩
      intro c hc
      simp only [List.mem_cons, List.not_mem_nil, or_false] at hc
      rcases hc with rfl | rfl
      · exact (area_self _ _).2.1
      · exact (area_self _ _).1
  | a :: b :: c :: l, h => simp at h

theorem pick_mem {α : Type} (ps : List α) : ∀ (vs : List ℕ) (r : List α), pick ps vs = .ok r → ∀ e ∈ r, e ∈ ps := by
  intro vs
  induction vs with
  | nil =>
    intro r h
    simp only [pick, Except.ok.injEq] at h
    subst h; simp
  | cons v vs ih =>
    intro r h
    simp only [pick] at h
    cases hv : ps[v]? with
    | none => rw [hv] at h; cases h
    | some p =>
      rw [hv] at h
      simp only at h
      cases hr : pick ps vs with
      | error e => rw [hr] at h; cases h
      | ok r' =>
        rw [hr] at h
        have : (Except.ok (p :: r') : Py (List α)) = .ok r := h
        have := Except.ok.inj this
        subst this
        intro e he
        rcases List.mem_cons.mp he with rfl | he
        · exact List.mem_of_getElem? hv
        · exact ih r' hr e he

/-- Picking from a list and from its image. -/
theorem pick_map {α β : Type} (f : α → β) (ps : List α) : ∀ (idx : List ℕ) (vs : List β),
    pick (ps.map f) idx = .ok vs → ∃ es, pick ps idx = .ok es ∧ es.map f = vs := by
  intro idx
  induction idx with
  | nil =>
    intro vs h
    simp only [pick, Except.ok.injEq] at h
    exact ⟨[], rfl, by rw [← h]; rfl⟩
  | cons i idx ih =>
    intro vs h
    simp only [pick] at h ⊢
    rw [List.getElem?_map] at h
    cases hp : ps[i]? with
    | none => rw [hp] at h; cases h
    | some p =>
      rw [hp] at h
      simp only [Option.map_some] at h
      cases hr : pick (ps.map f) idx with
      | error e => rw [hr] at h; cases h
      | ok vs' =>
        rw [hr] at h
        have := Except.ok.inj (show (Except.ok (f p :: vs') : Py (List β)) = .ok vs from h)
        subst this
        obtain ⟨es, h1, h2⟩ := ih vs' hr
        refine ⟨p :: es, ?_, by rw [List.map_cons, h2]⟩
        rw [h1]; rfl

/-- Indices for given elements. -/
theorem exists_pick {α : Type} [DecidableEq α] (ps vs : List α) (h : ∀ v ∈ vs, v ∈ ps) : ∃ idx, pick ps idx = .ok vs := by
  induction vs with
  | nil => exact ⟨[], rfl⟩
  | cons v vs ih =>
    obtain ⟨idx, hi⟩ := ih (fun w hw => h w (by simp [hw]))
    obtain ⟨n, hn⟩ := List.mem_iff_getElem?.mp (h v (by simp))
    refine ⟨n :: idx, ?_⟩
    simp only [pick]
    rw [hn, hi]
    rfl

/-! ### Satisfiability of the contract -/

/-- Points other than the lexicographically smallest point `m`. -/
def Right (m a : ℚ × ℚ) : Prop := m.1 < a.1 ∨ m.1 = a.1 ∧ m.2 < a.2

theorem exists_lex_min (ps : List (ℚ × ℚ)) (h : ps ≠ []) : ∃ m ∈ ps, ∀ a ∈ ps, a = m ∨ Right m a := by
  induction ps with
  | nil => exact absurd rfl h
  | cons p ps ih =>
    by_cases hp : ps = []
    · subst hp
      exact ⟨p, by simp, by simp⟩
    · obtain ⟨m, hm, hmin⟩ := ih hp
      have tri : p = m ∨ Right m p ∨ Right p m := by
        unfold Right
        rcases lt_trichotomy m.1 p.1 with h1 | h1 | h1
        · exact Or.inr (Or.inl (Or.inl h1))
        · rcases lt_trichotomy m.2 p.2 with h2 | h2 | h2
          · exact Or.inr (Or.inl (Or.inr ⟨h1, h2⟩))
          · left; ext
            · exact h1.symm
            · exact h2.symm
          · exact Or.inr (Or.inr (Or.inr ⟨h1.symm, h2⟩))
        · exact Or.inr (Or.inr (Or.inl h1))
      rcases tri with h1 | h1 | h1
      · exact ⟨m, by simp [hm], fun a ha => by
          rcases List.mem_cons.mp ha with rfl | ha
          · exact Or.inl h1
          · exact hmin a ha⟩
      · exact ⟨m, by simp [hm], fun a ha => by
          rcases List.mem_cons.mp ha with rfl | ha
          · exact Or.inr h1
          · exact hmin a ha⟩
      · refine ⟨p, by simp, fun a ha => ?_⟩
        rcases List.mem_cons.mp ha with rfl | ha
        · exact Or.inl rfl
        · rcases hmin a ha with rfl | h2
          · exact Or.inr h1
          · right
            unfold Right at *
            rcases h1 with h1 | ⟨h1, h1'⟩ <;> rcases h2 with h2 | ⟨h2, h2'⟩
            · exact Or.inl (h1.trans h2)
            · exact Or.inl (h2 ▸ h1)
            · exact Or.inl (h1 ▸ h2)
            · exact Or.inr ⟨h1.trans h2, h1'.trans h2'⟩

theorem angle_trans (m a b c : ℚ × ℚ) (ha : Right m a) (hb : Right m b) (hc : Right m c)
    (h1 : 0 < area m a b) (h2 : 0 < area m b c) : 0 < area m a c := by
  have na : 0 ≤ a.1 - m.1 := by unfold Right at ha; rcases ha with h | ⟨h, _⟩ <;> linarith
  have nb : 0 ≤ b.1 - m.1 := by unfold Right at hb; rcases hb with h | ⟨h, _⟩ <;> linarith
  have nc : 0 ≤ c.1 - m.1 := by unfold Right at hc; rcases hc with h | ⟨h, _⟩ <;> linarith
  have pos : ∀ x y, Right m x → 0 ≤ y → ∀ z : ℚ, 0 < (x.1 - m.1) * z - (x.2 - m.2) * y → 0 < x.1 - m.1 := by
    intro x y hx hy z hz
    rcases hx with h | ⟨h, h'⟩
    · linarith
    · exfalso
      rw [← h] at hz
      have := mul_nonneg (by linarith : 0 ≤ x.2 - m.2) hy
      linarith
  have pa : 0 < a.1 - m.1 := pos a (b.1 - m.1) ha nb (b.2 - m.2) h1
  have pb : 0 < b.1 - m.1 := pos b (c.1 - m.1) hb nc (c.2 - m.2) h2
  have e : (b.1 - m.1) * area m a c = (a.1 - m.1) * area m b c + (c.1 - m.1) * area m a b := by
    unfold area; ring
  have : 0 < (b.1 - m.1) * area m a c := by
    rw [e]
    have := mul_pos pa h2
    have := mul_nonneg nc h1.le
    linarith
  exact (mul_pos_iff_of_pos_left pb).mp this

/-- Two points collinear with the lexicographically smallest one: one lies between. -/
theorem between_of_collinear (m a b : ℚ × ℚ) (ha : Right m a) (hb : Right m b) (h : area m a b = 0) :
    InConv [m, b] a ∨ InConv [m, a] b := by
  have seg : ∀ a b : ℚ × ℚ, ∀ t, 0 ≤ t → t ≤ 1 → a.1 = (1 - t) * m.1 + t * b.1 → a.2 = (1 - t) * m.2 + t * b.2 →
      InConv [m, b] a := by
    intro a b t h0 h1 e1 e2
    have := InConv.mix (ps := [m, b]) m b t (.point _ (by simp)) (.point _ (by simp)) h0 h1
    have e : a = ((1 - t) * m.1 + t * b.1, (1 - t) * m.2 + t * b.2) := by ext <;> assumption
    rw [e]; exact this
  have main : ∀ a b : ℚ × ℚ, m.1 < b.1 → m.1 ≤ a.1 → a.1 ≤ b.1 → area m a b = 0 → InConv [m, b] a := by
    intro a b hb ha hab h
    have hpos : 0 < b.1 - m.1 := by linarith
    refine seg a b ((a.1 - m.1) / (b.1 - m.1)) (div_nonneg (by linarith) hpos.le)
      ((div_le_one hpos).mpr (by linarith)) ?_ ?_
    · field_simp; ring
    · unfold area at h
      field_simp
      linarith
  have mainv : ∀ a b : ℚ × ℚ, m.1 = b.1 → m.1 = a.1 → m.2 < b.2 → m.2 ≤ a.2 → a.2 ≤ b.2 → InConv [m, b] a := by
    intro a b hb ha h1 h2 h3
    have hpos : 0 < b.2 - m.2 := by linarith
    refine seg a b ((a.2 - m.2) / (b.2 - m.2)) (div_nonneg (by linarith) hpos.le)
      ((div_le_one hpos).mpr (by linarith)) ?_ ?_
    · rw [← ha, ← hb]; ring
    · field_simp; ring
  have h' : area m b a = 0 := by rw [area_swap, h]; simp
  rcases ha with ha | ⟨ha, ha'⟩ <;> rcases hb with hb | ⟨hb, hb'⟩
  · rcases le_total a.1 b.1 with hab | hab
    · exact Or.inl (main a b hb ha.le hab h)
    · exact Or.inr (main b a ha hb.le hab h')
  · -- b vertical, a not: impossible
    exfalso
    unfold area at h
    rw [← hb] at h
    have := mul_pos (by linarith : 0 < a.1 - m.1) (by linarith : 0 < b.2 - m.2)
    linarith
  · exfalso
    unfold area at h
    rw [← ha] at h
    have := mul_pos (by linarith : 0 < b.1 - m.1) (by linarith : 0 < a.2 - m.2)
    linarith
  · rcases le_total a.2 b.2 with hab | hab
    · exact Or.inl (mainv a b hb ha hb' ha'.le hab)
    · exact Or.inr (mainv b a ha hb ha' hb'.le hab)

/-- Sorting by a relation that is transitive and trichotomous on the elements. -/
theorem exists_sorted {α : Type} (r : α → α → Prop) (l : List α) (hn : l.Nodup)
    (htri : ∀ a ∈ l, ∀ b ∈ l, a ≠ b → r a b ∨ r b a)
    (htrans : ∀ a ∈ l, ∀ b ∈ l, ∀ c ∈ l, r a b → r b c → r a c) :
    ∃ l' : List α, l'.Perm l ∧ l'.Pairwise r := by
  classical
  induction l with
  | nil => exact ⟨[], List.Perm.refl _, List.Pairwise.nil⟩
  | cons a l ih =>
    rw [List.nodup_cons] at hn
    obtain ⟨l', h1, h2⟩ := ih hn.2 (fun x hx y hy => htri x (by simp [hx]) y (by simp [hy]))
      (fun x hx y hy z hz => htrans x (by simp [hx]) y (by simp [hy]) z (by simp [hz]))
    refine ⟨l'.filter (fun x => decide (r x a)) ++ a :: l'.filter (fun x => !decide (r x a)), ?_, ?_⟩
    · refine List.perm_middle.trans (List.Perm.cons a ?_)
      exact (List.filter_append_perm _ l').trans h1
    · rw [List.pairwise_append, List.pairwise_cons]
      have hA : ∀ x ∈ l'.filter (fun x => decide (r x a)), x ∈ l ∧ r x a := by
        intro x hx
        rw [List.mem_filter] at hx
        exact ⟨h1.mem_iff.mp hx.1, by simpa using hx.2⟩
      have hB : ∀ y ∈ l'.filter (fun x => !decide (r x a)), y ∈ l ∧ r a y := by
        intro y hy
        rw [List.mem_filter] at hy
        have hy' := h1.mem_iff.mp hy.1
        refine ⟨hy', ?_⟩
        have hne : y ≠ a := by rintro rfl; exact hn.1 hy'
        rcases htri y (by simp [hy']) a (by simp) hne with h | h
        · have := hy.2; simp [h] at this
        · exact h
      refine ⟨h2.sublist List.filter_sublist, ⟨fun y hy => (hB y hy).2, h2.sublist List.filter_sublist⟩, ?_⟩
      intro x hx y hy
      obtain ⟨hx1, hx2⟩ := hA x hx
      rcases List.mem_cons.mp hy with rfl | hy
      · exact hx2
      · obtain ⟨hy1, hy2⟩ := hB y hy
        exact htrans x (by simp [hx1]) a (by simp) y (by simp [hy1]) hx2 hy2

/-- Every finite set of points has a convex hull. -/
theorem exists_hull (ps : List (ℚ × ℚ)) (hne : ps ≠ []) : ∃ vs : List (ℚ × ℚ), (∀ v ∈ vs, v ∈ ps) ∧ Ccw vs ∧ ∀ p ∈ ps, InConv vs p := by
  classical
  let P : ℕ → Prop := fun n => ∃ vs : List (ℚ × ℚ), vs.length = n ∧ vs.Nodup ∧ (∀ v ∈ vs, v ∈ ps) ∧ ∀ p ∈ ps, InConv vs p
  have hex : ∃ n, P n := ⟨_, ps.dedup, rfl, List.nodup_dedup ps, fun v hv => List.mem_dedup.mp hv,
    fun p hp => .point _ (List.mem_dedup.mpr hp)⟩
  obtain ⟨vs, hlen, hnd, hsub, hgen⟩ := Nat.find_spec hex
  have hmin : ∀ v ∈ vs, ∀ us : List (ℚ × ℚ), (∀ u ∈ us, u ∈ vs) → v ∉ us → ¬ InConv us v := by
    intro v hv us hus hvu hc
    have hc' : InConv (vs.filter (fun w => decide (w ≠ v))) v := by
      refine hc.mono (fun q hq => ?_)
      rw [List.mem_filter]
      exact ⟨hus q hq, by simp; rintro rfl; exact hvu hq⟩
    have hlt : (vs.filter (fun w => decide (w ≠ v))).length < Nat.find hex := by
      rw [← hlen, List.length_filter_lt_length_iff_exists]
      exact ⟨v, hv, by simp⟩
    refine Nat.find_min hex hlt ⟨_, rfl, hnd.filter _, fun w hw => hsub w (List.mem_filter.mp hw).1, ?_⟩
    intro p hp
    refine (hgen p hp).trans (fun q hq => ?_)
    by_cases hqv : q = v
    · rw [hqv]; exact hc'
    · exact .point _ (List.mem_filter.mpr ⟨hq, by simpa using hqv⟩)
  have hvne : vs ≠ [] := by
    rintro rfl
    obtain ⟨p, hp⟩ := List.exists_mem_of_ne_nil ps hne
    have : ∀ q : ℚ × ℚ, ¬ InConv [] q := by
      intro q hq
      generalize hl : ([] : List (ℚ × ℚ)) = l at hq
      induction hq with
      | point p hp => rw [← hl] at hp; simp at hp
      | mix p q t _ _ _ _ ih _ => exact ih
    exact this p (hgen p hp)
  obtain ⟨m, hm, hlex⟩ := exists_lex_min vs hvne
  let rest := vs.filter (fun w => decide (w ≠ m))
  have hrest : ∀ a ∈ rest, a ∈ vs ∧ a ≠ m ∧ Right m a := by
    intro a ha
    have := List.mem_filter.mp ha
    have hne : a ≠ m := by simpa using this.2
    exact ⟨this.1, hne, (hlex a this.1).resolve_left hne⟩
  obtain ⟨s, hs1, hs2⟩ := exists_sorted (fun a b => 0 < area m a b) rest (hnd.filter _) (by
    intro a ha b hb hab
    obtain ⟨a1, a2, a3⟩ := hrest a ha
    obtain ⟨b1, b2, b3⟩ := hrest b hb
    rcases lt_trichotomy (area m a b) 0 with h | h | h
    · right; rw [area_swap]; linarith
    · exfalso
      rcases between_of_collinear m a b a3 b3 h with h | h
      · exact hmin a a1 [m, b] (by simp [hm, b1]) (by simp [a2, hab]) h
      · exact hmin b b1 [m, a] (by simp [hm, a1]) (by simp [b2, Ne.symm hab]) h
    · exact Or.inl h) (by
    intro a ha b hb c hc h1 h2
    exact angle_trans m a b c (hrest a ha).2.2 (hrest b hb).2.2 (hrest c hc).2.2 h1 h2)
  have hmem : ∀ a ∈ s, a ∈ vs ∧ a ≠ m ∧ Right m a := fun a ha => hrest a (hs1.mem_iff.mp ha)
  have hall : ∀ v ∈ vs, v ∈ m :: s := by
    intro v hv
    by_cases h : v = m
    · simp [h]
    · exact List.mem_cons_of_mem _ (hs1.mem_iff.mpr (List.mem_filter.mpr ⟨hv, by simpa using h⟩))
  refine ⟨m :: s, ?_, ?_, ?_⟩
  · intro v hv
    rcases List.mem_cons.mp hv with rfl | hv
    · exact hsub _ hm
    · exact hsub _ (hmem v hv).1
  · intro a b c hsl
    cases hsl with
    | cons _ h =>
      have hp := hs2.sublist h
      simp only [List.pairwise_cons, List.mem_cons, List.not_mem_nil, or_false, forall_eq_or_imp, forall_eq] at hp
      have ha := hmem a (h.subset (by simp))
      have hb := hmem b (h.subset (by simp))
      have hc := hmem c (h.subset (by simp))
      obtain ⟨⟨hab, hac⟩, hbc, _⟩ := hp
      by_contra hle
      rw [not_lt] at hle
      have hne1 : b ≠ a := by rintro rfl; rw [(area_self m b).1] at hab; exact lt_irrefl _ hab
      have hne2 : b ≠ c := by rintro rfl; rw [(area_self m b).1] at hbc; exact lt_irrefl _ hbc
      refine hmin b hb.1 [m, a, c] (by simp [hm, ha.1, hc.1]) (by simp [hb.2.1, hne1, hne2]) ?_
      apply inConv_of_areas m a c b hac
      · rw [area_swap]; linarith
      · rw [area_cycle]; exact hbc.le
      · exact hab.le
    | cons_cons _ h =>
      have hp := hs2.sublist h
      simp only [List.pairwise_cons, List.mem_cons, List.not_mem_nil, or_false, forall_eq] at hp
      exact hp.1
  · intro p hp
    exact (hgen p hp).mono hall

/-- The contract of the convex hull routine is satisfiable. -/
theorem hullSpec_satisfiable : ∃ hull, HullSpec hull := by
  classical
  have h : ∀ ps : List (ℚ × ℚ), ∃ r : Py (List ℕ), (Flat ps → ∃ e, r = .error e) ∧
      (¬ Flat ps → ∃ idx vs, r = .ok idx ∧ pick ps idx = .ok vs ∧ Ccw vs ∧ ∀ p ∈ ps, InConv vs p) := by
    intro ps
    by_cases hf : Flat ps
    · exact ⟨.error .valueError, fun _ => ⟨_, rfl⟩, fun h => absurd hf h⟩
    · have hne : ps ≠ [] := by
        rintro rfl; apply hf; intro a ha; simp at ha
      obtain ⟨vs, h1, h2, h3⟩ := exists_hull ps hne
      obtain ⟨idx, hi⟩ := exists_pick ps vs h1
      exact ⟨.ok idx, fun h => absurd h hf, fun _ => ⟨idx, vs, rfl, hi, h2, h3⟩⟩
  choose f hf using h
  exact ⟨f, fun ps h => (hf ps).1 h, fun ps h => (hf ps).2 h⟩

end Hull
end Expdb
