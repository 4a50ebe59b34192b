import Verif.Lemmas.Region
import Verif.Props.PolytopeHull

/-!
# Property C24: `simplify_union_of_polys`
-/

namespace Expdb
namespace Region

variable {L : Type} [DecidableEq L]

/-- `p` is the union of the inputs with indexes `S`, and (when tracked) carries exactly the labels
of those inputs. -/
def Rep (inp : List (Piece L)) (track : Bool) (p : Piece L) (S : List Nat) : Prop :=
  (∀ x, p.mat.Contains x ↔ ∃ k ∈ S, ∃ q, inp[k]? = some q ∧ q.mat.Contains x) ∧
  (track = true → ∀ l, l ∈ p.deps ↔ ∃ k ∈ S, ∃ q, inp[k]? = some q ∧ l ∈ q.deps)

/-- Contract of the pairwise union operation on polytopes with property `G`: it does not raise,
and what it returns is exactly the union (and again has property `G`). -/
def UnionExact (G : Mat → Prop) (unionFn : List Mat → Py (Option Mat)) : Prop :=
  ∀ p q, G p → G q → ∃ o, unionFn [p, q] = .ok o ∧
    ∀ u, o = some u → G u ∧ ∀ x, u.Contains x ↔ p.Contains x ∨ q.Contains x

/-- `Rep` with another notion `M` of the points of a polytope. -/
def RepM (M : Mat → Pt → Prop) (inp : List (Piece L)) (track : Bool) (p : Piece L) (S : List Nat) : Prop :=
  (∀ x, M p.mat x ↔ ∃ k ∈ S, ∃ q, inp[k]? = some q ∧ M q.mat x) ∧
  (track = true → ∀ l, l ∈ p.deps ↔ ∃ k ∈ S, ∃ q, inp[k]? = some q ∧ l ∈ q.deps)

/-- `UnionExact` with another notion `M` of the points of a polytope. -/
def UnionExactM (M : Mat → Pt → Prop) (G : Mat → Prop) (unionFn : List Mat → Py (Option Mat)) : Prop :=
  ∀ p q, G p → G q → ∃ o, unionFn [p, q] = .ok o ∧
    ∀ u, o = some u → G u ∧ ∀ x, M u x ↔ M p x ∨ M q x

/-- Invariant of the loops. -/
structure SimpInv (M : Mat → Pt → Prop) (G : Mat → Prop) (unionFn : List Mat → Py (Option Mat)) (inp : List (Piece L))
    (track : Bool) (st : SimpState L) : Prop where
  nodup : st.index.Nodup
  lt : ∀ i ∈ st.index, i < st.polys.length
  good : ∀ p ∈ st.polys, G p.mat
  rep : ∃ S : Nat → List Nat, ((st.index.map S).flatten).Perm (List.range inp.length) ∧
    ∀ i ∈ st.index, ∃ p, st.polys[i]? = some p ∧ RepM M inp track p (S i)
  non : ∀ c ∈ st.non, ∃ p q, st.polys[c.1]? = some p ∧ st.polys[c.2]? = some q ∧
    unionFn [p.mat, q.mat] = .ok none

variable {M : Mat → Pt → Prop} {G : Mat → Prop} {unionFn : List Mat → Py (Option Mat)} {inp : List (Piece L)}
  {track : Bool}

theorem mem_union_list (a b : List L) (l : L) : l ∈ a.union b ↔ l ∈ a ∨ l ∈ b := by
  have : a.union b = a ∪ b := rfl
  rw [this, List.mem_union_iff]

theorem simpStep_spec (hu : UnionExactM M G unionFn) (st : SimpState L)
    (hinv : SimpInv M G unionFn inp track st) (c : Nat × Nat) (hc : c.1 ≠ c.2) :
    ∃ st', simpStep unionFn track st c = .ok st' ∧ SimpInv M G unionFn inp track st' ∧
      ((st'.changed = st.changed ∧ st'.index = st.index ∧ (∀ d ∈ st.non, d ∈ st'.non) ∧
          (c.1 ∈ st.index → c.2 ∈ st.index → c ∈ st'.non ∨ (c.2, c.1) ∈ st'.non)) ∨
        (st'.changed = true ∧ st'.index.length < st.index.length)) := by
  unfold simpStep
  by_cases h1 : c.1 ∉ st.index ∨ c.2 ∉ st.index
  · rw [if_pos h1]
    exact ⟨st, rfl, hinv, Or.inl ⟨rfl, rfl, fun _ h => h, fun a b => by tauto⟩⟩
  rw [if_neg h1]
  push Not at h1
  obtain ⟨hi, hj⟩ := h1
  by_cases h2 : c ∈ st.non ∨ (c.2, c.1) ∈ st.non
  · rw [if_pos h2]
    exact ⟨st, rfl, hinv, Or.inl ⟨rfl, rfl, fun _ h => h, fun _ _ => h2⟩⟩
  rw [if_neg h2]
  obtain ⟨S, hS, hrep⟩ := hinv.rep
  obtain ⟨p, hp, hpr⟩ := hrep c.1 hi
  obtain ⟨q, hq, hqr⟩ := hrep c.2 hj
  rw [hp, hq]
  simp only
  obtain ⟨o, ho, hox⟩ := hu p.mat q.mat (hinv.good p (List.mem_of_getElem? hp))
    (hinv.good q (List.mem_of_getElem? hq))
  rw [ho]
  cases o with
  | none =>
    refine ⟨{ st with non := c :: st.non }, rfl, ⟨hinv.nodup, hinv.lt, hinv.good, hinv.rep, ?_⟩,
      Or.inl ⟨rfl, rfl, fun d hd => by simp [hd], fun _ _ => by simp⟩⟩
    intro d hd
    rcases List.mem_cons.mp hd with rfl | hd
    · exact ⟨p, q, hp, hq, ho⟩
    · exact hinv.non d hd
  | some u =>
    obtain ⟨hGu, hux⟩ := hox u rfl
    set N := st.polys.length with hN
    have hje : c.2 ∈ st.index.erase c.1 := (List.mem_erase_of_ne hc.symm).mpr hj
    have hperm : st.index.Perm (c.1 :: c.2 :: (st.index.erase c.1).erase c.2) :=
      (List.perm_cons_erase hi).trans ((List.perm_cons_erase hje).cons _)
    have hsub : ∀ k ∈ (st.index.erase c.1).erase c.2, k ∈ st.index :=
      fun k hk => List.mem_of_mem_erase (List.mem_of_mem_erase hk)
    have hlenp := hperm.length_eq
    simp only [List.length_cons] at hlenp
    refine ⟨_, rfl, ⟨?_, ?_, ?_, ?_, ?_⟩, Or.inr ⟨rfl, ?_⟩⟩
    · simp only
      rw [List.nodup_append]
      refine ⟨(hinv.nodup.erase _).erase _, by simp, ?_⟩
      intro a ha b hb
      rw [List.mem_singleton] at hb
      have := hinv.lt a (hsub a ha)
      omega
    · intro k hk
      simp only [List.mem_append, List.mem_singleton, List.length_append, List.length_singleton] at hk ⊢
      rcases hk with hk | rfl
      · have := hinv.lt k (hsub k hk); omega
      · omega
    · intro r hr
      simp only [List.mem_append, List.mem_singleton] at hr
      rcases hr with hr | rfl
      · exact hinv.good r hr
      · exact hGu
    · refine ⟨fun k => if k = N then S c.1 ++ S c.2 else S k, ?_, ?_⟩
      · simp only
        rw [List.map_append, List.flatten_append]
        have e1 : ((st.index.erase c.1).erase c.2).map (fun k => if k = N then S c.1 ++ S c.2 else S k)
            = ((st.index.erase c.1).erase c.2).map S := by
          apply List.map_congr_left
          intro k hk
          have := hinv.lt k (hsub k hk)
          rw [if_neg (by omega)]
        rw [e1]
        simp only [List.map_cons, List.map_nil, if_true, List.flatten_cons, List.flatten_nil,
          List.append_nil]
        refine List.Perm.trans ?_ hS
        have e2 := (hperm.map S).flatten
        simp only [List.map_cons, List.flatten_cons] at e2
        refine List.Perm.trans ?_ e2.symm
        rw [← List.append_assoc (S c.1)]
        exact List.perm_append_comm
      · intro k hk
        simp only [List.mem_append, List.mem_singleton] at hk
        simp only
        rcases hk with hk | rfl
        · have hlt := hinv.lt k (hsub k hk)
          obtain ⟨r, hr, hrr⟩ := hrep k (hsub k hk)
          refine ⟨r, ?_, ?_⟩
          · rw [List.getElem?_append_left hlt]; exact hr
          · rw [if_neg (by omega)]; exact hrr
        · refine ⟨⟨u, mergeDeps track p.deps q.deps⟩, ?_, ?_⟩
          · rw [List.getElem?_append_right (le_refl _)]; simp [hN]
          · rw [if_pos rfl]
            refine ⟨fun x => ?_, fun ht l => ?_⟩
            · simp only [hux, hpr.1, hqr.1, List.mem_append]
              constructor
              · rintro (⟨k, a, b⟩ | ⟨k, a, b⟩)
                · exact ⟨k, Or.inl a, b⟩
                · exact ⟨k, Or.inr a, b⟩
              · rintro ⟨k, a | a, b⟩
                · exact Or.inl ⟨k, a, b⟩
                · exact Or.inr ⟨k, a, b⟩
            · simp only [mergeDeps, ht, if_true, mem_union_list, hpr.2 ht, hqr.2 ht, List.mem_append]
              constructor
              · rintro (⟨k, a, b⟩ | ⟨k, a, b⟩)
                · exact ⟨k, Or.inl a, b⟩
                · exact ⟨k, Or.inr a, b⟩
              · rintro ⟨k, a | a, b⟩
                · exact Or.inl ⟨k, a, b⟩
                · exact Or.inr ⟨k, a, b⟩
    · intro d hd
      obtain ⟨a, b, ha, hb, hab⟩ := hinv.non d hd
      refine ⟨a, b, ?_, ?_, hab⟩
      · simp only
        rw [List.getElem?_append_left (List.getElem?_eq_some_iff.mp ha).1]; exact ha
      · simp only
        rw [List.getElem?_append_left (List.getElem?_eq_some_iff.mp hb).1]; exact hb
    · simp only [List.length_append, List.length_singleton]
      omega

theorem simpFold_spec (hu : UnionExactM M G unionFn) (cs : List (Nat × Nat)) (hcs : ∀ c ∈ cs, c.1 ≠ c.2)
    (st : SimpState L) (hinv : SimpInv M G unionFn inp track st) :
    ∃ st', cs.foldlM (simpStep unionFn track) st = .ok st' ∧ SimpInv M G unionFn inp track st' ∧
      ((st'.changed = st.changed ∧ st'.index = st.index ∧ (∀ d ∈ st.non, d ∈ st'.non) ∧
          ∀ c ∈ cs, c.1 ∈ st.index → c.2 ∈ st.index → c ∈ st'.non ∨ (c.2, c.1) ∈ st'.non) ∨
        (st'.changed = true ∧ st'.index.length < st.index.length)) := by
  induction cs generalizing st with
  | nil => exact ⟨st, rfl, hinv, Or.inl ⟨rfl, rfl, fun _ h => h, by simp⟩⟩
  | cons c cs ih =>
    obtain ⟨st1, h1, h2, h3⟩ := simpStep_spec hu st hinv c (hcs c (by simp))
    obtain ⟨st2, h4, h5, h6⟩ := ih (fun d hd => hcs d (by simp [hd])) st1 h2
    refine ⟨st2, ?_, h5, ?_⟩
    · rw [List.foldlM_cons, h1]; exact h4
    rcases h3 with ⟨a1, a2, a3, a4⟩ | ⟨a1, a2⟩
    · rcases h6 with ⟨b1, b2, b3, b4⟩ | ⟨b1, b2⟩
      · left
        refine ⟨b1.trans a1, b2.trans a2, fun d hd => b3 d (a3 d hd), ?_⟩
        intro d hd e1 e2
        rcases List.mem_cons.mp hd with rfl | hd
        · rcases a4 e1 e2 with h | h
          · exact Or.inl (b3 _ h)
          · exact Or.inr (b3 _ h)
        · rw [a2] at b4
          exact b4 d hd e1 e2
      · right
        exact ⟨b1, by rw [a2] at b2; exact b2⟩
    · right
      rcases h6 with ⟨b1, b2, _, _⟩ | ⟨b1, b2⟩
      · exact ⟨b1.trans a1, by rw [b2]; exact a2⟩
      · exact ⟨b1, b2.trans a2⟩

theorem mem_combos2 (l : List Nat) (hl : l.Nodup) (c : Nat × Nat) (hc : c ∈ combos2 l) :
    c.1 ≠ c.2 := by
  induction l with
  | nil => simp [combos2] at hc
  | cons a l ih =>
    rw [List.nodup_cons] at hl
    simp only [combos2, List.mem_append, List.mem_map] at hc
    rcases hc with ⟨b, hb, rfl⟩ | hc
    · intro h; simp only at h; subst h; exact hl.1 hb
    · exact ih hl.2 hc

theorem combos2_complete (l : List Nat) (a b : Nat) (ha : a ∈ l) (hb : b ∈ l) (hne : a ≠ b) :
    (a, b) ∈ combos2 l ∨ (b, a) ∈ combos2 l := by
  induction l with
  | nil => simp at ha
  | cons c l ih =>
    simp only [combos2, List.mem_append, List.mem_map]
    rcases List.mem_cons.mp ha with rfl | ha
    · rcases List.mem_cons.mp hb with rfl | hb
      · exact absurd rfl hne
      · exact Or.inl (Or.inl ⟨b, hb, rfl⟩)
    · rcases List.mem_cons.mp hb with rfl | hb
      · exact Or.inr (Or.inl ⟨a, ‹_›, rfl⟩)
      · rcases ih ha hb with h | h
        · exact Or.inl (Or.inr h)
        · exact Or.inr (Or.inr h)

theorem simpLoop_spec (hu : UnionExactM M G unionFn) (order : List Nat → List Nat)
    (hord : ∀ l, (order l).Perm l) (k : Nat) (st : SimpState L) (hk : st.index.length ≤ k)
    (hinv : SimpInv M G unionFn inp track st) :
    ∃ st', simpLoop unionFn order track st = .ok st' ∧ SimpInv M G unionFn inp track st' ∧
      ∀ a ∈ st'.index, ∀ b ∈ st'.index, a ≠ b → (a, b) ∈ st'.non ∨ (b, a) ∈ st'.non := by
  induction k generalizing st with
  | zero =>
    have h0 : st.index = [] := List.length_eq_zero_iff.mp (by omega)
    have ho : order st.index = [] := by
      have := hord st.index; rw [h0] at this ⊢; exact this.eq_nil
    refine ⟨{ st with changed := false }, ?_, ⟨hinv.nodup, hinv.lt, hinv.good, hinv.rep, hinv.non⟩, ?_⟩
    · unfold simpLoop simpRound
      rw [ho]
      simp [combos2, pure, Except.pure]
    · intro a ha; simp only [h0, List.not_mem_nil] at ha
  | succ k ih =>
    obtain ⟨st', h1, h2, h3⟩ := simpFold_spec hu (combos2 (order st.index))
      (mem_combos2 _ ((hord st.index).nodup_iff.mpr hinv.nodup)) { st with changed := false }
      ⟨hinv.nodup, hinv.lt, hinv.good, hinv.rep, hinv.non⟩
    unfold simpLoop simpRound
    rw [h1]
    simp only
    rcases h3 with ⟨a1, a2, _, a4⟩ | ⟨a1, a2⟩
    · rw [if_neg (by rw [a1]; simp)]
      refine ⟨st', rfl, h2, ?_⟩
      intro a ha b hb hne
      simp only at a2 a4
      rw [a2] at ha hb
      rcases combos2_complete (order st.index) a b ((hord _).mem_iff.mpr ha)
        ((hord _).mem_iff.mpr hb) hne with h | h
      · exact a4 _ h ha hb
      · exact (a4 _ h hb ha).symm
    · simp only at a2
      rw [if_pos a1, dif_pos a2]
      exact ih st' (by omega) h2

theorem pick_spec (polys : List (Piece L)) (Q : Nat → Piece L → Prop) (is : List Nat)
    (h : ∀ i ∈ is, ∃ p, polys[i]? = some p ∧ Q i p) :
    ∃ out, pick polys is = .ok out ∧ List.Forall₂ (fun i p => polys[i]? = some p ∧ Q i p) is out := by
  induction is with
  | nil => exact ⟨[], rfl, .nil⟩
  | cons i is ih =>
    obtain ⟨p, h1, h2⟩ := h i (by simp)
    obtain ⟨out, h3, h4⟩ := ih (fun j hj => h j (by simp [hj]))
    refine ⟨p :: out, ?_, .cons ⟨h1, h2⟩ h4⟩
    unfold pick
    rw [h1, h3]; rfl

theorem forall₂_map_left {α β γ : Type} {R : γ → β → Prop} (f : α → γ) (l : List α) (m : List β)
    (h : List.Forall₂ (fun a b => R (f a) b) l m) : List.Forall₂ R (l.map f) m := by
  induction h with
  | nil => exact .nil
  | cons h _ ih => exact .cons h ih

theorem simplifyUnion_spec (M : Mat → Pt → Prop) (G : Mat → Prop) (unionFn : List Mat → Py (Option Mat))
    (hu : UnionExactM M G unionFn) (order : List Nat → List Nat) (hord : ∀ l, (order l).Perm l)
    (track : Bool) (inp : List (Piece L)) (hG : ∀ p ∈ inp, G p.mat) :
    ∃ out, simplifyUnion unionFn order track inp = .ok out ∧
      (∃ groups : List (List Nat), groups.flatten.Perm (List.range inp.length) ∧
        List.Forall₂ (fun S p => RepM M inp track p S) groups out) ∧
      (∀ x, (∃ p ∈ out, M p.mat x) ↔ ∃ p ∈ inp, M p.mat x) ∧
      (∀ p ∈ out, G p.mat) ∧
      out.Pairwise (fun p q => unionFn [p.mat, q.mat] = .ok none ∨
        unionFn [q.mat, p.mat] = .ok none) := by
  have hflat : ∀ l : List Nat, (l.map (fun i => [i])).flatten = l := by
    intro l
    induction l with
    | nil => rfl
    | cons a l ih => simp only [List.map_cons, List.flatten_cons, ih, List.singleton_append]
  obtain ⟨st, h1, h2, h3⟩ := simpLoop_spec (inp := inp) (track := track) hu order hord
    (List.range inp.length).length ⟨inp, List.range inp.length, [], true⟩ (le_refl _)
    ⟨List.nodup_range, by simp, hG, ⟨fun i => [i], by rw [hflat], by
      intro i hi
      simp only [List.mem_range] at hi
      refine ⟨inp[i], by simp [hi], fun x => ?_, fun _ l => ?_⟩ <;> simp [hi]⟩, by simp⟩
  obtain ⟨S, hS, hrep⟩ := h2.rep
  obtain ⟨out, h4, h5⟩ := pick_spec st.polys (fun i p => RepM M inp track p (S i)) (order st.index)
    (fun i hi => hrep i ((hord _).mem_iff.mp hi))
  have hgr : ((order st.index).map S).flatten.Perm (List.range inp.length) :=
    (((hord st.index).map S).flatten).trans hS
  have hf2 : List.Forall₂ (fun S p => RepM M inp track p S) ((order st.index).map S) out :=
    forall₂_map_left S _ _ (h5.imp (fun _ _ h => h.2))
  refine ⟨out, ?_, ⟨_, hgr, hf2⟩, ?_, ?_, ?_⟩
  · unfold simplifyUnion
    rw [h1]
    exact h4
  · intro x
    have hmem : (∃ p ∈ out, M p.mat x) ↔ ∃ k ∈ ((order st.index).map S).flatten,
        ∃ q, inp[k]? = some q ∧ M q.mat x := by
      clear hgr
      generalize (order st.index).map S = gs at hf2
      clear h4 h5
      induction hf2 with
      | nil => simp
      | @cons T p Ts ps hh _ ih =>
        simp only [List.mem_cons, List.flatten_cons, List.mem_append]
        constructor
        · rintro ⟨r, rfl | hr, hrx⟩
          · obtain ⟨k, hk, q⟩ := (hh.1 x).mp hrx
            exact ⟨k, Or.inl hk, q⟩
          · obtain ⟨k, hk, q⟩ := ih.mp ⟨r, hr, hrx⟩
            exact ⟨k, Or.inr hk, q⟩
        · rintro ⟨k, hk | hk, q⟩
          · exact ⟨p, Or.inl rfl, (hh.1 x).mpr ⟨k, hk, q⟩⟩
          · obtain ⟨r, hr, hrx⟩ := ih.mpr ⟨k, hk, q⟩
            exact ⟨r, Or.inr hr, hrx⟩
    rw [hmem]
    constructor
    · rintro ⟨k, _, q, hq, hqx⟩; exact ⟨q, List.mem_of_getElem? hq, hqx⟩
    · rintro ⟨q, hq, hqx⟩
      obtain ⟨k, hk⟩ := List.mem_iff_getElem?.mp hq
      refine ⟨k, hgr.mem_iff.mpr ?_, q, hk, hqx⟩
      rw [List.mem_range]; exact (List.getElem?_eq_some_iff.mp hk).1
  · intro p hp
    obtain ⟨i, _, hi⟩ : ∃ i ∈ order st.index, st.polys[i]? = some p := by
      clear hf2 h4 hgr
      generalize order st.index = is at h5
      induction h5 with
      | nil => simp at hp
      | cons hh _ ih =>
        rcases List.mem_cons.mp hp with rfl | hp
        · exact ⟨_, by simp, hh.1⟩
        · obtain ⟨i, hi, hh'⟩ := ih hp; exact ⟨i, by simp [hi], hh'⟩
    exact h2.good p (List.mem_of_getElem? hi)
  · have hnd : (order st.index).Nodup := (hord st.index).nodup_iff.mpr h2.nodup
    have hsub : ∀ i ∈ order st.index, i ∈ st.index := fun i hi => (hord _).mem_iff.mp hi
    clear hf2 h4 hgr
    generalize order st.index = is at h5 hnd hsub
    induction h5 with
    | nil => exact List.Pairwise.nil
    | @cons i p is ps hh hrest ih =>
      rw [List.nodup_cons] at hnd
      rw [List.pairwise_cons]
      refine ⟨?_, ih hnd.2 (fun j hj => hsub j (by simp [hj]))⟩
      intro q hq
      obtain ⟨j, hj, hjq⟩ : ∃ j ∈ is, st.polys[j]? = some q := by
        clear ih hnd hsub
        induction hrest with
        | nil => simp at hq
        | cons hh _ ih =>
          rcases List.mem_cons.mp hq with rfl | hq
          · exact ⟨_, by simp, hh.1⟩
          · obtain ⟨i, hi, hh'⟩ := ih hq; exact ⟨i, by simp [hi], hh'⟩
      have hne : i ≠ j := by rintro rfl; exact hnd.1 hj
      rcases h3 i (hsub i (by simp)) j (hsub j (by simp [hj])) hne with h | h
      · obtain ⟨a, b, ha, hb, hab⟩ := h2.non _ h
        simp only at ha hb
        rw [hh.1] at ha; rw [hjq] at hb
        cases ha; cases hb
        exact Or.inl hab
      · obtain ⟨a, b, ha, hb, hab⟩ := h2.non _ h
        simp only at ha hb
        rw [hh.1] at hb; rw [hjq] at ha
        cases ha; cases hb
        exact Or.inr hab

/-- **C24** For every list of polytopes, every exact pairwise union operation and every iteration
order of sets, `simplify_union_of_polys` terminates without raising (`simpLoop` never returns the
marker `diverged`); the inputs are partitioned into groups, one for each output, such that each
output is exactly the union of its group and (when tracked) carries exactly the labels of its
group; and no two outputs can be merged by the union operation any more. -/
theorem C24_simplifyUnion (G : Mat → Prop) (unionFn : List Mat → Py (Option Mat))
    (hu : UnionExact G unionFn) (order : List Nat → List Nat) (hord : ∀ l, (order l).Perm l)
    (track : Bool) (inp : List (Piece L)) (hG : ∀ p ∈ inp, G p.mat) :
    ∃ out, simplifyUnion unionFn order track inp = .ok out ∧
      (∃ groups : List (List Nat), groups.flatten.Perm (List.range inp.length) ∧
        List.Forall₂ (fun S p => Rep inp track p S) groups out) ∧
      (∀ x, (∃ p ∈ out, p.mat.Contains x) ↔ ∃ p ∈ inp, p.mat.Contains x) ∧
      (∀ p ∈ out, G p.mat) ∧
      out.Pairwise (fun p q => unionFn [p.mat, q.mat] = .ok none ∨
        unionFn [q.mat, p.mat] = .ok none) :=
  simplifyUnion_spec Mat.Contains G unionFn hu order hord track inp hG

/-- Union of two intervals in the form of `Mat.ivl` (used for non-vacuity). -/
def ivlUnion : List Mat → Py (Option Mat)
  | [⟨2, [⟨false, na, [1]⟩, ⟨false, b, [-1]⟩]⟩, ⟨2, [⟨false, nc, [1]⟩, ⟨false, d, [-1]⟩]⟩] =>
    .ok (if -na ≤ d ∧ -nc ≤ b then some (Mat.ivl (min (-na) (-nc)) (max b d)) else none)
  | _ => .ok none

/-- Non-vacuity of C24: an exact union operation on intervals that merges `[0,1]` and `[1,2]` but
not `[0,1]` and `[3,4]`. -/
example : UnionExact (fun m => ∃ a b, a ≤ b ∧ m = Mat.ivl a b) ivlUnion ∧
    ivlUnion [Mat.ivl 0 1, Mat.ivl 1 2] = .ok (some (Mat.ivl 0 2)) ∧
    ivlUnion [Mat.ivl 0 1, Mat.ivl 3 4] = .ok none := by
  refine ⟨?_, by decide +kernel, by decide +kernel⟩
  rintro p q ⟨a, b, hab, rfl⟩ ⟨c, d, hcd, rfl⟩
  refine ⟨_, rfl, ?_⟩
  intro u hu
  simp only [neg_neg] at hu
  split at hu
  · rename_i h
    cases hu
    refine ⟨⟨_, _, (min_le_left a c).trans (hab.trans (le_max_left b d)), rfl⟩, fun x => ?_⟩
    rw [Mat.ivl_contains, Mat.ivl_contains, Mat.ivl_contains]
    constructor
    · rintro ⟨t, rfl, h1, h2⟩
      rw [min_le_iff] at h1
      rw [le_max_iff] at h2
      by_cases h3 : a ≤ t ∧ t ≤ b
      · exact Or.inl ⟨t, rfl, h3⟩
      · refine Or.inr ⟨t, rfl, ?_⟩
        by_contra h4
        rcases h1 with h1 | h1
        · have h5 : b < t := by by_contra h; exact h3 ⟨h1, not_lt.mp h⟩
          have h6 : t ≤ d := by rcases h2 with h2 | h2 <;> linarith
          have h7 : t < c := by by_contra h; exact h4 ⟨not_lt.mp h, h6⟩
          linarith [h.2]
        · have h5 : d < t := by by_contra h; exact h4 ⟨h1, not_lt.mp h⟩
          have h6 : t ≤ b := by rcases h2 with h2 | h2 <;> linarith
          have h7 : t < a := by by_contra h; exact h3 ⟨not_lt.mp h, h6⟩
          linarith [h.1]
    · rintro (⟨t, rfl, h1, h2⟩ | ⟨t, rfl, h1, h2⟩)
      · exact ⟨t, rfl, (min_le_left _ _).trans h1, h2.trans (le_max_left _ _)⟩
      · exact ⟨t, rfl, (min_le_right _ _).trans h1, h2.trans (le_max_right _ _)⟩
  · cases hu

end Region
end Expdb
