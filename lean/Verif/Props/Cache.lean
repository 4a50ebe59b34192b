import Verif.Model.Cache
import Verif.Tactics

/-!
# Staleness of cached hulls (C28)
-/

namespace Expdb
namespace Cache

variable {H V : Type} [DecidableEq H]

/-! ### Specification: contents of the sets, without any cache -/

/-- The contents of all sets after an operation. -/
def specStep (c : List (List H)) : Op H → List (List H)
  | .new hs => c ++ [union [] hs]
  | .add i hs => match c[i]? with | none => c | some s => c.set i (union s hs)
  | .copy i => match c[i]? with | none => c | some s => c ++ [union [] s]
  | .query _ _ => c

/-- The contents of all sets after a history. -/
def contents (ops : List (Op H)) : List (List H) := ops.foldl specStep []

/-- For every set, the number of the set it was copied from, directly or not (itself if it was made by
the constructor). -/
def familyStep (f : List ℕ) : Op H → List ℕ
  | .new _ => f ++ [f.length]
  | .add _ _ => f
  | .copy i => match f[i]? with | none => f | some r => f ++ [r]
  | .query _ _ => f

/-- The families after a history. -/
def family (ops : List (Op H)) : List ℕ := ops.foldl familyStep []

/-- Within every family of copies only one set is ever queried, and only for one kind of hull. -/
def Separate (ops : List (Op H)) : Prop :=
  ∀ k i k' j, Op.query k i ∈ ops → Op.query k' j ∈ ops → ∀ r, (family ops)[i]? = some r →
    (family ops)[j]? = some r → i = j ∧ k = k'

/-! ### The counterexamples -/

/-- **C28** is false: a copy of a set shares its dictionary. After `s.query; t = copy(s); t.add(h);
t.query`, a query of `s` returns the value for `t`. -/
theorem C28_copy_counterexample (E : Engine H V) (k : Kind) (hs : List H) (h : H) (v v' : V)
    (h1 : E.fresh k (union [] hs) = .ok v) (h2 : E.fresh k (union (union [] (union [] hs)) [h]) = .ok v') (hne : v ≠ v')
    (hm : E.marks k (union [] hs) = true) :
    answer E [.new hs, .query k 0, .copy 0, .add 1 [h], .query k 1] k 0 = some (.ok v') ∧
    (contents [.new hs, .query k 0, .copy 0, .add 1 [h], .query k 1])[0]? = some (union [] hs) ∧
    E.fresh k (union [] hs) ≠ .ok v' := by
  refine ⟨?_, rfl, ?_⟩
  · simp [answer, run, step, query, h1, h2, hm]
  · rw [h1]; intro h; exact hne (Except.ok.inj h)

/-- **C28** is false even without copies: the two kinds of hulls use the same key, so that asking for the
second kind returns the hull of the first. -/
theorem C28_kinds_counterexample (E : Engine H V) (k k' : Kind) (hs : List H) (v v' : V)
    (h1 : E.fresh k (union [] hs) = .ok v) (h2 : E.fresh k' (union [] hs) = .ok v') (hne : v ≠ v')
    (hm : E.marks k (union [] hs) = true) :
    answer E [.new hs, .query k 0] k' 0 = some (.ok v) ∧
    (contents [.new hs, .query k 0])[0]? = some (union [] hs) ∧ E.fresh k' (union [] hs) ≠ .ok v := by
  refine ⟨?_, rfl, ?_⟩
  · simp [answer, run, step, query, h1, hm]
  · rw [h2]; intro h; exact hne (Except.ok.inj h).symm

/-- An instance of the hypotheses of both counterexamples. -/
example : ∃ E : Engine ℕ (List ℕ), ∃ hs h v v' v'', E.fresh .mu (union [] hs) = .ok v ∧
    E.fresh .mu (union (union [] (union [] hs)) [h]) = .ok v' ∧ E.fresh .ep (union [] hs) = .ok v'' ∧
    v ≠ v' ∧ v ≠ v'' ∧ E.marks .mu (union [] hs) = true :=
  ⟨⟨fun k hs => .ok (if k = .mu then hs else []), fun _ _ => true⟩, [1, 2], 3, [1, 2], [1, 2, 3], [],
    by decide, by decide, by decide, by decide, by decide, rfl⟩

/-! ### Without sharing -/

theorem contents_run (E : Engine H V) (ops : List (Op H)) : (run E ops).sets.map SetObj.hyps = contents ops := by
  induction ops using List.reverseRecOn with
  | nil => rfl
  | append_singleton ops op ih =>
    have e1 : run E (ops ++ [op]) = step E (run E ops) op := by simp [run]
    have e2 : contents (ops ++ [op]) = specStep (contents ops) op := by simp [contents]
    rw [e1, e2, ← ih]
    generalize run E ops = w
    cases op with
    | new hs => simp [step, specStep]
    | add i hs =>
      simp only [step, specStep, List.getElem?_map]
      cases w.sets[i]? with
      | none => rfl
      | some s => simp [List.map_set]
    | copy i =>
      simp only [step, specStep, List.getElem?_map]
      cases w.sets[i]? with
      | none => rfl
      | some s => simp
    | query k i =>
      simp only [step, specStep]
      cases hs : w.sets[i]? with
      | none => rfl
      | some s =>
        simp only [query]
        split
        · rfl
        · split
          · rfl
          · simp only [List.map_set]
            apply List.ext_getElem?
            intro n
            rw [List.getElem?_set]
            split
            · rename_i hn
              subst hn
              simp only [List.getElem?_map, hs, Option.map_some]
              split
              · rfl
              · rename_i h
                simp only [List.length_map, not_lt] at h
                rw [List.getElem?_eq_none h] at hs
                cases hs
            · rfl

/-- The invariant of a separate history. -/
structure Inv (E : Engine H V) (ops : List (Op H)) (w : World H V) (f : List ℕ) : Prop where
  len : w.sets.length = f.length
  bound : ∀ (i : ℕ) (s : SetObj H), w.sets[i]? = some s → s.dict < w.dicts.length
  fam : ∀ (i r : ℕ), f[i]? = some r → r < f.length
  same : ∀ (i j : ℕ) (s t : SetObj H), w.sets[i]? = some s → w.sets[j]? = some t → (s.dict = t.dict ↔ f[i]? = f[j]?)
  asked : ∀ (i : ℕ) (s : SetObj H), w.sets[i]? = some s → s.valid = true →
    ∃ (k : Kind) (j : ℕ) (t : SetObj H), Op.query k j ∈ ops ∧ w.sets[j]? = some t ∧ t.dict = s.dict
  fresh : ∀ (k : Kind) (i : ℕ) (s : SetObj H) (v : V), Op.query k i ∈ ops → w.sets[i]? = some s → s.valid = true →
    w.dicts[s.dict]? = some (some v) → E.fresh k s.hyps = .ok v

omit [DecidableEq H] in
theorem family_prefix (f : List ℕ) (op : Op H) : f <+: familyStep f op := by
  cases op with
  | new hs => exact List.prefix_append _ _
  | add i hs => exact List.prefix_refl _
  | copy i =>
    simp only [familyStep]
    cases f[i]? with
    | none => exact List.prefix_refl _
    | some r => exact List.prefix_append _ _
  | query k i => exact List.prefix_refl _

omit [DecidableEq H] in
theorem separate_of_append (ops : List (Op H)) (op : Op H) (h : Separate (ops ++ [op])) : Separate ops := by
  intro k i k' j h1 h2 r h3 h4
  have hp : family ops <+: family (ops ++ [op]) := by
    have : family (ops ++ [op]) = familyStep (family ops) op := by simp [family]
    rw [this]; exact family_prefix _ _
  have get : ∀ n : ℕ, (family ops)[n]? = some r → (family (ops ++ [op]))[n]? = some r := by
    intro n hn
    obtain ⟨t, ht⟩ := hp
    rw [← ht]
    have hlt : n < (family ops).length := by
      by_contra hc
      rw [List.getElem?_eq_none (by omega)] at hn; cases hn
    rw [List.getElem?_append_left hlt]; exact hn
  exact h k i k' j (List.mem_append_left _ h1) (List.mem_append_left _ h2) r (get i h3) (get j h4)

theorem getElem?_lt {α : Type} {l : List α} {i : ℕ} {x : α} (h : l[i]? = some x) : i < l.length := by
  by_contra hc
  rw [List.getElem?_eq_none (by omega)] at h; cases h

theorem getElem?_snoc {α : Type} {l : List α} {i : ℕ} {x y : α} (h : (l ++ [y])[i]? = some x) :
    l[i]? = some x ∨ (i = l.length ∧ x = y) := by
  rcases lt_trichotomy i l.length with c | c | c
  · rw [List.getElem?_append_left c] at h; exact Or.inl h
  · subst c
    rw [List.getElem?_append_right (le_refl _)] at h
    simp at h
    exact Or.inr ⟨rfl, h.symm⟩
  · rw [List.getElem?_eq_none (by simp; omega)] at h; cases h

theorem getElem?_set_some {α : Type} {l : List α} {i j : ℕ} {x y : α} (h : (l.set i y)[j]? = some x) :
    (i = j ∧ x = y ∧ j < l.length) ∨ (i ≠ j ∧ l[j]? = some x) := by
  rw [List.getElem?_set] at h
  split at h
  · rename_i hij
    split at h
    · left; cases h; subst hij; exact ⟨rfl, rfl, by assumption⟩
    · cases h
  · right; exact ⟨by assumption, h⟩

theorem inv_run (E : Engine H V) (ops : List (Op H)) (hsep : Separate ops) : Inv E ops (run E ops) (family ops) := by
  induction ops using List.reverseRecOn with
  | nil => constructor <;> simp [run, family]
  | append_singleton ops op ih =>
    have hI := ih (separate_of_append ops op hsep)
    have e1 : run E (ops ++ [op]) = step E (run E ops) op := by simp [run]
    have e2 : family (ops ++ [op]) = familyStep (family ops) op := by simp [family]
    unfold Separate at hsep
    rw [e1]
    rw [e2] at hsep ⊢
    generalize run E ops = w at hI ⊢
    generalize family ops = f at hI hsep ⊢
    have hq : ∀ k i, Op.query k i ∈ ops → Op.query k i ∈ ops ++ [op] := fun k i h => List.mem_append_left _ h
    have hmem : ∀ k i, (∀ k i, op ≠ Op.query k i) → Op.query k i ∈ ops ++ [op] → Op.query k i ∈ ops := by
      intro k i hne h
      rcases List.mem_append.mp h with h | h
      · exact h
      · exact absurd (List.mem_singleton.mp h).symm (hne k i)
    cases op with
    | new hs =>
      have hm := fun k i => hmem k i (by intro _ _ h; cases h)
      refine ⟨by simp [step, familyStep, hI.len], ?_, ?_, ?_, ?_, ?_⟩
      · intro i s h
        simp only [step, List.length_append, List.length_singleton] at h ⊢
        rcases getElem?_snoc h with h | ⟨_, h⟩
        · have := hI.bound i s h; omega
        · rw [h]; simp
      · intro i r h
        simp only [familyStep, List.length_append, List.length_singleton] at h ⊢
        rcases getElem?_snoc h with h | ⟨_, h⟩
        · have := hI.fam i r h; omega
        · omega
      · intro i j s t h1 h2
        simp only [step, familyStep] at h1 h2 ⊢
        rcases getElem?_snoc h1 with h1 | ⟨a1, b1⟩
        · have l1 : i < f.length := by rw [← hI.len]; exact getElem?_lt h1
          rcases getElem?_snoc h2 with h2 | ⟨a2, b2⟩
          · have l2 : j < f.length := by rw [← hI.len]; exact getElem?_lt h2
            rw [List.getElem?_append_left l1, List.getElem?_append_left l2]
            exact hI.same i j s t h1 h2
          · rw [a2, hI.len, List.getElem?_append_left l1, List.getElem?_append_right (le_refl _), b2]
            have := hI.bound i s h1
            constructor
            · intro h; simp only at h; omega
            · intro h
              have h' : f[i]? = some f.length := by rw [h]; simp
              exact absurd (hI.fam i _ h') (lt_irrefl _)
        · rcases getElem?_snoc h2 with h2 | ⟨a2, b2⟩
          · have l2 : j < f.length := by rw [← hI.len]; exact getElem?_lt h2
            rw [a1, hI.len, List.getElem?_append_left l2, List.getElem?_append_right (le_refl _), b1]
            have := hI.bound j t h2
            constructor
            · intro h; simp only at h; omega
            · intro h
              have h' : f[j]? = some f.length := by rw [← h]; simp
              exact absurd (hI.fam j _ h') (lt_irrefl _)
          · rw [a1, a2, b1, b2]
            simp
      · intro i s h hv
        simp only [step] at h ⊢
        rcases getElem?_snoc h with h | ⟨_, h⟩
        · obtain ⟨k, j, t, g1, g2, g3⟩ := hI.asked i s h hv
          exact ⟨k, j, t, hq k j g1, by rw [List.getElem?_append_left (getElem?_lt g2)]; exact g2, g3⟩
        · rw [h] at hv; simp at hv
      · intro k i s v hk h hv hd
        simp only [step] at h hd
        rcases getElem?_snoc h with h | ⟨_, h⟩
        · rw [List.getElem?_append_left (hI.bound i s h)] at hd
          exact hI.fresh k i s v (hm k i hk) h hv hd
        · rw [h] at hv; simp at hv
    | add n hs =>
      have hm := fun k i => hmem k i (by intro _ _ h; cases h)
      simp only [step, familyStep]
      cases hn : w.sets[n]? with
      | none =>
        exact ⟨hI.len, hI.bound, hI.fam, hI.same,
          fun i s h hv => by
            obtain ⟨k, j, t, g1, g2⟩ := hI.asked i s h hv
            exact ⟨k, j, t, hq k j g1, g2⟩,
          fun k i s v hk => hI.fresh k i s v (hm k i hk)⟩
      | some s0 =>
        simp only
        -- every set has the dictionary it had before
        have hback : ∀ (i : ℕ) (s : SetObj H), (w.sets.set n ⟨union s0.hyps hs, s0.dict, false⟩)[i]? = some s →
            ∃ s', w.sets[i]? = some s' ∧ s'.dict = s.dict ∧ (s.valid = true → s' = s) := by
          intro i s h
          rcases getElem?_set_some h with ⟨a, b, _⟩ | ⟨_, b⟩
          · subst a; subst b; exact ⟨s0, hn, rfl, by simp⟩
          · exact ⟨s, b, rfl, fun _ => rfl⟩
        have hfwd : ∀ (i : ℕ) (s : SetObj H), w.sets[i]? = some s →
            ∃ s', (w.sets.set n ⟨union s0.hyps hs, s0.dict, false⟩)[i]? = some s' ∧ s'.dict = s.dict := by
          intro i s h
          rw [List.getElem?_set]
          by_cases hin : n = i
          · subst hin
            rw [hn] at h; cases h
            rw [if_pos rfl, if_pos (getElem?_lt hn)]
            exact ⟨_, rfl, rfl⟩
          · exact ⟨s, by rw [if_neg hin]; exact h, rfl⟩
        refine ⟨by simpa using hI.len, ?_, hI.fam, ?_, ?_, ?_⟩
        · intro i s h
          obtain ⟨s', h1, h2, _⟩ := hback i s h
          rw [← h2]; exact hI.bound i s' h1
        · intro i j s t h1 h2
          obtain ⟨s', a1, a2, _⟩ := hback i s h1
          obtain ⟨t', b1, b2, _⟩ := hback j t h2
          rw [← a2, ← b2]; exact hI.same i j s' t' a1 b1
        · intro i s h hv
          obtain ⟨s', h1, h2, h3⟩ := hback i s h
          rw [h3 hv] at h1
          obtain ⟨k, j, t, g1, g2, g3⟩ := hI.asked i s h1 hv
          obtain ⟨t', c1, c2⟩ := hfwd j t g2
          exact ⟨k, j, t', hq k j g1, c1, c2.trans g3⟩
        · intro k i s v hk h hv hd
          obtain ⟨s', h1, h2, h3⟩ := hback i s h
          rw [h3 hv] at h1
          exact hI.fresh k i s v (hm k i hk) h1 hv hd
    | copy n =>
      have hm := fun k i => hmem k i (by intro _ _ h; cases h)
      simp only [step, familyStep] at hsep ⊢
      cases hn : w.sets[n]? with
      | none =>
        have : f[n]? = none := by
          rw [List.getElem?_eq_none_iff, ← hI.len]; exact List.getElem?_eq_none_iff.mp hn
        rw [this]
        exact ⟨hI.len, hI.bound, hI.fam, hI.same,
          fun i s h hv => by
            obtain ⟨k, j, t, g1, g2⟩ := hI.asked i s h hv
            exact ⟨k, j, t, hq k j g1, g2⟩,
          fun k i s v hk => hI.fresh k i s v (hm k i hk)⟩
      | some s0 =>
        have hlt : n < f.length := by rw [← hI.len]; exact getElem?_lt hn
        obtain ⟨r0, hr0⟩ : ∃ r, f[n]? = some r := ⟨f[n], List.getElem?_eq_getElem hlt⟩
        rw [hr0] at hsep ⊢
        simp only at hsep ⊢
        -- the family and dictionary of every set, reduced to old sets
        have hget : ∀ (i : ℕ) (s : SetObj H), (w.sets ++ [⟨union [] s0.hyps, s0.dict, s0.valid⟩])[i]? = some s →
            ∃ i' s', w.sets[i']? = some s' ∧ s'.dict = s.dict ∧ s'.valid = s.valid ∧ (f ++ [r0])[i]? = f[i']? ∧
              (i ≠ f.length → i' = i ∧ s' = s) := by
          intro i s h
          rcases getElem?_snoc h with h | ⟨a, b⟩
          · have hl : i < f.length := by rw [← hI.len]; exact getElem?_lt h
            exact ⟨i, s, h, rfl, rfl, List.getElem?_append_left hl, fun _ => ⟨rfl, rfl⟩⟩
          · refine ⟨n, s0, hn, by rw [b], by rw [b], ?_, ?_⟩
            · rw [a, hI.len, hr0]; simp
            · intro hne; rw [a, hI.len] at hne; exact absurd rfl hne
        refine ⟨by simp [hI.len], ?_, ?_, ?_, ?_, ?_⟩
        · intro i s h
          obtain ⟨i', s', h1, h2, _⟩ := hget i s h
          have := hI.bound i' s' h1
          rw [h2] at this; exact this
        · intro i r h
          rw [List.length_append]
          rcases getElem?_snoc h with h | ⟨_, h⟩
          · have := hI.fam i r h; omega
          · have := hI.fam n r0 hr0; simp; omega
        · intro i j s t h1 h2
          obtain ⟨i', s', a1, a2, _, a3, _⟩ := hget i s h1
          obtain ⟨j', t', b1, b2, _, b3, _⟩ := hget j t h2
          rw [← a2, ← b2, a3, b3]; exact hI.same i' j' s' t' a1 b1
        · intro i s h hv
          obtain ⟨i', s', h1, h2, h3, _⟩ := hget i s h
          obtain ⟨k, j, t, g1, g2, g3⟩ := hI.asked i' s' h1 (h3.trans hv)
          refine ⟨k, j, t, hq k j g1, ?_, g3.trans h2⟩
          rw [List.getElem?_append_left (getElem?_lt g2)]; exact g2
        · intro k i s v hk h hv hd
          obtain ⟨i', s', h1, h2, h3, h4, h5⟩ := hget i s h
          by_cases hi : i = f.length
          · -- a set of the family has been queried already
            exfalso
            obtain ⟨k', j, t, g1, g2, g3⟩ := hI.asked i' s' h1 (h3.trans hv)
            have hj : j < f.length := by rw [← hI.len]; exact getElem?_lt g2
            have hfj := (hI.same j i' t s' g2 h1).mp g3
            obtain ⟨r, hr⟩ : ∃ r, f[j]? = some r := ⟨f[j], List.getElem?_eq_getElem hj⟩
            have := (hsep k i k' j hk (hq k' j g1) r (by rw [h4, ← hfj, hr])
              (by rw [List.getElem?_append_left hj]; exact hr)).1
            omega
          · obtain ⟨e1, e2⟩ := h5 hi
            rw [e1, e2] at h1
            exact hI.fresh k i s v (hm k i hk) h1 hv hd
    | query k0 n =>
      simp only [step, familyStep] at hsep ⊢
      have hmem' : ∀ k i, Op.query k i ∈ ops ++ [Op.query k0 n] → Op.query k i ∈ ops ∨ (k = k0 ∧ i = n) := by
        intro k i h
        rcases List.mem_append.mp h with h | h
        · exact Or.inl h
        · have := List.mem_singleton.mp h
          cases this; exact Or.inr ⟨rfl, rfl⟩
      cases hn : w.sets[n]? with
      | none =>
        refine ⟨hI.len, hI.bound, hI.fam, hI.same,
          fun i s h hv => by
            obtain ⟨k, j, t, g1, g2⟩ := hI.asked i s h hv
            exact ⟨k, j, t, hq k j g1, g2⟩,
          fun k i s v hk h => ?_⟩
        rcases hmem' k i hk with hk | ⟨_, hk⟩
        · exact hI.fresh k i s v hk h
        · rw [hk, hn] at h; cases h
      | some s0 =>
        have hlt : n < f.length := by rw [← hI.len]; exact getElem?_lt hn
        -- a queried set with the same dictionary is the same set
        have hown : ∀ k i s, Op.query k i ∈ ops → w.sets[i]? = some s → s.dict = s0.dict → i = n ∧ k = k0 := by
          intro k i s hk h hd
          have hf := (hI.same i n s s0 h hn).mp hd
          obtain ⟨r, hr⟩ : ∃ r, f[n]? = some r := ⟨f[n], List.getElem?_eq_getElem hlt⟩
          exact hsep k i k0 n (hq k i hk) (by simp) r (by rw [hf, hr]) hr
        -- nothing changes
        have hsame : (s0.valid = true → ∀ v, w.dicts[s0.dict]? = some (some v) → E.fresh k0 s0.hyps = .ok v) →
            Inv E (ops ++ [Op.query k0 n]) w f := by
          intro hfr
          refine ⟨hI.len, hI.bound, hI.fam, hI.same,
            fun i s h hv => by
              obtain ⟨k, j, t, g1, g2⟩ := hI.asked i s h hv
              exact ⟨k, j, t, hq k j g1, g2⟩,
            fun k i s v hk h hv hd => ?_⟩
          rcases hmem' k i hk with hk | ⟨hk1, hk2⟩
          · exact hI.fresh k i s v hk h hv hd
          · subst hk1; subst hk2
            rw [hn] at h; cases h
            exact hfr hv v hd
        have hvalid : s0.valid = true → ∀ v, w.dicts[s0.dict]? = some (some v) → E.fresh k0 s0.hyps = .ok v := by
          intro hv v hd
          obtain ⟨k, j, t, g1, g2, g3⟩ := hI.asked n s0 hn hv
          obtain ⟨ej, ek⟩ := hown k j t g1 g2 g3
          rw [ej, ek] at g1
          exact hI.fresh k0 n s0 v g1 hn hv hd
        unfold query
        simp only
        split
        · exact hsame hvalid
        · split
          · exact hsame hvalid
          · rename_i v hfr
            have hback : ∀ (i : ℕ) (s : SetObj H), (w.sets.set n { s0 with valid := s0.valid || E.marks k0 s0.hyps })[i]? = some s →
                ∃ s', w.sets[i]? = some s' ∧ s'.dict = s.dict ∧ s'.hyps = s.hyps ∧ (i ≠ n → s' = s) := by
              intro i s h
              rcases getElem?_set_some h with ⟨a, b, _⟩ | ⟨a, b⟩
              · subst a; subst b; exact ⟨s0, hn, rfl, rfl, fun h => absurd rfl h⟩
              · exact ⟨s, b, rfl, rfl, fun _ => rfl⟩
            have hself : (w.sets.set n { s0 with valid := s0.valid || E.marks k0 s0.hyps })[n]?
                = some { s0 with valid := s0.valid || E.marks k0 s0.hyps } := by
              rw [List.getElem?_set, if_pos rfl, if_pos (getElem?_lt hn)]
            refine ⟨by simpa using hI.len, ?_, hI.fam, ?_, ?_, ?_⟩
            · intro i s h
              obtain ⟨s', h1, h2, _⟩ := hback i s h
              rw [← h2, List.length_set]; exact hI.bound i s' h1
            · intro i j s t h1 h2
              obtain ⟨s', a1, a2, _⟩ := hback i s h1
              obtain ⟨t', b1, b2, _⟩ := hback j t h2
              rw [← a2, ← b2]; exact hI.same i j s' t' a1 b1
            · intro i s h hv
              obtain ⟨s', h1, h2, _, h4⟩ := hback i s h
              by_cases hi : i = n
              · subst hi
                rw [hn] at h1; cases h1
                exact ⟨k0, i, _, by simp, hself, h2⟩
              · rw [h4 hi] at h1
                obtain ⟨k, j, t, g1, g2, g3⟩ := hI.asked i s h1 hv
                by_cases hj : j = n
                · subst hj
                  rw [hn] at g2; cases g2
                  exact ⟨k0, j, _, by simp, hself, g3⟩
                · refine ⟨k, j, t, hq k j g1, ?_, g3⟩
                  rw [List.getElem?_set, if_neg (fun h => hj h.symm)]; exact g2
            · intro k i s v' hk h hv hd
              obtain ⟨s', h1, h2, h3, h4⟩ := hback i s h
              by_cases hi : i = n
              · subst hi
                rw [hn] at h1; cases h1
                have hk0 : k = k0 := by
                  rcases hmem' k i hk with hk | ⟨hk, _⟩
                  · exact (hown k i s0 hk hn rfl).2
                  · exact hk
                subst hk0
                rw [← h2, List.getElem?_set, if_pos rfl, if_pos (hI.bound i s0 hn)] at hd
                have : v = v' := by simpa using hd
                rw [← h3, ← this]; exact hfr
              · rw [h4 hi] at h1
                rcases hmem' k i hk with hk | ⟨_, hk⟩
                · have hne : s.dict ≠ s0.dict := fun he => hi (hown k i s hk h1 he).1
                  rw [List.getElem?_set, if_neg (fun h => hne h.symm)] at hd
                  exact hI.fresh k i s v' hk h1 hv hd
                · exact absurd hk hi

/-- **C28** (partial: only for histories in which at most one set of every family of copies is queried,
and only for one kind of hull) A query returns what a fresh computation from the present contents of the
set returns. -/
theorem C28_fresh_partial (E : Engine H V) (ops : List (Op H)) (k : Kind) (i : ℕ)
    (hsep : Separate (ops ++ [.query k i])) (c : List H) (hc : (contents ops)[i]? = some c) :
    answer E ops k i = some (E.fresh k c) := by
  have hI := inv_run E ops (separate_of_append ops _ hsep)
  rw [← contents_run E ops, List.getElem?_map, Option.map_eq_some_iff] at hc
  obtain ⟨s, hs, rfl⟩ := hc
  unfold answer
  rw [hs]
  simp only [Option.map_some, Option.some.injEq]
  unfold query
  split
  · rename_i v hv hd
    obtain ⟨k', j, t, g1, g2, g3⟩ := hI.asked i s hs hv
    have hf := (hI.same j i t s g2 hs).mp g3
    have hlt : i < (family ops).length := by rw [← hI.len]; exact getElem?_lt hs
    obtain ⟨r, hr⟩ : ∃ r, (family ops)[i]? = some r := ⟨_, List.getElem?_eq_getElem hlt⟩
    have hfam : family (ops ++ [Op.query k i]) = family ops := by simp [family, familyStep]
    obtain ⟨e1, e2⟩ := hsep k' j k i (List.mem_append_left _ g1) (by simp) r
      (by rw [hfam, hf, hr]) (by rw [hfam, hr])
    subst e1; subst e2
    have hd' : ((run E ops).dicts)[s.dict]? = some (some v) := by
      rw [Option.join_eq_some_iff] at hd; exact hd
    exact (hI.fresh k' j s v g1 hs hv hd').symm
  · split
    · rename_i e he; exact he.symm
    · rename_i v hv; exact hv.symm

/-- A separate history with a copy, additions and repeated queries. -/
example : Separate ([.new [1, 2], .query .mu 0, .add 0 [3], .new [4], .query .ep 1, .copy 0, .add 2 [5],
    .query .mu 0, .query .ep 1] ++ [.query .mu 0] : List (Op ℕ)) := by
  intro k i k' j h1 h2 r h3 h4
  simp only [List.cons_append, List.nil_append, List.mem_cons, List.not_mem_nil, or_false, reduceCtorEq, false_or,
    Op.query.injEq] at h1 h2
  have hf : family ([.new [1, 2], .query .mu 0, .add 0 [3], .new [4], .query .ep 1, .copy 0, .add 2 [5],
    .query .mu 0, .query .ep 1] ++ [.query .mu 0] : List (Op ℕ)) = [0, 1, 0] := by decide
  rw [hf] at h3 h4
  have a : (k = .mu ∧ i = 0) ∨ (k = .ep ∧ i = 1) := by tauto
  have b : (k' = .mu ∧ j = 0) ∨ (k' = .ep ∧ j = 1) := by tauto
  rcases a with ⟨rfl, rfl⟩ | ⟨rfl, rfl⟩ <;> rcases b with ⟨rfl, rfl⟩ | ⟨rfl, rfl⟩
  · exact ⟨rfl, rfl⟩
  · exact absurd (h3.trans h4.symm) (by decide)
  · exact absurd (h3.trans h4.symm) (by decide)
  · exact ⟨rfl, rfl⟩

/-! ### The contents as sets -/

/-- What each set has to contain after an operation. -/
def memberStep (c : List (Set H)) : Op H → List (Set H)
  | .new hs => c ++ [{h | h ∈ hs}]
  | .add i hs => match c[i]? with | none => c | some s => c.set i (s ∪ {h | h ∈ hs})
  | .copy i => match c[i]? with | none => c | some s => c ++ [s]
  | .query _ _ => c

/-- The list represents the set, without repetitions. -/
def Represents (l : List H) (s : Set H) : Prop := l.Nodup ∧ ∀ h, h ∈ l ↔ h ∈ s

theorem union_spec (l hs : List H) (hl : l.Nodup) : Represents (union l hs) ({h | h ∈ l} ∪ {h | h ∈ hs}) := by
  induction hs generalizing l with
  | nil => exact ⟨hl, by simp [union]⟩
  | cons a hs ih =>
    have e : union l (a :: hs) = union (if a ∈ l then l else l ++ [a]) hs := rfl
    rw [e]
    by_cases ha : a ∈ l
    · rw [if_pos ha]
      obtain ⟨h1, h2⟩ := ih l hl
      refine ⟨h1, fun h => (h2 h).trans ?_⟩
      simp only [Set.mem_union, Set.mem_setOf_eq, List.mem_cons]
      constructor
      · rintro (h | h)
        · exact Or.inl h
        · exact Or.inr (Or.inr h)
      · rintro (h | rfl | h)
        · exact Or.inl h
        · exact Or.inl ha
        · exact Or.inr h
    · rw [if_neg ha]
      obtain ⟨h1, h2⟩ := ih (l ++ [a]) (by
        rw [List.nodup_append]
        refine ⟨hl, by simp, ?_⟩
        intro x hx y hy
        obtain rfl := List.mem_singleton.mp hy
        rintro rfl
        exact ha hx)
      refine ⟨h1, fun h => (h2 h).trans ?_⟩
      simp only [Set.mem_union, Set.mem_setOf_eq, List.mem_cons, List.mem_append, List.not_mem_nil, or_false]
      tauto

theorem forall₂_get {α β : Type} {R : α → β → Prop} {l : List α} {m : List β} (h : List.Forall₂ R l m) (i : ℕ) :
    (l[i]? = none ∧ m[i]? = none) ∨ ∃ a b, l[i]? = some a ∧ m[i]? = some b ∧ R a b := by
  induction h generalizing i with
  | nil => simp
  | cons hab _ ih =>
    cases i with
    | zero => exact Or.inr ⟨_, _, rfl, rfl, hab⟩
    | succ i => simpa using ih i

theorem forall₂_set {α β : Type} {R : α → β → Prop} {l : List α} {m : List β} (h : List.Forall₂ R l m) (i : ℕ) {a : α} {b : β} (hab : R a b) :
    List.Forall₂ R (l.set i a) (m.set i b) := by
  induction h generalizing i with
  | nil => exact .nil
  | cons hc hr ih =>
    cases i with
    | zero => exact .cons hab hr
    | succ i => exact .cons hc (ih i)

/-- **C28** (contents) After every history the sets contain exactly what they were given by the constructor, by additions and by copying, and
nothing twice. -/
theorem C28_contents (E : Engine H V) (ops : List (Op H)) :
    List.Forall₂ Represents ((run E ops).sets.map SetObj.hyps) (ops.foldl memberStep []) := by
  rw [contents_run]
  induction ops using List.reverseRecOn with
  | nil => exact .nil
  | append_singleton ops op ih =>
    have e2 : contents (ops ++ [op]) = specStep (contents ops) op := by simp [contents]
    rw [e2, List.foldl_append, List.foldl_cons, List.foldl_nil]
    generalize contents ops = c at ih ⊢
    generalize ops.foldl memberStep [] = d at ih ⊢
    cases op with
    | new hs =>
      refine List.rel_append ih (.cons ?_ .nil)
      have := union_spec [] hs List.nodup_nil
      simpa using this
    | add i hs =>
      simp only [specStep, memberStep]
      rcases forall₂_get ih i with ⟨h1, h2⟩ | ⟨l, s, h1, h2, h3⟩
      · rw [h1, h2]; exact ih
      · rw [h1, h2]
        refine forall₂_set ih i ?_
        obtain ⟨a, b⟩ := union_spec l hs h3.1
        have : {h | h ∈ l} = s := Set.ext h3.2
        rw [this] at b
        exact ⟨a, b⟩
    | copy i =>
      simp only [specStep, memberStep]
      rcases forall₂_get ih i with ⟨h1, h2⟩ | ⟨l, s, h1, h2, h3⟩
      · rw [h1, h2]; exact ih
      · rw [h1, h2]
        refine List.rel_append ih (.cons ?_ .nil)
        obtain ⟨a, b⟩ := union_spec [] l List.nodup_nil
        have : {h | h ∈ l} = s := Set.ext h3.2
        rw [this] at b
        exact ⟨a, fun h => (b h).trans (by simp)⟩
    | query k i => exact ih

/-- Non-vacuity: a history with a repeated element. -/
example : ([.new [1, 2], .copy 0, .add 1 [2, 3]] : List (Op ℕ)).foldl memberStep [] = [{1, 2}, {1, 2} ∪ {2, 3}] := by
  have e : ∀ a b : ℕ, {h | h ∈ [a, b]} = ({a, b} : Set ℕ) := fun a b => by ext; simp
  simp only [List.foldl_cons, List.foldl_nil, memberStep, e, List.nil_append]
  rfl

end Cache
end Expdb
