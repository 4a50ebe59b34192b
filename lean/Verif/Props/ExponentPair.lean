import Verif.Model.ExponentPair
import Verif.Lemmas.Hull
import Verif.Tactics
import Mathlib.Algebra.Order.Ring.Abs
import Mathlib.Algebra.Order.Field.Power
import Mathlib.Data.List.Nodup

/-!
# Properties C30, C31, C42, C43: exponent pairs, their transforms and families
-/

namespace Expdb
namespace EP

open Hull (pick pick_mem)

/-! ### Specification -/

/-- The region of all possible exponent pairs. -/
def InRegion (q : ℚ × ℚ) : Prop := 0 ≤ q.1 ∧ q.1 ≤ 1 / 2 ∧ 1 / 2 ≤ q.2 ∧ q.2 ≤ 1

/-! ### C30 -/

theorem pyDiv_ok (a b : ℚ) (h : b ≠ 0) : pyDiv a b = .ok (a / b) := by
  unfold pyDiv; rw [if_neg h]

theorem transA_ok (k l : ℚ) (h : 0 ≤ k) :
    transA k l = .ok (k / (2 * k + 2), 1 / 2 + l / (2 * k + 2)) := by
  unfold transA
  rw [pyDiv_ok _ _ (by linarith), pyDiv_ok _ _ (by linarith)]
  rfl

theorem transC_ok (k l : ℚ) (h : 0 ≤ k) :
    transC k l = .ok (k / (12 * (1 + 4 * k)), (11 * (1 + 4 * k) + l) / (12 * (1 + 4 * k))) := by
  unfold transC
  rw [pyDiv_ok _ _ (by linarith), pyDiv_ok _ _ (by linarith)]
  rfl

/-- **C30** (A) The A transform succeeds on the region and stays in it. -/
theorem C30_A (k l : ℚ) (h : InRegion (k, l)) : ∃ q, transA k l = .ok q ∧ InRegion q := by
  obtain ⟨h1, h2, h3, h4⟩ := h
  simp only at h1 h2 h3 h4
  have hd : 0 < 2 * k + 2 := by linarith
  refine ⟨_, transA_ok k l h1, ?_, ?_, ?_, ?_⟩ <;> simp only
  · positivity
  · rw [div_le_iff₀ hd]; linarith
  · have : 0 ≤ l / (2 * k + 2) := by apply div_nonneg <;> linarith
    linarith
  · have : l / (2 * k + 2) ≤ 1 / 2 := by rw [div_le_iff₀ hd]; linarith
    linarith

/-- **C30** (B) The B transform succeeds and stays in the region. -/
theorem C30_B (k l : ℚ) (h : InRegion (k, l)) : ∃ q, transB k l = .ok q ∧ InRegion q := by
  obtain ⟨h1, h2, h3, h4⟩ := h
  simp only at h1 h2 h3 h4
  exact ⟨_, rfl, by simp only; linarith, by simp only; linarith, by simp only; linarith, by simp only; linarith⟩

/-- **C30** (C) The C transform succeeds on the region and stays in it. -/
theorem C30_C (k l : ℚ) (h : InRegion (k, l)) : ∃ q, transC k l = .ok q ∧ InRegion q := by
  obtain ⟨h1, h2, h3, h4⟩ := h
  simp only at h1 h2 h3 h4
  have hd : 0 < 12 * (1 + 4 * k) := by linarith
  refine ⟨_, transC_ok k l h1, ?_, ?_, ?_, ?_⟩ <;> simp only
  · positivity
  · rw [div_le_iff₀ hd]; linarith
  · rw [le_div_iff₀ hd]; linarith
  · rw [div_le_iff₀ hd]; linarith

/-- **C30** (involution) Applying B twice gives back the pair, for every pair. -/
theorem C30_B_involution (k l : ℚ) :
    ∃ q, transB k l = .ok q ∧ transB q.1 q.2 = .ok (k, l) := by
  refine ⟨_, rfl, ?_⟩
  unfold transB
  simp only [Except.ok.injEq, Prod.mk.injEq]
  constructor <;> ring

/-- C30 on a concrete pair: the A transform of (1/6, 2/3) is (1/14, 11/14). -/
example : InRegion (1 / 6, 2 / 3) ∧ transA (1 / 6) (2 / 3) = .ok (1 / 14, 11 / 14) ∧
    transB (1 / 14) (11 / 14) = .ok (2 / 7, 4 / 7) ∧ transC (1 / 6) (2 / 3) = .ok (1 / 120, 19 / 20) := by
  unfold InRegion transA transB transC pyDiv
  refine ⟨by norm_num, ?_, ?_, ?_⟩
  all_goals decide +kernel

/-! ### C43 -/

/-- The classical pair. -/
def classicalPair (k : ℕ) : ℚ × ℚ := (1 / (2 ^ k - 2), 1 - (k - 1) / (2 ^ k - 2))

theorem two_pow_gt (k : ℕ) (h : 2 ≤ k) : (2 : ℚ) < 2 ^ k := by
  calc (2 : ℚ) < 2 ^ 2 := by norm_num
    _ ≤ 2 ^ k := pow_le_pow_right₀ (by norm_num) h

theorem iterA_key (n : ℕ) : ∀ (j : ℕ) (p : Ep), p.key = classicalPair (j + 2) →
    ∃ p', iterA trA n p = .ok p' ∧ p'.key = classicalPair (j + 2 + n) := by
  induction n with
  | zero => intro j p hp; exact ⟨p, rfl, hp⟩
  | succ n ih =>
    intro j p hp
    have hk : p.k = 1 / (2 ^ (j + 2) - 2) := congrArg Prod.fst hp
    have hl : p.l = 1 - (((j + 2 : ℕ) : ℚ) - 1) / (2 ^ (j + 2) - 2) := congrArg Prod.snd hp
    have h2 := two_pow_gt (j + 2) (by omega)
    have hpos : (0 : ℚ) < 2 ^ (j + 2) - 2 := by linarith
    have h0 : 0 ≤ p.k := by rw [hk]; positivity
    have ha : trA.apply p = .ok (.derived 0 (p.k / (2 * p.k + 2)) (1 / 2 + p.l / (2 * p.k + 2)) p) := by
      unfold Tr.apply
      have : trA.f p.k p.l = transA p.k p.l := rfl
      rw [this, transA_ok _ _ h0]
      rfl
    have hkey : (Ep.derived 0 (p.k / (2 * p.k + 2)) (1 / 2 + p.l / (2 * p.k + 2)) p).key
        = classicalPair (j + 1 + 2) := by
      change (p.k / (2 * p.k + 2), 1 / 2 + p.l / (2 * p.k + 2)) = _
      unfold classicalPair
      have e : (2 : ℚ) ^ (j + 1 + 2) = 2 * 2 ^ (j + 2) := by
        rw [show j + 1 + 2 = (j + 2) + 1 by omega, pow_succ]; ring
      rw [e]
      have hx : (2 : ℚ) * 2 ^ (j + 2) - 2 ≠ 0 := by linarith
      have hd : 2 * p.k + 2 = (2 * 2 ^ (j + 2) - 2) / (2 ^ (j + 2) - 2) := by
        rw [hk]; field_simp; ring
      rw [hd, hk, hl]
      generalize (2 : ℚ) ^ (j + 2) = X at *
      have hX : X - 2 ≠ 0 := by linarith
      have hX1 : X - 1 ≠ 0 := by linarith
      push_cast
      rw [Prod.mk.injEq]
      constructor
      · field_simp
      · field_simp
        ring
    obtain ⟨p', h1, h2⟩ := ih (j + 1) _ hkey
    refine ⟨p', ?_, ?_⟩
    · simp only [iterA]
      rw [ha]; exact h1
    · rw [h2]; congr 1; omega

/-- **C43** For `k ≥ 2` the pair returned by `van_der_corput_pair(k)` is
`(1/(2^k-2), 1-(k-1)/(2^k-2))`; smaller `k` are rejected. -/
theorem C43_van_der_corput_pair (k : ℤ) :
    (k < 2 → vanDerCorputPair k = .error .valueError) ∧
    (2 ≤ k → ∃ p, vanDerCorputPair k = .ok p ∧
      p.k = 1 / (2 ^ k - 2) ∧ p.l = 1 - (k - 1) / (2 ^ k - 2)) := by
  constructor
  · intro h
    unfold vanDerCorputPair
    rw [if_pos h]
  · intro h
    have hk : ((2 + (k - 2).toNat : ℕ) : ℤ) = k := by omega
    have hq : ((2 + (k - 2).toNat : ℕ) : ℚ) = (k : ℚ) := by exact_mod_cast congrArg (Int.cast : ℤ → ℚ) hk
    have hpow : (2 : ℚ) ^ (2 + (k - 2).toNat) = 2 ^ k := by
      rw [← zpow_natCast, hk]
    have h0 : (Ep.derived 1 (1 - 1 / 2) (0 + 1 / 2) trivialPair).key = classicalPair (0 + 2) := by
      unfold Ep.key Ep.k Ep.l classicalPair; norm_num
    obtain ⟨p, h1, h2⟩ := iterA_key (k - 2).toNat 0 _ h0
    refine ⟨p, ?_, ?_, ?_⟩
    · unfold vanDerCorputPair
      rw [if_neg (by omega)]
      exact h1
    · have := congrArg Prod.fst h2
      unfold Ep.key classicalPair at this
      simp only [Nat.zero_add] at this
      rw [this, hpow]
    · have := congrArg Prod.snd h2
      unfold Ep.key classicalPair at this
      simp only [Nat.zero_add] at this
      rw [this, hpow, hq]

/-- **C43** (derivation) The hypothesis returned records its derivation: B applied to the trivial pair,
then A applied `k - 2` times. -/
theorem C43_derivation (n : ℕ) : ∀ p p', iterA trA n p = .ok p' →
    ∃ chain : List Ep, chain.length = n + 1 ∧ chain.head? = some p ∧ chain.getLast? = some p' ∧
      chain.IsChain (fun a b => ∃ k l, b = .derived 0 k l a ∧ transA a.k a.l = .ok (k, l)) := by
  induction n with
  | zero =>
    intro p p' h
    simp only [iterA, Except.ok.injEq] at h
    subst h
    exact ⟨[p], rfl, rfl, rfl, by simp⟩
  | succ n ih =>
    intro p p' h
    simp only [iterA] at h
    cases ha : trA.apply p with
    | error e => rw [ha] at h; cases h
    | ok q =>
      rw [ha] at h
      obtain ⟨c, h1, h2, h3, h4⟩ := ih q p' h
      have hq : ∃ k l, q = .derived 0 k l p ∧ transA p.k p.l = .ok (k, l) := by
        unfold Tr.apply at ha
        cases hf : trA.f p.k p.l with
        | error e => rw [hf] at ha; cases ha
        | ok r =>
          rw [hf] at ha
          have e : Ep.derived 0 r.1 r.2 p = q := by
            have : (Except.ok (Ep.derived 0 r.1 r.2 p) : Py Ep) = .ok q := ha
            exact Except.ok.inj this
          exact ⟨r.1, r.2, e.symm, hf⟩
      cases c with
      | nil => simp at h1
      | cons c0 c =>
        simp only [List.head?_cons, Option.some.injEq] at h2
        subst h2
        refine ⟨p :: c0 :: c, by simp at h1 ⊢; exact h1, rfl, ?_, ?_⟩
        · rw [List.getLast?_cons_cons]; exact h3
        · exact List.IsChain.cons_cons hq h4

/-- C43 on concrete values: k = 2, 3, 4. -/
example : (vanDerCorputPair 2).map Ep.key = .ok (1 / 2, 1 / 2) ∧
    (vanDerCorputPair 3).map Ep.key = .ok (1 / 6, 2 / 3) ∧
    (vanDerCorputPair 4).map Ep.key = .ok (1 / 14, 11 / 14) := by decide +kernel

/-! ### C42 -/

theorem pow_linear (m : ℕ) (h : 1 ≤ m) : (m : ℚ) + 1 ≤ 2 ^ m := by
  induction m with
  | zero => omega
  | succ n ih =>
    rcases Nat.eq_zero_or_pos n with rfl | hn
    · norm_num
    · have := ih hn
      rw [pow_succ]; push_cast
      have : (0 : ℚ) ≤ n := Nat.cast_nonneg n
      linarith

/-- **C42** (Huxley) For every `m ≥ 1` no denominator vanishes and the pair is in the region. -/
theorem C42_huxley (m : ℕ) (h : 1 ≤ m) : ∃ q, huxleyPair m = .ok q ∧ InRegion q := by
  have hp := pow_linear m h
  have hm : (1 : ℚ) ≤ m := by exact_mod_cast h
  have hd : (0 : ℚ) < 1424 * 2 ^ m - 338 := by linarith
  unfold huxleyPair
  rw [pyDiv_ok _ _ hd.ne']
  refine ⟨_, rfl, ?_, ?_, ?_, ?_⟩ <;> simp only
  · positivity
  · rw [div_le_iff₀ hd]; linarith
  · have : 169 / (1424 * 2 ^ m - 338) * ((m : ℚ) + 1577 / 712) ≤ 1 / 2 := by
      rw [div_mul_eq_mul_div, div_le_iff₀ hd]; linarith
    linarith
  · have : 0 ≤ 169 / (1424 * 2 ^ m - 338) * ((m : ℚ) + 1577 / 712) := by positivity
    linarith

/-- **C42** (Heath-Brown) For every `m ≥ 3` no denominator vanishes and the pair is in the region. -/
theorem C42_heath_brown (m : ℕ) (h : 3 ≤ m) : ∃ q, heathBrownPair m = .ok q ∧ InRegion q := by
  have hm : (3 : ℚ) ≤ m := by exact_mod_cast h
  unfold heathBrownPair
  generalize (m : ℚ) = x at *
  obtain ⟨y, rfl⟩ : ∃ y, x = y + 3 := ⟨x - 3, by ring⟩
  have hy : 0 ≤ y := by linarith
  have h1 : (0 : ℚ) < (y + 3 - 1) * (y + 3 - 1) * (y + 3 + 2) := by
    have : (y + 3 - 1) * (y + 3 - 1) * (y + 3 + 2) = (y + 2) * (y + 2) * (y + 5) := by ring
    rw [this]; positivity
  have h2 : (0 : ℚ) < (y + 3) * (y + 3 - 1) * (y + 3 + 2) := by
    have : (y + 3) * (y + 3 - 1) * (y + 3 + 2) = (y + 3) * (y + 2) * (y + 5) := by ring
    rw [this]; positivity
  simp only
  rw [pyDiv_ok _ _ h1.ne', pyDiv_ok _ _ h2.ne']
  refine ⟨_, rfl, ?_, ?_, ?_, ?_⟩ <;> simp only
  · positivity
  · rw [div_le_iff₀ h1]
    have : (y + 3 - 1) * (y + 3 - 1) * (y + 3 + 2) = y ^ 3 + 9 * y ^ 2 + 24 * y + 20 := by ring
    rw [this]
    have := pow_nonneg hy 3
    have := pow_nonneg hy 2
    linarith
  · have : (3 * (y + 3) - 2) / ((y + 3) * (y + 3 - 1) * (y + 3 + 2)) ≤ 1 / 2 := by
      rw [div_le_iff₀ h2]
      have e : (y + 3) * (y + 3 - 1) * (y + 3 + 2) = y ^ 3 + 10 * y ^ 2 + 31 * y + 30 := by ring
      rw [e]
      have := pow_nonneg hy 3
      have := pow_nonneg hy 2
      linarith
    linarith
  · have : 0 ≤ (3 * (y + 3) - 2) / ((y + 3) * (y + 3 - 1) * (y + 3 + 2)) := by
      apply div_nonneg _ h2.le; linarith
    linarith

/-- **C42** (van der Corput) For every `k ≥ 2` the van der Corput pair is in the region. -/
theorem C42_van_der_corput (k : ℤ) (h : 2 ≤ k) :
    ∃ p, vanDerCorputPair k = .ok p ∧ InRegion (p.k, p.l) := by
  have h0 : InRegion (Ep.derived 1 (1 - 1 / 2) (0 + 1 / 2) trivialPair).key := by
    unfold InRegion Ep.key Ep.k Ep.l; norm_num
  have key : ∀ n (p : Ep), InRegion p.key → ∃ p', iterA trA n p = .ok p' ∧ InRegion p'.key := by
    intro n
    induction n with
    | zero => intro p hp; exact ⟨p, rfl, hp⟩
    | succ n ih =>
      intro p hp
      obtain ⟨q, hq, hr⟩ := C30_A p.k p.l hp
      obtain ⟨p', h1, h2⟩ := ih (.derived 0 q.1 q.2 p) hr
      refine ⟨p', ?_, h2⟩
      have ha : trA.apply p = .ok (.derived 0 q.1 q.2 p) := by
        unfold Tr.apply
        have : trA.f p.k p.l = transA p.k p.l := rfl
        rw [this, hq]; rfl
      simp only [iterA]
      rw [ha]; exact h1
  obtain ⟨p, h1, h2⟩ := key (k - 2).toNat _ h0
  refine ⟨p, ?_, h2⟩
  unfold vanDerCorputPair
  rw [if_neg (by omega)]
  exact h1

/-- C42 on concrete values. -/
example : huxleyPair 1 = .ok (169 / 2510, 1 - 169 / 2510 * (1 + 1577 / 712)) ∧
    heathBrownPair 3 = .ok (1 / 10, 23 / 30) := by decide +kernel

/-! ### C31 -/

/-- `e` is an input pair, or was obtained from a derivable pair by a transform of the set and records
that transform and that pair as its dependencies. -/
inductive Derivable (pairs : List Ep) (ts : List Tr) : Ep → Prop
  | input (e : Ep) (h : e ∈ pairs) : Derivable pairs ts e
  | step (t : Tr) (ht : t ∈ ts) (p : Ep) (hp : Derivable pairs ts p) (k l : ℚ)
      (hf : t.f p.k p.l = .ok (k, l)) : Derivable pairs ts (.derived t.id k l p)

/-- The pair of numbers `q` is reachable from the input pairs by `n` transforms. -/
inductive Reach (pairs : List Ep) (ts : List Tr) : ℕ → ℚ × ℚ → Prop
  | input (e : Ep) (h : e ∈ pairs) : Reach pairs ts 0 (e.k, e.l)
  | step (n : ℕ) (q r : ℚ × ℚ) (hq : Reach pairs ts n q) (t : Tr) (ht : t ∈ ts)
      (hf : t.f q.1 q.2 = .ok r) : Reach pairs ts (n + 1) r

/-- No two values have the same key. -/
def KeysNodup (d : List Ep) : Prop := (d.map Ep.key).Nodup

theorem mem_dictSet (d : List Ep) (p e : Ep) (h : e ∈ dictSet d p) : e ∈ d ∨ e = p := by
  induction d with
  | nil => simp only [dictSet, List.mem_singleton] at h; exact Or.inr h
  | cons q d ih =>
    unfold dictSet at h
    split at h
    · rcases List.mem_cons.mp h with h | h
      · exact Or.inr h
      · exact Or.inl (by simp [h])
    · rcases List.mem_cons.mp h with h | h
      · exact Or.inl (by simp [h])
      · rcases ih h with h | h
        · exact Or.inl (by simp [h])
        · exact Or.inr h

theorem key_mem_dictSet (d : List Ep) (p : Ep) (key : ℚ × ℚ) :
    key ∈ (dictSet d p).map Ep.key ↔ key ∈ d.map Ep.key ∨ key = p.key := by
  induction d with
  | nil => simp [dictSet]
  | cons q d ih =>
    unfold dictSet
    split
    · rename_i h
      simp only [List.map_cons, List.mem_cons]
      rw [h]; tauto
    · simp only [List.map_cons, List.mem_cons]
      rw [ih]; tauto

theorem keysNodup_dictSet (d : List Ep) (p : Ep) (h : KeysNodup d) : KeysNodup (dictSet d p) := by
  unfold KeysNodup at *
  induction d with
  | nil => simp [dictSet]
  | cons q d ih =>
    rw [List.map_cons, List.nodup_cons] at h
    unfold dictSet
    split
    · rename_i hk
      rw [List.map_cons, List.nodup_cons, ← hk]; exact h
    · rename_i hk
      rw [List.map_cons, List.nodup_cons]
      refine ⟨?_, ih h.2⟩
      rw [key_mem_dictSet]
      rintro (h' | h')
      · exact h.1 h'
      · exact hk h'

theorem dictOf_spec (ps : List Ep) : (∀ e ∈ dictOf ps, e ∈ ps) ∧ KeysNodup (dictOf ps) ∧
    ∀ key, key ∈ (dictOf ps).map Ep.key ↔ key ∈ ps.map Ep.key := by
  have gen : ∀ (ps d : List Ep), KeysNodup d →
      (∀ e ∈ ps.foldl dictSet d, e ∈ d ∨ e ∈ ps) ∧ KeysNodup (ps.foldl dictSet d) ∧
      ∀ key, key ∈ (ps.foldl dictSet d).map Ep.key ↔ key ∈ d.map Ep.key ∨ key ∈ ps.map Ep.key := by
    intro ps
    induction ps with
    | nil => intro d hd; exact ⟨by simp, hd, by simp⟩
    | cons p ps ih =>
      intro d hd
      obtain ⟨h1, h2, h3⟩ := ih (dictSet d p) (keysNodup_dictSet d p hd)
      simp only [List.foldl_cons]
      refine ⟨fun e he => ?_, h2, fun key => ?_⟩
      · rcases h1 e he with h | h
        · rcases mem_dictSet d p e h with h | h
          · exact Or.inl h
          · exact Or.inr (by simp [h])
        · exact Or.inr (by simp [h])
      · rw [h3, key_mem_dictSet, List.map_cons, List.mem_cons]; tauto
  obtain ⟨h1, h2, h3⟩ := gen ps [] (by simp [KeysNodup])
  exact ⟨fun e he => (h1 e he).resolve_left (by simp), h2, fun key => by
    unfold dictOf; rw [h3]; simp⟩

theorem hasKey_iff (d : List Ep) (key : ℚ × ℚ) : hasKey d key = true ↔ key ∈ d.map Ep.key := by
  unfold hasKey
  rw [List.any_eq_true, List.mem_map]
  simp

theorem apply_ok (t : Tr) (p tp : Ep) (h : t.apply p = .ok tp) :
    ∃ k l, t.f p.k p.l = .ok (k, l) ∧ tp = .derived t.id k l p := by
  unfold Tr.apply at h
  cases hf : t.f p.k p.l with
  | error e => rw [hf] at h; cases h
  | ok r =>
    rw [hf] at h
    have : (Except.ok (Ep.derived t.id r.1 r.2 p) : Py Ep) = .ok tp := h
    exact ⟨r.1, r.2, rfl, (Except.ok.inj this).symm⟩

theorem applyAll_spec (P : Ep → Prop) (t : Tr)
    (hP : ∀ p k l, P p → t.f p.k p.l = .ok (k, l) → P (.derived t.id k l p)) :
    ∀ (todo d d' : List Ep), (∀ e ∈ todo, P e) → (∀ e ∈ d, P e) → KeysNodup d →
      applyAll t todo d = .ok d' →
      (∀ e ∈ d', P e) ∧ KeysNodup d' ∧ (∀ key, key ∈ d.map Ep.key → key ∈ d'.map Ep.key) ∧
      (∀ p ∈ todo, ∀ r, t.f p.k p.l = .ok r → r ∈ d'.map Ep.key) := by
  intro todo
  induction todo with
  | nil =>
    intro d d' _ h2 h3 h
    simp only [applyAll, Except.ok.injEq] at h
    subst h
    exact ⟨h2, h3, fun _ h => h, by simp⟩
  | cons p todo ih =>
    intro d d' h1 h2 h3 h
    simp only [applyAll] at h
    cases ha : t.apply p with
    | error e => rw [ha] at h; cases h
    | ok tp =>
      rw [ha] at h
      obtain ⟨k, l, hf, rfl⟩ := apply_ok t p tp ha
      have hPt : P (.derived t.id k l p) := hP p k l (h1 p (by simp)) hf
      change applyAll t todo _ = .ok d' at h
      obtain ⟨a1, a2, a3, a4⟩ := ih _ d' (fun e he => h1 e (by simp [he])) (by
        intro e he
        split at he
        · exact h2 e he
        · rcases mem_dictSet _ _ _ he with he | rfl
          · exact h2 e he
          · exact hPt) (by
        split
        · exact h3
        · exact keysNodup_dictSet _ _ h3) h
      refine ⟨a1, a2, fun key hk => a3 key ?_, ?_⟩
      · split
        · exact hk
        · rw [key_mem_dictSet]; exact Or.inl hk
      · intro p' hp' r hr
        rcases List.mem_cons.mp hp' with rfl | hp'
        · rw [hf] at hr
          cases hr
          apply a3
          split
          · rename_i hk
            exact (hasKey_iff _ _).mp hk
          · rw [key_mem_dictSet]; exact Or.inr rfl
        · exact a4 p' hp' r hr

theorem applyTransforms_spec (P : Ep → Prop) : ∀ (ts : List Tr),
    (∀ t ∈ ts, ∀ p k l, P p → t.f p.k p.l = .ok (k, l) → P (.derived t.id k l p)) →
    ∀ d d' : List Ep, (∀ e ∈ d, P e) → KeysNodup d → applyTransforms ts d = .ok d' →
      (∀ e ∈ d', P e) ∧ KeysNodup d' ∧ (∀ key, key ∈ d.map Ep.key → key ∈ d'.map Ep.key) ∧
      (∀ t ∈ ts, ∀ q ∈ d.map Ep.key, ∀ r, t.f q.1 q.2 = .ok r → r ∈ d'.map Ep.key) := by
  intro ts
  induction ts with
  | nil =>
    intro _ d d' h1 h2 h
    simp only [applyTransforms, Except.ok.injEq] at h
    subst h
    exact ⟨h1, h2, fun _ h => h, by simp⟩
  | cons t ts ih =>
    intro hP d d' h1 h2 h
    simp only [applyTransforms] at h
    cases ha : applyAll t d d with
    | error e => rw [ha] at h; cases h
    | ok d1 =>
      rw [ha] at h
      obtain ⟨a1, a2, a3, a4⟩ := applyAll_spec P t (hP t (by simp)) d d d1 h1 h1 h2 ha
      obtain ⟨b1, b2, b3, b4⟩ := ih (fun t' ht' => hP t' (by simp [ht'])) d1 d' a1 a2 h
      refine ⟨b1, b2, fun key hk => b3 key (a3 key hk), ?_⟩
      intro t' ht' q hq r hr
      rcases List.mem_cons.mp ht' with rfl | ht'
      · rw [List.mem_map] at hq
        obtain ⟨p, hp, rfl⟩ := hq
        exact b3 r (a4 p hp r hr)
      · exact b4 t' ht' q (a3 q hq) r hr

theorem iterate_spec (P : Ep → Prop) (hull : List (ℚ × ℚ) → Py (List ℕ)) (prune : Bool) (ts : List Tr)
    (hP : ∀ t ∈ ts, ∀ p k l, P p → t.f p.k p.l = .ok (k, l) → P (.derived t.id k l p))
    (d d' : List Ep) (h1 : ∀ e ∈ d, P e) (h2 : KeysNodup d) (h : iterate hull prune ts d = .ok d') :
    (∀ e ∈ d', P e) ∧ KeysNodup d' ∧ (prune = false →
      (∀ key, key ∈ d.map Ep.key → key ∈ d'.map Ep.key) ∧
      (∀ t ∈ ts, ∀ q ∈ d.map Ep.key, ∀ r, t.f q.1 q.2 = .ok r → r ∈ d'.map Ep.key)) := by
  unfold iterate at h
  cases ha : applyTransforms ts d with
  | error e => rw [ha] at h; cases h
  | ok d1 =>
    rw [ha] at h
    obtain ⟨a1, a2, a3, a4⟩ := applyTransforms_spec P ts hP d d1 h1 h2 ha
    cases prune with
    | false =>
      have : (Except.ok d1 : Py (List Ep)) = .ok d' := h
      have := Except.ok.inj this
      subst this
      exact ⟨a1, a2, fun _ => ⟨a3, a4⟩⟩
    | true =>
      simp only [bind, Except.bind, if_true] at h
      split at h
      · have := Except.ok.inj h
        subst this
        exact ⟨a1, a2, fun h => by cases h⟩
      · cases hh : hull (d1.map Ep.key) with
        | error e => rw [hh] at h; cases h
        | ok idx =>
          rw [hh] at h
          simp only at h
          cases hp : pick d1 idx with
          | error e => rw [hp] at h; cases h
          | ok v =>
            rw [hp] at h
            have := Except.ok.inj h
            subst this
            obtain ⟨c1, c2, c3⟩ := dictOf_spec v
            exact ⟨fun e he => a1 e (pick_mem d1 _ v hp e (c1 e he)), c2, fun h => by cases h⟩

theorem iterateN_spec (P : Ep → Prop) (hull : List (ℚ × ℚ) → Py (List ℕ)) (prune : Bool) (ts : List Tr)
    (hP : ∀ t ∈ ts, ∀ p k l, P p → t.f p.k p.l = .ok (k, l) → P (.derived t.id k l p)) (n : ℕ) :
    ∀ d d' : List Ep, (∀ e ∈ d, P e) → KeysNodup d → iterateN hull prune ts n d = .ok d' →
    (∀ e ∈ d', P e) ∧ KeysNodup d' := by
  induction n with
  | zero =>
    intro d d' h1 h2 h
    simp only [iterateN, Except.ok.injEq] at h
    subst h
    exact ⟨h1, h2⟩
  | succ n ih =>
    intro d d' h1 h2 h
    simp only [iterateN] at h
    cases ha : iterate hull prune ts d with
    | error e => rw [ha] at h; cases h
    | ok d1 =>
      rw [ha] at h
      obtain ⟨a1, a2, _⟩ := iterate_spec P hull prune ts hP d d1 h1 h2 ha
      exact ih d1 d' a1 a2 h

/-- **C31** (soundness) Whatever the convex hull routine returns, every pair returned by
`compute_exp_pairs` is an input pair or obtained from input pairs by finitely many transforms of the
set, with its recorded dependencies forming such a derivation; and no pair is returned twice. -/
theorem C31_sound (hull : List (ℚ × ℚ) → Py (List ℕ)) (pairs : List Ep) (ts : List Tr) (depth : ℕ)
    (prune : Bool) (r : List Ep) (h : computeExpPairs hull pairs ts depth prune = .ok r) :
    (∀ e ∈ r, Derivable pairs ts e) ∧ (r.map (fun e => (e.k, e.l))).Nodup := by
  obtain ⟨a1, a2, _⟩ := dictOf_spec pairs
  exact iterateN_spec (Derivable pairs ts) hull prune ts
    (fun t ht p k l hp hf => Derivable.step t ht p hp k l hf) depth (dictOf pairs) r
    (fun e he => Derivable.input e (a1 e he)) a2 h

/-- **C31** (completeness) Without pruning, every pair reachable from the input pairs by at most
`search_depth` transforms of the set is returned. -/
theorem C31_complete (hull : List (ℚ × ℚ) → Py (List ℕ)) (pairs : List Ep) (ts : List Tr) (depth : ℕ)
    (r : List Ep) (h : computeExpPairs hull pairs ts depth false = .ok r) (n : ℕ) (hn : n ≤ depth)
    (q : ℚ × ℚ) (hq : Reach pairs ts n q) : ∃ e ∈ r, (e.k, e.l) = q := by
  obtain ⟨_, a2, a3⟩ := dictOf_spec pairs
  have key : ∀ m (d d' : List Ep), KeysNodup d → iterateN hull false ts m d = .ok d' →
      ∀ j, (∀ i ≤ j, ∀ q, Reach pairs ts i q → q ∈ d.map Ep.key) →
      (∀ i ≤ j + m, ∀ q, Reach pairs ts i q → q ∈ d'.map Ep.key) := by
    intro m
    induction m with
    | zero =>
      intro d d' _ h j hj
      simp only [iterateN, Except.ok.injEq] at h
      subst h
      exact hj
    | succ m ih =>
      intro d d' hnd h j hj
      simp only [iterateN] at h
      cases ha : iterate hull false ts d with
      | error e => rw [ha] at h; cases h
      | ok d1 =>
        rw [ha] at h
        obtain ⟨_, b2, b3⟩ := iterate_spec (fun _ => True) hull false ts (by simp) d d1 (by simp) hnd ha
        obtain ⟨b3, b4⟩ := b3 rfl
        have := ih d1 d' b2 h (j + 1) (by
          intro i hi q hq
          cases hq with
          | input e he => exact b3 _ (hj 0 (by omega) _ (Reach.input e he))
          | step i' q' _ hq' t ht hf => exact b4 t ht q' (hj i' (by omega) q' hq') q hf)
        intro i hi
        exact this i (by omega)
  have := key depth (dictOf pairs) r a2 h 0 (by
    intro i hi q hq
    have : i = 0 := by omega
    subst this
    cases hq with
    | input e he => rw [a3]; exact List.mem_map.mpr ⟨e, he, rfl⟩) n (by omega) q hq
  rw [List.mem_map] at this
  exact this

theorem applyAll_total (P : Ep → Prop) (t : Tr)
    (hP : ∀ p, P p → ∃ q, t.f p.k p.l = .ok q ∧ P (.derived t.id q.1 q.2 p)) :
    ∀ (todo d : List Ep), (∀ e ∈ todo, P e) → (∀ e ∈ d, P e) →
      ∃ d', applyAll t todo d = .ok d' ∧ ∀ e ∈ d', P e := by
  intro todo
  induction todo with
  | nil => intro d _ h2; exact ⟨d, rfl, h2⟩
  | cons p todo ih =>
    intro d h1 h2
    obtain ⟨q, hq, hPq⟩ := hP p (h1 p (by simp))
    have ha : t.apply p = .ok (.derived t.id q.1 q.2 p) := by
      unfold Tr.apply; rw [hq]; rfl
    simp only [applyAll]
    rw [ha]
    refine ih _ (fun e he => h1 e (by simp [he])) ?_
    intro e he
    split at he
    · exact h2 e he
    · rcases mem_dictSet _ _ _ he with he | rfl
      · exact h2 e he
      · exact hPq

/-- **C31** (no exception) If all input pairs are in the region and the transforms are A, B and C, then
`compute_exp_pairs` without pruning raises nothing, for every search depth. -/
theorem C31_total (hull : List (ℚ × ℚ) → Py (List ℕ)) (pairs : List Ep) (depth : ℕ)
    (hin : ∀ e ∈ pairs, InRegion (e.k, e.l)) :
    ∃ r, computeExpPairs hull pairs [trA, trB, trC] depth false = .ok r := by
  have h1 : ∀ t ∈ [trA, trB, trC], ∀ p : Ep, InRegion (p.k, p.l) →
      ∃ q, t.f p.k p.l = .ok q ∧ InRegion ((Ep.derived t.id q.1 q.2 p).k, (Ep.derived t.id q.1 q.2 p).l) := by
    intro t ht p hp
    simp only [List.mem_cons, List.not_mem_nil, or_false] at ht
    rcases ht with rfl | rfl | rfl
    · exact C30_A p.k p.l hp
    · exact C30_B p.k p.l hp
    · exact C30_C p.k p.l hp
  have h2 : ∀ ts : List Tr, (∀ t ∈ ts, t ∈ [trA, trB, trC]) → ∀ d : List Ep, (∀ e ∈ d, InRegion (e.k, e.l)) →
      ∃ d', applyTransforms ts d = .ok d' ∧ ∀ e ∈ d', InRegion (e.k, e.l) := by
    intro ts
    induction ts with
    | nil => intro _ d hd; exact ⟨d, rfl, hd⟩
    | cons t ts ih =>
      intro ht d hd
      obtain ⟨d1, a1, a2⟩ := applyAll_total (fun e => InRegion (e.k, e.l)) t (h1 t (ht t (by simp))) d d hd hd
      simp only [applyTransforms]
      rw [a1]
      exact ih (fun t' ht' => ht t' (by simp [ht'])) d1 a2
  have h3 : ∀ n (d : List Ep), (∀ e ∈ d, InRegion (e.k, e.l)) →
      ∃ d', iterateN hull false [trA, trB, trC] n d = .ok d' := by
    intro n
    induction n with
    | zero => intro d _; exact ⟨d, rfl⟩
    | succ n ih =>
      intro d hd
      obtain ⟨d1, a1, a2⟩ := h2 _ (fun t ht => ht) d hd
      simp only [iterateN]
      have : iterate hull false [trA, trB, trC] d = .ok d1 := by
        unfold iterate; rw [a1]; rfl
      rw [this]
      exact ih d1 a2
  exact h3 depth _ (fun e he => hin e ((dictOf_spec pairs).1 e he))

/-- **C31** with C30: if all input pairs are in the region and the transforms are A, B and C, then all
pairs returned are in the region. -/
theorem C31_region (hull : List (ℚ × ℚ) → Py (List ℕ)) (pairs : List Ep) (depth : ℕ) (prune : Bool)
    (hin : ∀ e ∈ pairs, InRegion (e.k, e.l)) (r : List Ep)
    (h : computeExpPairs hull pairs [trA, trB, trC] depth prune = .ok r) :
    ∀ e ∈ r, InRegion (e.k, e.l) := by
  obtain ⟨a1, a2, _⟩ := dictOf_spec pairs
  refine (iterateN_spec (fun e => InRegion (e.k, e.l)) hull prune [trA, trB, trC] ?_ depth (dictOf pairs) r
    (fun e he => hin e (a1 e he)) a2 h).1
  intro t ht p k l hp hf
  simp only [List.mem_cons, List.not_mem_nil, or_false] at ht
  rcases ht with rfl | rfl | rfl
  · obtain ⟨q, h1, h2⟩ := C30_A p.k p.l hp
    rw [show trA.f p.k p.l = transA p.k p.l from rfl, h1] at hf
    cases hf; exact h2
  · obtain ⟨q, h1, h2⟩ := C30_B p.k p.l hp
    rw [show trB.f p.k p.l = transB p.k p.l from rfl, h1] at hf
    cases hf; exact h2
  · obtain ⟨q, h1, h2⟩ := C30_C p.k p.l hp
    rw [show trC.f p.k p.l = transC p.k p.l from rfl, h1] at hf
    cases hf; exact h2

/-- The trivial pair lies in the region, so both apply. -/
example (hull : List (ℚ × ℚ) → Py (List ℕ)) : ∃ r, computeExpPairs hull [trivialPair] [trA, trB, trC] 3 false = .ok r ∧
    ∀ e ∈ r, InRegion (e.k, e.l) := by
  have h : ∀ e ∈ [trivialPair], InRegion (e.k, e.l) := by
    intro e he
    rw [List.mem_singleton.mp he]
    unfold InRegion trivialPair
    simp only [Ep.k, Ep.l]
    norm_num
  obtain ⟨r, h1⟩ := C31_total hull [trivialPair] 3 h
  exact ⟨r, h1, C31_region hull _ 3 false h r h1⟩

/-- C31 on a concrete set: the trivial pair and the transforms A and B, depth 2 without pruning; and
with a pruning that keeps the first two values. -/
example : ((computeExpPairs (fun _ => .ok []) [trivialPair] [trA, trB] 2 false).map (List.map Ep.key)
      = .ok [(0, 1), (1 / 2, 1 / 2), (1 / 6, 2 / 3)]) ∧
    ((computeExpPairs (fun _ => .ok [0, 2]) [trivialPair] [trA, trB] 2 true).map (List.map Ep.key)
      = .ok [(0, 1), (1 / 6, 2 / 3)]) ∧
    Reach [trivialPair] [trA, trB] 2 (1 / 6, 2 / 3) := by
  refine ⟨by decide +kernel, by decide +kernel, ?_⟩
  refine Reach.step 1 (1 / 2, 1 / 2) _ (Reach.step 0 (0, 1) _ (Reach.input trivialPair (by simp)) trB (by simp) ?_) trA
    (by simp) ?_
  · decide +kernel
  · decide +kernel

end EP
end Expdb
