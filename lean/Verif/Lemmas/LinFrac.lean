import Verif.Model.Formula
import Verif.Lemmas.Text
import Verif.Tactics

/-!
# Functions `a / (b x + c)`: reading them off a formula and comparing them on an interval
-/

namespace Expdb
namespace Formula
open Printing (Str)

/-- The function `a / (b x + c)`. -/
structure LF where
  a : ℚ
  b : ℚ
  c : ℚ
  deriving DecidableEq

/-- Its value. -/
noncomputable def LF.val (f : LF) (t : ℝ) : ℝ := f.a / (f.b * t + f.c)

/-- The formula as `b x + c`, if it is visibly of this form. -/
def lin : Fml → Option (ℚ × ℚ)
  | .num q => some (0, q)
  | .x => some (1, 0)
  | .add a b => match lin a, lin b with
    | some p, some q => some (p.1 + q.1, p.2 + q.2)
    | _, _ => none
  | .sub a b => match lin a, lin b with
    | some p, some q => some (p.1 - q.1, p.2 - q.2)
    | _, _ => none
  | .mul a b => match lin a, lin b with
    | some p, some q => if p.1 = 0 then some (p.2 * q.1, p.2 * q.2) else if q.1 = 0 then some (p.1 * q.2, p.2 * q.2) else none
    | _, _ => none
  | .div a b => match lin a, lin b with
    | some p, some q => if q.1 = 0 ∧ q.2 ≠ 0 then some (p.1 / q.2, p.2 / q.2) else none
    | _, _ => none
  | .neg a => match lin a with
    | some p => some (-p.1, -p.2)
    | none => none
  | .pow _ _ => none

theorem lin_sound (f : Fml) (p : ℚ × ℚ) (h : lin f = some p) (t : ℝ) : f.eval t = p.1 * t + p.2 := by
  induction f generalizing p with
  | num q => simp only [lin, Option.some.injEq] at h; subst h; simp [Fml.eval]
  | x => simp only [lin, Option.some.injEq] at h; subst h; simp [Fml.eval]
  | add a b ha hb =>
    simp only [lin] at h
    split at h
    · rename_i p1 q1 h1 h2
      simp only [Option.some.injEq] at h
      subst h
      simp only [Fml.eval, ha _ h1, hb _ h2]
      push_cast
      ring
    · cases h
  | sub a b ha hb =>
    simp only [lin] at h
    split at h
    · rename_i p1 q1 h1 h2
      simp only [Option.some.injEq] at h
      subst h
      simp only [Fml.eval, ha _ h1, hb _ h2]
      push_cast
      ring
    · cases h
  | mul a b ha hb =>
    simp only [lin] at h
    split at h
    · rename_i p1 q1 h1 h2
      split at h
      · rename_i h0
        simp only [Option.some.injEq] at h
        subst h
        simp only [Fml.eval, ha _ h1, hb _ h2, h0]
        push_cast
        ring
      · split at h
        · rename_i h0
          simp only [Option.some.injEq] at h
          subst h
          simp only [Fml.eval, ha _ h1, hb _ h2, h0]
          push_cast
          ring
        · cases h
    · cases h
  | div a b ha hb =>
    simp only [lin] at h
    split at h
    · rename_i p1 q1 h1 h2
      split at h
      · rename_i h0
        simp only [Option.some.injEq] at h
        subst h
        simp only [Fml.eval, ha _ h1, hb _ h2, h0.1]
        push_cast
        ring
      · cases h
    · cases h
  | pow a b => simp [lin] at h
  | neg a ha =>
    simp only [lin] at h
    split at h
    · rename_i p1 h1
      simp only [Option.some.injEq] at h
      subst h
      simp only [Fml.eval, ha _ h1]
      push_cast
      ring
    · cases h

/-- The formula as `a / (b x + c)`, if it is visibly of this form. -/
def toLF : Fml → Option LF
  | .div a b => match lin a, lin b with
    | some p, some q => if p.1 = 0 then some ⟨p.2, q.1, q.2⟩ else none
    | _, _ => none
  | f => match lin f with
    | some p => if p.1 = 0 then some ⟨p.2, 0, 1⟩ else none
    | none => none

theorem toLF_sound (f : Fml) (g : LF) (h : toLF f = some g) (t : ℝ) : f.eval t = g.val t := by
  have key : ∀ f : Fml, (match lin f with
      | some p => if p.1 = 0 then some (⟨p.2, 0, 1⟩ : LF) else none
      | none => none) = some g → f.eval t = g.val t := by
    intro f h
    split at h
    · rename_i p hp
      split at h
      · rename_i h0
        simp only [Option.some.injEq] at h
        subst h
        rw [lin_sound _ _ hp, h0]
        simp [LF.val]
      · cases h
    · cases h
  cases f with
  | div a b =>
    simp only [toLF] at h
    split at h
    · rename_i p q h1 h2
      split at h
      · rename_i h0
        simp only [Option.some.injEq] at h
        subst h
        simp only [Fml.eval, lin_sound _ _ h1, lin_sound _ _ h2, h0, LF.val]
        simp
      · cases h
    · cases h
  | num q => exact key _ h
  | x => exact key _ h
  | add a b => exact key _ h
  | sub a b => exact key _ h
  | mul a b => exact key _ h
  | pow a b => exact key _ h
  | neg a => exact key _ h

/-- The text as a function `a / (b x + c)`. -/
def readLF (s : Str) : Option LF :=
  match parse s with
  | .ok f => toLF f
  | .error _ => none

theorem readLF_sound (s : Str) (g : LF) (h : readLF s = some g) : ∃ f, parse s = .ok f ∧ ∀ t, f.eval t = g.val t := by
  simp only [readLF] at h
  split at h
  · rename_i f hf
    exact ⟨f, hf, fun t => toLF_sound f g h t⟩
  · cases h

/-- Both denominators are positive at `L` and `H`, and `f ≤ g` there. -/
def leOn (f g : LF) (L H : ℚ) : Bool :=
  decide (0 < f.b * L + f.c) && decide (0 < f.b * H + f.c) && decide (0 < g.b * L + g.c) && decide (0 < g.b * H + g.c) &&
    decide (f.a * (g.b * L + g.c) ≤ g.a * (f.b * L + f.c)) && decide (f.a * (g.b * H + g.c) ≤ g.a * (f.b * H + f.c))

/-- An affine function is between its values at the ends. -/
theorem lin_nonneg {p q L H t : ℝ} (h1 : L ≤ t) (h2 : t ≤ H) (hL : 0 ≤ p * L + q) (hH : 0 ≤ p * H + q) : 0 ≤ p * t + q := by
  rcases le_total 0 p with hp | hp <;> nlinarith

theorem lin_pos {p q L H t : ℝ} (h1 : L ≤ t) (h2 : t ≤ H) (hL : 0 < p * L + q) (hH : 0 < p * H + q) : 0 < p * t + q := by
  rcases le_total 0 p with hp | hp <;> nlinarith

theorem leOn_pos {f g : LF} {L H : ℚ} (h : leOn f g L H = true) {t : ℝ} (h1 : (L : ℝ) ≤ t) (h2 : t ≤ (H : ℝ)) :
    0 < f.b * t + f.c ∧ 0 < g.b * t + g.c ∧ f.val t ≤ g.val t := by
  simp only [leOn, Bool.and_eq_true, decide_eq_true_eq] at h
  obtain ⟨⟨⟨⟨⟨a1, a2⟩, a3⟩, a4⟩, a5⟩, a6⟩ := h
  have b1 : (0 : ℝ) < f.b * L + f.c := by exact_mod_cast a1
  have b2 : (0 : ℝ) < f.b * H + f.c := by exact_mod_cast a2
  have b3 : (0 : ℝ) < g.b * L + g.c := by exact_mod_cast a3
  have b4 : (0 : ℝ) < g.b * H + g.c := by exact_mod_cast a4
  have b5 : (f.a : ℝ) * (g.b * L + g.c) ≤ g.a * (f.b * L + f.c) := by exact_mod_cast a5
  have b6 : (f.a : ℝ) * (g.b * H + g.c) ≤ g.a * (f.b * H + f.c) := by exact_mod_cast a6
  have c1 := lin_pos h1 h2 b1 b2
  have c2 := lin_pos h1 h2 b3 b4
  refine ⟨c1, c2, ?_⟩
  simp only [LF.val]
  rw [div_le_div_iff₀ c1 c2]
  have := lin_nonneg (p := (g.a : ℝ) * f.b - f.a * g.b) (q := (g.a : ℝ) * f.c - f.a * g.c) h1 h2 (by linarith) (by linarith)
  linarith

/-- More fuel does not change a result of the tokenizer. -/
theorem lex_mono (n m : ℕ) (s : Str) (ts : List Tok) (h : lex n s = some ts) (hnm : n ≤ m) : lex m s = some ts := by
  induction n generalizing m s ts with
  | zero =>
    cases s with
    | nil => cases m <;> simpa [lex] using h
    | cons c s => simp [lex] at h
  | succ n ih =>
    obtain ⟨m, rfl⟩ : ∃ k, m = k + 1 := ⟨m - 1, by omega⟩
    have hm : n ≤ m := by omega
    cases s with
    | nil => simpa [lex] using h
    | cons c s =>
      have key : ∀ (r : Str) (T : Tok), (lex n r).map (fun t => T :: t) = some ts → (lex m r).map (fun t => T :: t) = some ts := by
        intro r T hr
        simp only [Option.map_eq_some_iff] at hr ⊢
        obtain ⟨a, ha, hb⟩ := hr
        exact ⟨a, ih m r a ha hm, hb⟩
      simp only [lex] at h ⊢
      split
      · rename_i d hd
        simp only [hd] at h
        split
        · rename_i h1
          rw [if_pos h1] at h
          cases h
        · rename_i h1
          rw [if_neg h1] at h
          exact key _ _ h
      · rename_i hd
        simp only [hd] at h
        split_ifs at h ⊢ with h1 h2 h3 h4 h5 h6 h7 h8 h9
        · exact ih _ _ _ h hm
        · exact key _ _ h
        · exact key _ _ h
        · exact key _ _ h
        · exact key _ _ h
        · exact key _ _ h
        · exact key _ _ h
        · split at h
          · exact key _ _ h
          · exact key _ _ h

/-- Reading a printed number. -/
theorem lexNum_natChars (n : ℕ) (r : Str) (h0 : ∀ c cs, r = c :: cs → digitVal? c = none ∧ c ≠ '.') :
    ∃ c cs d, natChars n = c :: cs ∧ digitVal? c = some d ∧ lexNum d (cs ++ r) = ((n : ℚ), r) := by
  obtain ⟨k, hk, hr⟩ := readDigits_natChars_append n r (fun c cs hc => (h0 c cs hc).1)
  obtain ⟨c, cs, hc⟩ : ∃ c cs, natChars n = c :: cs := by
    cases h : natChars n with
    | nil => exact absurd h (natChars_ne_nil n)
    | cons c cs => exact ⟨c, cs, rfl⟩
  have hd := natChars_digits n c (by rw [hc]; simp)
  obtain ⟨d, hd⟩ := Option.isSome_iff_exists.mp hd
  refine ⟨c, cs, d, hc, hd, ?_⟩
  have cnt : ∀ (s : Str) (a i j : ℕ), (readDigits a i s).1 = (readDigits a j s).1 ∧ (readDigits a i s).2.2 = (readDigits a j s).2.2 := by
    intro s
    induction s with
    | nil => intro a i j; simp [readDigits]
    | cons c s ih =>
      intro a i j
      simp only [readDigits]
      split
      · exact ih _ _ _
      · exact ⟨rfl, rfl⟩
  rw [hc, List.cons_append] at hr
  simp only [readDigits, hd, Nat.zero_mul, Nat.zero_add] at hr
  have h1 := cnt (cs ++ r) d 0 1
  rw [hr] at h1
  simp only at h1
  unfold lexNum
  rcases hq : readDigits d 0 (cs ++ r) with ⟨a, i, b⟩
  rw [hq] at h1
  simp only at h1
  obtain ⟨rfl, rfl⟩ := h1
  split
  · rename_i heq
    simp only [Prod.mk.injEq] at heq
    exact absurd rfl (h0 _ _ heq.2.2).2
  · rename_i heq
    simp only [Prod.mk.injEq] at heq
    obtain ⟨rfl, _, rfl⟩ := heq
    rfl

/-- The tokenizer on a printed number. -/
theorem lex_natChars (f n : ℕ) (r : Str) (h0 : ∀ c cs, r = c :: cs → digitVal? c = none ∧ c ≠ '.') :
    lex (f + 1) (natChars n ++ r) = if (r.head?.map isName).getD false then none else (lex f r).map (fun t => Tok.num n :: t) := by
  obtain ⟨c, cs, d, h1, h2, h3⟩ := lexNum_natChars n r h0
  rw [h1, List.cons_append]
  simp only [lex, h2, h3]

end Formula
end Expdb
