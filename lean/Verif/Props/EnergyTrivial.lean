import Verif.Model.EnergyTrivial
import Verif.Lemmas.LinFrac
import Verif.Props.LiteratureZD
import Verif.Tactics

/-!
# Property C95: the trivial zero density energy estimates
-/

namespace Expdb
namespace EnergyTrivial

open Printing (Str)
open Formula (Fml parse lex lexNum parseAux Tok isName)
open LitZD (Entry itvl)

/-! ### The tokenizer and the parser on a text followed by a closing parenthesis -/

theorem readDigits_rp (s : Str) : ∀ acc cnt : ℕ, readDigits acc cnt (s ++ [')']) =
    ((readDigits acc cnt s).1, (readDigits acc cnt s).2.1, (readDigits acc cnt s).2.2 ++ [')']) := by
  induction s with
  | nil => intro acc cnt; rfl
  | cons c s ih =>
    intro acc cnt
    rw [List.cons_append, readDigits, readDigits]
    cases digitVal? c with
    | some d => exact ih _ _
    | none => rfl

theorem lexNum_rp (d : ℕ) (s : Str) : lexNum d (s ++ [')']) = ((lexNum d s).1, (lexNum d s).2 ++ [')']) := by
  unfold lexNum
  rw [readDigits_rp]
  generalize readDigits d 0 s = p
  obtain ⟨n, k, r⟩ := p
  cases r with
  | nil => rfl
  | cons c r =>
    by_cases hc : c = '.'
    · subst hc
      simp only [List.cons_append]
      rw [readDigits_rp]
    · simp only [List.cons_append]
      split
      · rename_i h; simp only [Prod.mk.injEq, List.cons.injEq] at h; exact absurd h.2.2.1 hc
      · rename_i h
        simp only [Prod.mk.injEq] at h
        obtain ⟨rfl, _, rfl⟩ := h
        split
        · rename_i h; simp only [Prod.mk.injEq, List.cons.injEq] at h; exact absurd h.2.2.1 hc
        · rename_i h
          simp only [Prod.mk.injEq] at h
          obtain ⟨rfl, _, rfl⟩ := h
          rfl

theorem head_rp (r : Str) : (((r ++ [')']).head?.map isName).getD false) = ((r.head?.map isName).getD false) := by
  cases r with
  | nil => decide
  | cons c r => rfl

theorem lex_rp : ∀ (n : ℕ) (s : Str) (ts : List Tok), lex n s = some ts → lex (n + 1) (s ++ [')']) = some (ts ++ [.rp]) := by
  intro n
  induction n with
  | zero =>
    intro s ts h
    cases s with
    | nil => rw [lex] at h; cases h; decide
    | cons c s => rw [lex] at h; cases h
  | succ n ih =>
    intro s ts h
    cases s with
    | nil =>
      rw [lex] at h; cases h
      exact LitZD.lex_single .rp (by cases n <;> simp [lex])
    | cons c s =>
      simp only [lex] at h
      simp only [List.cons_append, lex]
      have step : ∀ (T : Tok) (r : Str), (lex n r).map (fun t => T :: t) = some ts →
          (lex (n + 1) (r ++ [')'])).map (fun t => T :: t) = some (ts ++ [.rp]) := by
        intro T r hr
        cases e : lex n r with
        | none => rw [e] at hr; cases hr
        | some us => rw [e] at hr; cases hr; rw [ih r us e]; rfl
      cases hd : digitVal? c with
      | some d =>
        rw [hd] at h
        simp only at h ⊢
        rw [lexNum_rp]
        generalize lexNum d s = p at h ⊢
        obtain ⟨q, r⟩ := p
        simp only at h ⊢
        rw [head_rp]
        split at h
        · cases h
        · rename_i hh
          rw [if_neg hh]
          exact step _ r h
      | none =>
        rw [hd] at h
        simp only at h ⊢
        by_cases h1 : (c == ' ') = true
        · rw [if_pos h1] at h ⊢; exact ih s ts h
        rw [if_neg h1] at h ⊢
        by_cases h2 : (c == 'x') = true
        · rw [if_pos h2] at h ⊢
          rw [head_rp]
          split at h
          · cases h
          · rename_i hh
            rw [if_neg hh]
            exact step _ s h
        rw [if_neg h2] at h ⊢
        by_cases h3 : (c == '+') = true
        · rw [if_pos h3] at h ⊢; exact step _ s h
        rw [if_neg h3] at h ⊢
        by_cases h4 : (c == '-') = true
        · rw [if_pos h4] at h ⊢; exact step _ s h
        rw [if_neg h4] at h ⊢
        by_cases h5 : (c == '/') = true
        · rw [if_pos h5] at h ⊢; exact step _ s h
        rw [if_neg h5] at h ⊢
        by_cases h6 : (c == '(') = true
        · rw [if_pos h6] at h ⊢; exact step _ s h
        rw [if_neg h6] at h ⊢
        by_cases h7 : (c == ')') = true
        · rw [if_pos h7] at h ⊢; exact step _ s h
        rw [if_neg h7] at h ⊢
        by_cases h8 : (c == '*') = true
        · rw [if_pos h8] at h ⊢
          cases s with
          | nil => exact step _ [] h
          | cons b s =>
            by_cases hb : b = '*'
            · subst hb; exact step _ s h
            · simp only [List.cons_append]
              split at h
              · rename_i e; simp only [List.cons.injEq] at e; exact absurd e.1 hb
              · split
                · rename_i e; simp only [List.cons.injEq] at e; exact absurd e.1 hb
                · exact step _ (b :: s) h
        · rw [if_neg h8] at h; cases h

open Formula (Goal)

theorem parseAux_rp : ∀ (n : ℕ) (g : Goal) (ts : List Tok) (f : Fml) (us : List Tok), parseAux n g ts = some (f, us) →
    parseAux n g (ts ++ [.rp]) = some (f, us ++ [.rp]) := by
  intro n
  induction n with
  | zero => intro g ts f us h; rw [parseAux] at h; cases h
  | succ n ih =>
    have two : ∀ (g : Goal) (k : Fml → Goal) (ts : List Tok) (f : Fml) (us : List Tok),
        (parseAux n g ts).bind (fun p => parseAux n (k p.1) p.2) = some (f, us) →
        (parseAux n g (ts ++ [.rp])).bind (fun p => parseAux n (k p.1) p.2) = some (f, us ++ [.rp]) := by
      intro g k ts f us h
      cases e : parseAux n g ts with
      | none => rw [e] at h; cases h
      | some p =>
        obtain ⟨a, vs⟩ := p
        rw [e] at h
        rw [ih g ts a vs e]
        exact ih _ _ _ _ h
    have factor : ∀ (ts : List Tok) (f : Fml) (us : List Tok),
        ((parseAux n .atom ts).bind (fun p => match p.2 with
          | .pow :: us => (parseAux n .factor us).map (fun q => (.pow p.1 q.1, q.2))
          | _ => some p)) = some (f, us) →
        ((parseAux n .atom (ts ++ [.rp])).bind (fun p => match p.2 with
          | .pow :: us => (parseAux n .factor us).map (fun q => (.pow p.1 q.1, q.2))
          | _ => some p)) = some (f, us ++ [.rp]) := by
      intro ts f us h
      cases e : parseAux n .atom ts with
      | none => rw [e] at h; cases h
      | some p =>
        obtain ⟨a, vs⟩ := p
        rw [e] at h
        rw [ih _ _ _ _ e]
        simp only [Option.bind_some] at h ⊢
        cases vs with
        | nil => simp only [Option.some.injEq, Prod.mk.injEq] at h; obtain ⟨rfl, rfl⟩ := h; rfl
        | cons t vs =>
          cases t
          case pow =>
            simp only [List.cons_append] at h ⊢
            cases e2 : parseAux n .factor vs with
            | none => rw [e2] at h; cases h
            | some q =>
              obtain ⟨b, ws⟩ := q
              rw [e2] at h
              rw [ih _ _ _ _ e2]
              simp only [Option.map_some, Option.some.injEq, Prod.mk.injEq] at h ⊢
              exact ⟨h.1, by rw [h.2]⟩
          all_goals (simp only [Option.some.injEq, Prod.mk.injEq] at h; obtain ⟨rfl, rfl⟩ := h; rfl)
    intro g ts f us h
    cases g with
    | expr => rw [parseAux] at h ⊢; exact two _ (fun a => .exprRest a) _ _ _ h
    | term => rw [parseAux] at h ⊢; exact two _ (fun a => .termRest a) _ _ _ h
    | exprRest a =>
      cases ts with
      | nil => simp only [parseAux, Option.some.injEq, Prod.mk.injEq] at h; obtain ⟨rfl, rfl⟩ := h; rfl
      | cons t ts =>
        cases t
        case plus => simp only [List.cons_append, parseAux] at h ⊢; exact two _ (fun b => .exprRest (.add a b)) _ _ _ h
        case minus => simp only [List.cons_append, parseAux] at h ⊢; exact two _ (fun b => .exprRest (.sub a b)) _ _ _ h
        all_goals (simp only [parseAux, Option.some.injEq, Prod.mk.injEq] at h; obtain ⟨rfl, rfl⟩ := h; simp only [List.cons_append, parseAux])
    | termRest a =>
      cases ts with
      | nil => simp only [parseAux, Option.some.injEq, Prod.mk.injEq] at h; obtain ⟨rfl, rfl⟩ := h; rfl
      | cons t ts =>
        cases t
        case times => simp only [List.cons_append, parseAux] at h ⊢; exact two _ (fun b => .termRest (.mul a b)) _ _ _ h
        case over => simp only [List.cons_append, parseAux] at h ⊢; exact two _ (fun b => .termRest (.div a b)) _ _ _ h
        all_goals (simp only [parseAux, Option.some.injEq, Prod.mk.injEq] at h; obtain ⟨rfl, rfl⟩ := h; simp only [List.cons_append, parseAux])
    | factor =>
      cases ts with
      | nil =>
        rw [parseAux] at h
        · exact absurd h (by cases n <;> simp [parseAux])
        · simp
      | cons t ts =>
        cases t
        case minus =>
          simp only [List.cons_append, parseAux] at h ⊢
          cases e : parseAux n .factor ts with
          | none => rw [e] at h; cases h
          | some p =>
            obtain ⟨b, ws⟩ := p
            rw [e] at h
            rw [ih _ _ _ _ e]
            simp only [Option.map_some, Option.some.injEq, Prod.mk.injEq] at h ⊢
            exact ⟨h.1, by rw [h.2]⟩
        all_goals (
          simp only [List.cons_append, parseAux] at h ⊢
          exact factor (_ :: ts) _ _ h)
    | atom =>
      cases ts with
      | nil => simp [parseAux] at h
      | cons t ts =>
        cases t
        case num q => simp only [parseAux, Option.some.injEq, Prod.mk.injEq] at h; obtain ⟨rfl, rfl⟩ := h; rfl
        case x => simp only [parseAux, Option.some.injEq, Prod.mk.injEq] at h; obtain ⟨rfl, rfl⟩ := h; rfl
        case lp =>
          simp only [List.cons_append, parseAux] at h ⊢
          cases e : parseAux n .expr ts with
          | none => rw [e] at h; cases h
          | some p =>
            obtain ⟨b, ws⟩ := p
            rw [e] at h
            rw [ih _ _ _ _ e]
            simp only [Option.bind_some] at h ⊢
            cases ws with
            | nil => simp at h
            | cons w ws =>
              cases w
              case rp => simp only [Option.some.injEq, Prod.mk.injEq] at h; obtain ⟨rfl, rfl⟩ := h; rfl
              all_goals simp at h
        all_goals simp [parseAux] at h

/-- More fuel does not change a result. -/
theorem parseAux_succ : ∀ (n : ℕ) (g : Goal) (ts : List Tok) (r : Fml × List Tok), parseAux n g ts = some r →
    parseAux (n + 1) g ts = some r := by
  intro n
  induction n with
  | zero => intro g ts r h; rw [parseAux] at h; cases h
  | succ n ih =>
    have two : ∀ (g : Goal) (k : Fml → Goal) (ts : List Tok) (r : Fml × List Tok),
        (parseAux n g ts).bind (fun p => parseAux n (k p.1) p.2) = some r →
        (parseAux (n + 1) g ts).bind (fun p => parseAux (n + 1) (k p.1) p.2) = some r := by
      intro g k ts r h
      cases e : parseAux n g ts with
      | none => rw [e] at h; cases h
      | some p => rw [e] at h; rw [ih g ts p e]; exact ih _ _ _ h
    have factor : ∀ (ts : List Tok) (r : Fml × List Tok),
        ((parseAux n .atom ts).bind (fun p => match p.2 with
          | .pow :: us => (parseAux n .factor us).map (fun q => (.pow p.1 q.1, q.2))
          | _ => some p)) = some r →
        ((parseAux (n + 1) .atom ts).bind (fun p => match p.2 with
          | .pow :: us => (parseAux (n + 1) .factor us).map (fun q => (.pow p.1 q.1, q.2))
          | _ => some p)) = some r := by
      intro ts r h
      cases e : parseAux n .atom ts with
      | none => rw [e] at h; cases h
      | some p =>
        rw [e] at h; rw [ih _ _ _ e]
        simp only [Option.bind_some] at h ⊢
        obtain ⟨a, vs⟩ := p
        cases vs with
        | nil => exact h
        | cons t vs =>
          cases t
          case pow =>
            simp only at h ⊢
            cases e2 : parseAux n .factor vs with
            | none => rw [e2] at h; cases h
            | some q => rw [e2] at h; rw [ih _ _ _ e2]; exact h
          all_goals exact h
    intro g ts r h
    cases g with
    | expr => rw [parseAux] at h ⊢; exact two _ (fun a => .exprRest a) _ _ h
    | term => rw [parseAux] at h ⊢; exact two _ (fun a => .termRest a) _ _ h
    | exprRest a =>
      cases ts with
      | nil => simp only [parseAux] at h ⊢; exact h
      | cons t ts =>
        cases t
        case plus => rw [parseAux] at h ⊢; exact two _ (fun b => .exprRest (.add a b)) _ _ h
        case minus => rw [parseAux] at h ⊢; exact two _ (fun b => .exprRest (.sub a b)) _ _ h
        all_goals (simp only [parseAux] at h ⊢; exact h)
    | termRest a =>
      cases ts with
      | nil => simp only [parseAux] at h ⊢; exact h
      | cons t ts =>
        cases t
        case times => rw [parseAux] at h ⊢; exact two _ (fun b => .termRest (.mul a b)) _ _ h
        case over => rw [parseAux] at h ⊢; exact two _ (fun b => .termRest (.div a b)) _ _ h
        all_goals (simp only [parseAux] at h ⊢; exact h)
    | factor =>
      cases ts with
      | nil =>
        rw [parseAux] at h
        · exact absurd h (by cases n <;> simp [parseAux])
        · simp
      | cons t ts =>
        cases t
        case minus =>
          rw [parseAux] at h ⊢
          cases e : parseAux n .factor ts with
          | none => rw [e] at h; cases h
          | some p => rw [e] at h; rw [ih _ _ _ e]; exact h
        all_goals (
          rw [parseAux.eq_def] at h
          rw [parseAux.eq_def]
          exact factor _ _ h)
    | atom =>
      cases ts with
      | nil => simp [parseAux] at h
      | cons t ts =>
        cases t
        case num q => simp only [parseAux] at h ⊢; exact h
        case x => simp only [parseAux] at h ⊢; exact h
        case lp =>
          rw [parseAux] at h ⊢
          cases e : parseAux n .expr ts with
          | none => rw [e] at h; cases h
          | some p => rw [e] at h; rw [ih _ _ _ e]; exact h
        all_goals simp [parseAux] at h

theorem parseAux_mono {n m : ℕ} {g : Goal} {ts : List Tok} {r : Fml × List Tok} (h : parseAux n g ts = some r) (hnm : n ≤ m) :
    parseAux m g ts = some r := by
  induction m, hnm using Nat.le_induction with
  | base => exact h
  | succ m _ ih => exact parseAux_succ m g ts r ih

/-! ### The text `3 * (expr)` -/

/-- **C95** For every text that is parsed as a formula, the text `3 * (...)` around it is parsed as the product of 3 and this formula,
whatever the operators in the text are. -/
theorem C95_tripled (s : Str) (f : Fml) (h : parse s = .ok f) : parse (tripled s) = .ok (.mul (.num 3) f) := by
  unfold parse at h
  cases e : lex s.length s with
  | none => rw [e] at h; cases h
  | some ts =>
    rw [e] at h
    simp only at h
    have hp : parseAux (8 * ts.length + 8) .expr ts = some (f, []) := by
      split at h
      · rename_i g hg; cases h; exact hg
      · cases h
    have hl : lex (s.length + 6) (tripled s) = some (.num 3 :: .times :: .lp :: (ts ++ [.rp])) := by
      have h1 := lex_rp _ _ _ e
      exact LitZD.lex_digit 3 (LitZD.lex_blank (LitZD.lex_times (LitZD.lex_blank (LitZD.lex_single .lp h1))))
    have hlen : (tripled s).length = s.length + 6 := by
      unfold tripled
      rw [List.length_append, List.length_append]
      have a1 : "3 * (".toList.length = 5 := by decide
      have a2 : ")".toList.length = 1 := by decide
      omega
    unfold parse
    rw [hlen, hl]
    simp only
    have q1 := parseAux_mono (m := 8 * ts.length + 32) (parseAux_rp _ _ _ _ _ hp) (by omega)
    rw [List.nil_append] at q1
    have q2 : parseAux (8 * ts.length + 33) .atom (.lp :: (ts ++ [.rp])) = some (f, []) := by
      rw [parseAux, q1]; rfl
    have q3 : parseAux (8 * ts.length + 34) .factor (.lp :: (ts ++ [.rp])) = some (f, []) := by
      rw [parseAux, q2]
      · rfl
      · intro _ hc; cases hc
    have q4 : parseAux (8 * ts.length + 35) (.termRest (.num 3)) (.times :: .lp :: (ts ++ [.rp])) = some (.mul (.num 3) f, []) := by
      rw [parseAux, q3]; rfl
    have q5 : parseAux (8 * ts.length + 35) .factor (.num 3 :: .times :: .lp :: (ts ++ [.rp])) =
        some (.num 3, .times :: .lp :: (ts ++ [.rp])) := by
      rw [parseAux, show parseAux (8 * ts.length + 34) .atom (.num 3 :: .times :: .lp :: (ts ++ [.rp])) =
        some (.num 3, .times :: .lp :: (ts ++ [.rp])) from rfl]
      · rfl
      · intro _ hc; cases hc
    have q6 : parseAux (8 * ts.length + 36) .term (.num 3 :: .times :: .lp :: (ts ++ [.rp])) = some (.mul (.num 3) f, []) := by
      rw [parseAux, q5]; exact q4
    have q7 : parseAux (8 * ts.length + 37) .expr (.num 3 :: .times :: .lp :: (ts ++ [.rp])) = some (.mul (.num 3) f, []) := by
      rw [parseAux, q6]; rfl
    have q8 : parseAux (8 * (Tok.num 3 :: .times :: .lp :: (ts ++ [.rp])).length + 8) .expr (.num 3 :: .times :: .lp :: (ts ++ [.rp])) =
        some (.mul (.num 3) f, []) := parseAux_mono q7 (by simp; omega)
    rw [q8]

example : parse "2 - x".toList = .ok (.sub (.num 2) .x) ∧ tripled "2 - x".toList = "3 * (2 - x)".toList := by decide +kernel

theorem at_ok (e : Est) (s : ℚ) (v : ℝ) :
    e.at s = .ok v ↔ e.dom.contains s = true ∧ ∃ f, e.function = .ok f ∧ f.eval s = v := by
  unfold Est.at
  by_cases hc : e.dom.contains s = true
  · rw [if_pos hc]
    cases hf : e.function with
    | error x => simp
    | ok f => simp [hc]
  · rw [if_neg hc]; simp [hc]

theorem addTrivial_eq (zdes : List Est) : addTrivial zdes = .ok (zdes.map (fun z => Est.new (tripled z.expr) z.dom) ++
    [Est.new "3 / (1 - x)".toList ⟨1 / 2, 1, true, false⟩]) := by
  have hI : itvl (1 / 2) 1 = .ok ⟨1 / 2, 1, true, false⟩ := by decide +kernel
  unfold addTrivial; rw [hI]; rfl

theorem last_at (s : ℚ) (h1 : 1 / 2 ≤ s) (h2 : s < 1) :
    (Est.new "3 / (1 - x)".toList ⟨1 / 2, 1, true, false⟩).at s = .ok (3 / (1 - (s : ℝ))) := by
  rw [at_ok]
  refine ⟨?_, .div (.num 3) (.sub (.num 1) .x), ?_, ?_⟩
  · show (⟨1 / 2, 1, true, false⟩ : Interval).contains s = true
    rw [Interval.contains_iff]
    refine ⟨?_, Or.inl h2⟩
    rcases h1.lt_or_eq with h | h
    · exact Or.inl h
    · exact Or.inr ⟨rfl, h.symm⟩
  · show parse "3 / (1 - x)".toList = _
    decide +kernel
  · simp only [Formula.Fml.eval]; norm_num

/-- The function of an estimate is the one of its string. -/
def FromString (z : Est) : Prop := ∀ f, z.bound = some f → parse z.expr = .ok f

theorem function_of (z : Est) (h : FromString z) (f : Fml) (hf : z.function = .ok f) : parse z.expr = .ok f := by
  unfold Est.function at hf
  cases hb : z.bound with
  | none => rw [hb] at hf; exact hf
  | some g => rw [hb] at hf; cases hf; exact h _ hb

/-- **C95** For all zero density estimates: each one whose function is computed from its string (as for all of the literature), with the
value `v` at `σ`, gives an energy estimate on the same interval with the value `3 v` at `σ`; the last one has the value `3/(1 - σ)` on
`[1/2, 1)`; and every estimate that is added is one of these. -/
theorem C95_added (zdes : List Est) : ∃ out, addTrivial zdes = .ok out ∧
    (∀ z ∈ zdes, FromString z → ∃ e ∈ out, e.dom = z.dom ∧ ∀ (s : ℚ) (v : ℝ), z.at s = .ok v → e.at s = .ok (3 * v)) ∧
    (∃ e ∈ out, ∀ s : ℚ, 1 / 2 ≤ s → s < 1 → e.at s = .ok (3 / (1 - (s : ℝ)))) ∧
    out.length = zdes.length + 1 := by
  refine ⟨_, addTrivial_eq zdes, ?_, ?_, by simp⟩
  · intro z hz hb
    refine ⟨Est.new (tripled z.expr) z.dom, List.mem_append_left _ (List.mem_map.mpr ⟨z, hz, rfl⟩), rfl, ?_⟩
    intro s v h
    rw [at_ok] at h ⊢
    obtain ⟨hd, f, hf, hv⟩ := h
    refine ⟨hd, _, C95_tripled _ _ (function_of z hb f hf), ?_⟩
    rw [Formula.Fml.eval, Formula.Fml.eval, hv]; norm_num
  · exact ⟨_, List.mem_append_right _ (List.mem_singleton.mpr rfl), last_at⟩

/-- Guth and Maynard's estimate, as in the literature. -/
def guthMaynard : Est := Est.new "15/(3 + 5 * x)".toList ⟨7 / 10, 1, true, false⟩

example : FromString guthMaynard ∧ ∃ v, guthMaynard.at (4 / 5) = .ok v := by
  refine ⟨fun f hf => (by cases hf), _, (at_ok _ _ _).mpr ⟨by decide +kernel, .div (.num 15) (.add (.num 3) (.mul (.num 5) .x)), ?_, rfl⟩⟩
  show parse "15/(3 + 5 * x)".toList = _
  decide +kernel

/-- An estimate bounds `A` where it has a value. -/
def Bounds (A : ℝ → ℝ) (e : Est) : Prop := ∀ (s : ℚ) (v : ℝ), e.at s = .ok v → A s ≤ v

/-- **C95** The estimates that are added are correct: if `A*(σ) ≤ 3 A(σ)`, `(1 - σ) A*(σ)` does not increase on `[1/2, 1)` and `A*(1/2) ≤ 6`, then
for every set of correct zero density estimates (with functions from their strings, and each of them usable somewhere) all the energy
estimates added are correct. -/
theorem C95_sound (A Astar : ℝ → ℝ) (h3 : ∀ s, Astar s ≤ 3 * A s)
    (hmono : ∀ s t : ℝ, 1 / 2 ≤ s → s ≤ t → t < 1 → (1 - t) * Astar t ≤ (1 - s) * Astar s) (hhalf : Astar (1 / 2) ≤ 6)
    (zdes : List Est) (hz : ∀ z ∈ zdes, FromString z ∧ (∃ f, z.function = .ok f) ∧ Bounds A z) (out : List Est)
    (hout : addTrivial zdes = .ok out) : ∀ e ∈ out, Bounds Astar e := by
  rw [addTrivial_eq] at hout
  cases hout
  intro e he s v hv
  rcases List.mem_append.mp he with he | he
  · obtain ⟨z, hzm, rfl⟩ := List.mem_map.mp he
    obtain ⟨h1, ⟨f, hf⟩, h2⟩ := hz z hzm
    rw [at_ok] at hv
    obtain ⟨hd, g, hg, hv⟩ := hv
    have hg' : parse (tripled z.expr) = .ok g := hg
    rw [C95_tripled _ _ (function_of z h1 f hf)] at hg'
    cases hg'
    have := h2 s (f.eval s) ((at_ok _ _ _).mpr ⟨hd, f, hf, rfl⟩)
    have h4 := h3 s
    rw [Formula.Fml.eval, Formula.Fml.eval] at hv
    rw [← hv]
    have e3 : ((3 : ℚ) : ℝ) = 3 := by norm_num
    rw [e3]; linarith
  · rw [List.mem_singleton] at he
    subst he
    have hd := ((at_ok _ _ _).mp hv).1
    have hd' : (⟨1 / 2, 1, true, false⟩ : Interval).contains s = true := hd
    rw [Interval.contains_iff] at hd'
    have a1 : 1 / 2 ≤ s := by
      rcases hd'.1 with h | h
      · exact h.le
      · exact h.2.ge
    have a2 : s < 1 := by
      rcases hd'.2 with h | h
      · exact h
      · exact absurd h.1 Bool.false_ne_true
    rw [last_at s a1 a2] at hv
    cases hv
    have b1 : (1 : ℝ) / 2 ≤ s := by
      have : ((1 / 2 : ℚ) : ℝ) ≤ s := Rat.cast_le.mpr a1
      push_cast at this; exact this
    have b2 : (s : ℝ) < 1 := by exact_mod_cast a2
    have := hmono (1 / 2) s le_rfl b1 b2
    rw [le_div_iff₀ (by linarith)]
    linarith

/-- The hypotheses hold for `A*(σ) = 3/(1 - σ)`, `A(σ) = 1/(1 - σ)` for `σ < 1` and both zero from there on. -/
example : ∃ A Astar : ℝ → ℝ, (∀ s, Astar s ≤ 3 * A s) ∧
    (∀ s t : ℝ, 1 / 2 ≤ s → s ≤ t → t < 1 → (1 - t) * Astar t ≤ (1 - s) * Astar s) ∧ Astar (1 / 2) ≤ 6 ∧
    FromString guthMaynard ∧ ∃ f, guthMaynard.function = .ok f := by
  refine ⟨fun s => 1 / (1 - s), fun s => 3 / (1 - s), ?_, ?_, by norm_num, fun f hf => (by cases hf),
    .div (.num 15) (.add (.num 3) (.mul (.num 5) .x)), ?_⟩
  · intro s; ring_nf; exact le_rfl
  · intro s t h1 h2 h3
    simp only
    rw [mul_div_cancel₀ _ (by linarith : (1 : ℝ) - t ≠ 0), mul_div_cancel₀ _ (by linarith : (1 : ℝ) - s ≠ 0)]
  · show parse "15/(3 + 5 * x)".toList = _
    decide +kernel

/-- **C95 (violated)** An estimate made by `from_rational_func` (as all derived estimates are) keeps the LaTeX text of its function as its
string. For the function `3/(2x)` this is `\frac{3}{2 x}`, for `2x` it is `2 x`: the estimate itself has values, but the energy estimate
added for it raises an exception at every point. -/
theorem C95_derived_counterexample :
    (∀ (str : Fml → Str), str (.div (.num 3) (.mul (.num 2) .x)) = "\\frac{3}{2 x}".toList →
      ∃ out, addTrivial [Est.fromRational str (.div (.num 3) (.mul (.num 2) .x)) ⟨4 / 5, 1, true, false⟩] = .ok out ∧
        (Est.fromRational str (.div (.num 3) (.mul (.num 2) .x)) ⟨4 / 5, 1, true, false⟩).at (9 / 10) = .ok (5 / 3) ∧
        ∀ e ∈ out, e.dom = ⟨4 / 5, 1, true, false⟩ → ∀ s v, e.at s ≠ .ok v) ∧
    (∀ (str : Fml → Str), str (.mul (.num 2) .x) = "2 x".toList →
      ∃ out, addTrivial [Est.fromRational str (.mul (.num 2) .x) ⟨4 / 5, 1, true, false⟩] = .ok out ∧
        (Est.fromRational str (.mul (.num 2) .x) ⟨4 / 5, 1, true, false⟩).at (9 / 10) = .ok (9 / 5) ∧
        ∀ e ∈ out, e.dom = ⟨4 / 5, 1, true, false⟩ → ∀ s v, e.at s ≠ .ok v) := by
  have hne : (⟨1 / 2, 1, true, false⟩ : Interval) ≠ ⟨4 / 5, 1, true, false⟩ := by decide +kernel
  refine ⟨fun str hs => ⟨_, addTrivial_eq _, ?_, ?_⟩, fun str hs => ⟨_, addTrivial_eq _, ?_, ?_⟩⟩
  · refine (at_ok _ _ _).mpr ⟨by show (⟨4 / 5, 1, true, false⟩ : Interval).contains _ = true; decide +kernel, _, rfl, ?_⟩
    simp only [Formula.Fml.eval]; norm_num
  · intro e he hdom s v hv
    rcases List.mem_append.mp he with he | he
    · rw [List.map_singleton, List.mem_singleton] at he
      subst he
      obtain ⟨_, f, hf, _⟩ := (at_ok _ _ _).mp hv
      have : parse (tripled (str (.div (.num 3) (.mul (.num 2) .x)))) = .ok f := hf
      rw [hs, show parse (tripled "\\frac{3}{2 x}".toList) = .error .valueError by decide +kernel] at this
      cases this
    · rw [List.mem_singleton] at he
      subst he
      exact hne hdom
  · refine (at_ok _ _ _).mpr ⟨by show (⟨4 / 5, 1, true, false⟩ : Interval).contains _ = true; decide +kernel, _, rfl, ?_⟩
    simp only [Formula.Fml.eval]; norm_num
  · intro e he hdom s v hv
    rcases List.mem_append.mp he with he | he
    · rw [List.map_singleton, List.mem_singleton] at he
      subst he
      obtain ⟨_, f, hf, _⟩ := (at_ok _ _ _).mp hv
      have : parse (tripled (str (.mul (.num 2) .x))) = .ok f := hf
      rw [hs, show parse (tripled "2 x".toList) = .error .valueError by decide +kernel] at this
      cases this
    · rw [List.mem_singleton] at he
      subst he
      exact hne hdom

end EnergyTrivial
end Expdb
