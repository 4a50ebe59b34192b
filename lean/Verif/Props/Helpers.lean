import Verif.Model.Helpers
import Verif.Props.Hypotheses

/-!
# C100: listing of proofs, kinds of references, merging of pieces, Pintz's optimisation, the trivial zeta large value estimate
-/

namespace Expdb
namespace Helpers

open Hyp

/-! ### The listing of a proof -/

variable {D : Type}

/-- `x` is reached from `h` by `n` steps to a dependency. -/
inductive PathLen (H : Heap D) : ℕ → ℕ → ℕ → Prop
  | refl (h : ℕ) : PathLen H h 0 h
  | step {h d n x : ℕ} : Dep H h d → PathLen H d n x → PathLen H h (n + 1) x

/-- The line that belongs to a hypothesis at a level. -/
def lineOf (H : Heap D) (i h : ℕ) : Line := ⟨i, h, decide ((H h).deps ≠ [])⟩

/-- Every line but the first has its parent above it: the last line before it which is indented less is a hypothesis that depends on it,
indented by one less. -/
def Nested (H : Heap D) (L : List Line) : Prop :=
  ∀ pre l post, L = pre ++ l :: post → pre ≠ [] → ∃ a p b, pre = a ++ p :: b ∧ Dep H p.hyp l.hyp ∧ p.indent + 1 = l.indent ∧
    ∀ q ∈ b, l.indent ≤ q.indent

theorem listProofs_spec (H : Heap D) (rank : ℕ → ℕ) (hr : Ranked H rank) (n : ℕ) : ∀ h, rank h < n → ∀ i, ∃ L,
    (∀ f, rank h < f → listProofs H f i h = some L) ∧ L.head? = some (lineOf H i h) ∧
    (∀ l, l ∈ L ↔ ∃ k x, PathLen H h k x ∧ l = lineOf H (i + k) x) ∧ Nested H L := by
  induction n with
  | zero => intro h hh; omega
  | succ n ih =>
    intro h hh i
    have hlist : ∀ ds : List ℕ, (∀ d ∈ ds, rank d < rank h) → ∀ j, ∃ L,
        (∀ f, rank h ≤ f → listProofsList H f j ds = some L) ∧ (∀ l, l ∈ L ↔ ∃ d ∈ ds, ∃ k x, PathLen H d k x ∧ l = lineOf H (j + k) x) ∧
        (∀ pre l post, L = pre ++ l :: post → (l.indent = j ∧ l.hyp ∈ ds ∧ ∀ q ∈ pre, j ≤ q.indent) ∨
          ∃ a p b, pre = a ++ p :: b ∧ Dep H p.hyp l.hyp ∧ p.indent + 1 = l.indent ∧ ∀ q ∈ b, l.indent ≤ q.indent) := by
      intro ds
      induction ds with
      | nil =>
        intro _ j
        refine ⟨[], fun f _ => by simp only [listProofsList], by simp, fun pre l post e => ?_⟩
        exact absurd e.symm (by simp)
      | cons d ds ihd =>
        intro hds j
        obtain ⟨A, a1, a2, a3, a4⟩ := ih d (by have := hds d (by simp); omega) j
        obtain ⟨B, b1, b2, b3⟩ := ihd (fun e he => hds e (by simp [he])) j
        refine ⟨A ++ B, fun f hf => ?_, fun l => ?_, fun pre l post e => ?_⟩
        · simp only [listProofsList]
          rw [a1 f (by have := hds d (by simp); omega), b1 f hf]
          rfl
        · rw [List.mem_append, a3, b2]
          simp only [List.mem_cons, exists_eq_or_imp]
        · have hAj : ∀ q ∈ A, j ≤ q.indent := by
            intro q hq
            obtain ⟨k, x, -, rfl⟩ := (a3 q).mp hq
            simp [lineOf]
          rcases List.append_eq_append_iff.mp e with ⟨c, e1, e2⟩ | ⟨c, e1, e2⟩
          · -- the line is in `B`
            rcases b3 c l post e2 with ⟨h1, h2, h3⟩ | ⟨a, p, b, h1, h2⟩
            · refine Or.inl ⟨h1, by simp [h2], fun q hq => ?_⟩
              rw [e1, List.mem_append] at hq
              rcases hq with hq | hq
              · exact hAj q hq
              · exact h3 q hq
            · exact Or.inr ⟨A ++ a, p, b, by rw [e1, h1, List.append_assoc], h2⟩
          · cases c with
            | nil =>
              simp only [List.append_nil, List.nil_append] at e1 e2
              rcases b3 [] l post (by simpa using e2.symm) with ⟨h1, h2, h3⟩ | ⟨a, p, b, h1, h2⟩
              · exact Or.inl ⟨h1, by simp [h2], fun q hq => hAj q (e1 ▸ hq)⟩
              · exact absurd h1 (by simp)
            | cons c0 c =>
              simp only [List.cons_append, List.cons.injEq] at e2
              obtain ⟨e2, e3⟩ := e2
              subst e2
              by_cases hpre : pre = []
              · subst hpre
                rw [e1] at a2
                simp only [List.nil_append, List.head?_cons, Option.some.injEq] at a2
                refine Or.inl ⟨by rw [a2]; rfl, by rw [a2]; simp [lineOf], by simp⟩
              · exact Or.inr (a4 pre l c e1 hpre)
    by_cases hd : (H h).deps = []
    · refine ⟨[lineOf H i h], ?_, rfl, ?_, ?_⟩
      · intro f hf
        cases f with
        | zero => omega
        | succ f => simp [listProofs, hd, lineOf]
      · intro l
        rw [List.mem_singleton]
        constructor
        · rintro rfl; exact ⟨0, h, .refl h, rfl⟩
        · rintro ⟨k, x, hp, rfl⟩
          cases hp with
          | refl => rfl
          | step h1 _ => unfold Dep at h1; rw [hd] at h1; cases h1
      · intro pre l post e hne
        cases pre with
        | nil => exact absurd rfl hne
        | cons p pre => simp at e
    · obtain ⟨B, b1, b2, b3⟩ := hlist (H h).deps (fun d hd => hr h d hd) (i + 1)
      refine ⟨lineOf H i h :: B, ?_, rfl, ?_, ?_⟩
      · intro f hf
        cases f with
        | zero => omega
        | succ f =>
          simp only [listProofs]
          rw [if_pos (List.length_pos_iff.mpr hd), b1 f (by omega)]
          simp [lineOf, hd]
      · intro l
        rw [List.mem_cons, b2]
        constructor
        · rintro (rfl | ⟨d, h1, k, x, h2, rfl⟩)
          · exact ⟨0, h, .refl h, rfl⟩
          · exact ⟨k + 1, x, .step h1 h2, by rw [show i + 1 + k = i + (k + 1) by omega]⟩
        · rintro ⟨k, x, hp, rfl⟩
          cases hp with
          | refl => exact Or.inl rfl
          | @step _ d k _ h1 h2 => exact Or.inr ⟨d, h1, k, x, h2, by rw [show i + 1 + k = i + (k + 1) by omega]⟩
      · intro pre l post e hne
        cases pre with
        | nil => exact absurd rfl hne
        | cons p pre =>
          simp only [List.cons_append, List.cons.injEq] at e
          obtain ⟨e0, e⟩ := e
          subst e0
          rcases b3 pre l post e with ⟨h1, h2, h3⟩ | ⟨a, p, b, h1, h2⟩
          · exact ⟨[], lineOf H i h, pre, rfl, h2, h1.symm, fun q hq => by rw [h1]; exact h3 q hq⟩
          · exact ⟨lineOf H i h :: a, p, b, by rw [h1]; rfl, h2⟩

mutual
theorem listProofs_length (H : Heap D) (fuel i h : ℕ) : (listProofs H fuel i h).map List.length = complexity H fuel h := by
  match fuel with
  | 0 => simp only [listProofs, complexity, Option.map_none]
  | n + 1 =>
    simp only [listProofs, complexity]
    split
    · rw [← listProofsList_length H n (i + 1)]
      cases listProofsList H n (i + 1) (H h).deps <;> rfl
    · rename_i hd
      have : (H h).deps = [] := List.eq_nil_of_length_eq_zero (by omega)
      rw [this]
      simp only [complexityList]
      rfl

theorem listProofsList_length (H : Heap D) (fuel i : ℕ) (ds : List ℕ) : (listProofsList H fuel i ds).map List.length = complexityList H fuel ds := by
  match ds with
  | [] => simp only [listProofsList, complexityList]; rfl
  | d :: ds =>
    simp only [listProofsList, complexityList]
    rw [← listProofs_length H fuel i, ← listProofsList_length H fuel i]
    cases listProofs H fuel i d with
    | none => rfl
    | some a =>
      cases listProofsList H fuel i ds with
      | none => rfl
      | some b => simp
end

/-- **C100** (the listing of a proof) For an acyclic dependency structure the listing ends. It begins with the hypothesis itself; a line with
a hypothesis at a level is printed exactly if the hypothesis is reached by that number of steps, and the line announces dependencies exactly
if there are some; every further line stands below a hypothesis that depends on it, with no line of a lower level in between; and the number
of lines is what `proof_complexity` returns. -/
theorem C100_listing (H : Heap D) (rank : ℕ → ℕ) (hr : Ranked H rank) (h : ℕ) : ∃ L : List Line,
    (∀ fuel, rank h < fuel → listProofs H fuel 0 h = some L ∧ complexity H fuel h = some L.length) ∧
    L.head? = some ⟨0, h, decide ((H h).deps ≠ [])⟩ ∧
    (∀ l, l ∈ L ↔ PathLen H h l.indent l.hyp ∧ (l.more = true ↔ (H l.hyp).deps ≠ [])) ∧ Nested H L := by
  obtain ⟨L, h1, h2, h3, h4⟩ := listProofs_spec H rank hr (rank h + 1) h (by omega) 0
  refine ⟨L, fun f hf => ⟨h1 f hf, by rw [← listProofs_length H f 0 h, h1 f hf]; rfl⟩, h2, fun l => ?_, h4⟩
  rw [h3]
  constructor
  · rintro ⟨k, x, hp, rfl⟩
    simp only [lineOf, zero_add, decide_eq_true_eq, iff_self, and_true]
    exact hp
  · rintro ⟨hp, hm⟩
    refine ⟨l.indent, l.hyp, hp, ?_⟩
    cases l with
    | mk i x m =>
      simp only [lineOf, zero_add, Line.mk.injEq, true_and]
      simp only at hm
      cases m with
      | true => exact (decide_eq_true (hm.mp rfl)).symm
      | false => exact (decide_eq_false (fun h => Bool.false_ne_true (hm.mpr h))).symm

/-- A hypothesis that depends on two others, one of which depends on the second, too: the second is listed twice. -/
example : listProofs (D := Unit) (fun n => ⟨[], "", (), Reference.classical, if n = 0 then [1, 2] else if n = 1 then [2] else []⟩) 5 0 0 =
    some [⟨0, 0, true⟩, ⟨1, 1, true⟩, ⟨2, 2, false⟩, ⟨1, 2, false⟩] := by
  simp [listProofs, listProofsList]

example : Ranked (D := Unit) (fun n => ⟨[], "", (), Reference.classical, if n = 0 then [1, 2] else if n = 1 then [2] else []⟩) (fun n => 2 - n) := by
  intro a b h
  unfold Dep at h
  show 2 - b < 2 - a
  simp only at h
  split_ifs at h with h1 h2
  · simp only [List.mem_cons, List.not_mem_nil, or_false] at h; omega
  · simp only [List.mem_cons, List.not_mem_nil, or_false] at h; omega
  · simp at h

/-- **C100** (the text of a line) The level can be read off as the number of leading tabs, a line ends in `:` exactly if dependencies
follow, and it contains the name, the data and the proof of the hypothesis in this order. -/
theorem C100_text (name data proof : ℕ → List Char) (l : Line) :
    ((Line.text name data proof l).takeWhile (fun c => c == '\t')).length = l.indent ∧
    ((Line.text name data proof l).getLast? = some ':' ↔ l.more = true) ∧
    ∃ a b c d, Line.text name data proof l = a ++ name l.hyp ++ b ++ data l.hyp ++ c ++ proof l.hyp ++ d := by
  refine ⟨?_, ?_, ?_⟩
  · unfold Line.text
    simp only [List.append_assoc]
    rw [List.takeWhile_append_of_pos (by intro a ha; simp [List.eq_of_mem_replicate ha])]
    have e : "- [".toList = ['-', ' ', '['] := by decide +kernel
    rw [e, List.cons_append, List.takeWhile_cons_of_neg (by decide), List.append_nil, List.length_replicate]
  · unfold Line.text
    have e1 : ". Dependencies:".toList.getLast? = some ':' := by decide +kernel
    have e2 : ".".toList.getLast? = some '.' := by decide +kernel
    cases l.more
    · simp only [Bool.false_eq_true, if_false, List.getLast?_append, e2, Option.some_or]; decide
    · simp only [if_true, List.getLast?_append, e1, Option.some_or]
  · exact ⟨List.replicate l.indent '\t' ++ "- [".toList, _, _, _, by unfold Line.text; rfl⟩

/-- The text of a line. -/
example : Line.text (fun _ => "name".toList) (fun _ => "data".toList) (fun _ => "proof".toList) ⟨2, 0, true⟩ =
    "\t\t- [name]  i.e. data. proof. Dependencies:".toList := by
  decide +kernel

example : ((Line.text (fun _ => "name".toList) (fun _ => "data".toList) (fun _ => "proof".toList) ⟨2, 0, true⟩).takeWhile (fun c => c == '\t')).length
    = 2 :=
  (C100_text _ _ _ _).1

/-! ### Kinds of references -/

/-- **C100** (kinds of references) Every reference is of exactly one of the four kinds classical, derived, conjectured and literature, and the
references that the constructors make are of the kind they are named after. -/
theorem C100_kinds_partial (r : Reference) :
    ([isClassical r, isDerived r, isConjectured r, isLiterature r].count true = 1) ∧
    (∀ y, isDerived (Reference.derived y) = true) ∧ isClassical Reference.classical = true ∧ isConjectured Reference.conjectured = true ∧
    isTrivial Reference.trivial = true := by
  refine ⟨?_, fun y => ?_, by decide +kernel, by decide +kernel, by decide +kernel⟩
  · obtain ⟨label, y⟩ := r
    unfold isLiterature isClassical isDerived isConjectured
    by_cases h1 : label = "Classical"
    · subst h1; simp
    · by_cases h2 : label = "Derived"
      · subst h2; simp
      · by_cases h3 : label = "Conjectured"
        · subst h3; simp
        · simp [h1, h2, h3]
  · rfl

example : isLiterature ⟨"Bourgain", some ((2017 : ℤ) : WithTop ℤ)⟩ = true ∧ isDerived ⟨"Bourgain", some ((2017 : ℤ) : WithTop ℤ)⟩ = false := by
  decide +kernel

/-- **C100 (counterexample).** `Reference.is_literature` (reference.py:32-33) does not know the kind `Trivial`: the reference of a trivial
result is both trivial and "literature", although it has no author. (The method is not called at present.) -/
theorem C100_literature_counterexample : isTrivial Reference.trivial = true ∧ isLiterature Reference.trivial = true := by
  decide +kernel

/-! ### Merging of pieces -/

/-- The value `v` is one that the piecewise defined function takes at `x`. -/
def Takes {F V : Type} (val : F → ℚ → V) (ps : List (F × Interval)) (x : ℚ) (v : V) : Prop := ∃ p ∈ ps, p.2.contains x = true ∧ val p.1 x = v

/-- The interval includes the lower end and not the upper end. -/
def HalfOpen (I : Interval) : Prop := I.incL = true ∧ I.incU = false ∧ I.x0 ≤ I.x1

theorem HalfOpen.contains_iff {I : Interval} (h : HalfOpen I) (x : ℚ) : I.contains x = true ↔ I.x0 ≤ x ∧ x < I.x1 := by
  unfold Interval.contains
  rw [h.1, h.2.1]
  simp

/-- The two pieces could be merged. -/
def Mergeable {F : Type} (eqF : F → F → Bool) (p q : F × Interval) : Prop := eqF p.1 q.1 = true ∧ p.2.x1 = q.2.x0

theorem make_ok {a b : ℚ} (h : a ≤ b) : Interval.make a b true false = .ok ⟨a, b, true, false⟩ := by
  unfold Interval.make
  rw [if_neg (by linarith)]

theorem simplifyGo_spec {F V : Type} (eqF : F → F → Bool) (val : F → ℚ → V) (heq : ∀ f g, eqF f g = true → ∀ x, val f x = val g x) :
    ∀ (ps : List (F × Interval)) (f : F) (left right : ℚ), left ≤ right → (∀ p ∈ ps, HalfOpen p.2) →
    ∃ out, simplifyGo eqF f left right ps = .ok out ∧ out.length ≤ ps.length + 1 ∧ (∀ p ∈ out, HalfOpen p.2) ∧
      (∃ r rest, out = (f, ⟨left, r, true, false⟩) :: rest) ∧ out.IsChain (fun p q => ¬Mergeable eqF p q) ∧
      ∀ x v, Takes val out x v ↔ (left ≤ x ∧ x < right ∧ val f x = v) ∨ Takes val ps x v
  | [], f, left, right, hlr, _ => by
    refine ⟨[(f, ⟨left, right, true, false⟩)], ?_, by simp, by simp [HalfOpen, hlr], ⟨_, _, rfl⟩, by simp, fun x v => ?_⟩
    · simp only [simplifyGo, bind, Except.bind, make_ok hlr, pure, Except.pure]
    · have : HalfOpen ⟨left, right, true, false⟩ := ⟨rfl, rfl, hlr⟩
      simp [Takes, this.contains_iff, and_assoc]
  | (g, J) :: ps, f, left, right, hlr, hps => by
    have hJ := hps (g, J) (by simp)
    have hps' : ∀ p ∈ ps, HalfOpen p.2 := fun p hp => hps p (by simp [hp])
    simp only [simplifyGo]
    by_cases hc : (eqF f g && decide (right = J.x0)) = true
    · rw [if_neg (by simp [hc])]
      simp only [Bool.and_eq_true, decide_eq_true_eq] at hc
      obtain ⟨out, h1, h2, h3, h4, h5, h6⟩ := simplifyGo_spec eqF val heq ps f left J.x1 (by rw [hc.2] at hlr; exact hlr.trans hJ.2.2) hps'
      refine ⟨out, h1, by simp only [List.length_cons]; omega, h3, h4, h5, fun x v => ?_⟩
      rw [h6]
      have hT : Takes val ((g, J) :: ps) x v ↔ (J.x0 ≤ x ∧ x < J.x1 ∧ val f x = v) ∨ Takes val ps x v := by
        unfold Takes
        simp only [List.mem_cons, exists_eq_or_imp, hJ.contains_iff, and_assoc]
        rw [heq f g hc.1]
      rw [hT, ← or_assoc]
      refine or_congr_left ⟨fun ⟨a, b, c⟩ => ?_, ?_⟩
      · by_cases hx : x < right
        · exact Or.inl ⟨a, hx, c⟩
        · push Not at hx
          exact Or.inr ⟨by rw [← hc.2]; exact hx, b, c⟩
      · rintro (⟨a, b, c⟩ | ⟨a, b, c⟩)
        · exact ⟨a, by rw [hc.2] at b; exact b.trans_le hJ.2.2, c⟩
        · exact ⟨by rw [← hc.2] at a; exact hlr.trans a, b, c⟩
    · rw [if_pos (by rw [Bool.not_eq_true] at hc; rw [hc]; rfl)]
      obtain ⟨out, h1, h2, h3, ⟨r, rest, h4⟩, h5, h6⟩ := simplifyGo_spec eqF val heq ps g J.x0 J.x1 hJ.2.2 hps'
      refine ⟨(f, ⟨left, right, true, false⟩) :: out, ?_, by simp only [List.length_cons]; omega, ?_, ⟨_, _, rfl⟩, ?_, fun x v => ?_⟩
      · simp only [bind, Except.bind, make_ok hlr, h1, pure, Except.pure]
      · intro p hp
        rcases List.mem_cons.mp hp with rfl | hp
        · exact ⟨rfl, rfl, hlr⟩
        · exact h3 p hp
      · subst h4
        refine List.isChain_cons_cons.mpr ⟨?_, h5⟩
        rintro ⟨a, b⟩
        exact hc (by simp only at a b; simp [a, b])
      · have hI : HalfOpen ⟨left, right, true, false⟩ := ⟨rfl, rfl, hlr⟩
        have e1 : Takes val ((f, ⟨left, right, true, false⟩) :: out) x v ↔ (left ≤ x ∧ x < right ∧ val f x = v) ∨ Takes val out x v := by
          unfold Takes
          simp only [List.mem_cons, exists_eq_or_imp, hI.contains_iff, and_assoc]
        have e2 : Takes val ((g, J) :: ps) x v ↔ (J.x0 ≤ x ∧ x < J.x1 ∧ val g x = v) ∨ Takes val ps x v := by
          unfold Takes
          simp only [List.mem_cons, exists_eq_or_imp, hJ.contains_iff, and_assoc]
        rw [e1, e2, h6]

/-- **C100** (merging) For pieces on intervals that include their lower and not their upper end, `simplify` returns pieces which represent
the same function, not more of them, and no two neighbours could still be merged. Other intervals are not treated (see the counterexample). -/
theorem C100_simplify_partial {F V : Type} (eqF : F → F → Bool) (val : F → ℚ → V) (heq : ∀ f g, eqF f g = true → ∀ x, val f x = val g x)
    (ps : List (F × Interval)) (hps : ∀ p ∈ ps, HalfOpen p.2) : ∃ out, simplifyPieces eqF ps = .ok out ∧ out.length ≤ ps.length ∧
      out.IsChain (fun p q => ¬Mergeable eqF p q) ∧ ∀ x v, Takes val out x v ↔ Takes val ps x v := by
  match ps, hps with
  | [], _ => exact ⟨[], rfl, le_rfl, by simp, fun x v => Iff.rfl⟩
  | (f, I) :: ps, hps =>
    have hI := hps (f, I) (by simp)
    obtain ⟨out, h1, h2, -, -, h5, h6⟩ := simplifyGo_spec eqF val heq ps f I.x0 I.x1 hI.2.2 (fun p hp => hps p (by simp [hp]))
    refine ⟨out, h1, h2, h5, fun x v => ?_⟩
    rw [h6]
    unfold Takes
    simp only [List.mem_cons, exists_eq_or_imp, hI.contains_iff, and_assoc]

/-- Three pieces, the first two of which have the same function. -/
example : simplifyPieces (fun a b : ℚ => decide (a = b)) [(1, ⟨0, 1, true, false⟩), (1, ⟨1, 2, true, false⟩), (2, ⟨2, 3, true, false⟩)] =
    .ok [(1, ⟨0, 2, true, false⟩), (2, ⟨2, 3, true, false⟩)] := by
  decide +kernel

/-- **C100 (counterexample).** `simplify` in zero_density_estimate.py (lines 730-753) is to return pieces that represent the same function,
but it forgets which ends belong to the intervals: the constant 1 on `(0, 1]` becomes the constant 1 on `[0, 1)`. (The function is not called
at present.) -/
theorem C100_simplify_counterexample : ∃ out, simplifyPieces (fun a b : ℚ => decide (a = b)) [(1, ⟨0, 1, false, true⟩)] = .ok out ∧
    Takes (fun c _ => c) [((1 : ℚ), ⟨0, 1, false, true⟩)] 1 1 ∧ (∀ v, ¬Takes (fun c _ => c) out 1 v) ∧
    Takes (fun c _ => c) out 0 1 ∧ ∀ v, ¬Takes (fun c _ => c) [((1 : ℚ), ⟨0, 1, false, true⟩)] 0 v := by
  refine ⟨[(1, ⟨0, 1, true, false⟩)], by decide +kernel, ⟨_, List.mem_singleton_self _, by decide +kernel, rfl⟩, ?_,
    ⟨_, List.mem_singleton_self _, by decide +kernel, rfl⟩, ?_⟩
  · rintro v ⟨p, hp, h, -⟩
    rw [List.mem_singleton] at hp
    subst hp
    revert h
    decide +kernel
  · rintro v ⟨p, hp, h, -⟩
    rw [List.mem_singleton] at hp
    subst hp
    revert h
    decide +kernel

/-! ### Pintz's optimisation -/

theorem contains_flags (I : Interval) (x : ℚ) : I.contains x = true ↔ (if I.incL then I.x0 ≤ x else I.x0 < x) ∧ (if I.incU then x ≤ I.x1 else x < I.x1) := by
  unfold Interval.contains
  cases I.incL <;> cases I.incU <;> simp

/-- **C100** (domain in Pintz's optimisation) For a bound `β(α) ≤ m α + c` with `c > 0` on an interval of positive `α`, the domain of the
function that is printed is exactly the set of the `σ = m + c t` where `1/t` is in the interval. Bounds with `c = 0` are reported without a
function, those with `c < 0` raise `NotImplementedError`. The function itself is wrong (see the counterexample). -/
theorem C100_pintz_domain_partial {L : Type} (b : Affine L) :
    (0 < b.c → 0 < b.dom.x0 → b.dom.x0 ≤ b.dom.x1 → ∃ f, pintzStep b = .ok (.tau0 f) ∧
      ∀ σ, f.dom.contains σ = true ↔ ∃ t, 0 < t ∧ b.dom.contains (1 / t) = true ∧ σ = b.m + b.c * t) ∧
    (b.c = 0 → pintzStep b = .ok .constant) ∧ (b.c < 0 → pintzStep b = .error .notImplemented) := by
  refine ⟨fun hc h0 h01 => ?_, fun hc => ?_, fun hc => ?_⟩
  · have h1 : 0 < b.dom.x1 := h0.trans_le h01
    have hle : b.m + b.c / b.dom.x1 ≤ b.m + b.c / b.dom.x0 := by
      have := div_le_div_of_nonneg_left hc.le h0 h01
      linarith
    unfold pintzStep Interval.make
    rw [if_pos hc, if_neg h0.ne', if_neg h1.ne', if_neg (by linarith)]
    refine ⟨_, rfl, fun σ => ?_⟩
    rw [contains_flags]
    simp only
    have key : ∀ t : ℚ, 0 < t → ((if b.dom.incL then b.dom.x0 ≤ 1 / t else b.dom.x0 < 1 / t) ↔
        (if b.dom.incL then b.m + b.c * t ≤ b.m + b.c / b.dom.x0 else b.m + b.c * t < b.m + b.c / b.dom.x0)) ∧
        ((if b.dom.incU then 1 / t ≤ b.dom.x1 else 1 / t < b.dom.x1) ↔
        (if b.dom.incU then b.m + b.c / b.dom.x1 ≤ b.m + b.c * t else b.m + b.c / b.dom.x1 < b.m + b.c * t)) := by
      intro t ht
      have a1 : b.dom.x0 ≤ 1 / t ↔ b.c * t ≤ b.c / b.dom.x0 := by
        rw [le_div_iff₀ ht, le_div_iff₀ h0, show b.c * t * b.dom.x0 = b.c * (b.dom.x0 * t) by ring]
        exact (mul_le_iff_le_one_right hc).symm
      have a2 : b.dom.x0 < 1 / t ↔ b.c * t < b.c / b.dom.x0 := by
        rw [lt_div_iff₀ ht, lt_div_iff₀ h0, show b.c * t * b.dom.x0 = b.c * (b.dom.x0 * t) by ring]
        exact (mul_lt_iff_lt_one_right hc).symm
      have a3 : 1 / t ≤ b.dom.x1 ↔ b.c / b.dom.x1 ≤ b.c * t := by
        rw [div_le_iff₀ ht, div_le_iff₀ h1, show b.c * t * b.dom.x1 = b.c * (b.dom.x1 * t) by ring]
        exact (le_mul_iff_one_le_right hc).symm
      have a4 : 1 / t < b.dom.x1 ↔ b.c / b.dom.x1 < b.c * t := by
        rw [div_lt_iff₀ ht, div_lt_iff₀ h1, show b.c * t * b.dom.x1 = b.c * (b.dom.x1 * t) by ring]
        exact (lt_mul_iff_one_lt_right hc).symm
      rw [a1, a2, a3, a4]
      simp
    constructor
    · intro hσ
      have hpos : 0 < (σ - b.m) / b.c := by
        refine div_pos ?_ hc
        have := div_pos hc h1
        rcases hσ with ⟨hσ, -⟩
        split at hσ <;> linarith
      have e : b.m + b.c * ((σ - b.m) / b.c) = σ := by field_simp; ring
      refine ⟨(σ - b.m) / b.c, hpos, ?_, e.symm⟩
      rw [contains_flags]
      have := key _ hpos
      rw [e] at this
      exact ⟨this.1.mpr hσ.2, this.2.mpr hσ.1⟩
    · rintro ⟨t, ht, hcon, rfl⟩
      rw [contains_flags] at hcon
      exact ⟨(key t ht).2.mp hcon.2, (key t ht).1.mp hcon.1⟩
  · unfold pintzStep
    rw [if_neg (by linarith), if_pos hc]
  · unfold pintzStep
    rw [if_neg (by linarith), if_neg (by linarith)]

/-- The bound that belongs to the exponent pair `(1/6, 2/3)`. -/
example : pintzStep (L := Unit) ⟨1 / 2, 1 / 6, ⟨1 / 4, 1 / 2, true, false⟩, ()⟩ = .ok (.tau0 ⟨3, -6, ⟨5 / 6, 7 / 6, false, true⟩, ()⟩) := by
  decide +kernel

/-- **C100 (counterexample).** `optimize_pintz_zero_density` (zero_density_estimate.py:842-853) is to print the function `t0(σ)` with
`m + c t0(σ) = σ`, that is `t0(σ) = σ/c - m/c`; the coefficients are exchanged, and it prints `(m/c) σ - 1/c`. For the bound of an exponent
pair `(k, l)` with `k > 0` and `l ≤ 1` (so `m = l - k`, `c = k`) the equation fails at every `σ > -1`. -/
theorem C100_pintz_counterexample {L : Type} (k l : ℚ) (hk : 0 < k) (hl : l ≤ 1) (I : Interval) (lab : L) (h0 : 0 < I.x0) (h01 : I.x0 ≤ I.x1) :
    ∃ f, pintzStep ⟨l - k, k, I, lab⟩ = .ok (.tau0 f) ∧ ∀ σ, -1 < σ → (l - k) + k * f.ev σ ≠ σ := by
  have hle : (l - k) + k / I.x1 ≤ (l - k) + k / I.x0 := by
    have := div_le_div_of_nonneg_left hk.le h0 h01
    linarith
  refine ⟨⟨(l - k) / k, -1 / k, ⟨(l - k) + k / I.x1, (l - k) + k / I.x0, I.incU, I.incL⟩, ()⟩, ?_, fun σ hσ h => ?_⟩
  · unfold pintzStep Interval.make
    simp only
    rw [if_pos hk, if_neg h0.ne', if_neg (h0.trans_le h01).ne', if_neg (by linarith)]
    rfl
  · unfold Affine.ev at h
    simp only at h
    have e : (l - k) + k * ((l - k) / k * σ + -1 / k) = (l - k) + ((l - k) * σ - 1) := by field_simp; ring
    rw [e] at h
    nlinarith [mul_pos (show (0 : ℚ) < 1 - (l - k) by linarith) (show (0 : ℚ) < σ + 1 by linarith)]

example : (0 : ℚ) < 1 / 6 ∧ (2 / 3 : ℚ) ≤ 1 ∧ (0 : ℚ) < (⟨1 / 4, 1 / 2, true, false⟩ : Interval).x0 := by
  norm_num

/-! ### The trivial zeta large value estimate -/

/-- **C100 (counterexample).** `get_trivial_zlv` (zeta_large_values.py:17-34) always raises `ValueError`: it passes a piecewise function to the
constructor of `Large_Value_Estimate`, which accepts regions only. `examples.py` (line 302) calls it. -/
theorem C100_trivial_zlv_counterexample (L : Type) : getTrivialZlv (L := L) = .error .valueError := by
  unfold getTrivialZlv
  have h : Mat.ofConstraints
    [⟨false, -1 / 2, [1, 0]⟩, ⟨false, 1, [-1, 0]⟩, ⟨false, -2, [0, 1]⟩, ⟨false, LargeValues.tauLimit, [0, -1]⟩] =
      .ok ⟨3, [⟨false, -1 / 2, [1, 0]⟩, ⟨false, 1, [-1, 0]⟩, ⟨false, -2, [0, 1]⟩, ⟨false, LargeValues.tauLimit, [0, -1]⟩]⟩ := by decide +kernel
  rw [h]
  rfl

/-- With a region the constructor succeeds. -/
example (L : Type) (r : Region L) : largeValueEstimate (.region r) = .ok r := rfl

end Helpers
end Expdb
