import Verif.Model.Printing
import Verif.Lemmas.Text
import Verif.Props.Polynomial
import Verif.Lemmas.Polytope
import Verif.Tactics

/-!
# C46: printed expressions mean what they say

The specification is a reader of linear expressions that does not look at the printing code: the text is split at spaces, the words
`+` and `-` are signs (a sign in front of a sign is applied to it), every other word is an optional sign, an optional number and an
optional name.
-/

namespace Expdb
namespace Printing

/-! ### Specification: reading -/

/-- The value of a name; no name stands for `1`. -/
def nameValue (env : Str → Option ℚ) (v : Str) : Option ℚ := if v = [] then some 1 else env v

/-- The value of a word without sign: a natural number or a fraction, followed by a name. -/
def wordAbs (env : Str → Option ℚ) (w : Str) : Option ℚ :=
  match readDigits 0 0 w with
  | (_, 0, rest) => if rest = [] then none else env rest
  | (n, _, '/' :: r) =>
    match readDigits 0 0 r with
    | (_, 0, _) => none
    | (d, _, rest) => (nameValue env rest).map (fun x => (n : ℚ) / d * x)
  | (n, _, rest) => (nameValue env rest).map (fun x => (n : ℚ) * x)

/-- The value of a word. -/
def wordValue (env : Str → Option ℚ) (w : Str) : Option ℚ :=
  if (readSign w).1 then (wordAbs env (readSign w).2).map (fun x => -x) else wordAbs env (readSign w).2

/-- Reading one word, given the sum so far and the sign for the next term. -/
def readStep (env : Str → Option ℚ) (st : ℚ × ℚ) (w : Str) : Option (ℚ × ℚ) :=
  if w = ['+'] then some st
  else if w = ['-'] then some (st.1, -st.2)
  else (wordValue env w).map (fun x => (st.1 + st.2 * x, 1))

/-- Reading a list of words. -/
def readWords (env : Str → Option ℚ) : ℚ × ℚ → List Str → Option (ℚ × ℚ)
  | st, [] => some st
  | st, w :: ws =>
    match readStep env st w with
    | none => none
    | some st' => readWords env st' ws

/-- The value of a text; the empty text is the empty sum. -/
def evalText (env : Str → Option ℚ) (s : Str) : Option ℚ :=
  if s = [] then some 0 else (readWords env (0, 1) (splitOn ' ' s)).map (·.1)

/-- The values `x` of the names `vs`. -/
def linEnv : List Str → List ℚ → Str → Option ℚ
  | v :: vs, x :: xs, w => if w = v then some x else linEnv vs xs w
  | _, _, _ => none

/-- A name: it does not start with a digit, a sign or `/`, and contains no space. -/
def IsName (v : Str) : Prop :=
  (∃ c cs, v = c :: cs ∧ digitVal? c = none ∧ c ≠ '/' ∧ c ≠ '-' ∧ c ≠ '+') ∧ ∀ c ∈ v, c ≠ ' '

/-! ### Reading printed words -/

theorem IsName.ne_nil {v : Str} (h : IsName v) : v ≠ [] := by
  obtain ⟨⟨c, cs, rfl, _⟩, _⟩ := h; simp

theorem readSign_name {v : Str} (h : IsName v) (r : Str) : readSign (v ++ r) = (false, v ++ r) := by
  obtain ⟨⟨c, cs, rfl, _, _, h2, h3⟩, _⟩ := h
  rw [List.cons_append]
  unfold readSign
  split
  · rename_i heq; cases heq; exact absurd rfl h2
  · rename_i heq; cases heq; exact absurd rfl h3
  · rfl

theorem wordAbs_name (env : Str → Option ℚ) {v : Str} (h : IsName v) : wordAbs env v = env v := by
  obtain ⟨⟨c, cs, rfl, h1, _⟩, _⟩ := h
  unfold wordAbs
  simp [readDigits, h1]

/-- Either nothing or a name. -/
def OptName (v : Str) : Prop := v = [] ∨ IsName v

theorem OptName.head {v : Str} (h : OptName v) : ∀ c cs, v = c :: cs → digitVal? c = none := by
  intro c cs hv
  rcases h with rfl | ⟨⟨c', cs', rfl, h1, _⟩, _⟩
  · cases hv
  · cases hv; exact h1

theorem OptName.not_slash {v : Str} (h : OptName v) : ∀ cs, v ≠ '/' :: cs := by
  rintro cs rfl
  rcases h with h | ⟨⟨c', cs', h, _, h2, _⟩, _⟩
  · cases h
  · cases h; exact h2 rfl

/-- Reading a printed non-negative number followed by a name. -/
theorem wordAbs_rat (env : Str → Option ℚ) {v : Str} (hv : OptName v) (q : ℚ) :
    wordAbs env ((if q.den = 1 then natChars q.num.natAbs else natChars q.num.natAbs ++ '/' :: natChars q.den) ++ v) =
      (nameValue env v).map (fun x => |q| * x) := by
  have habs : |q| = (q.num.natAbs : ℚ) / q.den := by
    have h1 : |q| = |(q.num : ℚ) / (q.den : ℚ)| := by rw [Rat.num_div_den]
    rw [h1, abs_div, Nat.abs_cast, Nat.cast_natAbs, Int.cast_abs]
  unfold wordAbs
  by_cases hd : q.den = 1
  · rw [if_pos hd]
    obtain ⟨k, hk, hread⟩ := readDigits_natChars_append q.num.natAbs v hv.head
    obtain ⟨k', rfl⟩ := Nat.exists_eq_succ_of_ne_zero hk
    rw [hread]
    have h2 : |q| = (q.num.natAbs : ℚ) := by rw [habs, hd]; simp
    rw [h2]
    have hs := hv.not_slash
    cases v with
    | nil => rfl
    | cons c cs =>
      have : c ≠ '/' := fun h => hs cs (by rw [h])
      simp only
  · rw [if_neg hd, List.append_assoc, List.cons_append]
    obtain ⟨k, hk, hread⟩ := readDigits_natChars_append q.num.natAbs ('/' :: (natChars q.den ++ v))
      (by rintro c cs h; cases h; decide)
    obtain ⟨k', rfl⟩ := Nat.exists_eq_succ_of_ne_zero hk
    obtain ⟨k2, hk2, hread2⟩ := readDigits_natChars_append q.den v hv.head
    obtain ⟨k2', rfl⟩ := Nat.exists_eq_succ_of_ne_zero hk2
    rw [hread]
    simp only [hread2, habs]

theorem wordValue_rat (env : Str → Option ℚ) {v : Str} (hv : OptName v) (q : ℚ) :
    wordValue env (ratChars q ++ v) = (nameValue env v).map (fun x => q * x) := by
  have e : readSign (ratChars q ++ v) = (decide (q.num < 0),
      (if q.den = 1 then natChars q.num.natAbs else natChars q.num.natAbs ++ '/' :: natChars q.den) ++ v) := by
    unfold ratChars
    split
    · exact readSign_intChars _ _
    · rw [List.append_assoc, readSign_intChars, ← List.append_assoc]
  unfold wordValue
  rw [e, wordAbs_rat env hv q]
  by_cases hq : q < 0
  · have h1 : q.num < 0 := Rat.num_neg.mpr hq
    rw [if_pos (by simpa using h1), abs_of_neg hq, Option.map_map]
    congr 1
    funext x
    simp
  · have h1 : ¬ q.num < 0 := fun h => hq (Rat.num_neg.mp h)
    rw [if_neg (by simpa using h1), abs_of_nonneg (not_lt.mp hq)]

theorem wordValue_name (env : Str → Option ℚ) {v : Str} (h : IsName v) : wordValue env v = env v := by
  have := readSign_name h []
  rw [List.append_nil] at this
  unfold wordValue
  rw [this]
  exact wordAbs_name env h

theorem wordValue_neg (env : Str → Option ℚ) (w : Str) :
    wordValue env ('-' :: w) = (wordAbs env w).map (fun x => -x) := by
  simp [wordValue, readSign]

/-- The printed form of a term `c * v`, `c ≠ 0`, without sign. -/
def termStr (v : Str) (c : ℚ) : Str := if c = 1 ∨ c = -1 then v else ratChars |c| ++ v

theorem ratChars_abs (c : ℚ) : ratChars |c| =
    if c.den = 1 then natChars c.num.natAbs else natChars c.num.natAbs ++ '/' :: natChars c.den := by
  have h1 : (|c|).num = |c.num| := Rat.num_abs_eq_abs_num c
  have h2 : (|c|).den = c.den := by
    rcases le_or_gt 0 c with h | h
    · rw [abs_of_nonneg h]
    · rw [abs_of_neg h, Rat.den_neg_eq_den]
  have h3 : intChars |c.num| = natChars c.num.natAbs := by
    unfold intChars
    rw [if_neg (by simp), Int.natAbs_abs]
  unfold ratChars
  rw [h2, h1, h3]

theorem wordAbs_term (env : Str → Option ℚ) {v : Str} (hv : IsName v) (c : ℚ) (x : ℚ) (hx : env v = some x) :
    wordAbs env (termStr v c) = some (|c| * x) := by
  unfold termStr
  split
  · rename_i h
    rw [wordAbs_name env hv, hx]
    rcases h with rfl | rfl <;> norm_num
  · rw [ratChars_abs, wordAbs_rat env (Or.inr hv) c]
    simp [nameValue, hv.ne_nil, hx]

theorem readSign_term {v : Str} (hv : IsName v) (c : ℚ) : readSign (termStr v c) = (false, termStr v c) := by
  unfold termStr
  split
  · simpa using readSign_name hv []
  · rw [ratChars_abs]
    split
    · exact readSign_natChars _ _
    · rw [List.append_assoc]; exact readSign_natChars _ _

theorem wordValue_term (env : Str → Option ℚ) {v : Str} (hv : IsName v) (c : ℚ) (x : ℚ) (hx : env v = some x) :
    wordValue env (termStr v c) = some (|c| * x) := by
  unfold wordValue
  rw [readSign_term hv c]
  exact wordAbs_term env hv c x hx

theorem fracChar_ne_space {c : Char} (h : fracChar c) : c ≠ ' ' := by
  rintro rfl
  have := fracChar_not_space h
  revert this; decide

theorem term_no_space {v : Str} (hv : IsName v) (c : ℚ) : ∀ d ∈ termStr v c, d ≠ ' ' := by
  intro d hd
  unfold termStr at hd
  split at hd
  · exact hv.2 d hd
  · rcases List.mem_append.mp hd with h | h
    · exact fracChar_ne_space (ratChars_fracChar _ d h)
    · exact hv.2 d h

theorem term_ne_nil {v : Str} (hv : IsName v) (c : ℚ) : termStr v c ≠ [] := by
  unfold termStr
  split
  · exact hv.ne_nil
  · simp [hv.ne_nil]

theorem term_not_sign {v : Str} (hv : IsName v) (c : ℚ) : termStr v c ≠ ['+'] ∧ termStr v c ≠ ['-'] := by
  have := readSign_term hv c
  constructor <;> intro h <;> rw [h] at this <;> simp [readSign] at this

/-! ### Reading a growing text -/

theorem splitOn_concat (sep : Char) (a b : List Char) : splitOn sep (a ++ sep :: b) = splitOn sep a ++ splitOn sep b := by
  induction a with
  | nil => simp [splitOn]
  | cons c cs ih =>
    rw [List.cons_append]
    by_cases hc : c = sep
    · simp only [splitOn, if_pos hc, ih, List.cons_append]
    · cases hs : splitOn sep cs with
      | nil => exact absurd hs (splitOn_ne_nil sep cs)
      | cons w ws =>
        simp only [splitOn, if_neg hc, ih, hs, List.cons_append]

theorem readWords_append (env : Str → Option ℚ) (st : ℚ × ℚ) (a b : List Str) :
    readWords env st (a ++ b) = (readWords env st a).bind (fun st' => readWords env st' b) := by
  induction a generalizing st with
  | nil => rfl
  | cons w ws ih =>
    simp only [List.cons_append, readWords]
    cases readStep env st w with
    | none => rfl
    | some st' => exact ih st'

/-- The text `f` is not empty, reads as `a`, and a further term may follow. -/
def Reads (env : Str → Option ℚ) (f : Str) (a : ℚ) : Prop :=
  f ≠ [] ∧ readWords env (0, 1) (splitOn ' ' f) = some (a, 1)

theorem Reads.eval {env : Str → Option ℚ} {f : Str} {a : ℚ} (h : Reads env f a) : evalText env f = some a := by
  unfold evalText
  rw [if_neg h.1, h.2]; rfl

theorem Reads.plus {env : Str → Option ℚ} {f w : Str} {a x : ℚ} (h : Reads env f a) (hw : ∀ d ∈ w, d ≠ ' ')
    (h1 : w ≠ ['+'] ∧ w ≠ ['-']) (hx : wordValue env w = some x) : Reads env (f ++ (" + ".toList ++ w)) (a + x) := by
  refine ⟨by simp [h.1], ?_⟩
  have e : f ++ (" + ".toList ++ w) = f ++ ' ' :: (['+'] ++ ' ' :: w) := rfl
  rw [e, splitOn_concat, splitOn_append ' ' ['+'] w (by decide), splitOn_no_sep ' ' w hw, readWords_append, h.2]
  simp [readWords, readStep, h1.1, h1.2, hx]

theorem Reads.minus {env : Str → Option ℚ} {f w : Str} {a x : ℚ} (h : Reads env f a) (hw : ∀ d ∈ w, d ≠ ' ')
    (h1 : w ≠ ['+'] ∧ w ≠ ['-']) (hx : wordValue env w = some x) : Reads env (f ++ (" - ".toList ++ w)) (a - x) := by
  refine ⟨by simp [h.1], ?_⟩
  have e : f ++ (" - ".toList ++ w) = f ++ ' ' :: (['-'] ++ ' ' :: w) := rfl
  rw [e, splitOn_concat, splitOn_append ' ' ['-'] w (by decide), splitOn_no_sep ' ' w hw, readWords_append, h.2]
  simp [readWords, readStep, h1.1, h1.2, hx, sub_eq_add_neg]

theorem Reads.word {env : Str → Option ℚ} {w : Str} {x : ℚ} (hn : w ≠ []) (hw : ∀ d ∈ w, d ≠ ' ')
    (h1 : w ≠ ['+'] ∧ w ≠ ['-']) (hx : wordValue env w = some x) : Reads env w x := by
  refine ⟨hn, ?_⟩
  rw [splitOn_no_sep ' ' w hw]
  simp [readWords, readStep, h1.1, h1.2, hx]

theorem ratChars_not_sign (q : ℚ) : ratChars q ≠ ['+'] ∧ ratChars q ≠ ['-'] := by
  have := parseFrac_ratChars q
  constructor <;> intro h <;> rw [h] at this <;> revert this
  · rw [show parseFrac ['+'] = .error .valueError by decide +kernel]; simp
  · rw [show parseFrac ['-'] = .error .valueError by decide +kernel]; simp

theorem Reads.const (env : Str → Option ℚ) (q : ℚ) : Reads env (ratChars q) q := by
  refine Reads.word (ratChars_ne_nil q) (fun d hd => fracChar_ne_space (ratChars_fracChar q d hd)) (ratChars_not_sign q) ?_
  have := wordValue_rat env (v := []) (Or.inl rfl) q
  rw [List.append_nil] at this
  rw [this]
  simp [nameValue]

/-- The text is empty and the value is 0, or the text reads as the value. -/
def Reads0 (env : Str → Option ℚ) (f : Str) (a : ℚ) : Prop := (f = [] ∧ a = 0) ∨ Reads env f a

theorem Reads0.eval {env : Str → Option ℚ} {f : Str} {a : ℚ} (h : Reads0 env f a) : evalText env f = some a := by
  rcases h with ⟨rfl, rfl⟩ | h
  · rfl
  · exact h.eval

theorem formatTerm_reads {env : Str → Option ℚ} {f v : Str} {a x : ℚ} (c : ℚ) (h : Reads0 env f a) (hv : IsName v)
    (hx : env v = some x) : Reads0 env (formatTerm f v c) (a + c * x) := by
  unfold formatTerm
  by_cases hc : c = 0
  · rw [if_pos hc]; subst hc; simpa using h
  · rw [if_neg hc]
    have e : ∀ g : Str, (if c = 1 ∨ c = -1 then g ++ v else g ++ (ratChars |c| ++ v)) = g ++ termStr v c := by
      intro g; unfold termStr; split <;> rfl
    simp only [e]
    right
    have hs := term_no_space hv c
    have hns := term_not_sign hv c
    have hval := wordValue_term env hv c x hx
    rcases h with ⟨rfl, rfl⟩ | h
    · by_cases hp : c > 0
      · rw [if_pos hp, if_neg (by simp), List.nil_append, zero_add]
        rw [abs_of_pos hp] at hval
        exact Reads.word (term_ne_nil hv c) hs hns hval
      · rw [if_neg hp, if_neg (by simp), List.nil_append, zero_add]
        have hneg : c < 0 := lt_of_le_of_ne (not_lt.mp hp) hc
        refine Reads.word (by simp) ?_ ?_ ?_
        · intro d hd
          rcases List.mem_append.mp hd with h | h
          · revert h; simp only [String.toList]; intro h hd'; subst hd'; revert h; decide
          · exact hs d h
        · constructor
          · intro h; cases h
          · intro h
            have h' : '-' :: termStr v c = ['-'] := h
            simp only [List.cons.injEq, true_and] at h'
            exact term_ne_nil hv c h'
        · have : wordValue env ("-".toList ++ termStr v c) = (wordAbs env (termStr v c)).map (fun x => -x) :=
            wordValue_neg env _
          rw [this, wordAbs_term env hv c x hx, abs_of_neg hneg]
          simp
    · have hl : f.length ≠ 0 := by simp [h.1]
      by_cases hp : c > 0
      · rw [if_pos hp, if_pos hl, List.append_assoc]
        rw [abs_of_pos hp] at hval
        exact h.plus hs hns hval
      · rw [if_neg hp, if_pos hl, List.append_assoc]
        have hneg : c < 0 := lt_of_le_of_ne (not_lt.mp hp) hc
        rw [abs_of_neg hneg] at hval
        have := h.minus hs hns hval
        rwa [show a - -c * x = a + c * x by ring] at this

theorem linEnv_append (us vs : List Str) (ys xs : List ℚ) (w : Str) (hl : us.length = ys.length) (h : w ∉ us) :
    linEnv (us ++ vs) (ys ++ xs) w = linEnv vs xs w := by
  induction us generalizing ys with
  | nil => cases ys with
    | nil => rfl
    | cons y ys => simp at hl
  | cons u us ih => cases ys with
    | nil => simp at hl
    | cons y ys =>
      simp only [List.cons_append, linEnv]
      rw [if_neg (fun e => h (by simp [e]))]
      exact ih ys (by simpa using hl) (fun e => h (by simp [e]))

theorem formatLoop_reads {env : Str → Option ℚ} (vs : List Str) (cs xs : List ℚ) (hl : cs.length ≤ vs.length)
    (hx : xs.length = vs.length) (hv : ∀ v ∈ vs, IsName v) (henv : ∀ i (h : i < vs.length) (h' : i < xs.length), env vs[i] = some xs[i])
    (f : Str) (a : ℚ) (h : Reads0 env f a) :
    ∃ s, formatLoop f vs cs = .ok s ∧ Reads0 env s (a + dot cs xs) := by
  induction vs generalizing cs xs f a with
  | nil =>
    cases cs with
    | nil => exact ⟨f, rfl, by simpa [dot] using h⟩
    | cons c cs => simp at hl
  | cons v vs ih =>
    cases cs with
    | nil => exact ⟨f, rfl, by simpa [dot] using h⟩
    | cons c cs =>
      cases xs with
      | nil => simp at hx
      | cons x xs =>
        have h1 := formatTerm_reads c h (hv v (by simp)) (henv 0 (by simp) (by simp))
        obtain ⟨s, h2, h3⟩ := ih cs xs (by simpa using hl) (by simpa using hx) (fun w hw => hv w (by simp [hw]))
          (fun i h h' => henv (i + 1) (by simpa using h) (by simpa using h')) _ _ h1
        refine ⟨s, h2, ?_⟩
        simp only [List.getElem_cons_zero] at h3
        rwa [dot, ← add_assoc]

theorem linEnv_get (vs : List Str) (hn : vs.Nodup) (xs : List ℚ) (i : Nat) (h : i < vs.length) (h' : i < xs.length) :
    linEnv vs xs vs[i] = some xs[i] := by
  induction vs generalizing xs i with
  | nil => simp at h
  | cons v vs ih =>
    cases xs with
    | nil => simp at h'
    | cons x xs =>
      cases i with
      | zero => simp [linEnv]
      | succ i =>
        have hi : i < vs.length := by simpa using h
        simp only [List.getElem_cons_succ, linEnv]
        rw [if_neg]
        · exact ih (List.nodup_cons.mp hn).2 xs i hi (by simpa using h')
        · intro e
          exact (List.nodup_cons.mp hn).1 (e ▸ List.getElem_mem hi)

/-- **C46** The text printed by `Str_Helper.format` for any coefficients, with distinct names, reads back as the linear expression
`c0 + c1 * x1 + … + cn * xn`, for all values of the variables. -/
theorem C46_format (c0 : ℚ) (cs : List ℚ) (vs : List Str) (hl : cs.length ≤ vs.length) (hn : vs.Nodup) (hv : ∀ v ∈ vs, IsName v) :
    ∃ s, format (c0 :: cs) vs = .ok s ∧
      ∀ xs : List ℚ, xs.length = vs.length → evalText (linEnv vs xs) s = some (c0 + dot cs xs) := by
  have h0 : ∀ env, Reads0 env (if c0 ≠ 0 then ratChars c0 else []) c0 := by
    intro env
    split
    · exact Or.inr (Reads.const env c0)
    · rename_i h; exact Or.inl ⟨rfl, not_not.mp h⟩
  have key : ∀ xs : List ℚ, xs.length = vs.length → ∃ s, format (c0 :: cs) vs = .ok s ∧
      Reads0 (linEnv vs xs) s (c0 + dot cs xs) := by
    intro xs hx
    exact formatLoop_reads vs cs xs hl hx hv (fun i h h' => linEnv_get vs hn xs i h h') _ _ (h0 _)
  obtain ⟨s, h1, _⟩ := key (List.replicate vs.length 0) (by simp)
  refine ⟨s, h1, fun xs hx => ?_⟩
  obtain ⟨s', h2, h3⟩ := key xs hx
  rw [h1] at h2
  cases h2
  exact h3.eval

example : format [-3 / 2, 0, 1, -5 / 7, -1] (names "xyzwu") = .ok "-3/2 + y - 5/7z - w".toList := by decide +kernel
example : (names "xyzwu").Nodup ∧ [(0 : ℚ), 1, -5 / 7, -1].length ≤ (names "xyzwu").length := by decide
example : ∀ v ∈ names "xyzwu", IsName v := by
  intro v hv
  simp only [names, List.mem_map] at hv
  obtain ⟨c, hc, rfl⟩ := hv
  have : c ∈ ['x', 'y', 'z', 'w', 'u'] := hc
  simp only [List.mem_cons, List.not_mem_nil, or_false] at this
  rcases this with rfl | rfl | rfl | rfl | rfl <;> exact ⟨⟨_, [], rfl, by decide⟩, by decide⟩

/-! ### Different expressions print differently -/

/-- The vector with `1` in position `i`. -/
def unitAt (n i : Nat) : List ℚ := (List.range n).map (fun j => if j = i then 1 else 0)

theorem dot_zeros (cs : List ℚ) (n : Nat) : dot cs (List.replicate n 0) = 0 := by
  induction cs generalizing n with
  | nil => cases n <;> rfl
  | cons c cs ih => cases n with
    | zero => rfl
    | succ n => rw [List.replicate_succ, dot, ih]; ring

theorem unitAt_succ_zero (n : Nat) : unitAt (n + 1) 0 = 1 :: List.replicate n 0 := by
  unfold unitAt
  rw [List.range_succ_eq_map, List.map_cons, List.map_map]
  congr 1
  apply List.ext_getElem <;> simp

theorem unitAt_succ_succ (n i : Nat) : unitAt (n + 1) (i + 1) = 0 :: unitAt n i := by
  unfold unitAt
  rw [List.range_succ_eq_map, List.map_cons, List.map_map]
  congr 1
  apply List.ext_getElem <;> simp

theorem dot_unitAt (cs : List ℚ) (n i : Nat) (h : cs.length ≤ n) : dot cs (unitAt n i) = cs.getD i 0 := by
  induction cs generalizing n i with
  | nil => cases unitAt n i <;> simp [dot]
  | cons c cs ih =>
    cases n with
    | zero => simp at h
    | succ n =>
      cases i with
      | zero => rw [unitAt_succ_zero, dot, dot_zeros]; simp
      | succ i => rw [unitAt_succ_succ, dot, ih n i (by simpa using h)]; simp

/-- Coefficients are determined by the values of the linear expression. -/
theorem coeffs_ext (n : Nat) (c0 d0 : ℚ) (cs ds : List ℚ) (hl : cs.length = ds.length) (hn : cs.length ≤ n)
    (h : ∀ xs : List ℚ, xs.length = n → c0 + dot cs xs = d0 + dot ds xs) : c0 = d0 ∧ cs = ds := by
  have h0 : c0 = d0 := by
    have := h (List.replicate n 0) (by simp)
    rwa [dot_zeros, dot_zeros, add_zero, add_zero] at this
  refine ⟨h0, List.ext_getElem hl fun i h1 h2 => ?_⟩
  have := h (unitAt n i) (by simp [unitAt])
  rw [dot_unitAt _ _ _ hn, dot_unitAt _ _ _ (by omega), h0] at this
  have := add_left_cancel this
  simpa [List.getD_eq_getElem?_getD, h1, h2] using this

/-- **C46** Two linear expressions with the same number of coefficients that are printed alike are equal. -/
theorem C46_format_injective (c0 d0 : ℚ) (cs ds : List ℚ) (vs : List Str) (hcd : cs.length = ds.length)
    (hl : cs.length ≤ vs.length) (hn : vs.Nodup) (hv : ∀ v ∈ vs, IsName v) (h : format (c0 :: cs) vs = format (d0 :: ds) vs) :
    c0 = d0 ∧ cs = ds := by
  obtain ⟨s, h1, h2⟩ := C46_format c0 cs vs hl hn hv
  obtain ⟨t, h3, h4⟩ := C46_format d0 ds vs (by omega) hn hv
  rw [h1, h3] at h
  cases h
  refine coeffs_ext vs.length c0 d0 cs ds hcd hl fun xs hx => ?_
  have := (h2 xs hx).symm.trans (h4 xs hx)
  exact Option.some.inj this

/-! ### `Constraint.__repr__` -/

/-- The relation sign and the linear expression that a printed constraint shows. -/
def readConstraint (s : Str) : Option (Kind × Str) :=
  match s.reverse with
  | '0' :: ' ' :: '=' :: '>' :: ' ' :: r => some (.greaterEquals, r.reverse)
  | '0' :: ' ' :: '>' :: ' ' :: r => some (.greater, r.reverse)
  | '0' :: ' ' :: '=' :: ' ' :: r => some (.equals, r.reverse)
  | _ => none

theorem readConstraint_suffix (f : Str) (k : Kind) : readConstraint (f ++ k.suffix) = some (k, f) := by
  unfold readConstraint
  rw [List.reverse_append]
  cases k <;> simp [Kind.suffix]

/-- The relation between the linear expression and zero that the sign stands for. -/
def Kind.Holds : Kind → ℚ → Prop
  | .greaterEquals, q => 0 ≤ q
  | .greater, q => 0 < q
  | .equals, q => q = 0

theorem constraintTerm_eq {f v : Str} {c : ℚ} (h : f.length ≠ 0 ∨ 0 ≤ c) : constraintTerm f v c = formatTerm f v c := by
  unfold constraintTerm formatTerm
  by_cases hc : c = 0
  · rw [if_pos hc, if_pos hc]
  · rw [if_neg hc, if_neg hc]
    by_cases hf : f.length ≠ 0
    · by_cases hp : c > 0
      · simp only [if_pos hf, if_pos hp]
      · simp only [if_pos hf, if_neg hp]
    · have hp : c > 0 := lt_of_le_of_ne (h.resolve_left hf) (Ne.symm hc)
      simp only [if_neg hf, if_pos hp]

/-- The first non-zero coefficient, if there is one, is positive. -/
def LeadPos (cs : List ℚ) : Prop := ∀ c cs', cs.dropWhile (· = 0) = c :: cs' → 0 < c

theorem formatTerm_ne_nil {f v : Str} {c : ℚ} (hv : v ≠ []) (h : f.length ≠ 0 ∨ c ≠ 0) : (formatTerm f v c).length ≠ 0 := by
  have hv' : v.length ≠ 0 := by simpa using hv
  unfold formatTerm
  split
  · rename_i hc; exact h.resolve_right (fun h => h hc)
  · simp only
    split <;> simp only [List.length_append] <;> omega

theorem constraintLoop_eq (f : Str) (vs : List Str) (cs : List ℚ) (hv : ∀ v ∈ vs, v ≠ []) (h : f.length ≠ 0 ∨ LeadPos cs) :
    constraintLoop f vs cs = formatLoop f vs cs := by
  induction vs generalizing f cs with
  | nil => cases cs <;> rfl
  | cons v vs ih =>
    cases cs with
    | nil => rfl
    | cons c cs =>
      have hc : f.length ≠ 0 ∨ 0 ≤ c := by
        rcases h with h | h
        · exact Or.inl h
        · right
          by_cases h0 : c = 0
          · rw [h0]
          · exact le_of_lt (h c cs (by simp [h0]))
      rw [constraintLoop, formatLoop, constraintTerm_eq hc]
      refine ih _ cs (fun w hw => hv w (by simp [hw])) ?_
      rcases h with h | h
      · exact Or.inl (formatTerm_ne_nil (hv v (by simp)) (Or.inl h))
      · by_cases h0 : c = 0
        · right
          intro d ds hd
          exact h d ds (by simpa [h0] using hd)
        · exact Or.inl (formatTerm_ne_nil (hv v (by simp)) (Or.inr h0))

theorem names_isName : ∀ v ∈ names "xyzwu", IsName v := by
  intro v hv
  simp only [names, List.mem_map] at hv
  obtain ⟨c, hc, rfl⟩ := hv
  have : c ∈ ['x', 'y', 'z', 'w', 'u'] := hc
  simp only [List.mem_cons, List.not_mem_nil, or_false] at this
  rcases this with rfl | rfl | rfl | rfl | rfl <;> exact ⟨⟨_, [], rfl, by decide⟩, by decide⟩

/-- **C46** A constraint with at most five coefficients whose constant is not zero or whose first other non-zero coefficient is
positive is printed as it is: reading the text gives its relation and its linear expression. Missing: a leading negative coefficient
(`C46_leading_minus_counterexample`) and more coefficients (`C46_many_counterexample`). -/
theorem C46_constraint_partial (c0 : ℚ) (cs : List ℚ) (kind : Kind) (hlen : cs.length ≤ 4) (hlead : c0 ≠ 0 ∨ LeadPos cs) :
    ∃ s f, constraintRepr (c0 :: cs) kind = .ok s ∧ readConstraint s = some (kind, f) ∧
      ∀ xs : List ℚ, xs.length = 5 → evalText (linEnv (names "xyzwu") xs) f = some (c0 + dot cs xs) := by
  obtain ⟨f, h1, h2⟩ := C46_format c0 cs (names "xyzwu") (by simp [names]; omega) (by decide) names_isName
  refine ⟨f ++ kind.suffix, f, ?_, readConstraint_suffix f kind, fun xs hx => h2 xs hx⟩
  unfold constraintRepr
  rw [if_neg (by simp; omega)]
  simp only
  rw [constraintLoop_eq]
  · unfold format at h1
    simp only [h1]
    rfl
  · exact fun v hv => (names_isName v hv).ne_nil
  · rcases hlead with h | h
    · rw [if_pos h]; left; simpa using ratChars_ne_nil c0
    · exact Or.inr h

example : constraintRepr [0, 0, 2, -1 / 3] .greater = .ok "2y - 1/3z > 0".toList ∧ LeadPos [0, 2, -1 / 3] := by
  refine ⟨by decide +kernel, fun c cs h => ?_⟩
  have : [(0 : ℚ), 2, -1 / 3].dropWhile (· = 0) = [2, -1 / 3] := by decide +kernel
  rw [this] at h
  cases h
  norm_num

/-- **Finding** (polytope.py:46-47): a minus sign in front of the first term is not printed, so two different constraints, which hold
for different points, are printed alike. -/
theorem C46_leading_minus_counterexample (c : ℚ) (hc : 0 < c) (cs : List ℚ) (kind : Kind) (hl : cs.length ≤ 3) :
    constraintRepr (0 :: c :: cs) kind = constraintRepr (0 :: (-c) :: cs) kind := by
  have h1 : constraintTerm [] ['x'] c = constraintTerm [] ['x'] (-c) := by
    unfold constraintTerm
    rw [if_neg hc.ne', if_neg (by linarith : ¬ (-c = 0))]
    simp only [List.length_nil, ne_eq, not_true_eq_false, if_false, abs_neg]
    have : (c = 1 ∨ c = -1) ↔ (-c = 1 ∨ -c = -1) := by
      constructor <;> rintro (h | h)
      · right; rw [h]
      · left; rw [h]; norm_num
      · right; linarith
      · left; linarith
    simp only [this]
  unfold constraintRepr
  have hx : names "xyzwu" = ['x'] :: [['y'], ['z'], ['w'], ['u']] := rfl
  rw [if_neg (by simp; omega), if_neg (by simp; omega), hx]
  simp only [constraintLoop, ne_eq, not_true_eq_false, if_false, h1]

example : constraintRepr [0, -1, 1] .greaterEquals = .ok "x + y >= 0".toList := by decide +kernel

/-- **Finding** (polytope.py:34-35): for more than five coefficients there is one name too few, and printing always raises
`IndexError`. -/
theorem C46_many_counterexample (cs : List ℚ) (kind : Kind) (h : 5 < cs.length) : constraintRepr cs kind = .error .indexError := by
  have key : ∀ (vs : List Str) (ds : List ℚ) (f : Str), vs.length < ds.length → constraintLoop f vs ds = .error .indexError := by
    intro vs
    induction vs with
    | nil =>
      intro ds f hd
      cases ds with
      | nil => simp at hd
      | cons d ds => rfl
    | cons v vs ih =>
      intro ds f hd
      cases ds with
      | nil => simp at hd
      | cons d ds => exact ih ds _ (by simpa using hd)
  cases cs with
  | nil => simp at h
  | cons c0 cs =>
    unfold constraintRepr
    rw [if_pos h]
    simp only
    rw [key]
    · rfl
    · simp only [xNames, List.length_map, List.length_range, List.length_cons] at h ⊢
      omega

example : 5 < [(1 : ℚ), 2, 3, 4, 5, 6].length := by decide

/-! ### `Affine2.to_string` -/

theorem affineTerm_reads {env : Str → Option ℚ} {f v : Str} {a x : ℚ} (c : ℚ) (h : Reads env f a) (hv : IsName v)
    (hx : env v = some x) : Reads env (affineTerm f v c) (a + c * x) := by
  have h1 := formatTerm_reads c (Or.inr h) hv hx
  have e : affineTerm f v c = formatTerm f v c := by
    have hl : f.length ≠ 0 := by simp [h.1]
    unfold affineTerm formatTerm
    by_cases h0 : c = 0
    · rw [if_pos h0, if_pos h0]
    · rw [if_neg h0, if_neg h0]
      by_cases ha : c = 1
      · subst ha; simp [h.1]
      · rw [if_neg ha]
        by_cases hb : c = -1
        · subst hb; norm_num [h.1]
        · rw [if_neg hb]
          simp only [ha, hb, or_self, if_false, if_pos hl]
          by_cases hp : c < 0
          · rw [if_pos hp, if_neg (not_lt.mpr hp.le)]; simp
          · have hpos : 0 < c := lt_of_le_of_ne (not_lt.mp hp) (Ne.symm h0)
            rw [if_neg hp, if_pos hpos, abs_of_pos hpos]; simp
  rcases h1 with ⟨h1, _⟩ | h1
  · exact absurd (by rw [h1]; rfl) (formatTerm_ne_nil (v := v) (c := c) hv.ne_nil (Or.inl (by simpa using h.1)))
  · rwa [e]

theorem affineLoop_reads {env : Str → Option ℚ} (vs : List Str) (cs xs : List ℚ) (hl : cs.length ≤ vs.length)
    (hx : xs.length = vs.length) (hv : ∀ v ∈ vs, IsName v) (henv : ∀ i (h : i < vs.length) (h' : i < xs.length), env vs[i] = some xs[i])
    (f : Str) (a : ℚ) (h : Reads env f a) : Reads env (affineLoop f vs cs) (a + dot cs xs) := by
  induction vs generalizing cs xs f a with
  | nil =>
    cases cs with
    | nil => simpa [affineLoop, dot] using h
    | cons c cs => simp at hl
  | cons v vs ih =>
    cases cs with
    | nil => simpa [affineLoop, dot] using h
    | cons c cs =>
      cases xs with
      | nil => simp at hx
      | cons x xs =>
        have h1 := affineTerm_reads c h (hv v (by simp)) (henv 0 (by simp) (by simp))
        have h3 := ih cs xs (by simpa using hl) (by simpa using hx) (fun w hw => hv w (by simp [hw]))
          (fun i h h' => henv (i + 1) (by simpa using h) (by simpa using h')) _ _ h1
        simp only [List.getElem_cons_zero] at h3
        rwa [dot, ← add_assoc]

/-- **C46** The text of an affine function of several variables reads back as the function. -/
theorem C46_affine (c0 : ℚ) (cs : List ℚ) (vs : List Str) (hl : cs.length ≤ vs.length) (hn : vs.Nodup) (hv : ∀ v ∈ vs, IsName v) :
    ∃ s, affineString (c0 :: cs) vs = .ok s ∧
      ∀ xs : List ℚ, xs.length = vs.length → evalText (linEnv vs xs) s = some (c0 + dot cs xs) := by
  refine ⟨affineLoop (ratChars c0) vs cs, ?_, fun xs hx => ?_⟩
  · unfold affineString
    simp only
    rw [if_neg (by omega)]
  · exact (affineLoop_reads vs cs xs hl hx hv (fun i h h' => linEnv_get vs hn xs i h h') _ _ (Reads.const _ c0)).eval

example : affineString [0, -1, 7 / 2] (names "xyzw") = .ok "0 - x + 7/2y".toList := by decide +kernel

/-! ### `Polynomial.to_str` -/

/-- The values of the powers `var`, `var^2`, `var^3`, … of a variable. -/
def powEnv (var : Str) (x : ℚ) (w : Str) : Option ℚ :=
  if w = var then some x
  else if w.take var.length = var then
    match w.drop var.length with
    | '^' :: r =>
      match readDigits 0 0 r with
      | (_, 0, _) => none
      | (n, _, []) => some (x ^ n)
      | _ => none
    | _ => none
  else none

theorem powEnv_pow (var : Str) (x : ℚ) (n : Nat) : powEnv var x (var ++ '^' :: natChars n) = some (x ^ n) := by
  unfold powEnv
  rw [if_neg (by simp), if_pos (by simp)]
  obtain ⟨k, hk, hread⟩ := readDigits_natChars_append n [] (by simp)
  obtain ⟨k', rfl⟩ := Nat.exists_eq_succ_of_ne_zero hk
  rw [List.append_nil] at hread
  simp [hread]

theorem pow_isName {var : Str} (h : IsName var) (n : Nat) : IsName (var ++ '^' :: natChars n) := by
  obtain ⟨⟨c, cs, rfl, h1⟩, h2⟩ := h
  refine ⟨⟨c, cs ++ '^' :: natChars n, rfl, h1⟩, fun d hd => ?_⟩
  rcases List.mem_append.mp hd with hd | hd
  · exact h2 d hd
  · rcases List.mem_cons.mp hd with rfl | hd
    · decide
    · exact fracChar_ne_space (Or.inl (natChars_digits n d hd))

/-- A printed monomial is a word with value `|c| x^deg`. -/
theorem monomialStr_reads {var : Str} (hv : IsName var) (x c : ℚ) (hc : c ≠ 0) (deg : Nat) :
    monomialStr c var deg ≠ [] ∧ (∀ d ∈ monomialStr c var deg, d ≠ ' ') ∧
      (monomialStr c var deg ≠ ['+'] ∧ monomialStr c var deg ≠ ['-']) ∧
      wordValue (powEnv var x) (monomialStr c var deg) = some (|c| * x ^ deg) := by
  unfold monomialStr
  rw [if_neg hc]
  by_cases hd : deg = 0
  · rw [if_pos hd, hd]
    refine ⟨ratChars_ne_nil _, fun d h => fracChar_ne_space (ratChars_fracChar _ d h), ratChars_not_sign _, ?_⟩
    have := wordValue_rat (powEnv var x) (v := []) (Or.inl rfl) |c|
    rw [List.append_nil] at this
    rw [this]
    simp [nameValue]
  · rw [if_neg hd]
    have hs : IsName (if deg = 1 then var else var ++ '^' :: natChars deg) ∧
        powEnv var x (if deg = 1 then var else var ++ '^' :: natChars deg) = some (x ^ deg) := by
      split
      · rename_i h; rw [h]; exact ⟨hv, by simp [powEnv]⟩
      · exact ⟨pow_isName hv deg, powEnv_pow var x deg⟩
    have e : (if |c| = 1 then (if deg = 1 then var else var ++ '^' :: natChars deg)
        else ratChars |c| ++ (if deg = 1 then var else var ++ '^' :: natChars deg)) =
        termStr (if deg = 1 then var else var ++ '^' :: natChars deg) c := by
      unfold termStr
      have : |c| = 1 ↔ (c = 1 ∨ c = -1) := abs_eq (by norm_num)
      simp only [this]
    simp only
    rw [e]
    exact ⟨term_ne_nil hs.1 c, term_no_space hs.1 c, term_not_sign hs.1 c, wordValue_term _ hs.1 c _ hs.2⟩

theorem polyWords_reads {var : Str} (hv : IsName var) (x : ℚ) (cs : List ℚ) (front : Bool) (deg : Nat) (a : ℚ) :
    readWords (powEnv var x) (a, 1) (polyWords var front deg cs) = some (a + x ^ deg * Poly.evalList x cs, 1) ∧
      ∀ w ∈ polyWords var front deg cs, ∀ d ∈ w, d ≠ ' ' := by
  induction cs generalizing front deg a with
  | nil => simp [polyWords, readWords, Poly.evalList]
  | cons c cs ih =>
    rw [polyWords]
    by_cases hc : c = 0
    · have hm : monomialStr c var deg = [] := by simp [monomialStr, hc]
      simp only [hm, List.length_nil, gt_iff_lt, lt_self_iff_false, if_false]
      obtain ⟨h1, h2⟩ := ih front (deg + 1) a
      have e : a + x ^ deg * Poly.evalList x (c :: cs) = a + x ^ (deg + 1) * Poly.evalList x cs := by
        rw [Poly.evalList, hc]; ring
      rw [e]
      have hneg : ¬ c < 0 := by rw [hc]; exact lt_irrefl _
      cases front with
      | true => simpa [hneg] using ⟨h1, h2⟩
      | false =>
        simp only [Bool.false_eq_true, if_false, if_neg hneg, List.cons_append, List.nil_append]
        refine ⟨by rw [readWords, readStep, if_pos rfl]; exact h1, ?_⟩
        intro w hw d hd
        rcases List.mem_cons.mp hw with rfl | hw
        · revert hd; simp; rintro rfl; decide
        · exact h2 w hw d hd
    · obtain ⟨m1, m2, m3, m4⟩ := monomialStr_reads hv x c hc deg
      rw [if_pos (by simpa [List.length_pos_iff] using m1)]
      obtain ⟨h1, h2⟩ := ih false (deg + 1) (a + c * x ^ deg)
      have e : a + x ^ deg * Poly.evalList x (c :: cs) = a + c * x ^ deg + x ^ (deg + 1) * Poly.evalList x cs := by
        rw [Poly.evalList]; ring
      rw [e]
      have hmem : ∀ ss : List Str, (∀ w ∈ ss, ∀ d ∈ w, d ≠ ' ') →
          ∀ w ∈ ss ++ monomialStr c var deg :: polyWords var false (deg + 1) cs, ∀ d ∈ w, d ≠ ' ' := by
        intro ss hss w hw d hd
        rcases List.mem_append.mp hw with hw | hw
        · exact hss w hw d hd
        · rcases List.mem_cons.mp hw with rfl | hw
          · exact m2 d hd
          · exact h2 w hw d hd
      have hpos : ∀ sg : ℚ, sg * |c| = c → readWords (powEnv var x) (a, sg) (monomialStr c var deg :: polyWords var false (deg + 1) cs) =
          some (a + c * x ^ deg + x ^ (deg + 1) * Poly.evalList x cs, 1) := by
        intro sg hsg
        rw [readWords, readStep, if_neg m3.1, if_neg m3.2, m4]
        simp only [Option.map_some, ← mul_assoc, hsg]
        exact h1
      by_cases hneg : c < 0
      · have hsg : -1 * |c| = c := by rw [abs_of_neg hneg]; ring
        have hr : readWords (powEnv var x) (a, 1) ([['-']] ++ monomialStr c var deg :: polyWords var false (deg + 1) cs) =
            some (a + c * x ^ deg + x ^ (deg + 1) * Poly.evalList x cs, 1) := by
          rw [List.cons_append, List.nil_append, readWords, readStep, if_neg (by decide), if_pos rfl]
          exact hpos (-1) hsg
        have hs : ∀ w ∈ [['-']], ∀ d ∈ w, d ≠ ' ' := by decide
        cases front with
        | true => simp only [if_true, if_pos hneg]; exact ⟨hr, hmem _ hs⟩
        | false => simp only [Bool.false_eq_true, if_false, if_pos hneg]; exact ⟨hr, hmem _ hs⟩
      · have hsg : 1 * |c| = c := by rw [abs_of_nonneg (not_lt.mp hneg)]; ring
        cases front with
        | true =>
          simp only [if_true, if_neg hneg]
          exact ⟨hpos 1 hsg, hmem [] (by simp)⟩
        | false =>
          simp only [Bool.false_eq_true, if_false, if_neg hneg]
          refine ⟨?_, hmem _ (by decide)⟩
          rw [List.cons_append, List.nil_append, readWords, readStep, if_pos rfl]
          exact hpos 1 hsg

theorem splitOn_join (ws : List Str) (hne : ws ≠ []) (h : ∀ w ∈ ws, ∀ d ∈ w, d ≠ ' ') :
    splitOn ' ' (ws.intersperse [' ']).flatten = ws := by
  induction ws with
  | nil => exact absurd rfl hne
  | cons w ws ih =>
    cases ws with
    | nil => simpa using splitOn_no_sep ' ' w (h w (by simp))
    | cons w' ws =>
      rw [List.intersperse_cons_cons, List.flatten_cons, List.flatten_cons, List.cons_append, List.nil_append,
        splitOn_append ' ' w _ (h w (by simp)), ih (by simp) (fun v hv => h v (by simp [hv]))]

theorem polyWords_words_ne (var : Str) (cs : List ℚ) (front : Bool) (deg : Nat) :
    ∀ w ∈ polyWords var front deg cs, w ≠ [] := by
  induction cs generalizing front deg with
  | nil => simp [polyWords]
  | cons c cs ih =>
    intro w hw
    rw [polyWords] at hw
    split at hw
    · rename_i h
      rcases List.mem_append.mp hw with hw | hw
      · split at hw
        · split at hw
          · simp at hw; rw [hw]; simp
          · simp at hw
        · simp at hw; rw [hw]; split <;> simp
      · rcases List.mem_cons.mp hw with rfl | hw
        · simpa [List.length_pos_iff] using h
        · exact ih _ _ w hw
    · rcases List.mem_append.mp hw with hw | hw
      · split at hw
        · split at hw
          · simp at hw; rw [hw]; simp
          · simp at hw
        · simp at hw; rw [hw]; split <;> simp
      · exact ih _ _ w hw

/-- **C46** The text of a polynomial reads back as the polynomial, for every value of the variable (an absent term leaves a second
sign, as in `1 + + x^2`, which is read as a sign of the next term). -/
theorem C46_polynomial (p : Poly) (var : Str) (hv : IsName var) (x : ℚ) :
    evalText (powEnv var x) (polyStr p var) = some (Poly.evalList x p.coeffs) := by
  obtain ⟨h1, h2⟩ := polyWords_reads hv x p.coeffs true 0 0
  rw [zero_add, pow_zero, one_mul] at h1
  have hne := polyWords_words_ne var p.coeffs true 0
  unfold polyStr
  cases hw : polyWords var true 0 p.coeffs with
  | nil =>
    rw [hw] at h1
    simp only [readWords, Option.some.injEq, Prod.mk.injEq, and_true] at h1
    rw [← h1]
    have := (Reads.const (powEnv var x) 0).eval
    have e : ratChars 0 = ['0'] := by decide +kernel
    rwa [e] at this
  | cons w ws =>
    rw [hw] at h1 h2 hne
    have hs := splitOn_join (w :: ws) (by simp) h2
    simp only
    unfold evalText
    rw [if_neg, hs, h1]
    · rfl
    · intro h
      rw [h] at hs
      simp only [splitOn, List.cons.injEq] at hs
      exact hne w (by simp) hs.1.symm

example : polyStr ⟨[1, 0, -5 / 2, 1]⟩ ['x'] = "1 + - 5/2x^2 + x^3".toList := by decide +kernel

/-! ### Polytopes and regions -/

theorem natChars_injective {a b : Nat} (h : natChars a = natChars b) : a = b := by
  have h1 := (readDigits_natChars a).1
  have h2 := (readDigits_natChars b).1
  rw [h] at h1
  exact h1.symm.trans h2

/-- Characters that do not interfere with the punctuation of printed lists. -/
def Plain (d : Char) : Prop := d ≠ '\'' ∧ d ≠ ']'

theorem fracChar_plain {d : Char} (h : fracChar d) : Plain d := by
  rcases h with h | h | h
  · constructor <;> rintro rfl <;> revert h <;> decide
  · subst h; exact ⟨by decide, by decide⟩
  · subst h; exact ⟨by decide, by decide⟩

/-- The names used for printing polytopes of dimension `n`: `x, y, z, w, u`, or `x_1, …, x_n` (polytope.py:151-153). -/
def polyNames (n : Nat) : List Str := if n ≤ 5 then names "xyzwu" else xNames n

theorem polyNames_spec (n : Nat) : n ≤ (polyNames n).length ∧ (polyNames n).Nodup ∧ (∀ v ∈ polyNames n, IsName v) ∧
    ∀ v ∈ polyNames n, ∀ d ∈ v, Plain d := by
  unfold polyNames
  split
  · rename_i h
    refine ⟨by simpa [names] using h, by decide, names_isName, ?_⟩
    intro v hv d hd
    simp only [names, List.mem_map] at hv
    obtain ⟨c, hc, rfl⟩ := hv
    have : c ∈ ['x', 'y', 'z', 'w', 'u'] := hc
    simp only [List.mem_cons, List.not_mem_nil, or_false] at this hd
    subst hd
    rcases this with rfl | rfl | rfl | rfl | rfl <;> exact ⟨by decide, by decide⟩
  · unfold xNames
    refine ⟨by simp, ?_, ?_, ?_⟩
    · refine List.Nodup.map ?_ List.nodup_range
      intro a b h
      have := natChars_injective (List.append_cancel_left h)
      omega
    · intro v hv
      obtain ⟨i, _, rfl⟩ := List.mem_map.mp hv
      refine ⟨⟨'x', '_' :: natChars (i + 1), rfl, by decide⟩, fun d hd => ?_⟩
      have hd' : d ∈ 'x' :: '_' :: natChars (i + 1) := hd
      rcases List.mem_cons.mp hd' with rfl | hd'
      · decide
      · rcases List.mem_cons.mp hd' with rfl | hd'
        · decide
        · exact fracChar_ne_space (Or.inl (natChars_digits _ d hd'))
    · intro v hv d hd
      obtain ⟨i, _, rfl⟩ := List.mem_map.mp hv
      have hd' : d ∈ 'x' :: '_' :: natChars (i + 1) := hd
      rcases List.mem_cons.mp hd' with rfl | hd'
      · exact ⟨by decide, by decide⟩
      · rcases List.mem_cons.mp hd' with rfl | hd'
        · exact ⟨by decide, by decide⟩
        · exact fracChar_plain (Or.inl (natChars_digits _ d hd'))

theorem formatTerm_plain {f v : Str} {c : ℚ} (hf : ∀ d ∈ f, Plain d) (hv : ∀ d ∈ v, Plain d) : ∀ d ∈ formatTerm f v c, Plain d := by
  have hlit : ∀ t : Str, t = " + ".toList ∨ t = " - ".toList ∨ t = "-".toList → ∀ d ∈ t, Plain d := by
    rintro t (rfl | rfl | rfl) d hd
    · have : d ∈ [' ', '+', ' '] := hd
      simp only [List.mem_cons, List.not_mem_nil, or_false] at this
      rcases this with rfl | rfl | rfl <;> exact ⟨by decide, by decide⟩
    · have : d ∈ [' ', '-', ' '] := hd
      simp only [List.mem_cons, List.not_mem_nil, or_false] at this
      rcases this with rfl | rfl | rfl <;> exact ⟨by decide, by decide⟩
    · have : d ∈ ['-'] := hd
      simp only [List.mem_cons, List.not_mem_nil, or_false] at this
      subst this; exact ⟨by decide, by decide⟩
  have happ : ∀ a b : Str, (∀ d ∈ a, Plain d) → (∀ d ∈ b, Plain d) → ∀ d ∈ a ++ b, Plain d := by
    intro a b ha hb d hd
    rcases List.mem_append.mp hd with h | h
    · exact ha d h
    · exact hb d h
  unfold formatTerm
  split
  · exact hf
  · have hg : ∀ d ∈ (if c > 0 then (if f.length ≠ 0 then f ++ " + ".toList else f)
        else f ++ (if f.length ≠ 0 then " - ".toList else "-".toList)), Plain d := by
      split
      · split
        · exact happ _ _ hf (hlit _ (Or.inl rfl))
        · exact hf
      · refine happ _ _ hf ?_
        split
        · exact hlit _ (Or.inr (Or.inl rfl))
        · exact hlit _ (Or.inr (Or.inr rfl))
    simp only
    split
    · exact happ _ _ hg hv
    · exact happ _ _ hg (happ _ _ (fun d hd => fracChar_plain (ratChars_fracChar _ d hd)) hv)

theorem formatLoop_plain (f : Str) (vs : List Str) (cs : List ℚ) (hf : ∀ d ∈ f, Plain d) (hv : ∀ v ∈ vs, ∀ d ∈ v, Plain d) (s : Str)
    (h : formatLoop f vs cs = .ok s) : ∀ d ∈ s, Plain d := by
  induction vs generalizing f cs with
  | nil => cases cs with
    | nil => cases h; exact hf
    | cons c cs => cases h
  | cons v vs ih => cases cs with
    | nil => cases h; exact hf
    | cons c cs =>
      exact ih _ cs (formatTerm_plain hf (hv v (by simp))) (fun w hw => hv w (by simp [hw])) h

theorem format_plain (cs : List ℚ) (vs : List Str) (hv : ∀ v ∈ vs, ∀ d ∈ v, Plain d) (s : Str) (h : format cs vs = .ok s) :
    ∀ d ∈ s, Plain d := by
  cases cs with
  | nil => cases h
  | cons c cs =>
    refine formatLoop_plain _ vs cs ?_ hv s h
    split
    · exact fun d hd => fracChar_plain (ratChars_fracChar _ d hd)
    · simp

/-- What a printed row shows: its relation sign and its linear expression. -/
def Shows (vs : List Str) (r : Row) (s : Str) : Prop :=
  ∃ f, readConstraint s = some (if r.lin then .equals else .greaterEquals, f) ∧
    ∀ xs : List ℚ, xs.length = vs.length → evalText (linEnv vs xs) f = some (r.c0 + dot r.cs xs)

theorem rowStr_spec (vs : List Str) (hn : vs.Nodup) (hv : ∀ v ∈ vs, IsName v) (hp : ∀ v ∈ vs, ∀ d ∈ v, Plain d) (r : Row)
    (hl : r.cs.length ≤ vs.length) : ∃ s, rowStr vs r = .ok s ∧ Shows vs r s ∧ ∀ d ∈ s, Plain d := by
  obtain ⟨f, h1, h2⟩ := C46_format r.c0 r.cs vs hl hn hv
  refine ⟨f ++ (if r.lin then " = 0".toList else " >= 0".toList), ?_, ⟨f, ?_, h2⟩, ?_⟩
  · unfold rowStr
    rw [h1]; rfl
  · have := readConstraint_suffix f (if r.lin then .equals else .greaterEquals)
    cases hlin : r.lin <;> rw [hlin] at this <;> exact this
  · intro d hd
    rcases List.mem_append.mp hd with hd | hd
    · exact format_plain _ vs hp f h1 d hd
    · split at hd
      · have : d ∈ [' ', '=', ' ', '0'] := hd
        simp only [List.mem_cons, List.not_mem_nil, or_false] at this
        rcases this with rfl | rfl | rfl | rfl <;> exact ⟨by decide, by decide⟩
      · have : d ∈ [' ', '>', '=', ' ', '0'] := hd
        simp only [List.mem_cons, List.not_mem_nil, or_false] at this
        rcases this with rfl | rfl | rfl | rfl | rfl <;> exact ⟨by decide, by decide⟩

theorem shows_injective (vs : List Str) (r r' : Row) (s : Str) (hl : r.cs.length ≤ vs.length) (hrr : r.cs.length = r'.cs.length)
    (h : Shows vs r s) (h' : Shows vs r' s) : r = r' := by
  obtain ⟨f, h1, h2⟩ := h
  obtain ⟨f', h1', h2'⟩ := h'
  rw [h1] at h1'
  simp only [Option.some.injEq, Prod.mk.injEq] at h1'
  obtain ⟨hk, rfl⟩ := h1'
  have hlin : r.lin = r'.lin := by
    cases ha : r.lin <;> cases hb : r'.lin <;> simp_all
  obtain ⟨e1, e2⟩ := coeffs_ext vs.length r.c0 r'.c0 r.cs r'.cs hrr hl
    (fun xs hx => Option.some.inj ((h2 xs hx).symm.trans (h2' xs hx)))
  cases r; cases r'; simp_all

theorem rowStrs_spec (vs : List Str) (hn : vs.Nodup) (hv : ∀ v ∈ vs, IsName v) (hp : ∀ v ∈ vs, ∀ d ∈ v, Plain d) (rs : List Row)
    (hl : ∀ r ∈ rs, r.cs.length ≤ vs.length) :
    ∃ ss, rowStrs vs rs = .ok ss ∧ List.Forall₂ (Shows vs) rs ss ∧ ∀ s ∈ ss, ∀ d ∈ s, Plain d := by
  induction rs with
  | nil => exact ⟨[], rfl, .nil, by simp⟩
  | cons r rs ih =>
    obtain ⟨s, h1, h2, h3⟩ := rowStr_spec vs hn hv hp r (hl r (by simp))
    obtain ⟨ss, h4, h5, h6⟩ := ih (fun r hr => hl r (by simp [hr]))
    refine ⟨s :: ss, ?_, .cons h2 h5, ?_⟩
    · rw [rowStrs, h1, h4]; rfl
    · intro t ht
      rcases List.mem_cons.mp ht with rfl | ht
      · exact h3
      · exact h6 t ht

theorem split_at {q : Char} {a a' r r' : Str} (ha : q ∉ a) (ha' : q ∉ a') (h : a ++ q :: r = a' ++ q :: r') : a = a' ∧ r = r' := by
  induction a generalizing a' with
  | nil =>
    cases a' with
    | nil => simpa using h
    | cons c a' => simp only [List.nil_append, List.cons_append, List.cons.injEq] at h; exact absurd (by simp [h.1]) ha'
  | cons c a ih =>
    cases a' with
    | nil => simp only [List.nil_append, List.cons_append, List.cons.injEq] at h; exact absurd (by simp [h.1]) ha
    | cons c' a' =>
      simp only [List.cons_append, List.cons.injEq] at h
      obtain ⟨e1, e2⟩ := ih (fun h => ha (by simp [h])) (fun h => ha' (by simp [h])) h.2
      exact ⟨by rw [h.1, e1], e2⟩

/-- What follows the first word of a joined list. -/
def more : List Str → Str
  | [] => []
  | t :: rest => ',' :: ' ' :: ((t :: rest).intersperse ", ".toList).flatten

theorem join_cons (s : Str) (rest : List Str) : ((s :: rest).intersperse ", ".toList).flatten = s ++ more rest := by
  cases rest with
  | nil => simp [more]
  | cons t rest => rw [List.intersperse_cons_cons, List.flatten_cons, List.flatten_cons]; rfl

/-- A list of words, each closed by a character that does not occur inside it, can be read back from the text joined by `", "`
and closed by another character. -/
theorem join_injective (q e : Char) (hq : e ≠ ',') (ss ss' : List Str) (h : ∀ s ∈ ss, ∃ c b, s = c :: (b ++ [q]) ∧ q ∉ b ∧ c ≠ e)
    (h' : ∀ s ∈ ss', ∃ c b, s = c :: (b ++ [q]) ∧ q ∉ b ∧ c ≠ e)
    (heq : (ss.intersperse ", ".toList).flatten ++ [e] = (ss'.intersperse ", ".toList).flatten ++ [e]) : ss = ss' := by
  induction ss generalizing ss' with
  | nil =>
    cases ss' with
    | nil => rfl
    | cons s' ss' =>
      obtain ⟨c, b, rfl, _, hc⟩ := h' s' (by simp)
      rw [join_cons] at heq
      simp only [List.intersperse_nil, List.flatten_nil, List.nil_append, List.cons_append, List.cons.injEq] at heq
      exact absurd heq.1.symm hc
  | cons s ss ih =>
    obtain ⟨c, b, rfl, hb, hc⟩ := h s (by simp)
    cases ss' with
    | nil =>
      rw [join_cons] at heq
      simp only [List.intersperse_nil, List.flatten_nil, List.nil_append, List.cons_append, List.cons.injEq] at heq
      exact absurd heq.1 hc
    | cons s' ss' =>
      obtain ⟨c', b', rfl, hb', hc'⟩ := h' s' (by simp)
      rw [join_cons, join_cons] at heq
      simp only [List.cons_append, List.append_assoc, List.cons.injEq, List.nil_append] at heq
      obtain ⟨rfl, heq⟩ := heq
      obtain ⟨rfl, e2⟩ := split_at hb hb' heq
      congr 1
      cases ss with
      | nil =>
        cases ss' with
        | nil => rfl
        | cons t' ss' => simp only [more, List.nil_append, List.cons_append, List.cons.injEq] at e2; exact absurd e2.1 hq
      | cons t ss =>
        cases ss' with
        | nil => simp only [more, List.nil_append, List.cons_append, List.cons.injEq] at e2; exact absurd e2.1.symm hq
        | cons t' ss' =>
          refine ih (t' :: ss') (fun s hs => h s (by simp [hs])) (fun s hs => h' s (by simp [hs])) ?_
          simp only [more, List.cons_append, List.cons.injEq, true_and] at e2
          exact e2

theorem listRepr_injective (ss ss' : List Str) (h : ∀ s ∈ ss, ∀ d ∈ s, Plain d) (h' : ∀ s ∈ ss', ∀ d ∈ s, Plain d)
    (heq : listRepr ss = listRepr ss') : ss = ss' := by
  have hw : ∀ (ts : List Str), (∀ s ∈ ts, ∀ d ∈ s, Plain d) → ∀ s ∈ ts.map (fun s => '\'' :: (s ++ ['\''])),
      ∃ c b, s = c :: (b ++ ['\'']) ∧ '\'' ∉ b ∧ c ≠ ']' := by
    intro ts hts s hs
    obtain ⟨t, ht, rfl⟩ := List.mem_map.mp hs
    exact ⟨'\'', t, rfl, fun hm => (hts t ht _ hm).1 rfl, by decide⟩
  unfold listRepr at heq
  simp only [List.cons_append, List.cons.injEq, true_and] at heq
  have := join_injective '\'' ']' (by decide) _ _ (hw ss h) (hw ss' h') heq
  refine List.map_injective_iff.mpr ?_ this
  intro a b hab
  simp only [List.cons.injEq, true_and] at hab
  exact List.append_cancel_right hab

theorem polytopeRepr_eq (m : Mat) : polytopeRepr m = polytopeToStr (polyNames (m.cols - 1)) m := by
  unfold polytopeRepr polyNames; split <;> rfl

theorem polytopeRepr_spec (m : Mat) (hm : m.WF) : ∃ ss, polytopeRepr m = .ok (listRepr ss) ∧
    List.Forall₂ (Shows (polyNames (m.cols - 1))) m.rows ss ∧ ∀ s ∈ ss, ∀ d ∈ s, Plain d := by
  obtain ⟨h1, h2, h3, h4⟩ := polyNames_spec (m.cols - 1)
  obtain ⟨ss, h5, h6, h7⟩ := rowStrs_spec _ h2 h3 h4 m.rows (fun r hr => by have := hm r hr; omega)
  refine ⟨ss, ?_, h6, h7⟩
  rw [polytopeRepr_eq]
  unfold polytopeToStr
  rw [if_neg (by omega), h5]
  rfl

theorem shows_list_injective (vs : List Str) (n : Nat) (hn : n ≤ vs.length) (rs rs' : List Row) (ss : List Str)
    (h : List.Forall₂ (Shows vs) rs ss) (h' : List.Forall₂ (Shows vs) rs' ss) (hl : ∀ r ∈ rs, r.cs.length = n)
    (hl' : ∀ r ∈ rs', r.cs.length = n) : rs = rs' := by
  induction h generalizing rs' with
  | nil => cases h'; rfl
  | cons h _ ih =>
    cases h' with
    | cons h' ht' =>
      rw [shows_injective vs _ _ _ (by rw [hl _ (by simp)]; exact hn) (by rw [hl _ (by simp), hl' _ (by simp)]) h h',
        ih _ ht' (fun r hr => hl r (by simp [hr])) (fun r hr => hl' r (by simp [hr]))]

/-- **C46** The text of a polytope is the list of its rows, each of which reads back as the row. -/
theorem C46_polytope (m : Mat) (hm : m.WF) :
    ∃ ss, polytopeRepr m = .ok (listRepr ss) ∧ List.Forall₂ (Shows (polyNames (m.cols - 1))) m.rows ss := by
  obtain ⟨ss, h1, h2, _⟩ := polytopeRepr_spec m hm
  exact ⟨ss, h1, h2⟩

/-- **C46** Polytopes of the same dimension that are printed alike have the same constraints, in the same order. -/
theorem C46_polytope_injective (m m' : Mat) (hm : m.WF) (hm' : m'.WF) (hc : m.cols = m'.cols)
    (h : polytopeRepr m = polytopeRepr m') : m = m' := by
  obtain ⟨ss, h1, h2, h3⟩ := polytopeRepr_spec m hm
  obtain ⟨ss', h1', h2', h3'⟩ := polytopeRepr_spec m' hm'
  rw [h1, h1'] at h
  simp only [Except.ok.injEq] at h
  have e := listRepr_injective ss ss' h3 h3' h
  subst e
  rw [← hc] at h2'
  have hr : m.rows = m'.rows := shows_list_injective _ (m.cols - 1) (polyNames_spec _).1 _ _ _ h2 h2'
    (fun r hr => by have := hm r hr; omega) (fun r hr => by have := hm' r hr; omega)
  cases m; cases m'; simp_all

theorem regionStrs_polytopes {L : Type} (ms : List Mat) (h : ∀ m ∈ ms, m.WF) :
    ∃ ss, regionStrs (L := L) none (ms.map (fun m => .polytope m none)) = .ok ss ∧
      List.Forall₂ (fun m s => polytopeRepr m = .ok s) ms ss ∧
      ∀ s ∈ ss, ∃ c b, s = c :: (b ++ [']']) ∧ ']' ∉ b ∧ c ≠ '}' := by
  induction ms with
  | nil => exact ⟨[], by rw [List.map_nil, regionStrs], .nil, by simp⟩
  | cons m ms ih =>
    obtain ⟨ss, h1, h2, h3⟩ := ih (fun m hm => h m (by simp [hm]))
    obtain ⟨ts, h4, _, h5⟩ := polytopeRepr_spec m (h m (by simp))
    refine ⟨listRepr ts :: ss, ?_, .cons h4 h2, ?_⟩
    · rw [List.map_cons, regionStrs, regionStr, h1, leafStr, h4]; rfl
    · intro s hs
      rcases List.mem_cons.mp hs with rfl | hs
      · refine ⟨'[', _, rfl, ?_, by decide⟩
        intro hm
        obtain ⟨w, hw, hm⟩ := List.mem_flatten.mp hm
        have hw' : ∀ (l : List Str) (sep w : Str), w ∈ l.intersperse sep → w ∈ l ∨ w = sep := by
          intro l sep w
          induction l with
          | nil => simp
          | cons a l ih =>
            cases l with
            | nil => intro h; left; simpa using h
            | cons b l =>
              rw [List.intersperse_cons_cons]
              intro hw
              simp only [List.mem_cons] at hw ih ⊢
              rcases hw with rfl | rfl | hw
              · simp
              · simp
              · rcases ih hw with h | h
                · exact Or.inl (Or.inr h)
                · exact Or.inr h
        rcases hw' _ _ w hw with hw | rfl
        · obtain ⟨t, ht, rfl⟩ := List.mem_map.mp hw
          simp only [List.mem_cons, List.mem_append, List.not_mem_nil, or_false] at hm
          rcases hm with hm | hm | hm
          · cases hm
          · exact (h5 t ht _ hm).2 rfl
          · cases hm
        · revert hm; decide
      · exact h3 s hs

/-- **C46** Disjoint unions of polytopes of one dimension that are printed alike consist of the same polytopes: `str(region)` can
serve to recognise duplicates. -/
theorem C46_region_injective {L : Type} (n : Nat) (ms ms' : List Mat) (h : ∀ m ∈ ms, m.WF ∧ m.cols = n)
    (h' : ∀ m ∈ ms', m.WF ∧ m.cols = n)
    (heq : regionStr (L := L) none (.disjoint (ms.map (fun m => .polytope m none))) =
      regionStr (L := L) none (.disjoint (ms'.map (fun m => .polytope m none)))) : ms = ms' := by
  obtain ⟨ss, h1, h2, h3⟩ := regionStrs_polytopes (L := L) ms (fun m hm => (h m hm).1)
  obtain ⟨ss', h1', h2', h3'⟩ := regionStrs_polytopes (L := L) ms' (fun m hm => (h' m hm).1)
  rw [regionStr, regionStr, h1, h1'] at heq
  have heq' : joinStr "Disjoint union" ss = joinStr "Disjoint union" ss' := Except.ok.inj heq
  unfold joinStr at heq'
  have heq2 := List.append_cancel_left (List.append_cancel_left heq')
  have e := join_injective ']' '}' (by decide) ss ss' h3 h3' heq2
  subst e
  clear h1 h1' h3 h3' heq heq' heq2
  induction h2 generalizing ms' with
  | nil => cases h2'; rfl
  | cons ha _ ih =>
    cases h2' with
    | cons hb ht =>
      rw [C46_polytope_injective _ _ (h _ (by simp)).1 (h' _ (by simp)).1
        ((h _ (by simp)).2.trans (h' _ (by simp)).2.symm) (ha.trans hb.symm),
        ih _ (fun m hm => h m (by simp [hm])) (fun m hm => h' m (by simp [hm])) ht]

/-- A triangle and a segment. -/
def exPoly : Mat := ⟨3, [⟨false, 0, [1, 0]⟩, ⟨false, 0, [0, 1]⟩, ⟨false, 1, [-1, -1 / 2]⟩]⟩

/-- A segment. -/
def exSeg : Mat := ⟨3, [⟨true, -1, [1, 0]⟩, ⟨false, 0, [0, 1]⟩, ⟨false, 1, [0, -1]⟩]⟩

example : (∀ m ∈ [exPoly, exSeg], m.WF ∧ m.cols = 3) := by
  simp only [List.mem_cons, List.not_mem_nil, or_false, forall_eq_or_imp, forall_eq]
  exact ⟨⟨by unfold Mat.WF; decide, rfl⟩, ⟨by unfold Mat.WF; decide, rfl⟩⟩

example : regionStr (L := Nat) none (.disjoint [.polytope exPoly none, .polytope exSeg none]) =
    .ok "Disjoint union of {['x >= 0', 'y >= 0', '1 - x - 1/2y >= 0'], ['-1 + x = 0', 'y >= 0', '1 - y >= 0']}".toList := by
  decide +kernel

/-- **Finding** (region.py:68-71): printing a complement, or any region that contains one, raises `TypeError`. -/
theorem C46_complement_counterexample {L : Type} (vs : Option (List Str)) (r : Region L) :
    regionStr vs (.complement r) = .error .typeError ∧ regionStr vs (.union [.complement r]) = .error .typeError := by
  refine ⟨by rw [regionStr], ?_⟩
  rw [regionStr, regionStrs, regionStr]
  rfl

end Printing
end Expdb
