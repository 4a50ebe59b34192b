import Verif.Model.Bib
import Verif.Lemmas.Text
import Verif.Tactics

/-!
# Property C45: reading a bibliography
-/

namespace Expdb
namespace Bib

/-! ### Specification: the text of an entry -/

/-- Text with balanced braces. -/
inductive Balanced : List Char → Prop
  | nil : Balanced []
  | char {c : Char} {v : List Char} : c ≠ '{' → c ≠ '}' → Balanced v → Balanced (c :: v)
  | braces {a b : List Char} : Balanced a → Balanced b → Balanced ('{' :: (a ++ '}' :: b))

/-- White space. -/
def Blank (s : List Char) : Prop := ∀ c ∈ s, isSpace c = true

/-- Text of a field `key = {value}` with white space after the equality sign and after the value; white space around the key
is part of `key`. -/
structure FieldText where
  key : List Char
  gap : List Char
  value : List Char
  tail : List Char

/-- The text of a field. -/
def FieldText.text (f : FieldText) : List Char := f.key ++ '=' :: (f.gap ++ '{' :: (f.value ++ '}' :: f.tail))

/-- Well-formed fields: a key without special characters which is not blank, and a non-empty value with balanced braces. -/
structure FieldText.Good (f : FieldText) : Prop where
  key : ∀ c ∈ f.key, c ≠ '{' ∧ c ≠ '}' ∧ c ≠ ',' ∧ c ≠ '='
  name : strip f.key ≠ []
  gap : Blank f.gap
  value : Balanced f.value
  nonempty : f.value ≠ []
  tail : Blank f.tail

/-- Text of an entry `typ{label, field, …, field}` with an optional comma after the last field. -/
structure EntryText where
  typ : List Char
  label : List Char
  fields : List FieldText
  trailing : Option (List Char)
  after : List Char

/-- The text of the optional comma after the last field, followed by white space. -/
def endText : Option (List Char) → List Char
  | none => []
  | some ws => ',' :: ws

/-- The text between the outer braces. -/
def EntryText.body (e : EntryText) : List Char :=
  e.label ++ (e.fields.flatMap (fun f => ',' :: f.text) ++ endText e.trailing)

/-- The text of an entry. -/
def EntryText.text (e : EntryText) : List Char := e.typ ++ '{' :: (e.body ++ '}' :: e.after)

/-- No braces. -/
def NoBrace (s : List Char) : Prop := ∀ c ∈ s, c ≠ '{' ∧ c ≠ '}'

/-- Well-formed entries. -/
structure EntryText.Good (e : EntryText) : Prop where
  typ : NoBrace e.typ
  label : ∀ c ∈ e.label, c ≠ '{' ∧ c ≠ '}' ∧ c ≠ ','
  name : strip e.label ≠ []
  fields : ∀ f ∈ e.fields, f.Good
  trailing : ∀ ws, e.trailing = some ws → Blank ws
  after : NoBrace e.after

/-! ### Extraction and splitting -/

theorem NoBrace.balanced {s : List Char} (h : NoBrace s) : Balanced s := by
  induction s with
  | nil => exact .nil
  | cons c s ih => exact .char (h c (by simp)).1 (h c (by simp)).2 (ih (fun d hd => h d (by simp [hd])))

theorem Balanced.append {a b : List Char} (ha : Balanced a) (hb : Balanced b) : Balanced (a ++ b) := by
  induction ha with
  | nil => exact hb
  | char h1 h2 _ ih => exact .char h1 h2 ih
  | braces h1 _ _ ih2 =>
    rw [List.cons_append, List.append_assoc, List.cons_append]
    exact .braces h1 ih2

theorem Blank.noBrace {s : List Char} (h : Blank s) : NoBrace s := by
  intro c hc
  have := h c hc
  refine ⟨?_, ?_⟩ <;> rintro rfl <;> revert this <;> decide

theorem extractGo_balanced {v : List Char} (hv : Balanced v) : ∀ (l : ℤ) (r : List Char), 1 ≤ l →
    extractGo l (v ++ r) = v ++ extractGo l r := by
  induction hv with
  | nil => intro l r _; rfl
  | @char c v h1 h2 _ ih =>
    intro l r hl
    rw [List.cons_append, extractGo]
    simp only [h1, h2, if_false]
    rw [if_pos hl, ih l r hl]
    rfl
  | @braces a b _ _ ih1 ih2 =>
    intro l r hl
    rw [List.cons_append, List.append_assoc, List.cons_append, extractGo]
    simp only [if_true, show ('{' = '}') = False by decide, if_false]
    rw [if_pos hl, ih1 (l + 1) _ (by omega), extractGo]
    simp only [if_true, show ('}' = '{') = False by decide, if_false, add_sub_cancel_right]
    rw [if_pos hl, ih2 l r hl]
    simp

theorem extractGo_outside {s : List Char} (h : NoBrace s) (r : List Char) : extractGo 0 (s ++ r) = extractGo 0 r := by
  induction s with
  | nil => rfl
  | cons c s ih =>
    rw [List.cons_append, extractGo]
    simp only [(h c (by simp)).1, (h c (by simp)).2, if_false]
    rw [if_neg (by norm_num)]
    exact ih (fun d hd => h d (by simp [hd]))

/-- `_extract` returns the text between the outer braces. -/
theorem extract_braced {a b c : List Char} (ha : NoBrace a) (hb : Balanced b) (hc : NoBrace c) :
    extract (a ++ '{' :: (b ++ '}' :: c)) = b := by
  unfold extract
  rw [extractGo_outside ha, extractGo]
  simp only [if_true, show ('{' = '}') = False by decide, if_false]
  rw [if_neg (by norm_num), show (0 : ℤ) + 1 = 1 by norm_num, extractGo_balanced hb 1 _ (le_refl _), extractGo]
  simp only [if_true, show ('}' = '{') = False by decide, if_false]
  rw [if_neg (by norm_num), show (1 : ℤ) - 1 = 0 by norm_num]
  have := extractGo_outside hc []
  rw [List.append_nil] at this
  rw [this]
  simp [extractGo]

theorem splitGo_balanced {d : Char} {v : List Char} (hv : Balanced v) : ∀ (l : ℤ) (chs r : List Char), 1 ≤ l →
    splitGo d l chs (v ++ r) = splitGo d l (chs ++ v) r := by
  induction hv with
  | nil => intro l chs r _; simp
  | @char c v h1 h2 _ ih =>
    intro l chs r hl
    rw [List.cons_append, splitGo]
    simp only [h1, h2, if_false]
    rw [if_neg (by omega), ih l _ r hl, List.append_assoc]
    rfl
  | @braces a b _ _ ih1 ih2 =>
    intro l chs r hl
    rw [List.cons_append, List.append_assoc, List.cons_append, splitGo]
    simp only [if_true, show ('{' = '}') = False by decide, if_false]
    rw [if_neg (by omega), ih1 (l + 1) _ _ (by omega), splitGo]
    simp only [if_true, show ('}' = '{') = False by decide, if_false, add_sub_cancel_right]
    rw [if_neg (by omega), ih2 l _ r hl]
    simp

/-- Text without the delimiter outside braces. -/
inductive Clean (d : Char) : List Char → Prop
  | nil : Clean d []
  | char {c : Char} {v : List Char} : c ≠ '{' → c ≠ '}' → c ≠ d → Clean d v → Clean d (c :: v)
  | braces {a b : List Char} : Balanced a → Clean d b → Clean d ('{' :: (a ++ '}' :: b))

theorem clean_of {d : Char} {s r : List Char} (h : ∀ c ∈ s, c ≠ '{' ∧ c ≠ '}' ∧ c ≠ d) (hr : Clean d r) : Clean d (s ++ r) := by
  induction s with
  | nil => exact hr
  | cons c s ih =>
    obtain ⟨h1, h2, h3⟩ := h c (by simp)
    exact .char h1 h2 h3 (ih (fun x hx => h x (by simp [hx])))

theorem splitGo_clean {d : Char} (hd1 : d ≠ '{') (hd2 : d ≠ '}') {v : List Char} (hv : Clean d v) : ∀ (chs r : List Char),
    splitGo d 0 chs (v ++ r) = splitGo d 0 (chs ++ v) r := by
  induction hv with
  | nil => intro chs r; simp
  | @char c v h1 h2 h3 _ ih =>
    intro chs r
    rw [List.cons_append, splitGo]
    simp only [h1, h2, if_false]
    rw [if_neg (by simp [h3]), ih, List.append_assoc]
    rfl
  | @braces a b h1 _ ih =>
    intro chs r
    rw [List.cons_append, List.append_assoc, List.cons_append, splitGo]
    simp only [if_true, show ('{' = '}') = False by decide, if_false]
    rw [if_neg (by simp [Ne.symm hd1]), show (0 : ℤ) + 1 = 1 by norm_num, splitGo_balanced h1 1 _ _ (le_refl _), splitGo]
    simp only [if_true, show ('}' = '{') = False by decide, if_false, sub_self]
    rw [if_neg (by simp [Ne.symm hd2]), ih]
    simp

/-- `_split_level` cuts at the delimiters outside braces. -/
theorem splitGo_delim {d : Char} (hd1 : d ≠ '{') (hd2 : d ≠ '}') (chs r : List Char) (h : chs ≠ []) :
    splitGo d 0 chs (d :: r) = chs :: splitGo d 0 [] r := by
  rw [splitGo]
  simp only [hd1, hd2, if_false]
  rw [if_pos ⟨trivial, trivial⟩, if_neg h]

theorem FieldText.text_ne_nil (f : FieldText) : f.text ≠ [] := by
  unfold FieldText.text
  simp

theorem Blank.not_delim {s : List Char} (h : Blank s) {d : Char} (hd : isSpace d = false) :
    ∀ c ∈ s, c ≠ '{' ∧ c ≠ '}' ∧ c ≠ d := by
  intro c hc
  refine ⟨(h.noBrace c hc).1, (h.noBrace c hc).2, ?_⟩
  rintro rfl
  rw [h c hc] at hd
  cases hd

theorem FieldText.Good.clean {f : FieldText} (h : f.Good) : Clean ',' f.text := by
  unfold FieldText.text
  refine clean_of (fun c hc => ⟨(h.key c hc).1, (h.key c hc).2.1, (h.key c hc).2.2.1⟩) (.char (by decide) (by decide) (by decide) ?_)
  refine clean_of (h.gap.not_delim (by decide)) (.braces h.value ?_)
  have := clean_of (r := []) (h.tail.not_delim (d := ',') (by decide)) .nil
  rwa [List.append_nil] at this

theorem FieldText.Good.balanced {f : FieldText} (h : f.Good) : Balanced f.text := by
  unfold FieldText.text
  refine Balanced.append (NoBrace.balanced (fun c hc => ⟨(h.key c hc).1, (h.key c hc).2.1⟩)) (.char (by decide) (by decide) ?_)
  exact Balanced.append h.gap.noBrace.balanced (.braces h.value h.tail.noBrace.balanced)

theorem EntryText.Good.balanced {e : EntryText} (h : e.Good) : Balanced e.body := by
  unfold EntryText.body
  refine Balanced.append (NoBrace.balanced (fun c hc => ⟨(h.label c hc).1, (h.label c hc).2.1⟩)) (Balanced.append ?_ ?_)
  · have hf := h.fields
    generalize e.fields = fs at hf
    induction fs with
    | nil => exact .nil
    | cons f fs ih =>
      rw [List.flatMap_cons, List.cons_append]
      exact .char (by decide) (by decide) ((hf f (by simp)).balanced.append (ih (fun g hg => hf g (by simp [hg]))))
  · have ht := h.trailing
    generalize e.trailing = t at ht
    cases t with
    | none => exact .nil
    | some ws => exact .char (by decide) (by decide) (ht ws rfl).noBrace.balanced

theorem splitGo_fields (fs : List FieldText) (hf : ∀ f ∈ fs, f.Good) (t : Option (List Char))
    (ht : ∀ ws, t = some ws → Blank ws) : ∀ chs : List Char, chs ≠ [] →
    ∃ rest : List (List Char), (∀ w ∈ rest, strip w = []) ∧
      splitGo ',' 0 chs (fs.flatMap (fun f => ',' :: f.text) ++ endText t) = chs :: (fs.map FieldText.text ++ rest) := by
  induction fs with
  | nil =>
    intro chs hne
    cases t with
    | none => exact ⟨[], by simp, by simp [endText, splitGo, hne]⟩
    | some ws =>
      have hb := ht ws rfl
      refine ⟨if ws = [] then [] else [ws], ?_, ?_⟩
      · intro w hw
        split at hw
        · simp at hw
        · rw [List.mem_singleton] at hw
          subst hw
          exact strip_of_trimmed _ _ ⟨w, [], by simp, hb, by simp, by simp, by simp⟩
      · simp only [List.flatMap_nil, List.nil_append, endText, List.map_nil]
        rw [splitGo_delim (by decide) (by decide) _ _ hne]
        have hc := clean_of (r := []) (hb.not_delim (d := ',') (by decide)) .nil
        rw [List.append_nil] at hc
        have := splitGo_clean (by decide) (by decide) hc [] []
        rw [List.append_nil, List.nil_append] at this
        rw [this, splitGo]
  | cons f fs ih =>
    intro chs hne
    obtain ⟨rest, h1, h2⟩ := ih (fun g hg => hf g (by simp [hg])) f.text f.text_ne_nil
    refine ⟨rest, h1, ?_⟩
    rw [List.flatMap_cons, List.cons_append, List.cons_append, splitGo_delim (by decide) (by decide) _ _ hne,
      List.append_assoc, splitGo_clean (by decide) (by decide) (hf f (by simp)).clean, List.nil_append, h2]
    rfl

/-! ### Fields -/

theorem last_eq {p t : List Char} {x y : Char} (h : p ++ [y] = t ++ [x]) : x = y := by
  have := congrArg List.getLast? h
  simp at this
  exact this.symm

theorem parseField_good (f : FieldText) (h : f.Good) (d : List (List Char × FieldVal)) :
    parseField d f.text = (match fieldValue (lower (strip f.key)) f.value with
      | .error x => .error x
      | .ok v => .ok (setField d (lower (strip f.key)) v)) := by
  obtain ⟨a, b, hk, ha, hb, h1, h2⟩ := trimmed_strip f.key
  set k := strip f.key with hkd
  have hkne : k ≠ [] := h.name
  obtain ⟨c, k', hck⟩ := List.exists_cons_of_ne_nil hkne
  have hstrip : strip f.text = (k ++ b) ++ '=' :: (f.gap ++ '{' :: (f.value ++ ['}'])) := by
    apply strip_of_trimmed
    refine ⟨a, f.tail, ?_, ha, h.tail, ?_, ?_⟩
    · unfold FieldText.text
      rw [hk]
      simp
    · intro x t hx
      rw [hck] at hx
      simp only [List.cons_append, List.cons.injEq] at hx
      rw [← hx.1]
      exact h1 c k' hck
    · intro x t hx
      rw [last_eq (p := k ++ b ++ '=' :: (f.gap ++ '{' :: f.value)) (t := t) (x := x) (y := '}') (by simpa using hx)]
      decide
  have hclean : Clean '=' (k ++ b) := by
    have := clean_of (d := '=') (s := k ++ b) (r := []) (by
      intro x hx
      have := h.key x (by rw [hk]; simp only [List.mem_append] at hx ⊢; tauto)
      exact ⟨this.1, this.2.1, this.2.2.2⟩) .nil
    rwa [List.append_nil] at this
  have hclean2 : Clean '=' (f.gap ++ '{' :: (f.value ++ '}' :: [])) :=
    clean_of (h.gap.not_delim (by decide)) (.braces h.value .nil)
  have hsplit : splitLevel (strip f.text) '=' = [k ++ b, f.gap ++ '{' :: (f.value ++ ['}'])] := by
    unfold splitLevel
    rw [hstrip, splitGo_clean (by decide) (by decide) hclean, List.nil_append,
      splitGo_delim (by decide) (by decide) _ _ (by simp [hkne])]
    have := splitGo_clean (by decide) (by decide) hclean2 [] []
    rw [List.append_nil, List.nil_append] at this
    rw [this, splitGo, if_neg (by simp)]
  have hs1 : strip (k ++ b) = k := strip_of_trimmed _ _ ⟨[], b, by simp, by simp, hb, h1, h2⟩
  have hs2 : strip (f.gap ++ '{' :: (f.value ++ ['}'])) = '{' :: (f.value ++ ['}']) := by
    apply strip_of_trimmed
    refine ⟨f.gap, [], by simp, h.gap, by simp, ?_, ?_⟩
    · intro x t hx
      simp only [List.cons.injEq] at hx
      rw [← hx.1]
      decide
    · intro x t hx
      rw [last_eq (p := '{' :: f.value) (t := t) (x := x) (y := '}') (by simpa using hx)]
      decide
  have hex : extract ('{' :: (f.value ++ ['}'])) = f.value := by
    have := extract_braced (a := []) (c := []) (by intro c hc; simp at hc) h.value (by intro c hc; simp at hc)
    simpa using this
  unfold parseField
  simp only
  rw [if_neg (by rw [hstrip]; simp), hsplit]
  simp only
  rw [hs1, hs2, hex, if_neg (by
    rw [not_or]
    exact ⟨by unfold lower; simpa using hkne, h.nonempty⟩)]
  cases fieldValue (lower k) f.value <;> rfl

theorem setField_get {α : Type} (d : List (List Char × α)) (k : List Char) (v : α) (k' : List Char) :
    getField (setField d k v) k' = if k' = k then some v else getField d k' := by
  induction d with
  | nil =>
    unfold setField
    simp only [getField]
    by_cases h : k' = k
    · simp [h]
    · simp [h, Ne.symm h]
  | cons e d ih =>
    unfold setField
    by_cases he : e.1 = k
    · rw [if_pos he]
      simp only [getField]
      by_cases h : k' = k
      · simp [h]
      · simp [Ne.symm h, h, he]
    · rw [if_neg he]
      simp only [getField, ih]
      by_cases h : e.1 = k'
      · simp [h, show k' ≠ k from fun h' => he (h.trans h')]
      · simp [h]


/-! ### Years and authors -/

theorem splitStrGo_skip (sep w : List Char) : ∀ (k : ℕ) (s r : List Char), s.length = k →
    splitStrGo sep w k (s ++ r) = splitStrGo sep w 0 r := by
  intro k
  induction k with
  | zero => intro s r h; rw [List.length_eq_zero_iff.mp h]; rfl
  | succ k ih =>
    intro s r h
    match s, h with
    | c :: s, h =>
      rw [List.cons_append, splitStrGo]
      exact ih s r (by simpa using h)

theorem splitStrGo_name (sep : List Char) (hsep : sep ≠ []) : ∀ (n w r : List Char), ¬ sep <:+: n ++ sep.dropLast →
    splitStrGo sep w 0 (n ++ (sep ++ r)) = (w ++ n) :: splitStrGo sep [] 0 r := by
  intro n
  induction n with
  | nil =>
    intro w r _
    obtain ⟨c, sep', rfl⟩ := List.exists_cons_of_ne_nil hsep
    rw [List.nil_append, List.cons_append, splitStrGo, if_pos (by
      rw [List.isPrefixOf_iff_prefix, ← List.cons_append]
      exact List.prefix_append _ _), splitStrGo_skip _ _ _ _ _ (by simp), List.append_nil]
  | cons c n ih =>
    intro w r h
    rw [List.cons_append, splitStrGo, if_neg, ih _ _ (fun h' => h (h'.trans (List.suffix_cons _ _).isInfix))]
    · simp
    · rw [List.isPrefixOf_iff_prefix]
      intro hp
      apply h
      refine List.IsPrefix.isInfix ?_
      have hq : (c :: n) ++ sep.dropLast <+: c :: (n ++ (sep ++ r)) := by
        rw [List.cons_append, List.cons_prefix_cons]
        refine ⟨rfl, ?_⟩
        rw [List.prefix_append_right_inj]
        exact (List.dropLast_prefix sep).trans (List.prefix_append _ _)
      refine List.prefix_of_prefix_length_le hp hq ?_
      simp only [List.length_append, List.length_cons, List.length_dropLast]
      omega

theorem splitStrGo_last (sep : List Char) : ∀ (n w : List Char), ¬ sep <:+: n →
    splitStrGo sep w 0 n = [w ++ n] := by
  intro n
  induction n with
  | nil => intro w _; simp [splitStrGo]
  | cons c n ih =>
    intro w h
    rw [splitStrGo, if_neg, ih _ (fun h' => h (h'.trans (List.suffix_cons _ _).isInfix))]
    · simp
    · rw [List.isPrefixOf_iff_prefix]
      exact fun hp => h hp.isInfix

/-- `split` undoes joining with the separator. -/
theorem splitStr_join (sep : List Char) (hsep : sep ≠ []) (ns : List (List Char)) (hne : ns ≠ [])
    (h : ∀ n ∈ ns, ¬ sep <:+: n ++ sep.dropLast) : splitStr sep (sep.intercalate ns) = ns := by
  unfold splitStr
  induction ns with
  | nil => exact absurd rfl hne
  | cons n ns ih =>
    cases ns with
    | nil =>
      rw [List.intercalate_singleton, splitStrGo_last sep _ _ (fun h' => h n (by simp)
        (h'.trans (List.prefix_append _ _).isInfix))]
      simp
    | cons m ns =>
      rw [List.intercalate_cons_cons, List.append_assoc, splitStrGo_name sep hsep _ _ _ (h n (by simp)),
        ih (by simp) (fun x hx => h x (by simp [hx]))]
      simp

/-- The surname in the text of one author: `Surname, First names` or `First names Surname`. -/
def Surname (text sur : List Char) : Prop :=
  (∃ rest, text = sur ++ ',' :: rest ∧ ',' ∉ sur) ∨
    (',' ∉ text ∧ ' ' ∉ sur ∧ (text = sur ∨ ∃ first, text = first ++ ' ' :: sur))

theorem splitOn_last (sep : Char) (a b : List Char) (hb : sep ∉ b) : (splitOn sep (a ++ sep :: b)).getLastD [] = b := by
  induction a with
  | nil =>
    rw [List.nil_append, splitOn, if_pos rfl, splitOn_no_sep sep b (fun c hc h => hb (h ▸ hc))]
    rfl
  | cons c a ih =>
    rw [List.cons_append, splitOn]
    split
    · obtain ⟨w, ws, hw⟩ := List.exists_cons_of_ne_nil (splitOn_ne_nil sep (a ++ sep :: b))
      rw [hw] at ih ⊢
      simpa using ih
    · rename_i hc
      have hlen : ∃ w v ws, splitOn sep (a ++ sep :: b) = w :: v :: ws := by
        clear ih hc
        induction a with
        | nil =>
          refine ⟨[], b, [], ?_⟩
          rw [List.nil_append, splitOn, if_pos rfl, splitOn_no_sep sep b (fun c hc h => hb (h ▸ hc))]
        | cons d a ih =>
          obtain ⟨w, v, ws, h⟩ := ih
          rw [List.cons_append, splitOn]
          split
          · exact ⟨[], w, v :: ws, by rw [h]⟩
          · exact ⟨d :: w, v, ws, by rw [h]⟩
      obtain ⟨w, v, ws, hw⟩ := hlen
      rw [hw] at ih ⊢
      simpa using ih

theorem surname_spec (text sur : List Char) (h : Surname text sur) : surname text = sur := by
  unfold surname
  rcases h with ⟨rest, rfl, h⟩ | ⟨h1, h2, h3⟩
  · rw [if_pos (by simp), splitOn_append ',' sur rest (fun c hc h' => h (h' ▸ hc))]
    rfl
  · rw [if_neg h1]
    rcases h3 with rfl | ⟨first, rfl⟩
    · rw [splitOn_no_sep ' ' text (fun c hc h' => h2 (h' ▸ hc))]
      rfl
    · exact splitOn_last ' ' first sur h2

theorem joinDash_eq (l : List (List Char)) : joinDash l = ['-', '-'].intercalate l := by
  induction l with
  | nil => rfl
  | cons a l ih =>
    cases l with
    | nil => simp [joinDash]
    | cons b l =>
      rw [joinDash, ih, List.intercalate_cons_cons]
      simp

/-- **C45** (authors) For names joined by `" and "`, none of which contains that word or has white space around it, the
stored text consists of the surnames joined by `--`. -/
theorem C45_authors (ns : List (List Char × List Char)) (hne : ns ≠ [])
    (h : ∀ n ∈ ns, Surname n.1 n.2 ∧ Trimmed n.1 n.1 ∧ ¬ andSep <:+: n.1 ++ [' ', 'a', 'n', 'd']) :
    parseAuthors (andSep.intercalate (ns.map (·.1))) = ['-', '-'].intercalate (ns.map (·.2)) := by
  unfold parseAuthors
  rw [splitStr_join andSep (by decide) _ (by simpa using hne) (by
    intro n hn
    obtain ⟨m, hm, rfl⟩ := List.mem_map.mp hn
    exact (h m hm).2.2), joinDash_eq, List.map_map]
  congr 1
  apply List.map_congr_left
  intro n hn
  simp only [Function.comp]
  rw [strip_of_trimmed _ _ (h n hn).2.1, surname_spec _ _ (h n hn).1]

/-- **C45** (years) A year followed by nothing or by `/…` is stored as an integer. -/
theorem C45_year (n : ℕ) (rest : List Char) (h : rest = [] ∨ ∃ r, rest = '/' :: r) :
    parseYear (natChars n ++ rest) = .ok (n : ℤ) := by
  have hno : ∀ c ∈ natChars n, c ≠ '/' := by
    intro c hc
    have := natChars_digits n c hc
    rintro rfl
    revert this
    decide
  have hp : parseInt (natChars n) = .ok (n : ℤ) := by
    unfold parseInt
    rw [strip_of_not_space _ (fun c hc => digit_not_space (natChars_digits n c hc))]
    have h1 := readSign_natChars n []
    obtain ⟨k, h2, h3⟩ := readDigits_natChars_append n [] (by simp)
    rw [List.append_nil] at h1 h3
    rw [h1]
    simp only
    rw [h3]
    cases k with
    | zero => exact absurd rfl h2
    | succ k => rfl
  unfold parseYear
  rcases h with rfl | ⟨r, rfl⟩
  · rw [List.append_nil, splitOn_no_sep '/' _ hno]
    exact hp
  · rw [splitOn_append '/' _ r hno]
    exact hp

/-- **C45** (years) A sign is kept: `-` followed by digits is stored as a negative integer. -/
theorem C45_year_sign (n : ℕ) : parseYear ('-' :: natChars n) = .ok (-(n : ℤ)) := by
  have hno : ∀ c ∈ '-' :: natChars n, c ≠ '/' := by
    intro c hc
    rcases List.mem_cons.mp hc with rfl | hc
    · decide
    · have := natChars_digits n c hc
      rintro rfl
      revert this
      decide
  unfold parseYear
  rw [splitOn_no_sep '/' _ hno]
  show parseInt _ = _
  unfold parseInt
  rw [strip_of_not_space _ (fun c hc => by
    rcases List.mem_cons.mp hc with rfl | hc
    · decide
    · exact digit_not_space (natChars_digits n c hc))]
  obtain ⟨k, h2, h3⟩ := readDigits_natChars_append n [] (by simp)
  rw [List.append_nil] at h3
  have h1 : readSign ('-' :: natChars n) = (true, natChars n) := by
    simp [readSign]
  rw [h1]
  simp only
  rw [h3]
  cases k with
  | zero => exact absurd rfl h2
  | succ k => rfl

example : parseYear ['-', '4', '2'] = .ok (-42) := by decide +kernel

/-! ### Entries -/

/-- What is stored for a key and the text of its value. -/
inductive Stores : List Char → List Char → FieldVal → Prop
  | year (n : ℕ) (rest : List Char) : (rest = [] ∨ ∃ r, rest = '/' :: r) →
      Stores ['y', 'e', 'a', 'r'] (natChars n ++ rest) (.int n)
  | author (ns : List (List Char × List Char)) : ns ≠ [] →
      (∀ n ∈ ns, Surname n.1 n.2 ∧ Trimmed n.1 n.1 ∧ ¬ andSep <:+: n.1 ++ [' ', 'a', 'n', 'd']) →
      Stores ['a', 'u', 't', 'h', 'o', 'r'] (andSep.intercalate (ns.map (·.1))) (.str (['-', '-'].intercalate (ns.map (·.2))))
  | other (key value : List Char) : key ≠ ['y', 'e', 'a', 'r'] → key ≠ ['a', 'u', 't', 'h', 'o', 'r'] →
      Stores key value (.str value)

theorem fieldValue_stores {key value : List Char} {v : FieldVal} (h : Stores key value v) : fieldValue key value = .ok v := by
  unfold fieldValue
  cases h with
  | year n rest h => rw [if_pos rfl, C45_year n rest h]
  | author ns hne h => rw [if_neg (by decide), if_pos rfl, C45_authors ns hne h]
  | other _ _ h1 h2 => rw [if_neg h1, if_neg h2]

/-- The name of a field: the key without surrounding white space, in lower case. -/
def FieldText.name (f : FieldText) : List Char := lower (strip f.key)

/-- The value of the last field with the name `k`. -/
def lastValue (fs : List (FieldText × FieldVal)) (k : List Char) : Option FieldVal :=
  ((fs.filter (fun p => p.1.name = k)).getLast?).map (·.2)

/-- `r` is what the entry says: its label and type, and for every name the value of the last field of that name. -/
structure Reads (e : EntryText) (vals : List FieldVal) (r : Ref) : Prop where
  label : Trimmed e.label r.label
  reftype : r.reftype = lower e.typ
  entries : ∀ k, getField r.entries k = lastValue (e.fields.zip vals) k

theorem parseFields_good (fs : List FieldText) (hf : ∀ f ∈ fs, f.Good) (vals : List FieldVal)
    (hv : List.Forall₂ (fun (f : FieldText) v => Stores f.name f.value v) fs vals) (rest : List (List Char))
    (hr : ∀ w ∈ rest, strip w = []) : ∀ d : List (List Char × FieldVal),
    ∃ out, parseFields d (fs.map FieldText.text ++ rest) = .ok out ∧
      ∀ k, getField out k = (lastValue (fs.zip vals) k).or (getField d k) := by
  induction hv with
  | nil =>
    intro d
    refine ⟨d, ?_, fun k => by simp [lastValue]⟩
    rw [List.map_nil, List.nil_append]
    induction rest with
    | nil => rfl
    | cons w rest ih =>
      unfold parseFields parseField
      simp only
      rw [if_pos (hr w (by simp))]
      exact ih (fun x hx => hr x (by simp [hx]))
  | @cons f v fs vals h1 _ ih =>
    intro d
    obtain ⟨out, h2, h3⟩ := ih (fun g hg => hf g (by simp [hg])) (setField d f.name v)
    refine ⟨out, ?_, fun k => ?_⟩
    · rw [List.map_cons, List.cons_append]
      unfold parseFields
      rw [parseField_good f (hf f (by simp)), show lower (strip f.key) = f.name from rfl, fieldValue_stores h1]
      exact h2
    · rw [h3, setField_get, List.zip_cons_cons]
      unfold lastValue
      rw [List.filter_cons]
      by_cases hk : f.name = k
      · rw [if_pos hk.symm, if_pos (by simpa using hk), List.getLast?_cons]
        cases hl : (List.filter (fun p => decide (p.1.name = k)) (fs.zip vals)).getLast? with
        | none => simp
        | some x => simp
      · rw [if_neg (Ne.symm hk), if_neg (by simpa using hk)]

/-- **C45** (one entry) The text of a well-formed entry is read back: label and type, and for every field name the stored
value of the last field of that name. -/
theorem C45_entry (e : EntryText) (he : e.Good) (vals : List FieldVal)
    (hv : List.Forall₂ (fun (f : FieldText) v => Stores f.name f.value v) e.fields vals) :
    ∃ r, parse e.text = .ok r ∧ Reads e vals r := by
  have hlne : e.label ≠ [] := by
    intro h
    apply he.name
    rw [h]
    rfl
  obtain ⟨rest, h1, h2⟩ := splitGo_fields e.fields he.fields e.trailing he.trailing e.label hlne
  obtain ⟨out, h3, h4⟩ := parseFields_good e.fields he.fields vals hv rest h1 []
  refine ⟨⟨strip e.label, lower e.typ, out⟩, ?_, ⟨trimmed_strip _, rfl, fun k => ?_⟩⟩
  · unfold parse
    have hex : extract e.text = e.body := extract_braced he.typ he.balanced he.after
    have hsplit : splitLevel e.body ',' = e.label :: (e.fields.map FieldText.text ++ rest) := by
      unfold splitLevel EntryText.body
      have hc : Clean ',' e.label := by
        have := clean_of (d := ',') (r := []) he.label .nil
        rwa [List.append_nil] at this
      rw [splitGo_clean (by decide) (by decide) hc, List.nil_append, h2]
    rw [hex, hsplit]
    simp only
    rw [h3]
    simp only
    unfold EntryText.text
    rw [splitOn_append '{' e.typ _ (fun c hc => (he.typ c hc).1)]
    rfl
  · rw [h4]
    cases lastValue (e.fields.zip vals) k <;> rfl

/-- A sample entry, with two forms of names, nested braces, upper case in keys and a date. -/
def sampleEntry : EntryText :=
  ⟨"article".toList, "sample-22".toList,
    [⟨" AUTHOR ".toList, " ".toList, "Heath-Brown, D. R. and Terence Tao".toList, []⟩,
      ⟨" title ".toList, " ".toList, "The {Z}eta function".toList, []⟩, ⟨" Year ".toList, " ".toList, "1979/80".toList, []⟩],
    some " ".toList, " ".toList⟩

def sampleValues : List FieldVal := [.str "Heath-Brown--Tao".toList, .str "The {Z}eta function".toList, .int 1979]

theorem sample_good : sampleEntry.Good := by
  have noB : ∀ s : List Char, s.all (fun c => c != '{' && c != '}') = true → NoBrace s := by
    intro s h c hc
    have := List.all_eq_true.mp h c hc
    simpa using this
  have hz : Balanced "The {Z}eta function".toList := by
    have h1 : Balanced "The ".toList := (noB _ (by decide)).balanced
    have h2 : Balanced "Z".toList := (noB _ (by decide)).balanced
    have h3 : Balanced "eta function".toList := (noB _ (by decide)).balanced
    exact h1.append (.braces h2 h3)
  refine ⟨noB _ (by decide), by decide, by decide +kernel, ?_, ?_, noB _ (by decide)⟩
  · intro f hf
    simp only [sampleEntry, List.mem_cons, List.not_mem_nil, or_false] at hf
    rcases hf with rfl | rfl | rfl
    · exact ⟨by decide, by decide +kernel, by unfold Blank; decide, (noB _ (by decide)).balanced, by decide, by unfold Blank; decide⟩
    · exact ⟨by decide, by decide +kernel, by unfold Blank; decide, hz, by decide, by unfold Blank; decide⟩
    · exact ⟨by decide, by decide +kernel, by unfold Blank; decide, (noB _ (by decide)).balanced, by decide, by unfold Blank; decide⟩
  · intro ws h
    have := Option.some.inj h
    subst this
    unfold Blank
    decide

theorem sample_stores : List.Forall₂ (fun (f : FieldText) v => Stores f.name f.value v) sampleEntry.fields sampleValues := by
  refine .cons ?_ (.cons ?_ (.cons ?_ .nil))
  · refine Stores.author [("Heath-Brown, D. R.".toList, "Heath-Brown".toList), ("Terence Tao".toList, "Tao".toList)] (by simp) ?_
    intro n hn
    simp only [List.mem_cons, List.not_mem_nil, or_false] at hn
    rcases hn with rfl | rfl
    · exact ⟨.inl ⟨" D. R.".toList, by decide, by decide⟩, trimmed_strip _, by decide⟩
    · exact ⟨.inr ⟨by decide, by decide, .inr ⟨"Terence".toList, by decide⟩⟩, trimmed_strip _, by decide⟩
  · exact Stores.other _ _ (by decide +kernel) (by decide +kernel)
  · have h := Stores.year 1979 "/80".toList (.inr ⟨"80".toList, rfl⟩)
    have e1 : natChars 1979 ++ "/80".toList = "1979/80".toList := by decide +kernel
    have e2 : FieldText.name ⟨" Year ".toList, " ".toList, "1979/80".toList, []⟩ = ['y', 'e', 'a', 'r'] := by decide +kernel
    rw [e1] at h
    rw [e2]
    exact h

example : ∃ r, parse sampleEntry.text = .ok r ∧ Reads sampleEntry sampleValues r :=
  C45_entry sampleEntry sample_good sampleValues sample_stores

example : ∃ r, parse sampleEntry.text = .ok r ∧ r.label = "sample-22".toList ∧ r.reftype = "article".toList ∧
    getField r.entries "author".toList = some (.str "Heath-Brown--Tao".toList) ∧
    getField r.entries "year".toList = some (.int 1979) ∧ getField r.entries "month".toList = none := by
  obtain ⟨r, h1, h2⟩ := C45_entry sampleEntry sample_good sampleValues sample_stores
  refine ⟨r, h1, ?_, h2.reftype, ?_, ?_, ?_⟩
  · rw [← strip_of_trimmed _ _ h2.label]; decide +kernel
  · rw [h2.entries]; decide +kernel
  · rw [h2.entries]; decide +kernel
  · rw [h2.entries]; decide +kernel

/-! ### The whole file -/

theorem splitOn_items (es : List EntryText) (h : ∀ e ∈ es, '@' ∉ e.text) : ∀ w : List Char, '@' ∉ w →
    splitOn '@' (w ++ es.flatMap (fun e => '@' :: e.text)) = w :: es.map EntryText.text := by
  induction es with
  | nil =>
    intro w hw
    simp only [List.flatMap_nil, List.append_nil, List.map_nil]
    exact splitOn_no_sep '@' w (fun c hc h' => hw (h' ▸ hc))
  | cons e es ih =>
    intro w hw
    rw [List.flatMap_cons, List.cons_append, splitOn_append '@' w _ (fun c hc h' => hw (h' ▸ hc)),
      ih (fun x hx => h x (by simp [hx])) e.text (h e (by simp))]
    rfl

/-- The last entry with the label `l`. -/
def lastEntry (es : List (EntryText × List FieldVal)) (l : List Char) : Option (EntryText × List FieldVal) :=
  (es.filter (fun p => strip p.1.label = l)).getLast?

theorem loadItems_good (es : List (EntryText × List FieldVal)) (he : ∀ p ∈ es, p.1.Good ∧
      List.Forall₂ (fun (f : FieldText) v => Stores f.name f.value v) p.1.fields p.2) : ∀ refs : List (List Char × Ref),
    ∃ out, loadItems refs (es.map (fun p => p.1.text)) = .ok out ∧ ∀ l,
      (lastEntry es l = none → getField out l = getField refs l) ∧
      ∀ p, lastEntry es l = some p → ∃ r, getField out l = some r ∧ Reads p.1 p.2 r := by
  induction es with
  | nil => intro refs; exact ⟨refs, rfl, fun l => ⟨fun _ => rfl, fun p hp => by cases hp⟩⟩
  | cons p es ih =>
    intro refs
    obtain ⟨g1, g2⟩ := he p (by simp)
    obtain ⟨r, h1, h2⟩ := C45_entry p.1 g1 p.2 g2
    have hl : r.label = strip p.1.label := (strip_of_trimmed _ _ h2.label).symm
    obtain ⟨out, h3, h4⟩ := ih (fun q hq => he q (by simp [hq])) (setField refs r.label r)
    refine ⟨out, ?_, fun l => ?_⟩
    · rw [List.map_cons]
      unfold loadItems
      rw [if_neg (by unfold EntryText.text; simp), h1]
      simp only
      rw [if_neg (by rw [hl]; exact g1.name)]
      exact h3
    · have hcons : lastEntry (p :: es) l = (lastEntry es l).or (if strip p.1.label = l then some p else none) := by
        unfold lastEntry
        rw [List.filter_cons]
        by_cases hk : strip p.1.label = l
        · rw [if_pos (by simpa using hk), List.getLast?_cons, if_pos hk]
          cases (List.filter (fun p => decide (strip p.1.label = l)) es).getLast? <;> simp
        · rw [if_neg (by simpa using hk), if_neg hk]
          simp
      rw [hcons]
      obtain ⟨a1, a2⟩ := h4 l
      cases hle : lastEntry es l with
      | some q =>
        refine ⟨fun h => by simp at h, fun p' hp' => ?_⟩
        simp only [Option.some_or, Option.some.injEq] at hp'
        subst hp'
        exact a2 q hle
      | none =>
        have := a1 hle
        rw [setField_get] at this
        by_cases hk : strip p.1.label = l
        · rw [if_pos hk]
          rw [if_pos (by rw [hl, hk])] at this
          refine ⟨fun h => by simp at h, fun p' hp' => ?_⟩
          simp only [Option.none_or, Option.some.injEq] at hp'
          subst hp'
          exact ⟨r, this, h2⟩
        · rw [if_neg hk]
          rw [if_neg (by rw [hl]; exact Ne.symm hk)] at this
          exact ⟨fun _ => this, fun p' hp' => by simp at hp'⟩

theorem joinSpace_eq (ls : List (List Char)) : joinSpace ls = List.intercalate [' '] ls := by
  induction ls with
  | nil => rfl
  | cons a ls ih =>
    cases ls with
    | nil => simp [joinSpace, List.intercalate]
    | cons b ls => rw [joinSpace, ih]; simp [List.intercalate, List.intersperse]

/-- **C45** (whole file) If the lines of the file, without white space around them and joined by spaces, are the texts of
well-formed entries, each after an `@` and without further `@`, then loading succeeds; looking up a label gives what the last
entry with this label says, and raises `ValueError` if there is none. -/
theorem C45_load (es : List (EntryText × List FieldVal)) (he : ∀ p ∈ es, p.1.Good ∧
      List.Forall₂ (fun (f : FieldText) v => Stores f.name f.value v) p.1.fields p.2)
    (hat : ∀ p ∈ es, '@' ∉ p.1.text) (lines : List (List Char))
    (hl : List.intercalate [' '] (lines.map strip) = es.flatMap (fun p => '@' :: p.1.text)) :
    ∃ refs, load [] lines = .ok refs ∧ ∀ l,
      (lastEntry es l = none → get refs l = .error .valueError) ∧
      ∀ p, lastEntry es l = some p → ∃ r, get refs l = .ok r ∧ Reads p.1 p.2 r := by
  obtain ⟨out, h1, h2⟩ := loadItems_good es he []
  refine ⟨out, ?_, fun l => ?_⟩
  · unfold load
    have := splitOn_items (es.map (·.1)) (by
      intro e hm
      obtain ⟨p, hp, rfl⟩ := List.mem_map.mp hm
      exact hat p hp) [] (by simp)
    rw [List.nil_append, List.flatMap_map, List.map_map] at this
    rw [joinSpace_eq, hl, this]
    unfold loadItems
    rw [if_pos rfl]
    exact h1
  · obtain ⟨a1, a2⟩ := h2 l
    unfold get
    refine ⟨fun h => by rw [a1 h]; rfl, fun p hp => ?_⟩
    obtain ⟨r, b1, b2⟩ := a2 p hp
    exact ⟨r, by rw [b1], b2⟩

example : ∃ refs r, load [] ["@article{sample-22, AUTHOR = {Heath-Brown, D. R. and Terence Tao},".toList,
      "  title = {The {Z}eta function}, Year = {1979/80}, }\t".toList,
      "@article{sample-22, AUTHOR = {Heath-Brown, D. R. and Terence Tao}, title = {The {Z}eta function}, Year = {1979/80}, } ".toList, []] =
      .ok refs ∧ get refs "sample-22".toList = .ok r ∧ Reads sampleEntry sampleValues r ∧
      get refs "other".toList = .error .valueError := by
  obtain ⟨refs, h1, h2⟩ := C45_load [(sampleEntry, sampleValues), (sampleEntry, sampleValues)]
    (by
      intro p hp
      simp only [List.mem_cons, List.not_mem_nil, or_false, or_self] at hp
      subst hp
      exact ⟨sample_good, sample_stores⟩)
    (by
      intro p hp
      simp only [List.mem_cons, List.not_mem_nil, or_false, or_self] at hp
      subst hp
      decide)
    ["@article{sample-22, AUTHOR = {Heath-Brown, D. R. and Terence Tao},".toList,
      "  title = {The {Z}eta function}, Year = {1979/80}, }\t".toList,
      "@article{sample-22, AUTHOR = {Heath-Brown, D. R. and Terence Tao}, title = {The {Z}eta function}, Year = {1979/80}, } ".toList, []]
    (by decide +kernel)
  obtain ⟨r, h3, h4⟩ := (h2 "sample-22".toList).2 (sampleEntry, sampleValues) (by
    have : strip sampleEntry.label = "sample-22".toList := by decide +kernel
    unfold lastEntry
    simp [this])
  refine ⟨refs, r, h1, h3, h4, (h2 _).1 ?_⟩
  have : strip sampleEntry.label = "sample-22".toList := by decide +kernel
  unfold lastEntry
  simp [this]

theorem loadItems_congr (items : List (List Char)) : ∀ (refs1 refs2 out1 : List (List Char × Ref)),
    loadItems refs1 items = .ok out1 → ∃ out2, loadItems refs2 items = .ok out2 ∧
      ∀ l, getField refs1 l = getField refs2 l → getField out1 l = getField out2 l := by
  induction items with
  | nil =>
    intro refs1 refs2 out1 h
    have := Except.ok.inj (show (Except.ok refs1 : Py _) = .ok out1 from h)
    exact ⟨refs2, rfl, fun l hl => by rw [← this]; exact hl⟩
  | cons item items ih =>
    intro refs1 refs2 out1 h
    unfold loadItems at h ⊢
    split at h
    · rename_i hi
      rw [if_pos hi]
      exact ih refs1 refs2 out1 h
    · rename_i hi
      rw [if_neg hi]
      cases hp : parse item with
      | error x => rw [hp] at h; cases h
      | ok r =>
        rw [hp] at h
        simp only at h ⊢
        obtain ⟨out2, h1, h2⟩ := ih _ (if r.label = [] then refs2 else setField refs2 r.label r) out1 h
        refine ⟨out2, h1, fun l hl => h2 l ?_⟩
        split
        · exact hl
        · rw [setField_get, setField_get, hl]

theorem loadItems_append (pre post : List (List Char)) : ∀ refs, loadItems refs (pre ++ post) =
    (match loadItems refs pre with
      | .error x => .error x
      | .ok mid => loadItems mid post) := by
  induction pre with
  | nil => intro refs; rfl
  | cons item pre ih =>
    intro refs
    rw [List.cons_append, loadItems, loadItems]
    by_cases hi : item = []
    · rw [if_pos hi, if_pos hi]
      exact ih refs
    · rw [if_neg hi, if_neg hi]
      cases parse item with
      | error x => rfl
      | ok r => exact ih _

/-- **C45** (malformed text) An item on which the parser does not raise affects only its own label. Missing: items on which
it raises, for which nothing is loaded (`C45_blank_line_counterexample`). -/
theorem C45_malformed_partial (refs out : List (List Char × Ref)) (pre post : List (List Char)) (bad : List Char)
    (h : loadItems refs (pre ++ post) = .ok out) (r : Ref) (hb : parse bad = .ok r) :
    ∃ out', loadItems refs (pre ++ bad :: post) = .ok out' ∧ ∀ l, l ≠ r.label → getField out' l = getField out l := by
  rw [loadItems_append] at h
  cases hp : loadItems refs pre with
  | error x => rw [hp] at h; cases h
  | ok mid =>
    rw [hp] at h
    simp only at h
    by_cases hbe : bad = []
    · refine ⟨out, ?_, fun l _ => rfl⟩
      rw [loadItems_append, hp]
      simp only
      unfold loadItems
      rw [if_pos hbe]
      exact h
    · obtain ⟨out2, h1, h2⟩ := loadItems_congr post mid (if r.label = [] then mid else setField mid r.label r) out h
      refine ⟨out2, ?_, fun l hl => (h2 l ?_).symm⟩
      · rw [loadItems_append, hp]
        simp only
        rw [loadItems, if_neg hbe, hb]
        exact h1
      · split
        · rfl
        · rw [setField_get, if_neg hl]

example : ∃ out', loadItems [] ["article{a,title={T}}".toList, "garbage{x, y}} {".toList, "book{b,year={1990}}".toList] = .ok out' ∧
    (getField out' "a".toList).isSome ∧ (getField out' "b".toList).isSome := by
  obtain ⟨out', h1, h2⟩ := C45_malformed_partial [] _ ["article{a,title={T}}".toList] ["book{b,year={1990}}".toList]
    "garbage{x, y}} {".toList rfl _ rfl
  exact ⟨out', h1, by rw [h2 _ (by decide +kernel)]; decide +kernel, by rw [h2 _ (by decide +kernel)]; decide +kernel⟩

/-- Finding: a file with anything before the first `@`, such as a blank first line or a comment without braces, cannot be
loaded: this text is parsed as an item, and `entries[0]` raises `IndexError`. -/
theorem C45_preamble_counterexample (refs : List (List Char × Ref)) (lines : List (List Char)) (w s : List Char) (hw : w ≠ [])
    (hn : NoBrace w) (hat : '@' ∉ w) (hl : List.intercalate [' '] (lines.map strip) = w ++ '@' :: s) : load refs lines = .error .indexError := by
  unfold load
  rw [joinSpace_eq, hl, splitOn_append '@' w s (fun c hc h' => hat (h' ▸ hc)), loadItems, if_neg hw]
  have : parse w = .error .indexError := by
    unfold parse extract
    have := extractGo_outside hn []
    rw [List.append_nil] at this
    rw [this]
    rfl
  rw [this]

example : load [] ["".toList, "@article{a, title = {T}}".toList] = .error .indexError :=
  C45_preamble_counterexample [] _ [' '] "article{a, title = {T}}".toList (by simp) (by intro c hc; simp at hc; subst hc; decide)
    (by decide) (by decide +kernel)

/-- Finding: a value without braces is dropped, so that the year of this entry is lost. -/
theorem C45_unbraced_counterexample : ∃ r, parse "article{a, year = 1990}".toList = .ok r ∧ r.entries = [] := by
  refine ⟨_, rfl, ?_⟩
  decide +kernel

/-- Finding: if the label is missing, the first field is taken for it. -/
theorem C45_no_label_counterexample : ∃ r, parse "article{, title = {T}}".toList = .ok r ∧ r.label = "title = {T}".toList := by
  refine ⟨_, rfl, ?_⟩
  decide +kernel

/-- Finding: a year which is not an integer makes loading fail. -/
theorem C45_year_counterexample : parse "article{a, year = {to appear}}".toList = .error .valueError := by
  rfl

/-! ### Searching -/

/-- The reference has an author field containing the text, and a year field with the value (where asked for). -/
def Wanted (author : Option (List Char)) (year : Option ℤ) (r : Ref) : Prop :=
  (∀ a, author = some a → ∃ p s, getField r.entries ['a', 'u', 't', 'h', 'o', 'r'] = some (.str (p ++ a ++ s))) ∧
    ∀ y, year = some y → getField r.entries ['y', 'e', 'a', 'r'] = some (.int y)

theorem matchesAuthor_true {author : Option (List Char)} {r : Ref} {b : Bool} (h : matchesAuthor author r = .ok b) :
    b = true ↔ ∀ a, author = some a → ∃ p s, getField r.entries ['a', 'u', 't', 'h', 'o', 'r'] = some (.str (p ++ a ++ s)) := by
  unfold matchesAuthor at h
  cases author with
  | none =>
    have := Except.ok.inj h
    subst this
    simp
  | some a =>
    simp only at h
    cases hg : getField r.entries ['a', 'u', 't', 'h', 'o', 'r'] with
    | none => rw [hg] at h; cases h
    | some v =>
      rw [hg] at h
      cases v with
      | int z => cases h
      | str s =>
        have := Except.ok.inj h
        subst this
        simp only [decide_eq_true_eq, Option.some.injEq, FieldVal.str.injEq]
        constructor
        · rintro ⟨p, q, rfl⟩ a' rfl
          exact ⟨p, q, rfl⟩
        · intro h'
          obtain ⟨p, q, e⟩ := h' a rfl
          exact ⟨p, q, e.symm⟩

theorem matchesYear_true {year : Option ℤ} {r : Ref} {b : Bool} (h : matchesYear year r = .ok b) :
    b = true ↔ ∀ y, year = some y → getField r.entries ['y', 'e', 'a', 'r'] = some (.int y) := by
  unfold matchesYear at h
  cases year with
  | none =>
    have := Except.ok.inj h
    subst this
    simp
  | some y =>
    simp only at h
    cases hg : getField r.entries ['y', 'e', 'a', 'r'] with
    | none => rw [hg] at h; cases h
    | some v =>
      rw [hg] at h
      cases v with
      | int z =>
        have := Except.ok.inj h
        subst this
        simp
      | str s =>
        have := Except.ok.inj h
        subst this
        simp

open Classical in
/-- **C60** (part) If `find_all` returns, it returns exactly the wanted references, in the order of loading. Missing: it
raises if a reference lacks the field asked for (`C60_counterexample`). -/
theorem C60_findAll_partial (author : Option (List Char)) (year : Option ℤ) : ∀ (refs : List (List Char × Ref)) (out : List Ref),
    findAll author year refs = .ok out → out = (refs.map (·.2)).filter (fun r => decide (Wanted author year r)) := by
  intro refs
  induction refs with
  | nil =>
    intro out h
    have := Except.ok.inj (show (Except.ok [] : Py _) = .ok out from h)
    subst this
    simp
  | cons p refs ih =>
    obtain ⟨k, r⟩ := p
    intro out h
    unfold findAll at h
    rw [List.map_cons, List.filter_cons]
    cases ha : matchesAuthor author r with
    | error x => rw [ha] at h; cases h
    | ok b =>
      have key := matchesAuthor_true ha
      rw [ha] at h
      cases b with
      | false =>
        have hw : ¬ Wanted author year r := fun hw => by simpa using key.mpr hw.1
        rw [if_neg (by simpa using hw)]
        exact ih out h
      | true =>
        simp only at h
        cases hy : matchesYear year r with
        | error x => rw [hy] at h; cases h
        | ok c =>
          have key2 := matchesYear_true hy
          rw [hy] at h
          simp only at h
          cases hf : findAll author year refs with
          | error x => rw [hf] at h; cases h
          | ok out' =>
            rw [hf] at h
            have e := Except.ok.inj h
            rw [← e, ih out' hf]
            have hw : c = true ↔ Wanted author year r := ⟨fun hc => ⟨key.mp rfl, key2.mp hc⟩, fun hw => key2.mpr hw.2⟩
            simp only [hw, decide_eq_true_eq]

/-- **C60** (part) If every reference has an author and a year, where these are asked for, `find_all` returns. -/
theorem C60_findAll_total (author : Option (List Char)) (year : Option ℤ) (refs : List (List Char × Ref))
    (h : ∀ r ∈ refs.map (·.2), (author.isSome → ∃ s, getField r.entries ['a', 'u', 't', 'h', 'o', 'r'] = some (.str s)) ∧
      (year.isSome → ∃ v, getField r.entries ['y', 'e', 'a', 'r'] = some v)) :
    ∃ out, findAll author year refs = .ok out := by
  induction refs with
  | nil => exact ⟨[], rfl⟩
  | cons p refs ih =>
    obtain ⟨k, r⟩ := p
    obtain ⟨out, h1⟩ := ih (fun q hq => h q (by simp only [List.map_cons, List.mem_cons]; exact .inr hq))
    obtain ⟨g1, g2⟩ := h r (by simp)
    have ha : ∃ b, matchesAuthor author r = .ok b := by
      unfold matchesAuthor
      cases author with
      | none => exact ⟨_, rfl⟩
      | some a =>
        obtain ⟨s, hs⟩ := g1 rfl
        simp only
        rw [hs]
        exact ⟨_, rfl⟩
    have hy : ∃ b, matchesYear year r = .ok b := by
      unfold matchesYear
      cases year with
      | none => exact ⟨_, rfl⟩
      | some a =>
        obtain ⟨s, hs⟩ := g2 rfl
        simp only
        rw [hs]
        cases s <;> exact ⟨_, rfl⟩
    obtain ⟨b, hb⟩ := ha
    obtain ⟨c, hc⟩ := hy
    unfold findAll
    rw [hb, hc, h1]
    cases b <;> exact ⟨_, rfl⟩

def tao : Ref := ⟨"t".toList, "article".toList, [("author".toList, .str "Tao--Teräväinen".toList), ("year".toList, .int 2019)]⟩
def ivic : Ref := ⟨"i".toList, "book".toList, [("author".toList, .str "Ivic".toList), ("year".toList, .int 1985)]⟩

example : ∃ out, findAll (some "Tao".toList) (some 2019) [("t".toList, tao), ("i".toList, ivic)] = .ok out :=
  C60_findAll_total _ _ _ (by
    intro r hr
    simp only [List.map_cons, List.map_nil, List.mem_cons, List.not_mem_nil, or_false] at hr
    rcases hr with rfl | rfl
    · exact ⟨fun _ => ⟨"Tao--Teräväinen".toList, by decide +kernel⟩, fun _ => ⟨.int 2019, by decide +kernel⟩⟩
    · exact ⟨fun _ => ⟨"Ivic".toList, by decide +kernel⟩, fun _ => ⟨.int 1985, by decide +kernel⟩⟩)

example : findAll (some "Tao".toList) (some 2019) [("t".toList, tao), ("i".toList, ivic)] = .ok [tao] := rfl

open Classical in
example : [tao] = ([("t".toList, tao), ("i".toList, ivic)].map (·.2)).filter
    (fun r => decide (Wanted (some "Tao".toList) (some 2019) r)) :=
  C60_findAll_partial _ _ _ _ rfl

/-- Finding: one reference without an author makes every search by author raise `KeyError`. -/
theorem C60_counterexample (a : List Char) (year : Option ℤ) (refs : List (List Char × Ref))
    (h : ∃ r ∈ refs.map (·.2), getField r.entries ['a', 'u', 't', 'h', 'o', 'r'] = none) :
    ∃ x, findAll (some a) year refs = .error x := by
  cases hf : findAll (some a) year refs with
  | error x => exact ⟨x, rfl⟩
  | ok out =>
    exfalso
    induction refs generalizing out with
    | nil => obtain ⟨r, hr, _⟩ := h; simp at hr
    | cons p refs ih =>
      obtain ⟨k, r⟩ := p
      obtain ⟨q, hq, hn⟩ := h
      unfold findAll at hf
      rw [List.map_cons, List.mem_cons] at hq
      rcases hq with rfl | hq
      · have : matchesAuthor (some a) q = .error .keyError := by
          unfold matchesAuthor
          simp only
          rw [hn]
        rw [this] at hf
        cases hf
      · have ih' := ih ⟨q, hq, hn⟩
        cases ha : matchesAuthor (some a) r with
        | error x => rw [ha] at hf; cases hf
        | ok b =>
          rw [ha] at hf
          cases b with
          | false => exact ih' out hf
          | true =>
            simp only at hf
            cases hy : matchesYear year r with
            | error x => rw [hy] at hf; cases hf
            | ok c =>
              rw [hy] at hf
              simp only at hf
              cases hg : findAll (some a) year refs with
              | error x => rw [hg] at hf; cases hf
              | ok out' => exact ih' out' hg

example : ∃ x, findAll (some "Tao".toList) none [("t".toList, tao), ("n".toList, ⟨"n".toList, "misc".toList, []⟩)] = .error x :=
  C60_counterexample _ _ _ ⟨⟨"n".toList, "misc".toList, []⟩, by simp, by decide +kernel⟩

end Bib
end Expdb
