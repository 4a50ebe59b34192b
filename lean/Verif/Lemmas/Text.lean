import Verif.Model.Text
import Verif.Tactics

namespace Expdb

theorem digitVal_digitChar (d : Nat) : digitVal? (digitChar d) = some (d % 10) := by
  have h : d % 10 < 10 := Nat.mod_lt _ (by norm_num)
  unfold digitChar
  generalize d % 10 = e at h
  interval_cases e <;> decide

theorem natChars_lt {n : Nat} (h : n < 10) : natChars n = [digitChar n] := by
  rw [natChars, if_pos h]

theorem natChars_ge {n : Nat} (h : ¬ n < 10) :
    natChars n = natChars (n / 10) ++ [digitChar (n % 10)] := by
  rw [natChars, if_neg h]

theorem readDigits_append (l r : List Char) (acc cnt : Nat)
    (hl : ∀ c ∈ l, (digitVal? c).isSome) :
    readDigits acc cnt (l ++ r) =
      readDigits (readDigits acc cnt l).1 (readDigits acc cnt l).2.1 r := by
  induction l generalizing acc cnt with
  | nil => rfl
  | cons c cs ih =>
    have hc := hl c (by simp)
    obtain ⟨d, hd⟩ := Option.isSome_iff_exists.mp hc
    simp only [List.cons_append, readDigits, hd]
    exact ih _ _ (fun c h => hl c (by simp [h]))

theorem natChars_digits (n : Nat) : ∀ c ∈ natChars n, (digitVal? c).isSome := by
  induction n using Nat.strongRecOn with
  | _ n ih =>
    intro c hc
    by_cases h : n < 10
    · rw [natChars_lt h] at hc
      simp at hc; subst hc; rw [digitVal_digitChar]; rfl
    · rw [natChars_ge h] at hc
      rcases List.mem_append.mp hc with hc | hc
      · exact ih (n / 10) (by omega) c hc
      · simp at hc; subst hc; rw [digitVal_digitChar]; rfl

theorem natChars_ne_nil (n : Nat) : natChars n ≠ [] := by
  by_cases h : n < 10
  · rw [natChars_lt h]; simp
  · rw [natChars_ge h]; simp

theorem readDigits_natChars (n : Nat) :
    (readDigits 0 0 (natChars n)).1 = n ∧ (readDigits 0 0 (natChars n)).2.1 ≠ 0 := by
  induction n using Nat.strongRecOn with
  | _ n ih =>
    by_cases h : n < 10
    · rw [natChars_lt h]
      simp only [readDigits, digitVal_digitChar]
      exact ⟨by omega, by simp⟩
    · rw [natChars_ge h, readDigits_append _ _ _ _ (natChars_digits _)]
      obtain ⟨h1, h2⟩ := ih (n / 10) (by omega)
      rw [h1]
      simp only [readDigits, digitVal_digitChar]
      exact ⟨by omega, by simp⟩

/-- Reading the digits of a printed number followed by anything not starting with a digit. -/
theorem readDigits_natChars_append (n : Nat) (r : List Char)
    (hr : ∀ c cs, r = c :: cs → digitVal? c = none) :
    ∃ k, k ≠ 0 ∧ readDigits 0 0 (natChars n ++ r) = (n, k, r) := by
  rw [readDigits_append _ _ _ _ (natChars_digits n)]
  obtain ⟨h1, h2⟩ := readDigits_natChars n
  rw [h1]
  refine ⟨_, h2, ?_⟩
  cases r with
  | nil => rfl
  | cons c cs => simp [readDigits, hr c cs rfl]

theorem digit_not_space {c : Char} (h : (digitVal? c).isSome) : isSpace c = false := by
  unfold digitVal? at h
  split at h
  · rename_i hc
    unfold isSpace
    have hn : ∀ d : Char, d.toNat < 48 → (c == d) = false := by
      intro d hd
      rw [beq_eq_false_iff_ne]
      rintro rfl
      omega
    rw [hn ' ' (by decide), hn '\t' (by decide), hn '\n' (by decide), hn '\r' (by decide),
      hn '\x0b' (by decide), hn '\x0c' (by decide)]
    rfl
  · simp at h

/-- Characters of a printed fraction. -/
def fracChar (c : Char) : Prop := (digitVal? c).isSome ∨ c = '-' ∨ c = '/'

theorem fracChar_not_space {c : Char} (h : fracChar c) : isSpace c = false := by
  rcases h with h | h | h
  · exact digit_not_space h
  · subst h; decide
  · subst h; decide

theorem fracChar_not_comma {c : Char} (h : fracChar c) : c ≠ ',' := by
  rcases h with h | h | h
  · rintro rfl; revert h; decide
  · subst h; decide
  · subst h; decide

theorem intChars_fracChar (n : Int) : ∀ c ∈ intChars n, fracChar c := by
  intro c hc
  unfold intChars at hc
  split at hc
  · rcases List.mem_cons.mp hc with h | h
    · exact Or.inr (Or.inl h)
    · exact Or.inl (natChars_digits _ c h)
  · exact Or.inl (natChars_digits _ c hc)

theorem ratChars_fracChar (q : ℚ) : ∀ c ∈ ratChars q, fracChar c := by
  intro c hc
  unfold ratChars at hc
  split at hc
  · exact intChars_fracChar _ c hc
  · rcases List.mem_append.mp hc with h | h
    · exact intChars_fracChar _ c h
    · rcases List.mem_cons.mp h with h | h
      · exact Or.inr (Or.inr h)
      · exact Or.inl (natChars_digits _ c h)

theorem intChars_ne_nil (n : Int) : intChars n ≠ [] := by
  unfold intChars; split
  · simp
  · exact natChars_ne_nil _

theorem ratChars_ne_nil (q : ℚ) : ratChars q ≠ [] := by
  unfold ratChars; split
  · exact intChars_ne_nil _
  · simp

theorem dropWhile_space_append (ws r : List Char) (h : ∀ c ∈ ws, isSpace c = true) :
    (ws ++ r).dropWhile isSpace = r.dropWhile isSpace := by
  induction ws with
  | nil => rfl
  | cons c cs ih =>
    rw [List.cons_append, List.dropWhile_cons, if_pos (h c (by simp))]
    exact ih (fun c hc => h c (by simp [hc]))

theorem dropWhile_of_not_space (r : List Char) (h : ∀ c ∈ r, isSpace c = false) :
    r.dropWhile isSpace = r := by
  cases r with
  | nil => rfl
  | cons c cs => rw [List.dropWhile_cons, if_neg (by rw [h c (by simp)]; simp)]

/-- Stripping recovers a word without spaces from any space padding. -/
theorem strip_pad (w1 r w2 : List Char) (h1 : ∀ c ∈ w1, isSpace c = true)
    (h2 : ∀ c ∈ w2, isSpace c = true) (hr : ∀ c ∈ r, isSpace c = false) :
    strip (w1 ++ (r ++ w2)) = r := by
  unfold strip
  rw [dropWhile_space_append _ _ h1]
  cases r with
  | nil =>
    rw [List.nil_append, show w2.dropWhile isSpace = [] by
      have := dropWhile_space_append w2 [] h2
      simpa using this]
    rfl
  | cons c cs =>
    rw [List.cons_append, List.dropWhile_cons, if_neg (by rw [hr c (by simp)]; simp),
      ← List.cons_append, List.reverse_append,
      dropWhile_space_append _ _ (fun c h => h2 c (List.mem_reverse.mp h)),
      dropWhile_of_not_space _ (fun c h => hr c (List.mem_reverse.mp h)), List.reverse_reverse]

theorem strip_of_not_space (r : List Char) (hr : ∀ c ∈ r, isSpace c = false) : strip r = r := by
  have := strip_pad [] r [] (by simp) (by simp) hr
  simpa using this

theorem readSign_natChars (n : Nat) (r : List Char) :
    readSign (natChars n ++ r) = (false, natChars n ++ r) := by
  have hd := natChars_digits n
  have hne := natChars_ne_nil n
  cases h : natChars n with
  | nil => exact absurd h hne
  | cons c cs =>
    have hc : (digitVal? c).isSome := hd c (by rw [h]; simp)
    have h1 : c ≠ '-' := by rintro rfl; revert hc; decide
    have h2 : c ≠ '+' := by rintro rfl; revert hc; decide
    rw [List.cons_append]
    unfold readSign
    split
    · rename_i heq; cases heq; exact absurd rfl h1
    · rename_i heq; cases heq; exact absurd rfl h2
    · rfl

theorem readSign_intChars (n : Int) (r : List Char) :
    readSign (intChars n ++ r) = (decide (n < 0), natChars n.natAbs ++ r) := by
  unfold intChars
  split
  · rename_i h; simp [readSign, h]
  · rename_i h; rw [readSign_natChars]; simp [h]

theorem signed_natAbs (n : Int) :
    (if decide (n < 0) = true then -((n.natAbs : Nat) : Int) else ((n.natAbs : Nat) : Int)) = n := by
  by_cases h : n < 0
  · rw [if_pos (by simpa using h)]; omega
  · rw [if_neg (by simpa using h)]; omega

/-- Parsing a printed fraction gives it back. -/
theorem parseFrac_ratChars (q : ℚ) : parseFrac (ratChars q) = .ok q := by
  unfold parseFrac
  rw [strip_of_not_space _ (fun c h => fracChar_not_space (ratChars_fracChar q c h))]
  unfold ratChars
  by_cases hd : q.den = 1
  · rw [if_pos hd]
    have := readSign_intChars q.num []
    rw [List.append_nil, List.append_nil] at this
    rw [this]
    obtain ⟨k, hk, hread⟩ := readDigits_natChars_append q.num.natAbs [] (by simp)
    rw [List.append_nil] at hread
    simp only [hread]
    obtain ⟨k', rfl⟩ := Nat.exists_eq_succ_of_ne_zero hk
    simp only [signed_natAbs]
    rw [Rat.coe_int_num_of_den_eq_one hd]
  · rw [if_neg hd, readSign_intChars]
    obtain ⟨k, hk, hread⟩ := readDigits_natChars_append q.num.natAbs ('/' :: natChars q.den)
      (by rintro c cs h; cases h; decide)
    obtain ⟨k2, hk2, hread2⟩ := readDigits_natChars_append q.den [] (by simp)
    rw [List.append_nil] at hread2
    simp only [hread]
    obtain ⟨k', rfl⟩ := Nat.exists_eq_succ_of_ne_zero hk
    obtain ⟨k2', rfl⟩ := Nat.exists_eq_succ_of_ne_zero hk2
    simp only [hread2, signed_natAbs]
    rw [if_neg q.den_nz, Rat.mkRat_self]

theorem splitOn_ne_nil (sep : Char) (s : List Char) : splitOn sep s ≠ [] := by
  induction s with
  | nil => simp [splitOn]
  | cons c cs ih =>
    unfold splitOn
    split
    · simp
    · split <;> simp

theorem splitOn_no_sep (sep : Char) (w : List Char) (h : ∀ c ∈ w, c ≠ sep) :
    splitOn sep w = [w] := by
  induction w with
  | nil => rfl
  | cons c cs ih =>
    unfold splitOn
    rw [if_neg (h c (by simp)), ih (fun c hc => h c (by simp [hc]))]

theorem splitOn_append (sep : Char) (w s : List Char) (h : ∀ c ∈ w, c ≠ sep) :
    splitOn sep (w ++ sep :: s) = w :: splitOn sep s := by
  induction w with
  | nil => simp [splitOn]
  | cons c cs ih =>
    rw [List.cons_append, splitOn, if_neg (h c (by simp)), ih (fun c hc => h c (by simp [hc]))]

/-- The first word of `splitOn`. -/
theorem splitOn_first (sep : Char) (s : List Char) : ∀ w ws, splitOn sep s = w :: ws →
    (ws = [] ∧ s = w ∧ sep ∉ w) ∨ ∃ r, s = w ++ sep :: r ∧ splitOn sep r = ws ∧ sep ∉ w := by
  induction s with
  | nil =>
    intro w ws h; simp only [splitOn, List.cons.injEq] at h
    left; exact ⟨h.2.symm, h.1, by rw [← h.1]; simp⟩
  | cons d s ihs =>
    intro w ws h
    by_cases hd : d = sep
    · subst hd
      simp only [splitOn, if_true, List.cons.injEq] at h
      right; exact ⟨s, by rw [← h.1]; rfl, h.2, by rw [← h.1]; simp⟩
    · simp only [splitOn, if_neg hd] at h
      cases h2 : splitOn sep s with
      | nil => exact absurd h2 (splitOn_ne_nil sep s)
      | cons w2 ws2 =>
        rw [h2] at h
        simp only [List.cons.injEq] at h
        have hnd : ∀ v, sep ∉ v → sep ∉ d :: v := by
          intro v hv hm
          rcases List.mem_cons.mp hm with h | h
          · exact hd h.symm
          · exact hv h
        rcases ihs w2 ws2 h2 with ⟨a1, a2, a3⟩ | ⟨r, a1, a2, a3⟩
        · left; exact ⟨by rw [← h.2]; exact a1, by rw [← h.1, a2], by rw [← h.1]; exact hnd _ a3⟩
        · right
          exact ⟨r, by rw [← h.1, a1]; rfl, by rw [← h.2]; exact a2, by rw [← h.1]; exact hnd _ a3⟩

/-- The words of `splitOn` are the maximal segments without the separator. -/
theorem mem_splitOn_iff (sep : Char) (s k : List Char) :
    k ∈ splitOn sep s ↔ sep ∉ k ∧ ∃ p q, s = p ++ k ++ q ∧ (p = [] ∨ ∃ p', p = p' ++ [sep]) ∧
      (q = [] ∨ ∃ q', q = sep :: q') := by
  have key : ∀ n (s : List Char), s.length ≤ n → ∀ k, (k ∈ splitOn sep s ↔ sep ∉ k ∧ ∃ p q,
      s = p ++ k ++ q ∧ (p = [] ∨ ∃ p', p = p' ++ [sep]) ∧ (q = [] ∨ ∃ q', q = sep :: q')) := by
    intro n
    induction n with
    | zero =>
      intro s hl k
      have : s = [] := List.length_eq_zero_iff.mp (by omega)
      subst this
      simp only [splitOn, List.mem_singleton]
      constructor
      · rintro rfl; exact ⟨by simp, [], [], rfl, Or.inl rfl, Or.inl rfl⟩
      · rintro ⟨_, p, q, h, _⟩
        have := congrArg List.length h
        simp only [List.length_nil, List.length_append] at this
        exact List.length_eq_zero_iff.mp (by omega)
    | succ n ih =>
      intro s hl k
      cases hw : splitOn sep s with
      | nil => exact absurd hw (splitOn_ne_nil sep s)
      | cons w ws =>
        rcases splitOn_first sep s w ws hw with ⟨rfl, rfl, h3⟩ | ⟨r, rfl, hr, h3⟩
        · rw [List.mem_singleton]
          constructor
          · rintro rfl; exact ⟨h3, [], [], by simp, Or.inl rfl, Or.inl rfl⟩
          · rintro ⟨_, p, q, h, hp, hq⟩
            have hp' : p = [] := by
              rcases hp with hp | ⟨p', rfl⟩
              · exact hp
              · exact absurd (by rw [h]; simp) h3
            have hq' : q = [] := by
              rcases hq with hq | ⟨q', rfl⟩
              · exact hq
              · exact absurd (by rw [h]; simp) h3
            subst hp' hq'
            rw [h]; simp
        · have hlen : r.length ≤ n := by
            simp only [List.length_append, List.length_cons] at hl; omega
          rw [List.mem_cons, ← hr, ih r hlen]
          constructor
          · rintro (rfl | ⟨h1, p, q, rfl, hp, hq⟩)
            · exact ⟨h3, [], sep :: r, by simp, Or.inl rfl, Or.inr ⟨r, rfl⟩⟩
            · refine ⟨h1, w ++ sep :: p, q, by simp, Or.inr ?_, hq⟩
              rcases hp with rfl | ⟨p', rfl⟩
              · exact ⟨w, rfl⟩
              · exact ⟨w ++ sep :: p', by simp⟩
          · rintro ⟨h1, p, q, h, hp, hq⟩
            rcases hp with rfl | ⟨p', rfl⟩
            · left
              rw [List.nil_append] at h
              rcases hq with rfl | ⟨q', rfl⟩
              · exact absurd (by rw [List.append_nil] at h; rw [← h]; simp) h1
              · rcases List.append_eq_append_iff.mp h with ⟨m, hm1, hm2⟩ | ⟨m, hm1, hm2⟩
                · cases m with
                  | nil => simpa using hm1
                  | cons x m =>
                    simp only [List.cons_append, List.cons.injEq] at hm2
                    exact absurd (by rw [hm1, ← hm2.1]; simp) h1
                · cases m with
                  | nil => simpa using hm1.symm
                  | cons x m =>
                    simp only [List.cons_append, List.cons.injEq] at hm2
                    exact absurd (by rw [hm1, ← hm2.1]; simp) h3
            · right
              refine ⟨h1, ?_⟩
              have e : w ++ sep :: r = p' ++ sep :: (k ++ q) := by rw [h]; simp
              rcases List.append_eq_append_iff.mp e with ⟨m, hm1, hm2⟩ | ⟨m, hm1, hm2⟩
              · cases m with
                | nil =>
                  simp only [List.nil_append, List.cons.injEq, true_and] at hm2
                  exact ⟨[], q, by rw [hm2]; simp, Or.inl rfl, hq⟩
                | cons x m =>
                  simp only [List.cons_append, List.cons.injEq] at hm2
                  exact ⟨m ++ [sep], q, by rw [hm2.2]; simp, Or.inr ⟨m, rfl⟩, hq⟩
              · cases m with
                | nil =>
                  simp only [List.nil_append, List.cons.injEq, true_and] at hm2
                  exact ⟨[], q, by rw [← hm2]; simp, Or.inl rfl, hq⟩
                | cons x m =>
                  simp only [List.cons_append, List.cons.injEq] at hm2
                  exact absurd (by rw [hm1, ← hm2.1]; simp) h3
  exact key s.length s (le_refl _) k

/-- `t` is `k` without the white space around it. -/
def Trimmed (k t : List Char) : Prop :=
  ∃ a b, k = a ++ t ++ b ∧ (∀ c ∈ a, isSpace c = true) ∧ (∀ c ∈ b, isSpace c = true) ∧
    (∀ c t', t = c :: t' → isSpace c = false) ∧ (∀ c t', t = t' ++ [c] → isSpace c = false)

theorem dropWhile_stop (t r : List Char) (h : ∀ c t', t ++ r = c :: t' → isSpace c = false) :
    (t ++ r).dropWhile isSpace = t ++ r := by
  cases hr : t ++ r with
  | nil => rfl
  | cons c t' => rw [List.dropWhile_cons_of_neg]; rw [h c t' hr]; simp

/-- `strip` removes exactly the surrounding white space. -/
theorem strip_of_trimmed (k t : List Char) (h : Trimmed k t) : strip k = t := by
  obtain ⟨a, b, rfl, ha, hb, h1, h2⟩ := h
  unfold strip
  rw [List.append_assoc, dropWhile_space_append a _ ha]
  cases t with
  | nil =>
    have : ([] ++ b).dropWhile isSpace = [] := by
      have := dropWhile_space_append b [] hb
      simpa using this
    rw [this]; rfl
  | cons c t =>
    rw [dropWhile_stop (c :: t) b (by
      intro d t' h
      simp only [List.cons_append, List.cons.injEq] at h
      exact h.1 ▸ h1 c t rfl)]
    rw [List.reverse_append, dropWhile_space_append b.reverse _ (fun x hx => hb x (List.mem_reverse.mp hx))]
    have := dropWhile_stop ((c :: t).reverse) [] (by
      intro d t' h
      rw [List.append_nil] at h
      apply h2 d t'.reverse
      rw [← List.reverse_reverse (c :: t), h, List.reverse_cons])
    rw [List.append_nil] at this
    rw [this, List.reverse_reverse]

theorem dropWhile_split (s : List Char) :
    ∃ a, s = a ++ s.dropWhile isSpace ∧ ∀ c ∈ a, isSpace c = true := by
  induction s with
  | nil => exact ⟨[], rfl, by simp⟩
  | cons d s ih =>
    by_cases hd : isSpace d = true
    · obtain ⟨a, h1, h2⟩ := ih
      refine ⟨d :: a, ?_, ?_⟩
      · rw [List.dropWhile_cons_of_pos hd, List.cons_append, ← h1]
      · intro c hc
        rcases List.mem_cons.mp hc with rfl | hc
        · exact hd
        · exact h2 c hc
    · exact ⟨[], by rw [List.dropWhile_cons_of_neg hd]; rfl, by simp⟩

theorem dropWhile_head (s : List Char) (c : Char) (t : List Char) (h : s.dropWhile isSpace = c :: t) :
    isSpace c = false := by
  induction s with
  | nil => cases h
  | cons d s ih =>
    by_cases hd : isSpace d = true
    · rw [List.dropWhile_cons_of_pos hd] at h; exact ih h
    · rw [List.dropWhile_cons_of_neg hd] at h
      cases h
      simpa using hd

theorem trimmed_strip (k : List Char) : Trimmed k (strip k) := by
  obtain ⟨a, ha, ha'⟩ := dropWhile_split k
  obtain ⟨b, hb, hb'⟩ := dropWhile_split (k.dropWhile isSpace).reverse
  have e : k.dropWhile isSpace = strip k ++ b.reverse := by
    have := congrArg List.reverse hb
    rw [List.reverse_reverse, List.reverse_append] at this
    exact this
  refine ⟨a, b.reverse, ?_, ha', fun c hc => hb' c (List.mem_reverse.mp hc), ?_, ?_⟩
  · rw [List.append_assoc, ← e]; exact ha
  · intro c t' h
    exact dropWhile_head k c (t' ++ b.reverse) (by rw [e, h]; rfl)
  · intro c t' h
    unfold strip at h
    refine dropWhile_head (k.dropWhile isSpace).reverse c t'.reverse ?_
    rw [← List.reverse_reverse ((k.dropWhile isSpace).reverse.dropWhile isSpace), h,
      List.reverse_append]
    rfl

end Expdb
