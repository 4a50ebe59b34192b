import Verif.Lemmas.Text
import Verif.Props.Interval

/-!
# Property C03: interval text forms
-/

namespace Expdb
namespace Interval

private theorem not_comma_of_space {c : Char} (h : isSpace c = true) : c ≠ ',' := by
  rintro rfl; revert h; decide

/-- **C03 (general form)** Parsing the text `<bracket> ws a ws , ws b ws <bracket>` (any ASCII
space padding) returns exactly the interval with these end points and flags. -/
theorem C03_parse_padded (I : Interval) (hI : I.Constructible) (w1 w2 w3 w4 : List Char)
    (h1 : ∀ c ∈ w1, isSpace c = true) (h2 : ∀ c ∈ w2, isSpace c = true)
    (h3 : ∀ c ∈ w3, isSpace c = true) (h4 : ∀ c ∈ w4, isSpace c = true) :
    parse ((if I.incL then '[' else '(') ::
      ((w1 ++ (ratChars I.x0 ++ w2)) ++ ',' :: ((w3 ++ (ratChars I.x1 ++ w4)) ++
        [if I.incU then ']' else ')']))) = .ok I := by
  rw [constructible_iff] at hI
  obtain ⟨a, b, l, u⟩ := I
  simp only at hI ⊢
  have nc : ∀ (q : ℚ) (v w : List Char), (∀ c ∈ v, isSpace c = true) → (∀ c ∈ w, isSpace c = true) →
      ∀ c ∈ v ++ (ratChars q ++ w), c ≠ ',' := by
    intro q v w hv hw c hc
    simp only [List.mem_append] at hc
    rcases hc with hc | hc | hc
    · exact not_comma_of_space (hv c hc)
    · exact fracChar_not_comma (ratChars_fracChar q c hc)
    · exact not_comma_of_space (hw c hc)
  have ns : ∀ (q : ℚ), ∀ c ∈ ratChars q, isSpace c = false :=
    fun q c hc => fracChar_not_space (ratChars_fracChar q c hc)
  generalize hA : w1 ++ (ratChars a ++ w2) = A
  generalize hB : w3 ++ (ratChars b ++ w4) = B
  have hinner : ∀ (L U : Char), ((L :: (A ++ ',' :: (B ++ [U]))).drop 1).dropLast = A ++ ',' :: B := by
    intro L U
    rw [List.drop_one, List.tail_cons,
      show A ++ ',' :: (B ++ [U]) = (A ++ ',' :: B) ++ [U] by simp, List.dropLast_concat]
  have hlast : ∀ (L U : Char), (L :: (A ++ ',' :: (B ++ [U]))).getLast? = some U := by
    intro L U
    rw [show L :: (A ++ ',' :: (B ++ [U])) = (L :: (A ++ ',' :: B)) ++ [U] by simp]
    exact List.getLast?_concat ..
  unfold parse
  rw [hinner, splitOn_append _ _ _ (by rw [← hA]; exact nc a w1 w2 h1 h2),
    splitOn_no_sep _ _ (by rw [← hB]; exact nc b w3 w4 h3 h4), hlast]
  simp only [List.getElem?_cons_zero, List.getElem?_cons_succ, List.head?_cons]
  rw [← hA, ← hB, strip_pad _ _ _ h1 h2 (ns a), strip_pad _ _ _ h3 h4 (ns b),
    parseFrac_ratChars, parseFrac_ratChars]
  cases l <;> cases u <;> simp [bind, Except.bind, make, hI]

/-- **C03** `Interval.parse(str(I)) = I` with identical end points and flags. -/
theorem C03_parse_repr (I : Interval) (hI : I.Constructible) : parse (repr I) = .ok I := by
  have := C03_parse_padded I hI [] [] [] [] (by simp) (by simp) (by simp) (by simp)
  simpa [repr] using this

/-- Hence printing is injective on constructible intervals. -/
theorem C03_repr_injective (I J : Interval) (hI : I.Constructible) (hJ : J.Constructible)
    (h : repr I = repr J) : I = J := by
  have h1 := C03_parse_repr I hI
  rw [h, C03_parse_repr J hJ] at h1
  exact (Except.ok.inj h1).symm

/-- Non-vacuity: a concrete interval with a negative fractional end point. -/
example : (⟨-7/10, 12, true, false⟩ : Interval).Constructible ∧
    repr ⟨-7/10, 12, true, false⟩ = "[-7/10,12)".toList := by
  refine ⟨?_, by decide +kernel⟩
  rw [constructible_iff]; norm_num

/-- `parse` rejects reversed end points (the constructor's `ValueError` is passed on). -/
example : parse "[1/2, 1/3]".toList = .error .valueError := by decide +kernel

end Interval
end Expdb
