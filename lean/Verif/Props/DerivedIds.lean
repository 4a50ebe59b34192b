import Verif.Props.DerivedPairsNew
import Verif.Props.DerivedBeta

/-!
# C89, C91: what the searches return, and the identities of the new hypotheses

`prove_exponent_pair` returns a hypothesis of the pair it was asked for, whatever happens while dependencies are removed; the
hypotheses that are created are different objects.
-/

namespace Expdb
namespace DerivedPairs
open BetaPairs

/-- **C89** (the pair returned) Whatever the orders, the oracle for convex hulls and the members removed: a hypothesis that
`prove_exponent_pair(k, l, simplify_deps)` returns is one of the exponent pair `(k, l)`, and it is proved from a part of the
literature. If the pair is found without removing dependencies, it is found also when they are removed (unless an error is raised). -/
theorem C89_returned (hull : List (ℚ × ℚ) → Py (List ℕ)) (o : Orders) (K M : ℕ) (pop : ℕ → HSet → Py HSet) (k l : ℚ)
    (R : HSet → HSet → Prop) (hrefl : ∀ s, R s s) (htrans : ∀ a b c, R a b → R b c → R a c) (hpop : ∀ n s s', pop n s = .ok s' → R s' s)
    (b : Bool) (r : Option Out) (h : proveExponentPair hull o K M pop k l b = .ok r) :
    (∀ x ∈ r, x.key = (k, l)) ∧ (∃ s s', literatureSet K M = .ok s ∧ R s' s ∧ proveWith hull o s' k l = .ok r) ∧
    ∀ x, proveExponentPair hull o K M pop k l false = .ok (some x) → r.isSome := by
  have hkey : ∀ s r, proveWith hull o s k l = .ok r → ∀ x ∈ r, x.key = (k, l) := by
    intro s r h x hx
    unfold proveWith at h
    simp only [bind, Except.bind, pure, Except.pure] at h
    repeat' split at h
    all_goals first | (cases h; done) | skip
    cases h
    have := List.find?_some hx
    simpa using this
  unfold proveExponentPair at h ⊢
  simp only [bind, Except.bind, pure, Except.pure] at h ⊢
  cases hs : literatureSet K M with
  | error e => rw [hs] at h; cases h
  | ok s =>
    rw [hs] at h
    simp only at h ⊢
    cases hp : proveWith hull o s k l with
    | error e => rw [hp] at h; cases h
    | ok e =>
      rw [hp] at h
      simp only at h ⊢
      cases b with
      | false =>
        simp only [Bool.false_eq_true, if_false, Except.ok.injEq] at h ⊢
        subst h
        exact ⟨hkey s e hp, ⟨s, s, rfl, hrefl s, hp⟩, fun x hx => by rw [hx]; rfl⟩
      | true =>
        simp only [if_true, Bool.false_eq_true, if_false, Except.ok.injEq] at h ⊢
        cases hl : simplifyLoop (fun s => proveWith hull o s k l) pop 100 s e with
        | error x => rw [hl] at h; cases h
        | ok q =>
          rw [hl] at h
          simp only [Except.ok.injEq] at h
          subst h
          obtain ⟨g1, g2, g3⟩ := C89_simplify (fun s => proveWith hull o s k l) pop R hrefl htrans hpop 100 s q.1 e q.2 hp hl
          exact ⟨hkey q.1 q.2 g1, ⟨s, q.1, rfl, g2, g1⟩, fun x hx => g3 (by rw [hx]; rfl)⟩

/-- The hypotheses of the theorem are met by removing the last exponent pair and the relation "fewer exponent pairs". -/
example : ∃ (pop : ℕ → HSet → Py HSet) (R : HSet → HSet → Prop), (∀ s, R s s) ∧ (∀ a b c, R a b → R b c → R a c) ∧
    (∀ n s s', pop n s = .ok s' → R s' s) ∧ ∃ s s', pop 0 s = .ok s' ∧ ¬R s s' := by
  refine ⟨fun _ s => .ok ⟨s.bounds, s.pairs.dropLast, s.trs⟩, fun a b => a.pairs.length ≤ b.pairs.length, fun s => le_refl _,
    fun a b c h1 h2 => le_trans h1 h2, fun n s s' h => ?_, ⟨[], [EP.trivialPair], []⟩, ⟨[], [], []⟩, rfl, by simp⟩
  cases h
  simp

/-- **C89** (identities) The hypotheses created are pairwise different objects, none of them is one of the first `n`, and their
bounds are the given ones in order. -/
theorem C89_identities (n : ℕ) (bs : List (Affine (Option ℕ))) : ((newHyps n bs).map (·.id)).Nodup ∧ (∀ h ∈ newHyps n bs, n ≤ h.id) ∧
    (newHyps n bs).map (·.bound) = bs := by
  have hid : (newHyps n bs).map (·.id) = List.range' n bs.length := by
    simp only [newHyps, List.map_map]
    exact List.zipIdx_map_snd n bs
  refine ⟨by rw [hid]; exact List.nodup_range', fun h hh => ?_, ?_⟩
  · have : h.id ∈ (newHyps n bs).map (·.id) := List.mem_map_of_mem hh
    rw [hid, List.mem_range'_1] at this
    exact this.1
  · simp only [newHyps, List.map_map]
    exact List.zipIdx_map_fst n bs

/-- **C89** (identities in a search) In the set from which `prove_exponent_pair_with_hypotheses` derives new pairs all bounds on beta
are different objects, if they are in the set that is given. -/
theorem C89_distinct (bs : List Beta.Hyp) (new : List (Affine (Option ℕ))) (h1 : (bs.map (·.id)).Nodup) (h2 : ∀ h ∈ bs, h.id < bs.length) :
    ((bs ++ newHyps bs.length new).map (·.id)).Nodup ∧ ∀ h ∈ bs ++ newHyps bs.length new, h.id < (bs ++ newHyps bs.length new).length := by
  obtain ⟨g1, g2, g3⟩ := C89_identities bs.length new
  have hlen : (newHyps bs.length new).length = new.length := by rw [← List.length_map (f := (·.bound)), g3]
  have hid : (newHyps bs.length new).map (·.id) = List.range' bs.length new.length := by
    simp only [newHyps, List.map_map]
    exact List.zipIdx_map_snd _ new
  refine ⟨?_, fun h hh => ?_⟩
  · rw [List.map_append, List.nodup_append]
    refine ⟨h1, g1, fun a ha b hb e => ?_⟩
    obtain ⟨x, hx, rfl⟩ := List.mem_map.mp ha
    obtain ⟨y, hy, rfl⟩ := List.mem_map.mp hb
    have a1 := h2 x hx
    have a2 := g2 y hy
    rw [e] at a1
    omega
  · rw [List.length_append, hlen]
    rcases List.mem_append.mp hh with hh | hh
    · have := h2 h hh
      omega
    · have : h.id ∈ (newHyps bs.length new).map (·.id) := List.mem_map_of_mem hh
      rw [hid, List.mem_range'_1] at this
      exact this.2

/-- The set of the literature satisfies the hypotheses of the theorem: with the constant 6 it has more than ten bounds. -/
example : (match LitBeta.all 6 with
    | .ok bs => decide (((newHyps 0 bs).map (·.id)).Nodup) && decide (10 < bs.length) && (newHyps 0 bs).all (fun h => h.id < (newHyps 0 bs).length)
    | .error _ => false) = true := by
  decide +kernel

end DerivedPairs

namespace DerivedZD

/-- **C91** (identities) The bounds on beta made from exponent pairs are pairwise different objects, and their bounds are those
which were computed, in order. -/
theorem C91_identities (bs : List (Affine (Option ℕ) × Ep)) : ((betaHyps bs).map (·.id)).Nodup ∧ (betaHyps bs).map (·.bound) = bs.map Prod.fst := by
  have hid : (betaHyps bs).map (·.id) = List.range' 0 bs.length := by
    simp only [betaHyps, List.map_map]
    exact List.zipIdx_map_snd 0 bs
  refine ⟨by rw [hid]; exact List.nodup_range', ?_⟩
  simp only [betaHyps, List.map_map]
  conv_rhs => rw [← List.zipIdx_map_fst 0 bs, List.map_map]
  rfl

/-- The pair of the proof gives two bounds. -/
example : (match BetaPairs.toBeta [] [.known 0 (3 / 40) (31 / 40)] with
    | .ok bs => decide ((betaHyps bs).map (·.id) = List.range bs.length) && decide (bs.length ≠ 0) | .error _ => false) = true := by
  decide +kernel

end DerivedZD
end Expdb
