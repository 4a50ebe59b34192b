import Verif.Model.Hypotheses
import Verif.Lemmas.Text
import Verif.Tactics
import Mathlib.Logic.Relation
import Mathlib.Data.List.Nodup

/-!
# Properties C25, C26, C27, C29, C44, C52: hypotheses, dependencies, dates
-/

namespace Expdb
namespace Hyp

variable {D : Type}

/-! ### Specification -/

/-- `b` is a direct dependency of `a`. -/
def Dep (H : Heap D) (a b : ℕ) : Prop := b ∈ (H a).deps

/-- The dependency structure is acyclic below every object (well-founded, given by a rank). -/
def Ranked (H : Heap D) (rank : ℕ → ℕ) : Prop := ∀ a b, Dep H a b → rank b < rank a

/-! ### C25 -/

theorem mem_setAdd (S : List ℕ) (h x : ℕ) : x ∈ setAdd S h ↔ x ∈ S ∨ x = h := by
  unfold setAdd
  split
  · constructor
    · exact Or.inl
    · rintro (h' | rfl) <;> assumption
  · simp

theorem nodup_setAdd (S : List ℕ) (h : ℕ) (hS : S.Nodup) : (setAdd S h).Nodup := by
  unfold setAdd
  split
  · exact hS
  · rename_i hn
    rw [List.nodup_append]
    refine ⟨hS, List.nodup_singleton h, ?_⟩
    intro a ha b hb
    rw [List.mem_singleton] at hb
    rintro rfl
    exact hn (hb ▸ ha)

theorem mem_setUpdate (hs : List ℕ) (S : List ℕ) (x : ℕ) : x ∈ setUpdate S hs ↔ x ∈ S ∨ x ∈ hs := by
  unfold setUpdate
  induction hs generalizing S with
  | nil => simp
  | cons h hs ih =>
    rw [List.foldl_cons, ih, mem_setAdd, List.mem_cons]; tauto

theorem nodup_setUpdate (hs : List ℕ) (S : List ℕ) (hS : S.Nodup) : (setUpdate S hs).Nodup := by
  unfold setUpdate
  induction hs generalizing S with
  | nil => exact hS
  | cons h hs ih => rw [List.foldl_cons]; exact ih _ (nodup_setAdd S h hS)

theorem addRec_spec (H : Heap D) (rank : ℕ → ℕ) (hr : Ranked H rank) (n : ℕ) :
    (∀ h, rank h < n → ∀ S, ∃ T, (∀ f, rank h < f → addRec H f h S = some T) ∧
      (∀ x, x ∈ T ↔ x ∈ S ∨ Relation.TransGen (Dep H) h x) ∧ (S.Nodup → T.Nodup)) := by
  induction n with
  | zero => intro h hh; omega
  | succ n ih =>
    intro h hh S
    have hlist : ∀ ds : List ℕ, (∀ d ∈ ds, rank d < rank h) → ∀ S, ∃ T,
        (∀ f, rank h ≤ f → addRecList H f ds S = some T) ∧
        (∀ x, x ∈ T ↔ x ∈ S ∨ ∃ d ∈ ds, Relation.TransGen (Dep H) d x) ∧ (S.Nodup → T.Nodup) := by
      intro ds
      induction ds with
      | nil =>
        intro _ S
        refine ⟨S, fun f _ => ?_, by simp, fun h => h⟩
        simp only [addRecList]
      | cons d ds ihd =>
        intro hds S
        obtain ⟨T1, a1, a2, a3⟩ := ih d (by have := hds d (by simp); omega) S
        obtain ⟨T2, b1, b2, b3⟩ := ihd (fun e he => hds e (by simp [he])) T1
        refine ⟨T2, fun f hf => ?_, fun x => ?_, fun h => b3 (a3 h)⟩
        · simp only [addRecList]
          rw [a1 f (by have := hds d (by simp); omega)]
          exact b1 f hf
        · rw [b2, a2]
          simp only [List.mem_cons, exists_eq_or_imp]
          tauto
    obtain ⟨T, t1, t2, t3⟩ := hlist (H h).deps (fun d hd => hr h d hd) (setUpdate S (H h).deps)
    refine ⟨T, ?_, ?_, fun hS => t3 (nodup_setUpdate _ _ hS)⟩
    · intro f hf
      cases f with
      | zero => omega
      | succ f => simp only [addRec]; exact t1 f (by omega)
    · intro x
      rw [t2, mem_setUpdate]
      constructor
      · rintro ((h1 | h1) | ⟨d, hd, h1⟩)
        · exact Or.inl h1
        · exact Or.inr (Relation.TransGen.single h1)
        · exact Or.inr (Relation.TransGen.head hd h1)
      · rintro (h1 | h1)
        · exact Or.inl (Or.inl h1)
        · rcases Relation.TransGen.head'_iff.mp h1 with ⟨d, hd, h2⟩
          rcases Relation.reflTransGen_iff_eq_or_transGen.mp h2 with rfl | h3
          · exact Or.inl (Or.inr hd)
          · exact Or.inr ⟨d, hd, h3⟩

/-- **C25** For an acyclic dependency structure `recursive_dependencies` terminates, and the result
is, without repetitions, exactly the set of hypotheses reachable by following one or more
dependencies. -/
theorem C25_recursive_dependencies (H : Heap D) (rank : ℕ → ℕ) (hr : Ranked H rank) (h : ℕ) :
    ∃ S, (∀ fuel, rank h < fuel → recursiveDependencies H fuel h = some S) ∧ S.Nodup ∧
      ∀ x, x ∈ S ↔ Relation.TransGen (Dep H) h x := by
  obtain ⟨T, t1, t2, t3⟩ := addRec_spec H rank hr (rank h + 1) h (by omega) []
  exact ⟨T, t1, t3 List.nodup_nil, fun x => by rw [t2]; simp⟩

/-- The acyclicity hypothesis is needed: from an object that depends on itself through other objects
the recursion never ends. -/
theorem C25_cyclic_diverges (H : Heap D) (c : ℕ) (hc : Relation.TransGen (Dep H) c c) (fuel : ℕ) :
    recursiveDependencies H fuel c = none := by
  have key : ∀ n h, Relation.TransGen (Dep H) h c → ∀ S, addRec H n h S = none := by
    intro n
    induction n with
    | zero => intro h _ S; simp only [addRec]
    | succ n ih =>
      intro h hh S
      simp only [addRec]
      obtain ⟨d, hd, h2⟩ := Relation.TransGen.head'_iff.mp hh
      have hdc : Relation.TransGen (Dep H) d c := by
        rcases Relation.reflTransGen_iff_eq_or_transGen.mp h2 with rfl | h3
        · exact hc
        · exact h3
      have hl : ∀ ds : List ℕ, d ∈ ds → ∀ S, addRecList H n ds S = none := by
        intro ds
        induction ds with
        | nil => intro h; simp at h
        | cons e ds ihd =>
          intro he S
          simp only [addRecList]
          rcases List.mem_cons.mp he with rfl | he
          · rw [ih d hdc S]; rfl
          · cases addRec H n e S with
            | none => rfl
            | some T => exact ihd he T
      exact hl _ hd _
  exact key fuel c hc []

/-! ### C27 -/

/-- A path of dependencies starting at `h`: one node of the derivation tree of `h`. -/
def IsPath (H : Heap D) : ℕ → List ℕ → Prop
  | _, [] => True
  | h, d :: p => Dep H h d ∧ IsPath H d p

/-- The list of nodes of the derivation tree (paths). -/
theorem complexity_spec (H : Heap D) (rank : ℕ → ℕ) (hr : Ranked H rank)
    (hn : ∀ h, (H h).deps.Nodup) (n : ℕ) :
    ∀ h, rank h < n → ∃ P : List (List ℕ), P.Nodup ∧ (∀ p, p ∈ P ↔ IsPath H h p) ∧
      ∀ f, rank h < f → complexity H f h = some P.length := by
  induction n with
  | zero => intro h hh; omega
  | succ n ih =>
    intro h hh
    have hlist : ∀ ds : List ℕ, ds.Nodup → (∀ d ∈ ds, rank d < rank h) → ∃ P : List (List ℕ),
        P.Nodup ∧ (∀ p, p ∈ P ↔ ∃ d ∈ ds, ∃ q, p = d :: q ∧ IsPath H d q) ∧
        ∀ f, rank h ≤ f → complexityList H f ds = some P.length := by
      intro ds
      induction ds with
      | nil =>
        intro _ _
        exact ⟨[], List.nodup_nil, by simp, fun f _ => by simp only [complexityList]; rfl⟩
      | cons d ds ihd =>
        intro hnd hds
        rw [List.nodup_cons] at hnd
        obtain ⟨P1, a1, a2, a3⟩ := ih d (by have := hds d (by simp); omega)
        obtain ⟨P2, b1, b2, b3⟩ := ihd hnd.2 (fun e he => hds e (by simp [he]))
        refine ⟨P1.map (d :: ·) ++ P2, ?_, ?_, ?_⟩
        · rw [List.nodup_append]
          refine ⟨a1.map (fun p q h => by simpa using h), b1, ?_⟩
          intro p hp q hq
          rw [List.mem_map] at hp
          obtain ⟨p', _, rfl⟩ := hp
          obtain ⟨e, he, q', rfl, _⟩ := (b2 q).mp hq
          intro heq
          rw [List.cons.injEq] at heq
          exact hnd.1 (heq.1 ▸ he)
        · intro p
          rw [List.mem_append, List.mem_map, b2]
          constructor
          · rintro (⟨q, hq, rfl⟩ | ⟨e, he, q, rfl, hq⟩)
            · exact ⟨d, by simp, q, rfl, (a2 q).mp hq⟩
            · exact ⟨e, by simp [he], q, rfl, hq⟩
          · rintro ⟨e, he, q, rfl, hq⟩
            rcases List.mem_cons.mp he with rfl | he
            · exact Or.inl ⟨q, (a2 q).mpr hq, rfl⟩
            · exact Or.inr ⟨e, he, q, rfl, hq⟩
        · intro f hf
          simp only [complexityList]
          rw [a3 f (by have := hds d (by simp); omega), b3 f hf]
          simp
    obtain ⟨P, p1, p2, p3⟩ := hlist (H h).deps (hn h) (fun d hd => hr h d hd)
    refine ⟨[] :: P, ?_, ?_, ?_⟩
    · rw [List.nodup_cons]
      refine ⟨fun hm => ?_, p1⟩
      obtain ⟨_, _, _, h0, _⟩ := (p2 []).mp hm
      cases h0
    · intro p
      rw [List.mem_cons, p2]
      cases p with
      | nil => simp [IsPath]
      | cons d q =>
        constructor
        · rintro (h0 | ⟨e, he, q', h0, hq⟩)
          · cases h0
          · cases h0; exact ⟨he, hq⟩
        · rintro ⟨h1, h2⟩
          exact Or.inr ⟨d, h1, q, rfl, h2⟩
    · intro f hf
      cases f with
      | zero => omega
      | succ f => simp only [complexity]; rw [p3 f (by omega)]; simp

/-- **C27** (complexity) For an acyclic structure `proof_complexity` terminates and is the number of
nodes of the derivation tree of `h`, i.e. of dependency paths starting at `h`. -/
theorem C27_proof_complexity (H : Heap D) (rank : ℕ → ℕ) (hr : Ranked H rank)
    (hn : ∀ h, (H h).deps.Nodup) (h : ℕ) :
    ∃ P : List (List ℕ), P.Nodup ∧ (∀ p, p ∈ P ↔ IsPath H h p) ∧
      ∀ fuel, rank h < fuel → complexity H fuel h = some P.length :=
  complexity_spec H rank hr hn (rank h + 1) h (by omega)

theorem complexityList_le (H : Heap D) (f : ℕ) (ds : List ℕ) (c d c' : ℕ) (hd : d ∈ ds)
    (h : complexityList H f ds = some c) (h' : complexity H f d = some c') : c' ≤ c := by
  induction ds generalizing c with
  | nil => simp at hd
  | cons e ds ih =>
    simp only [complexityList] at h
    cases h1 : complexity H f e with
    | none => rw [h1] at h; cases h
    | some a =>
      cases h2 : complexityList H f ds with
      | none => rw [h1, h2] at h; cases h
      | some b =>
        rw [h1, h2] at h
        simp only [Option.bind_eq_bind, Option.bind_some, Option.pure_def, Option.some.injEq] at h
        rcases List.mem_cons.mp hd with rfl | hd
        · rw [h1] at h'; cases h'; omega
        · have := ih b hd h2; omega

/-- **C27** (complexity increases) The complexity of a hypothesis strictly exceeds that of each of
its dependencies. -/
theorem C27_complexity_increases (H : Heap D) (rank : ℕ → ℕ) (hr : Ranked H rank)
    (hn : ∀ h, (H h).deps.Nodup) (h d : ℕ) (hd : Dep H h d) (fuel : ℕ) (hf : rank h < fuel) :
    ∃ c c', complexity H fuel h = some c ∧ complexity H fuel d = some c' ∧ c' < c := by
  obtain ⟨P, _, _, p⟩ := C27_proof_complexity H rank hr hn h
  obtain ⟨Q, _, _, q⟩ := C27_proof_complexity H rank hr hn d
  have hrk := hr h d hd
  refine ⟨P.length, Q.length, p fuel hf, q fuel (by omega), ?_⟩
  have hp := p fuel hf
  cases fuel with
  | zero => omega
  | succ f =>
    simp only [complexity] at hp
    cases hl : complexityList H f (H h).deps with
    | none => rw [hl] at hp; cases hp
    | some c =>
      rw [hl] at hp
      simp only [Option.bind_eq_bind, Option.bind_some, Option.pure_def, Option.some.injEq] at hp
      have := complexityList_le H f _ c d _ hd hl (q f (by omega))
      omega

/-- The year of a hypothesis, where an unknown date counts as `-1`. -/
def effYear (H : Heap D) (h : ℕ) : WithTop ℤ := ((H h).ref.year).getD ((-1 : ℤ) : WithTop ℤ)

theorem ownYear_eq (H : Heap D) (h : ℕ) : ownYear H h = effYear H h := by
  unfold ownYear effYear
  cases (H h).ref.year <;> rfl

theorem proofDate_spec (H : Heap D) (rank : ℕ → ℕ) (hr : Ranked H rank) (n : ℕ) :
    ∀ h, rank h < n → ∃ y, (∀ f, rank h < f → proofDate H f h = some y) ∧
      (∀ x, Relation.ReflTransGen (Dep H) h x → effYear H x ≤ y) ∧
      ∃ x, Relation.ReflTransGen (Dep H) h x ∧ effYear H x = y := by
  induction n with
  | zero => intro h hh; omega
  | succ n ih =>
    intro h hh
    have hlist : ∀ ds : List ℕ, (∀ d ∈ ds, rank d < rank h) → ∀ y, ∃ z,
        (∀ f, rank h ≤ f → proofDateList H f y ds = some z) ∧ y ≤ z ∧
        (∀ d ∈ ds, ∀ x, Relation.ReflTransGen (Dep H) d x → effYear H x ≤ z) ∧
        (z = y ∨ ∃ d ∈ ds, ∃ x, Relation.ReflTransGen (Dep H) d x ∧ effYear H x = z) := by
      intro ds
      induction ds with
      | nil =>
        intro _ y
        exact ⟨y, fun f _ => by simp only [proofDateList], le_refl _, by simp, Or.inl rfl⟩
      | cons d ds ihd =>
        intro hds y
        obtain ⟨z1, a1, a2, x1, a3, a4⟩ := ih d (by have := hds d (by simp); omega)
        obtain ⟨z, b1, b2, b3, b4⟩ := ihd (fun e he => hds e (by simp [he])) (max y z1)
        refine ⟨z, fun f hf => ?_, (le_max_left _ _).trans b2, ?_, ?_⟩
        · simp only [proofDateList]
          rw [a1 f (by have := hds d (by simp); omega)]
          exact b1 f hf
        · intro e he x hx
          rcases List.mem_cons.mp he with rfl | he
          · exact (a2 x hx).trans ((le_max_right _ _).trans b2)
          · exact b3 e he x hx
        · rcases b4 with rfl | ⟨e, he, x, hx, hxe⟩
          · rcases max_choice y z1 with h1 | h1
            · exact Or.inl h1
            · right; exact ⟨d, by simp, x1, a3, by rw [a4, h1]⟩
          · exact Or.inr ⟨e, by simp [he], x, hx, hxe⟩
    obtain ⟨z, b1, b2, b3, b4⟩ := hlist (H h).deps (fun d hd => hr h d hd) (ownYear H h)
    refine ⟨z, ?_, ?_, ?_⟩
    · intro f hf
      cases f with
      | zero => omega
      | succ f => simp only [proofDate]; exact b1 f (by omega)
    · intro x hx
      rcases Relation.ReflTransGen.cases_head hx with rfl | ⟨d, hd, hdx⟩
      · rw [← ownYear_eq]; exact b2
      · exact b3 d hd x hdx
    · rcases b4 with rfl | ⟨d, hd, x, hx, hxe⟩
      · exact ⟨h, Relation.ReflTransGen.refl, (ownYear_eq H h).symm⟩
      · exact ⟨x, Relation.ReflTransGen.head hd hx, hxe⟩

/-- **C27** (date) `proof_date` terminates and is the latest year among the hypothesis and everything
it recursively depends on (an unknown date counts as `-1`). -/
theorem C27_proof_date (H : Heap D) (rank : ℕ → ℕ) (hr : Ranked H rank) (h : ℕ) :
    ∃ y, (∀ fuel, rank h < fuel → proofDate H fuel h = some y) ∧
      (∀ x, Relation.ReflTransGen (Dep H) h x → effYear H x ≤ y) ∧
      ∃ x, Relation.ReflTransGen (Dep H) h x ∧ effYear H x = y :=
  proofDate_spec H rank hr (rank h + 1) h (by omega)

/-- **C27** (monotone) The proof date is never earlier than that of a dependency. -/
theorem C27_date_monotone (H : Heap D) (rank : ℕ → ℕ) (hr : Ranked H rank) (h d : ℕ) (hd : Dep H h d)
    (fuel : ℕ) (hf : rank h < fuel) :
    ∃ y z, proofDate H fuel h = some y ∧ proofDate H fuel d = some z ∧ z ≤ y := by
  obtain ⟨y, y1, y2, _⟩ := C27_proof_date H rank hr h
  obtain ⟨z, z1, _, x, z3, z4⟩ := C27_proof_date H rank hr d
  refine ⟨y, z, y1 fuel hf, z1 fuel (lt_trans (hr h d hd) hf), ?_⟩
  rw [← z4]
  exact y2 x (Relation.ReflTransGen.head hd z3)

/-! ### C26 -/

/-- `h`, and everything it was derived from, is a proved result with a known publication year not
after `Y`. -/
def KnownBy (H : Heap D) (Y : WithTop ℤ) (h : ℕ) : Prop :=
  ∀ x, Relation.ReflTransGen (Dep H) h x → (H x).ref.label ≠ "Conjectured" ∧
    ∃ y, (H x).ref.year = some y ∧ y ≤ Y

/-- **C26** (partial: for sets of results that are not marked as derived and have no dependencies,
i.e. results from the literature; classical results must carry the year of `Reference.classical`).
The members returned for a year are exactly the members of the given type known by that year. For
derived results this is false, see `C26_year_filter_counterexample`. -/
theorem C26_list_hypotheses_partial (H : Heap D) (S : List ℕ) (t : String) (Y : WithTop ℤ)
    (hY : ((-1 : ℤ) : WithTop ℤ) ≤ Y)
    (hlit : ∀ h ∈ S, (H h).ref.label ≠ "Derived" ∧ (H h).deps = [] ∧
      ((H h).ref.label = "Classical" → (H h).ref = Reference.classical)) (h : ℕ) :
    h ∈ listHypotheses H S (some t) (some Y) ↔ h ∈ S ∧ (H h).htype = t ∧ KnownBy H Y h := by
  unfold listHypotheses
  rw [List.mem_filter]
  refine and_congr_right (fun hS => ?_)
  obtain ⟨h1, h2, h3⟩ := hlit h hS
  have hk : KnownBy H Y h ↔ ((H h).ref.label ≠ "Conjectured" ∧ ∃ y, (H h).ref.year = some y ∧ y ≤ Y) := by
    constructor
    · intro hk; exact hk h Relation.ReflTransGen.refl
    · intro hk x hx
      rcases Relation.ReflTransGen.cases_head hx with rfl | ⟨d, hd, _⟩
      · exact hk
      · unfold Dep at hd; rw [h2] at hd; simp at hd
  rw [hk]
  unfold isMatch
  simp only [Option.all_some]
  by_cases ht : (H h).htype = t
  · have : (t == (H h).htype) = true := by rw [ht]; exact beq_self_eq_true t
    rw [if_pos this]
    simp only [Bool.or_eq_true, beq_iff_eq, h1, false_or, ht, true_and]
    by_cases hc : (H h).ref.label = "Classical"
    · rw [if_pos hc]
      have := h3 hc
      rw [this]
      simp only [true_iff]
      refine ⟨?_, _, rfl, hY⟩
      unfold Reference.classical; decide
    · rw [if_neg hc]
      by_cases hj : (H h).ref.label = "Conjectured"
      · rw [if_pos hj]; simp [hj]
      · rw [if_neg hj]
        simp only [ne_eq, hj, not_false_eq_true, true_and]
        cases hy : (H h).ref.year with
        | none => simp
        | some y => simp
  · have : ¬ (t == (H h).htype) = true := by rw [beq_iff_eq]; exact fun h => ht h.symm
    rw [if_neg this]
    simp [ht]

/-- Two results: 0 from the literature of 2020, 1 derived from it. -/
def exHeap : Heap Unit := fun n =>
  if n = 0 then ⟨[], "Exponent pair", (), ⟨"bourgain", some ((2020 : ℤ) : WithTop ℤ)⟩, []⟩
  else ⟨[], "Exponent pair", (), Reference.derived (some ((2020 : ℤ) : WithTop ℤ)), [0]⟩

/-- **C26** is false for derived results: a result derived from a paper of 2020 is returned for the
year 1990. -/
theorem C26_year_filter_counterexample :
    ∃ (H : Heap Unit) (S : List ℕ) (h : ℕ),
      h ∈ listHypotheses H S (some "Exponent pair") (some ((1990 : ℤ) : WithTop ℤ)) ∧
      ¬ KnownBy H ((1990 : ℤ) : WithTop ℤ) h := by
  refine ⟨exHeap, [0, 1], 1, by decide, ?_⟩
  intro hk
  obtain ⟨_, y, hy, hle⟩ := hk 0 (Relation.ReflTransGen.single (by unfold Dep exHeap; simp))
  have : y = ((2020 : ℤ) : WithTop ℤ) := by
    have : (exHeap 0).ref.year = some ((2020 : ℤ) : WithTop ℤ) := rfl
    rw [this] at hy; cases hy; rfl
  rw [this, WithTop.coe_le_coe] at hle
  omega

/-! ### C29 -/

/-- `k` is a maximal comma-free segment of `s`. -/
def Segment (s k : List Char) : Prop :=
  ',' ∉ k ∧ ∃ p q, s = p ++ k ++ q ∧ (p = [] ∨ ∃ p', p = p' ++ [',']) ∧ (q = [] ∨ ∃ q', q = ',' :: q')

/-- `n` meets every criterion that is given. -/
def Meets (beq : D → D → Bool) (n : Node D) (ty : Option String) (data : Option D)
    (keywords : Option (List Char)) (year : Option Year) : Prop :=
  (∀ t, ty = some t → n.htype = t) ∧ (∀ d, data = some d → beq n.data d = true) ∧
  (∀ ks, keywords = some ks → ∀ k t, Segment ks k → Trimmed k t → ∃ p q, n.name = p ++ t ++ q) ∧
  (∀ y, year = some y → n.ref.year = y)

theorem mem_splitOn (s k : List Char) : k ∈ splitOn ',' s ↔ Segment s k :=
  mem_splitOn_iff ',' s k

theorem substr_iff (k name : List Char) : substr k name = true ↔ ∃ p q, name = p ++ k ++ q := by
  unfold substr
  rw [List.any_eq_true]
  constructor
  · rintro ⟨t, ht, hk⟩
    rw [List.mem_tails] at ht
    rw [List.isPrefixOf_iff_prefix] at hk
    obtain ⟨p, rfl⟩ := ht
    obtain ⟨q, rfl⟩ := hk
    exact ⟨p, q, by simp⟩
  · rintro ⟨p, q, rfl⟩
    refine ⟨k ++ q, ?_, ?_⟩
    · rw [List.mem_tails]; exact ⟨p, by simp⟩
    · rw [List.isPrefixOf_iff_prefix]; exact ⟨q, rfl⟩

theorem findTest_iff (beq : D → D → Bool) (n : Node D) (ty : Option String) (data : Option D)
    (keywords : Option (List Char)) (year : Option Year) :
    findTest beq n ty data keywords year = true ↔ Meets beq n ty data keywords year := by
  unfold findTest Meets
  simp only [Bool.and_eq_true, and_assoc]
  refine and_congr ?_ (and_congr ?_ (and_congr ?_ ?_))
  · cases ty <;> simp
  · cases data <;> simp
  · cases keywords with
    | none => simp
    | some ks =>
      simp only [Option.all_some, List.all_eq_true, Option.some.injEq]
      constructor
      · rintro h _ rfl k t hk ht
        have := h k ((mem_splitOn ks k).mpr hk)
        rw [strip_of_trimmed k t ht] at this
        exact (substr_iff _ _).mp this
      · intro h k hk
        exact (substr_iff _ _).mpr (h ks rfl k (strip k) ((mem_splitOn ks k).mp hk) (trimmed_strip k))
  · cases year <;> simp

/-- **C29** `find_hypothesis` returns a member that meets every given criterion (type, data, all
comma-separated keywords occurring in the name, year) if there is one, and `None` otherwise. -/
theorem C29_find_hypothesis (beq : D → D → Bool) (H : Heap D) (S : List ℕ) (ty : Option String)
    (data : Option D) (keywords : Option (List Char)) (year : Option Year) :
    (∀ h, findHypothesis beq H S ty data keywords year = some h →
      h ∈ S ∧ Meets beq (H h) ty data keywords year) ∧
    (findHypothesis beq H S ty data keywords year = none ↔
      ∀ h ∈ S, ¬ Meets beq (H h) ty data keywords year) := by
  unfold findHypothesis
  constructor
  · intro h hh
    exact ⟨List.mem_of_find?_eq_some hh, (findTest_iff _ _ _ _ _ _).mp (by simpa using List.find?_some hh)⟩
  · rw [List.find?_eq_none]
    simp only [findTest_iff]

/-! ### C44 -/

theorem maxFrom_spec (y : WithTop ℤ) (rs : List Reference) (hk : ∀ r ∈ rs, r.year ≠ none) :
    y ≤ Reference.maxFrom y rs ∧ (∀ r ∈ rs, ∀ z, r.year = some z → z ≤ Reference.maxFrom y rs) ∧
      (Reference.maxFrom y rs = y ∨ ∃ r ∈ rs, r.year = some (Reference.maxFrom y rs)) := by
  induction rs generalizing y with
  | nil => exact ⟨le_refl _, by simp, Or.inl rfl⟩
  | cons r rs ih =>
    cases hr : r.year with
    | none => exact absurd hr (hk r (by simp))
    | some z =>
      obtain ⟨h1, h2, h3⟩ := ih (max y z) (fun r' hr' => hk r' (by simp [hr']))
      simp only [Reference.maxFrom, hr]
      refine ⟨(le_max_left _ _).trans h1, ?_, ?_⟩
      · intro r' hr' z' hz'
        rcases List.mem_cons.mp hr' with rfl | hr'
        · rw [hr] at hz'; cases hz'; exact (le_max_right _ _).trans h1
        · exact h2 r' hr' z' hz'
      · rcases h3 with h3 | ⟨r', hr', h3⟩
        · rcases max_choice y z with h4 | h4
          · left; rw [h3, h4]
          · right; exact ⟨r, by simp, by rw [hr, h3, h4]⟩
        · right; exact ⟨r', by simp [hr'], h3⟩

/-- **C44** `max_year`: `-1` for no references; unknown exactly if some date is unknown; otherwise an
upper bound of all years which is one of them. -/
theorem C44_max_year (refs : List Reference) :
    (refs = [] → Reference.maxYear refs = some ((-1 : ℤ) : WithTop ℤ)) ∧
    (Reference.maxYear refs = none ↔ ∃ r ∈ refs, r.year = none) ∧
    (∀ y, refs ≠ [] → Reference.maxYear refs = some y →
      (∀ r ∈ refs, ∀ z, r.year = some z → z ≤ y) ∧ ∃ r ∈ refs, r.year = some y) := by
  cases refs with
  | nil => simp [Reference.maxYear]
  | cons r rs =>
    refine ⟨fun h => absurd h (by simp), ?_, ?_⟩
    · unfold Reference.maxYear
      simp only
      split
      · rename_i h
        rw [List.any_eq_true] at h
        simpa using h
      · rename_i h
        rw [List.any_eq_true] at h
        have hno : ¬ ∃ r' ∈ r :: rs, r'.year = none := by simpa using h
        cases hr : r.year with
        | none => exact absurd ⟨r, by simp, hr⟩ hno
        | some y => simp only [reduceCtorEq, false_iff]; exact hno
    · intro y _ hy
      unfold Reference.maxYear at hy
      simp only at hy
      split at hy
      · cases hy
      · rename_i h
        rw [List.any_eq_true] at h
        have hno : ∀ r' ∈ r :: rs, r'.year ≠ none := by
          intro r' hr' hn
          exact h ⟨r', hr', by rw [hn]; rfl⟩
        cases hr : r.year with
        | none => exact absurd hr (hno r (by simp))
        | some z =>
          rw [hr] at hy
          simp only [Option.some.injEq] at hy
          obtain ⟨h1, h2, h3⟩ := maxFrom_spec z rs (fun r' hr' => hno r' (by simp [hr']))
          rw [hy] at h1 h2 h3
          refine ⟨?_, ?_⟩
          · intro r' hr' z' hz'
            rcases List.mem_cons.mp hr' with rfl | hr'
            · rw [hr] at hz'; cases hz'; exact h1
            · exact h2 r' hr' z' hz'
          · rcases h3 with h3 | ⟨r', hr', h3⟩
            · exact ⟨r, by simp, by rw [hr, h3]⟩
            · exact ⟨r', by simp [hr'], h3⟩

/-- **C44** (constructed references) Among dated references the latest year is infinite as soon as a conjecture is one of
them, and references to classical and trivial results never change it: they are earlier than every year since then. -/
theorem C44_constructed (refs : List Reference) (hd : ∀ r ∈ refs, r.year ≠ none) :
    (Reference.conjectured ∈ refs → Reference.maxYear refs = some ⊤) ∧
    (refs ≠ [] → (∀ r ∈ refs, ∀ y, r.year = some y → ((-1 : ℤ) : WithTop ℤ) ≤ y) →
      ∀ r ∈ [Reference.classical, Reference.trivial], Reference.maxYear (r :: refs) = Reference.maxYear refs) := by
  have hsome : ∀ l : List Reference, (∀ r ∈ l, r.year ≠ none) → ∃ y, Reference.maxYear l = some y := by
    intro l hl
    cases h : Reference.maxYear l with
    | some y => exact ⟨y, rfl⟩
    | none =>
      obtain ⟨r, hr, h'⟩ := (C44_max_year l).2.1.mp h
      exact absurd h' (hl r hr)
  obtain ⟨y, hy⟩ := hsome refs hd
  constructor
  · intro hc
    have := ((C44_max_year refs).2.2 y (List.ne_nil_of_mem hc) hy).1 _ hc ⊤ rfl
    rw [hy, top_le_iff.mp this]
  · intro hne hlow r hr
    have hry : r.year = some ((-1 : ℤ) : WithTop ℤ) := by
      rcases List.mem_cons.mp hr with rfl | hr
      · rfl
      · rw [List.mem_singleton.mp hr]; rfl
    obtain ⟨z, hz⟩ := hsome (r :: refs) (by
      intro r' hr'
      rcases List.mem_cons.mp hr' with rfl | hr'
      · rw [hry]; simp
      · exact hd r' hr')
    obtain ⟨a1, r1, a2, a3⟩ := (C44_max_year refs).2.2 y hne hy
    obtain ⟨b1, r2, b2, b3⟩ := (C44_max_year (r :: refs)).2.2 z (by simp) hz
    rw [hy, hz]
    congr 1
    apply le_antisymm
    · rcases List.mem_cons.mp b2 with rfl | b2
      · rw [hry] at b3
        rw [← Option.some.inj b3]
        exact hlow r1 a2 y a3
      · exact a1 r2 b2 z b3
    · exact b1 r1 (by simp [a2]) y a3

example : Reference.maxYear [⟨"Watt", some ((1989 : ℤ) : WithTop ℤ)⟩, Reference.conjectured] = some ⊤ :=
  (C44_constructed _ (by decide +kernel)).1 (by decide +kernel)
example : Reference.maxYear [Reference.trivial, ⟨"Watt", some ((1989 : ℤ) : WithTop ℤ)⟩] = some ((1989 : ℤ) : WithTop ℤ) :=
  (C44_constructed [⟨"Watt", some ((1989 : ℤ) : WithTop ℤ)⟩] (by decide +kernel)).2 (by simp) (by
    intro r hr y hy
    obtain rfl := List.mem_singleton.mp hr
    obtain rfl := Option.some.inj hy
    exact WithTop.coe_le_coe.mpr (by norm_num)) _ (by simp)

/-- **C44** (order) The result does not depend on the order of the references. -/
theorem C44_order (refs refs' : List Reference) (h : refs.Perm refs') :
    Reference.maxYear refs = Reference.maxYear refs' := by
  obtain ⟨a1, a2, a3⟩ := C44_max_year refs
  obtain ⟨b1, b2, b3⟩ := C44_max_year refs'
  by_cases he : refs = []
  · subst he
    rw [List.nil_perm.mp h]
  · have he' : refs' ≠ [] := fun h0 => he (by rw [h0] at h; exact List.perm_nil.mp h)
    cases hy : Reference.maxYear refs with
    | none =>
      obtain ⟨r, hr, hn⟩ := a2.mp hy
      exact (b2.mpr ⟨r, h.mem_iff.mp hr, hn⟩).symm
    | some y =>
      cases hy' : Reference.maxYear refs' with
      | none =>
        obtain ⟨r, hr, hn⟩ := b2.mp hy'
        rw [a2.mpr ⟨r, h.mem_iff.mpr hr, hn⟩] at hy
        cases hy
      | some y' =>
        obtain ⟨u1, r1, m1, e1⟩ := a3 y he hy
        obtain ⟨u2, r2, m2, e2⟩ := b3 y' he' hy'
        rw [le_antisymm (u2 r1 (h.mem_iff.mp m1) y e1) (u1 r2 (h.mem_iff.mpr m2) y' e2)]

/-! ### C52 -/

/-- Every hypothesis with dependencies was made by one of the `derived_…` constructors. -/
def ByConstructor (H : Heap D) : Prop :=
  ∀ h, (H h).deps ≠ [] → ∃ name htype data, H h = derivedNode H name htype data (H h).deps

/-- **C52** The year recorded for a derived hypothesis is the latest year of all results it
recursively depends on, if these all have known dates; and it is unknown exactly if one of the
results without dependencies that it rests on has an unknown date. -/
theorem C52_derived_year (H : Heap D) (rank : ℕ → ℕ) (hr : Ranked H rank) (hc : ByConstructor H) (h : ℕ) :
    ((H h).ref.year = none ↔ ∃ x, Relation.ReflTransGen (Dep H) h x ∧ (H x).deps = [] ∧ (H x).ref.year = none) ∧
    (∀ y, (H h).ref.year = some y → ∀ fuel, rank h < fuel → proofDate H fuel h = some y) := by
  have key : ∀ n h, rank h < n →
      ((H h).ref.year = none ↔ ∃ x, Relation.ReflTransGen (Dep H) h x ∧ (H x).deps = [] ∧ (H x).ref.year = none) ∧
      (∀ y, (H h).ref.year = some y → ∀ x, Relation.ReflTransGen (Dep H) h x → effYear H x ≤ y) := by
    intro n
    induction n with
    | zero => intro h hh; omega
    | succ n ih =>
      intro h hh
      by_cases hd : (H h).deps = []
      · have honly : ∀ x, Relation.ReflTransGen (Dep H) h x → x = h := by
          intro x hx
          rcases Relation.ReflTransGen.cases_head hx with rfl | ⟨d, hd', _⟩
          · rfl
          · unfold Dep at hd'; rw [hd] at hd'; simp at hd'
        constructor
        · constructor
          · intro h0; exact ⟨h, Relation.ReflTransGen.refl, hd, h0⟩
          · rintro ⟨x, hx, _, h0⟩; rw [← honly x hx]; exact h0
        · intro y hy x hx
          rw [honly x hx]; unfold effYear; rw [hy]; simp
      · have href : (H h).ref = Reference.derived (Reference.maxYear ((H h).deps.map (fun d => (H d).ref))) := by
          obtain ⟨name, htype, data, e⟩ := hc h hd
          exact congrArg Node.ref e
        have hyear : (H h).ref.year = Reference.maxYear ((H h).deps.map (fun d => (H d).ref)) := by
          rw [href]; rfl
        obtain ⟨_, c2, c3⟩ := C44_max_year ((H h).deps.map (fun d => (H d).ref))
        have hne : (H h).deps.map (fun d => (H d).ref) ≠ [] := by simpa using hd
        rw [hyear]
        constructor
        · rw [c2]
          constructor
          · rintro ⟨r, hrm, h0⟩
            rw [List.mem_map] at hrm
            obtain ⟨d, hdm, rfl⟩ := hrm
            obtain ⟨x, hx, h1, h2⟩ := (ih d (by have := hr h d hdm; omega)).1.mp h0
            exact ⟨x, Relation.ReflTransGen.head hdm hx, h1, h2⟩
          · rintro ⟨x, hx, h1, h2⟩
            rcases Relation.ReflTransGen.cases_head hx with rfl | ⟨d, hdm, hdx⟩
            · exact absurd h1 hd
            · exact ⟨(H d).ref, List.mem_map.mpr ⟨d, hdm, rfl⟩,
                (ih d (by have := hr h d hdm; omega)).1.mpr ⟨x, hdx, h1, h2⟩⟩
        · intro y hy x hx
          obtain ⟨u1, r1, m1, e1⟩ := c3 y hne hy
          rcases Relation.ReflTransGen.cases_head hx with rfl | ⟨d, hdm, hdx⟩
          · unfold effYear; rw [hyear, hy]; simp
          · cases hdy : (H d).ref.year with
            | none =>
              have := c2.mpr ⟨(H d).ref, List.mem_map.mpr ⟨d, hdm, rfl⟩, hdy⟩
              rw [this] at hy; cases hy
            | some z =>
              exact ((ih d (by have := hr h d hdm; omega)).2 z hdy x hdx).trans
                (u1 (H d).ref (List.mem_map.mpr ⟨d, hdm, rfl⟩) z hdy)
  obtain ⟨k1, k2⟩ := key (rank h + 1) h (by omega)
  refine ⟨k1, ?_⟩
  intro y hy fuel hf
  obtain ⟨z, z1, z2, x, z3, z4⟩ := C27_proof_date H rank hr h
  rw [z1 fuel hf]
  congr 1
  refine le_antisymm ?_ ?_
  · rw [← z4]; exact k2 y hy x z3
  · have := z2 h Relation.ReflTransGen.refl
    unfold effYear at this; rw [hy] at this; simpa using this

/-! ### Non-vacuity -/

/-- A diamond: 3 depends on 1 and 2, which both depend on 0. -/
def diamond : Heap ℚ := fun n =>
  match n with
  | 0 => ⟨"Trivial pair".toList, "Exponent pair", 0, ⟨"titchmarsh", some ((1986 : ℤ) : WithTop ℤ)⟩, []⟩
  | 1 => ⟨"A".toList, "Exponent pair", 1, Reference.derived (some ((1986 : ℤ) : WithTop ℤ)), [0]⟩
  | 2 => ⟨"B".toList, "Exponent pair", 2, Reference.derived (some ((1986 : ℤ) : WithTop ℤ)), [0]⟩
  | 3 => ⟨"AB".toList, "Exponent pair", 3, Reference.derived (some ((1986 : ℤ) : WithTop ℤ)), [1, 2]⟩
  | _ => ⟨[], "", 0, ⟨"", none⟩, []⟩

theorem diamond_ranked : Ranked diamond (fun n => if n ≤ 3 then n else 0) := by
  intro a b h
  unfold Dep diamond at h
  match a, h with
  | 0, h => simp at h
  | 1, h => simp at h; subst h; decide
  | 2, h => simp at h; subst h; decide
  | 3, h => simp at h; rcases h with rfl | rfl <;> decide
  | n + 4, h => simp at h

theorem diamond_nodup : ∀ h, (diamond h).deps.Nodup := by
  intro h
  unfold diamond
  split <;> simp

/-- C25, C27 apply to the diamond: reachability has three elements (0 once), the tree five nodes. -/
example : recursiveDependencies diamond 5 3 = some [1, 2, 0] ∧ complexity diamond 5 3 = some 5 ∧
    proofDate diamond 5 3 = some ((1986 : ℤ) : WithTop ℤ) := by
  have d0 : (diamond 0).deps = [] := rfl
  have d1 : (diamond 1).deps = [0] := rfl
  have d2 : (diamond 2).deps = [0] := rfl
  have d3 : (diamond 3).deps = [1, 2] := rfl
  have y0 : ownYear diamond 0 = ((1986 : ℤ) : WithTop ℤ) := rfl
  have y1 : ownYear diamond 1 = ((1986 : ℤ) : WithTop ℤ) := rfl
  have y2 : ownYear diamond 2 = ((1986 : ℤ) : WithTop ℤ) := rfl
  have y3 : ownYear diamond 3 = ((1986 : ℤ) : WithTop ℤ) := rfl
  refine ⟨?_, ?_, ?_⟩
  · simp [recursiveDependencies, addRec, addRecList, d0, d1, d2, d3, setUpdate, setAdd]
  · simp [complexity, complexityList, d0, d1, d2, d3]
  · simp [proofDate, proofDateList, d0, d1, d2, d3, y0, y1, y2, y3]

/-- C52 applies to the diamond. -/
example : ByConstructor diamond := by
  have key : ∀ (n : Node ℚ), n.ref = Reference.derived (Reference.maxYear (n.deps.map (fun d => (diamond d).ref))) →
      ∃ name htype data, n = derivedNode diamond name htype data n.deps := by
    rintro ⟨name, htype, data, ref, deps⟩ h
    exact ⟨name, htype, data, by simp only at h; rw [h]; rfl⟩
  intro h hh
  apply key
  unfold diamond at hh ⊢
  match h, hh with
  | 0, h => simp at h
  | 1, _ => simp [Reference.maxYear, Reference.maxFrom]
  | 2, _ => simp [Reference.maxYear, Reference.maxFrom]
  | 3, _ => simp [Reference.maxYear, Reference.maxFrom, Reference.derived]
  | n + 4, h => simp at h

/-- A cycle meets the hypothesis of `C25_cyclic_diverges`. -/
example : Relation.TransGen (Dep (fun n => (⟨[], "", (), ⟨"", none⟩, [1 - n]⟩ : Node Unit))) 0 0 :=
  Relation.TransGen.tail (Relation.TransGen.single (by unfold Dep; simp : Dep _ 0 1)) (by unfold Dep; simp)

/-- C26: the literature part of `exHeap`. -/
example : (∀ h ∈ [0], (exHeap h).ref.label ≠ "Derived" ∧ (exHeap h).deps = [] ∧
      ((exHeap h).ref.label = "Classical" → (exHeap h).ref = Reference.classical)) ∧
    listHypotheses exHeap [0] (some "Exponent pair") (some ((2020 : ℤ) : WithTop ℤ)) = [0] ∧
    listHypotheses exHeap [0] (some "Exponent pair") (some ((2019 : ℤ) : WithTop ℤ)) = [] := by
  decide

/-- C29: keywords with blanks, and a failing search. -/
example : findHypothesis (fun a b => decide (a = b)) diamond [0, 1, 2, 3] (some "Exponent pair") none
      (some " pair, Triv".toList) none = some 0 ∧
    findHypothesis (fun a b => decide (a = b)) diamond [0, 1, 2, 3] none (some 2) (some "A".toList) none = none := by
  decide +kernel

end Hyp
end Expdb
