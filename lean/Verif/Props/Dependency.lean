import Verif.Model.Dependency
import Verif.Props.Hypotheses

/-!
# C118: what `add_dependency` changes
-/

namespace Expdb
namespace Depend

open Hyp

/-- The set objects that hypotheses refer to exist. -/
def WF (s : State) : Prop := ∀ o ∈ s.objs, o.set < s.sets.length

/-- Two hypotheses have the same set object. -/
def Shared (s : State) (h k : ℕ) : Prop := ∃ a b, s.objs[h]? = some a ∧ s.objs[k]? = some b ∧ a.set = b.set

/-- The statement makes at most one hypothesis, with a set made for it, or adds a dependency. -/
def Alone : Step → Prop
  | .new _ | .derive _ | .add _ _ => True
  | .deriveAll n _ => n ≤ 1
  | .deriveOf _ => False

/-- The statement makes hypotheses that refer only to existing ones. -/
def Makes (s : State) : Step → Prop
  | .new _ => True
  | .derive hs | .deriveAll _ hs => ∀ d ∈ hs, d < s.objs.length
  | .deriveOf h => h < s.objs.length
  | .add _ _ => False

theorem wf_step {s : State} (h : WF s) (a : Step) : WF (step s a) := by
  intro o ho
  cases a with
  | new ref =>
    simp only [step, List.mem_append, List.mem_singleton, List.length_append, List.length_singleton] at ho ⊢
    rcases ho with ho | rfl
    · have := h o ho; omega
    · simp
  | derive hs =>
    simp only [step, List.mem_append, List.mem_singleton, List.length_append, List.length_singleton] at ho ⊢
    rcases ho with ho | rfl
    · have := h o ho; omega
    · simp
  | deriveAll n hs =>
    simp only [step, List.mem_append, List.mem_replicate, List.length_append, List.length_singleton] at ho ⊢
    rcases ho with ho | ⟨_, rfl⟩
    · have := h o ho; omega
    · simp
  | deriveOf k =>
    simp only [step] at ho ⊢
    cases e : s.objs[k]? with
    | none => rw [e] at ho; exact h o ho
    | some b =>
      rw [e] at ho
      simp only [List.mem_append, List.mem_singleton] at ho ⊢
      rcases ho with ho | rfl
      · exact h o ho
      · exact h b (List.mem_of_getElem? e)
  | add k f =>
    simp only [step] at ho ⊢
    cases e : s.objs[k]? with
    | none => rw [e] at ho; exact h o ho
    | some b => rw [e] at ho; simpa using h o ho

theorem wf_run (l : List Step) : WF (run l) := by
  have key : ∀ (l : List Step) (s : State), WF s → WF (l.foldl step s) := by
    intro l
    induction l with
    | nil => intro s h; exact h
    | cons a l ih => intro s h; exact ih _ (wf_step h a)
  exact key l _ (by intro o ho; simp at ho)

/-- No two hypotheses share a set object. -/
def Separate (s : State) : Prop := (s.objs.map Obj.set).Nodup

theorem separate_append {s : State} (hw : WF s) (h : Separate s) (r : Reference) :
    ((s.objs ++ [(⟨r, s.sets.length⟩ : Obj)]).map Obj.set).Nodup := by
  rw [List.map_append, List.nodup_append]
  refine ⟨h, by simp, ?_⟩
  intro a ha b hb
  obtain ⟨o, ho, rfl⟩ : ∃ o ∈ s.objs, o.set = a := List.mem_map.mp ha
  simp only [List.map_cons, List.map_nil, List.mem_singleton] at hb
  have := hw o ho
  omega

theorem separate_run (l : List Step) (hl : ∀ a ∈ l, Alone a) : Separate (run l) := by
  have key : ∀ (l : List Step) (s : State), (∀ a ∈ l, Alone a) → WF s → Separate s → Separate (l.foldl step s) := by
    intro l
    induction l with
    | nil => intro s _ _ h; exact h
    | cons a l ih =>
      intro s hl hw h
      refine ih _ (fun b hb => hl b (List.mem_cons_of_mem _ hb)) (wf_step hw a) ?_
      have ha := hl a List.mem_cons_self
      cases a with
      | new ref => exact separate_append hw h _
      | derive hs => exact separate_append hw h _
      | deriveAll n hs =>
        simp only [Alone] at ha
        rcases Nat.le_one_iff_eq_zero_or_eq_one.mp ha with rfl | rfl
        · simpa [step, Separate] using h
        · exact separate_append hw h _
      | deriveOf k => exact absurd ha (by simp [Alone])
      | add k f =>
        simp only [step]
        cases e : s.objs[k]? with
        | none => exact h
        | some b => exact h
  exact key l _ hl (by intro o ho; simp at ho) (by simp [Separate])

theorem shared_iff_eq {s : State} (h : Separate s) {i j : ℕ} (hi : i < s.objs.length) : Shared s i j ↔ j = i := by
  constructor
  · rintro ⟨a, b, ha, hb, e⟩
    obtain ⟨hi', rfl⟩ := List.getElem?_eq_some_iff.mp ha
    obtain ⟨hj', rfl⟩ := List.getElem?_eq_some_iff.mp hb
    have := (List.Nodup.getElem_inj_iff h (i := i) (j := j) (hi := by simpa using hi') (hj := by simpa using hj')).mp (by simpa using e)
    exact this.symm
  · rintro rfl
    exact ⟨_, _, List.getElem?_eq_getElem hi, List.getElem?_eq_getElem hi, rfl⟩

/-- **C118** After any program, `h.add_dependency(f)` adds `f` to the dependencies of exactly the hypotheses that share the set object
of `h`, among them `h`; it removes nothing and changes no reference. -/
theorem C118_add (l : List Step) (h f : ℕ) (hh : h < (run l).objs.length) :
    (∀ k x, x ∈ deps (step (run l) (.add h f)) k ↔ x ∈ deps (run l) k ∨ (x = f ∧ Shared (run l) h k)) ∧
    (∀ k, refOf (step (run l) (.add h f)) k = refOf (run l) k) ∧ f ∈ deps (step (run l) (.add h f)) h := by
  have hw := wf_run l
  generalize run l = s at hh hw
  have e : s.objs[h]? = some s.objs[h] := List.getElem?_eq_getElem hh
  have hlt := hw _ (List.getElem_mem hh)
  have main : ∀ k x, x ∈ deps (step s (.add h f)) k ↔ x ∈ deps s k ∨ (x = f ∧ Shared s h k) := by
    intro k x
    simp only [step, e, deps]
    cases ek : s.objs[k]? with
    | none => simp [Shared, ek]
    | some b =>
      by_cases hb : s.objs[h].set = b.set
      · have hs : Shared s h k := ⟨_, _, e, ek, hb⟩
        simp only [hs, and_true]
        rw [← hb, List.getD_eq_getElem?_getD, List.getElem?_set_self hlt, Option.getD_some, mem_setAdd]
      · have hs : ¬ Shared s h k := by
          rintro ⟨a, b', ha, hb', e'⟩
          rw [e] at ha; rw [ek] at hb'
          cases ha; cases hb'
          exact hb e'
        simp only [hs, and_false, or_false]
        rw [List.getD_eq_getElem?_getD, List.getElem?_set_ne hb, ← List.getD_eq_getElem?_getD]
  refine ⟨main, ?_, (main h f).mpr (.inr ⟨rfl, _, _, e, e, rfl⟩)⟩
  intro k
  simp only [step, e, refOf]

/-- **C118** (partial: for programs in which every hypothesis is made with a set of its own; false otherwise, see
`C118_shared_counterexample`). `h.add_dependency(f)` changes no hypothesis but `h`. -/
theorem C118_alone_partial (l : List Step) (hl : ∀ a ∈ l, Alone a) (h f k : ℕ) (hh : h < (run l).objs.length) (hk : k ≠ h) :
    deps (step (run l) (.add h f)) k = deps (run l) k ∧ ∀ x, x ∈ deps (step (run l) (.add h f)) h ↔ x ∈ deps (run l) h ∨ x = f := by
  have hs := separate_run l hl
  refine ⟨?_, fun x => ?_⟩
  · have hw := wf_run l
    have hn := (shared_iff_eq hs (j := k) hh).not.mpr hk
    generalize run l = s at *
    have e : s.objs[h]? = some s.objs[h] := List.getElem?_eq_getElem hh
    simp only [step, e, deps]
    cases ek : s.objs[k]? with
    | none => rfl
    | some b =>
      have hb : s.objs[h].set ≠ b.set := fun hb => hn ⟨_, _, e, ek, hb⟩
      simp only [List.getD_eq_getElem?_getD, List.getElem?_set_ne hb]
  · rw [(C118_add l h f hh).1 h x, shared_iff_eq hs hh]
    simp

/-- **C118** What several estimates made from one set lose: after `[derived_…(…, deps) for s in sup]` a dependency added to one of the
new hypotheses is a dependency of all of them. -/
theorem C118_list (l : List Step) (n : ℕ) (hs : List ℕ) (i j f : ℕ) (hi : i < n) (hj : j < n) :
    f ∈ deps (step (run (l ++ [.deriveAll n hs])) (.add ((run l).objs.length + i) f)) ((run l).objs.length + j) := by
  have er : run (l ++ [.deriveAll n hs]) = step (run l) (.deriveAll n hs) := by simp [run, List.foldl_append]
  have hg : ∀ m < n, (run (l ++ [.deriveAll n hs])).objs[(run l).objs.length + m]? = some ⟨derivedRef (run l) hs, (run l).sets.length⟩ := by
    intro m hm
    rw [er]
    simp only [step]
    rw [List.getElem?_append_right (by omega), Nat.add_sub_cancel_left, List.getElem?_replicate, if_pos hm]
  refine ((C118_add _ _ f ?_).1 _ _).mpr (.inr ⟨rfl, _, _, hg i hi, hg j hj, rfl⟩)
  rw [er]
  simp only [step, List.length_append, List.length_replicate]
  omega

/-- **C118** After `derived_…(data, proof, h.dependencies)` the new hypothesis has the dependencies of `h`, and what is added to one of
the two is added to the other. -/
theorem C118_passed (l : List Step) (h f : ℕ) (hh : h < (run l).objs.length) :
    deps (run (l ++ [.deriveOf h])) (run l).objs.length = deps (run l) h ∧
    f ∈ deps (step (run (l ++ [.deriveOf h])) (.add h f)) (run l).objs.length ∧
    f ∈ deps (step (run (l ++ [.deriveOf h])) (.add (run l).objs.length f)) h := by
  have e : (run l).objs[h]? = some (run l).objs[h] := List.getElem?_eq_getElem hh
  have er : run (l ++ [.deriveOf h]) =
      ⟨(run l).objs ++ [⟨derivedRef (run l) (deps (run l) h), (run l).objs[h].set⟩], (run l).sets⟩ := by
    have : run (l ++ [.deriveOf h]) = step (run l) (.deriveOf h) := by simp [run, List.foldl_append]
    rw [this]
    simp only [step, e]
  have h1 : (run (l ++ [.deriveOf h])).objs[(run l).objs.length]? = some ⟨derivedRef (run l) (deps (run l) h), (run l).objs[h].set⟩ := by
    rw [er]; simp
  have h2 : (run (l ++ [.deriveOf h])).objs[h]? = some (run l).objs[h] := by
    rw [er]; simp only [List.getElem?_append_left hh, e]
  have hl : (run (l ++ [.deriveOf h])).objs.length = (run l).objs.length + 1 := by rw [er]; simp
  refine ⟨?_, ((C118_add _ h f (by omega)).1 _ _).mpr (.inr ⟨rfl, _, _, h2, h1, rfl⟩),
    ((C118_add _ _ f (by omega)).1 _ _).mpr (.inr ⟨rfl, _, _, h1, h2, rfl⟩)⟩
  unfold deps
  rw [h1, e, er]

/-- `lver_to_zd` (zero_density_estimate.py:520-528) and `lver_to_energy_bound` (zero_density_energy_estimate.py:243-252) give one set object
to all estimates they return, and `compute_LV_star` with `zeta=True` (additive_energy.py:471, 481-486) passes on the set of another
hypothesis: a dependency added to one of the estimates silently becomes a dependency of the others, whose proofs do not use it. -/
theorem C118_shared_counterexample :
    ∃ l h f k, h < (run l).objs.length ∧ k < (run l).objs.length ∧ k ≠ h ∧ f ∉ deps (run l) k ∧ f ∈ deps (step (run l) (.add h f)) k :=
  ⟨[.new ⟨"Bourgain2000", some ((2000 : ℤ) : WithTop ℤ)⟩, .new ⟨"GuthMaynard2024", some ((2024 : ℤ) : WithTop ℤ)⟩, .deriveAll 2 [0]], 2, 1, 3,
    by decide +kernel, by decide +kernel, by decide, by decide +kernel, by decide +kernel⟩

/-! ### Programs without `add_dependency` -/

/-- What holds after programs that only make hypotheses. -/
structure Good (s : State) : Prop where
  wf : WF s
  lt : ∀ h d, d ∈ deps s h → d < h
  con : ∀ h, deps s h ≠ [] → refOf s h = derivedRef s (deps s h)

theorem old_refOf {s : State} {os : List Obj} {ss : List (List ℕ)} {h : ℕ} (hh : h < s.objs.length) :
    refOf ⟨s.objs ++ os, s.sets ++ ss⟩ h = refOf s h := by
  simp only [refOf, List.getElem?_append_left hh]

theorem old_deps {s : State} (hw : WF s) {os : List Obj} {ss : List (List ℕ)} {h : ℕ} (hh : h < s.objs.length) :
    deps ⟨s.objs ++ os, s.sets ++ ss⟩ h = deps s h := by
  simp only [deps, List.getElem?_append_left hh, List.getElem?_eq_getElem hh, List.getD_eq_getElem?_getD]
  rw [List.getElem?_append_left (hw _ (List.getElem_mem hh))]

theorem deps_len {s : State} {h : ℕ} (hh : s.objs.length ≤ h) : deps s h = [] := by
  simp only [deps, List.getElem?_eq_none hh]

/-- New hypotheses with given contents of their sets. -/
theorem good_append {s : State} (g : Good s) (os : List Obj) (ss : List (List ℕ)) (hw : WF ⟨s.objs ++ os, s.sets ++ ss⟩)
    (hn : ∀ h, s.objs.length ≤ h → ∀ o, (s.objs ++ os)[h]? = some o → (s.sets ++ ss).getD o.set [] ≠ [] →
      (∀ d ∈ (s.sets ++ ss).getD o.set [], d < s.objs.length) ∧ o.ref = derivedRef s ((s.sets ++ ss).getD o.set [])) :
    Good ⟨s.objs ++ os, s.sets ++ ss⟩ := by
  have old : ∀ l : List ℕ, (∀ d ∈ l, d < s.objs.length) → derivedRef ⟨s.objs ++ os, s.sets ++ ss⟩ l = derivedRef s l := by
    intro l hl
    unfold derivedRef
    rw [List.map_congr_left (fun d hd => old_refOf (hl d hd))]
  refine ⟨hw, ?_, ?_⟩
  · intro h d hd
    by_cases hh : h < s.objs.length
    · rw [old_deps g.wf hh] at hd; exact g.lt h d hd
    · cases e : (s.objs ++ os)[h]? with
      | none => simp [deps, e] at hd
      | some o =>
        simp only [deps, e] at hd
        have := (hn h (by omega) o e (List.ne_nil_of_mem hd)).1 d hd
        omega
  · intro h hne
    by_cases hh : h < s.objs.length
    · rw [old_deps g.wf hh] at hne ⊢
      rw [old_refOf hh, old _ (fun d hd => (g.lt h d hd).trans hh)]
      exact g.con h hne
    · cases e : (s.objs ++ os)[h]? with
      | none => simp [deps, e] at hne
      | some o =>
        simp only [deps, e] at hne ⊢
        obtain ⟨k1, k2⟩ := hn h (by omega) o e hne
        rw [old _ k1, ← k2]
        simp [refOf, e]

theorem mem_of_ge {os ps : List Obj} {h : ℕ} {o : Obj} (hh : os.length ≤ h) (e : (os ++ ps)[h]? = some o) : o ∈ ps := by
  rw [List.getElem?_append_right hh] at e
  exact List.mem_of_getElem? e

theorem good_step {s : State} (g : Good s) {a : Step} (ha : Makes s a) : Good (step s a) := by
  have hw := wf_step g.wf a
  cases a with
  | new ref =>
    refine good_append g _ _ hw fun h hh o e hne => ?_
    rw [List.mem_singleton.mp (mem_of_ge hh e)] at hne
    simp at hne
  | derive hs =>
    refine good_append g _ _ hw fun h hh o e hne => ?_
    rw [List.mem_singleton.mp (mem_of_ge hh e)]
    simpa [Makes] using ha
  | deriveAll n hs =>
    refine good_append g _ _ hw fun h hh o e hne => ?_
    rw [(List.mem_replicate.mp (mem_of_ge hh e)).2]
    simpa [Makes] using ha
  | deriveOf k =>
    have ha' : k < s.objs.length := ha
    have ek : s.objs[k]? = some s.objs[k] := List.getElem?_eq_getElem ha'
    have ed : deps s k = s.sets.getD s.objs[k].set [] := by simp only [deps, ek]
    have es : step s (.deriveOf k) = ⟨s.objs ++ [⟨derivedRef s (deps s k), s.objs[k].set⟩], s.sets ++ []⟩ := by
      simp only [step, ek, List.append_nil]
    rw [es] at hw ⊢
    refine good_append g _ _ hw fun h hh o e hne => ?_
    rw [List.mem_singleton.mp (mem_of_ge hh e)]
    simp only [List.append_nil]
    rw [← ed]
    exact ⟨fun d hd => (g.lt k d hd).trans ha', rfl⟩
  | add k f => exact absurd ha (by simp [Makes])

/-- Programs that only make hypotheses from existing ones. -/
inductive Building : List Step → Prop
  | nil : Building []
  | snoc {l a} : Building l → Makes (run l) a → Building (l ++ [a])

theorem good_run {l : List Step} (h : Building l) : Good (run l) := by
  induction h with
  | nil => exact ⟨wf_run _, by intro h d hd; simp [run, deps] at hd, by intro h hne; simp [run, deps] at hne⟩
  | snoc _ ha ih =>
    have := good_step ih ha
    simpa [run, List.foldl_append] using this

/-- **C118** After a program that only makes hypotheses from existing ones, shared sets or not, no hypothesis depends on itself,
directly or not; `recursive_dependencies` and `proof_date` end; and the year recorded for a hypothesis, where it is known, is its proof
date. -/
theorem C118_building {l : List Step} (hl : Building l) (h : ℕ) :
    ¬ Relation.TransGen (Dep (heap (run l))) h h ∧
    (∀ fuel, h < fuel → ∃ S, recursiveDependencies (heap (run l)) fuel h = some S ∧ ∀ x, x ∈ S ↔ Relation.TransGen (Dep (heap (run l))) h x) ∧
    ∀ y, (refOf (run l) h).year = some y → ∀ fuel, h < fuel → proofDate (heap (run l)) fuel h = some y := by
  have g := good_run hl
  have hr : Ranked (heap (run l)) (fun n => n) := fun a b hab => g.lt a b hab
  have hc : ByConstructor (heap (run l)) := by
    intro k hk
    refine ⟨[], "", (), ?_⟩
    simp only [heap, derivedNode, Node.mk.injEq, true_and, and_true]
    exact g.con k hk
  refine ⟨fun ht => ?_, fun fuel hf => ?_, fun y hy fuel hf => (C52_derived_year _ _ hr hc h).2 y hy fuel hf⟩
  · have lt : ∀ a b, Relation.TransGen (Dep (heap (run l))) a b → b < a := by
      intro a b hab
      induction hab with
      | single h1 => exact hr _ _ h1
      | tail _ h1 ih => exact (hr _ _ h1).trans ih
    exact lt_irrefl _ (lt h h ht)
  · obtain ⟨S, s1, _, s3⟩ := C25_recursive_dependencies (heap (run l)) _ hr h
    exact ⟨S, s1 fuel hf, s3⟩

/-- The year recorded in the reference of a derived hypothesis is computed once, by the constructor: after `add_dependency`
(hypotheses.py:66-67) it can be earlier than `proof_date()`, the latest year of what the hypothesis rests on. -/
theorem C118_year_counterexample :
    ∃ l h f, h < (run l).objs.length ∧ (refOf (run l) h).label = "Derived" ∧
      proofDate (heap (run l)) 5 h = (refOf (run l) h).year ∧
      (refOf (step (run l) (.add h f)) h).year = some ((2000 : ℤ) : WithTop ℤ) ∧
      proofDate (heap (step (run l) (.add h f))) 5 h = some ((2024 : ℤ) : WithTop ℤ) := by
  refine ⟨[.new ⟨"Bourgain2000", some ((2000 : ℤ) : WithTop ℤ)⟩, .new ⟨"GuthMaynard2024", some ((2024 : ℤ) : WithTop ℤ)⟩, .derive [0]], 2, 1,
    by decide +kernel, by decide +kernel, ?_, by decide +kernel, ?_⟩
  · have b2 := Building.snoc (Building.snoc Building.nil (a := .new ⟨"Bourgain2000", some ((2000 : ℤ) : WithTop ℤ)⟩) trivial)
      (a := .new ⟨"GuthMaynard2024", some ((2024 : ℤ) : WithTop ℤ)⟩) trivial
    have b3 := Building.snoc b2 (a := .derive [0]) (by unfold Makes; decide +kernel)
    exact (C118_building b3 2).2.2 ((2000 : ℤ) : WithTop ℤ) (by decide +kernel) 5 (by decide)
  · generalize hs : step (run [.new ⟨"Bourgain2000", some ((2000 : ℤ) : WithTop ℤ)⟩, .new ⟨"GuthMaynard2024", some ((2024 : ℤ) : WithTop ℤ)⟩,
      .derive [0]]) (.add 2 1) = s
    have d0 : deps s 0 = [] := by rw [← hs]; decide +kernel
    have d1 : deps s 1 = [] := by rw [← hs]; decide +kernel
    have d2 : deps s 2 = [0, 1] := by rw [← hs]; decide +kernel
    have r0 : (refOf s 0).year = some ((2000 : ℤ) : WithTop ℤ) := by rw [← hs]; decide +kernel
    have r1 : (refOf s 1).year = some ((2024 : ℤ) : WithTop ℤ) := by rw [← hs]; decide +kernel
    have r2 : (refOf s 2).year = some ((2000 : ℤ) : WithTop ℤ) := by rw [← hs]; decide +kernel
    simp only [proofDate, proofDateList, heap, ownYear, d0, d1, d2, r0, r1, r2, bind, Option.bind]
    decide +kernel

/-! ### Cycles -/

/-- **C118** After a program in which every hypothesis has a set of its own, `h.add_dependency(f)` adds to what `h` rests on exactly `f`
and what `f` rests on, and it makes a cycle exactly if `f` is `h` or rests on `h`; then `recursive_dependencies` of `h` does not end. -/
theorem C118_cycle_partial (l : List Step) (hl : ∀ a ∈ l, Alone a) (h f : ℕ) (hh : h < (run l).objs.length) :
    (∀ x, Relation.TransGen (Dep (heap (step (run l) (.add h f)))) h x ↔
      Relation.TransGen (Dep (heap (run l))) h x ∨ Relation.ReflTransGen (Dep (heap (run l))) f x) ∧
    (Relation.ReflTransGen (Dep (heap (run l))) f h → ∀ fuel, recursiveDependencies (heap (step (run l) (.add h f))) fuel h = none) ∧
    (¬ Relation.ReflTransGen (Dep (heap (run l))) f h → (∀ c, ¬ Relation.TransGen (Dep (heap (run l))) c c) →
      ∀ c, ¬ Relation.TransGen (Dep (heap (step (run l) (.add h f)))) c c) := by
  set R := Dep (heap (run l)) with hR
  set R' := Dep (heap (step (run l) (.add h f))) with hR'
  have hd : ∀ a b, R' a b ↔ R a b ∨ (a = h ∧ b = f) := by
    intro a b
    have := (C118_add l h f hh).1 a b
    rw [shared_iff_eq (separate_run l hl) hh] at this
    exact this.trans (by rw [hR]; unfold Dep heap; tauto)
  have up : ∀ a b, R a b → R' a b := fun a b k => (hd a b).mpr (.inl k)
  have fwd : ∀ a x, Relation.TransGen R' a x → Relation.TransGen R a x ∨ (Relation.ReflTransGen R a h ∧ Relation.ReflTransGen R f x) := by
    intro a x k
    induction k with
    | single k1 =>
      rcases (hd _ _).mp k1 with k1 | ⟨rfl, rfl⟩
      · exact .inl (.single k1)
      · exact .inr ⟨.refl, .refl⟩
    | tail _ k1 ih =>
      rcases (hd _ _).mp k1 with k1 | ⟨rfl, rfl⟩
      · rcases ih with ih | ⟨i1, i2⟩
        · exact .inl (ih.tail k1)
        · exact .inr ⟨i1, i2.tail k1⟩
      · refine .inr ⟨?_, .refl⟩
        rcases ih with ih | ⟨i1, _⟩
        · exact ih.to_reflTransGen
        · exact i1
  have bwd : ∀ x, Relation.ReflTransGen R f x → Relation.TransGen R' h x := fun x k =>
    Relation.TransGen.head' ((hd h f).mpr (.inr ⟨rfl, rfl⟩)) (Relation.ReflTransGen.mono up _ _ k)
  refine ⟨fun x => ⟨fun k => ?_, ?_⟩, fun k fuel => C25_cyclic_diverges _ h (bwd h k) fuel, fun hn ha c hc => ?_⟩
  · rcases fwd h x k with k | ⟨_, k⟩
    · exact .inl k
    · exact .inr k
  · rintro (k | k)
    · exact Relation.TransGen.mono up _ _ k
    · exact bwd x k
  · rcases fwd c c hc with k | ⟨k1, k2⟩
    · exact ha c k
    · exact hn (k2.trans k1)

/-! ### Examples -/

/-- Two results from the literature, one derived from both, one derived from that. -/
def exSteps : List Step :=
  [.new ⟨"Ingham1940", some ((1940 : ℤ) : WithTop ℤ)⟩, .new ⟨"Huxley1972", some ((1972 : ℤ) : WithTop ℤ)⟩, .derive [0, 1], .derive [2]]

theorem exSteps_alone : ∀ a ∈ exSteps, Alone a := by
  intro a ha
  simp only [exSteps, List.mem_cons, List.not_mem_nil, or_false] at ha
  rcases ha with rfl | rfl | rfl | rfl <;> trivial

theorem exSteps_building : Building exSteps := by
  have h1 := Building.snoc Building.nil (a := .new ⟨"Ingham1940", some ((1940 : ℤ) : WithTop ℤ)⟩) trivial
  have h2 := Building.snoc h1 (a := .new ⟨"Huxley1972", some ((1972 : ℤ) : WithTop ℤ)⟩) trivial
  have h3 := Building.snoc h2 (a := .derive [0, 1]) (by unfold Makes; decide +kernel)
  exact Building.snoc h3 (a := .derive [2]) (by unfold Makes; decide +kernel)

example : 0 ∈ deps (step (run exSteps) (.add 3 0)) 3 := (C118_add exSteps 3 0 (by decide +kernel)).2.2

example : deps (step (run exSteps) (.add 3 0)) 2 = [0, 1] :=
  (C118_alone_partial exSteps exSteps_alone 3 0 2 (by decide +kernel) (by decide)).1.trans (by decide +kernel)

/-- Three estimates for three intervals, as `lver_to_zd` returns them. -/
example : 1 ∈ deps (step (run ([.new Reference.classical, .new Reference.trivial] ++ [.deriveAll 3 [0]])) (.add (2 + 0) 1)) (2 + 2) :=
  C118_list [.new Reference.classical, .new Reference.trivial] 3 [0] 0 2 1 (by decide) (by decide)

/-- A projected region with the dependencies of the region, as `compute_LV_star` returns it. -/
example : deps (run (exSteps ++ [.deriveOf 2])) 4 = [0, 1] ∧ 3 ∈ deps (step (run (exSteps ++ [.deriveOf 2])) (.add 2 3)) 4 :=
  ⟨(C118_passed exSteps 2 3 (by decide +kernel)).1.trans (by decide +kernel), (C118_passed exSteps 2 3 (by decide +kernel)).2.1⟩

example : proofDate (heap (run exSteps)) 4 3 = some ((1972 : ℤ) : WithTop ℤ) :=
  (C118_building exSteps_building 3).2.2 _ (by decide +kernel) 4 (by decide)

/-- Result 2 made to depend on result 3, which was derived from it. -/
example : recursiveDependencies (heap (step (run exSteps) (.add 2 3))) 100 2 = none :=
  (C118_cycle_partial exSteps exSteps_alone 2 3 (by decide +kernel)).2.1 (.single (by unfold Dep; decide +kernel)) 100

end Depend
end Expdb
