import Verif.Props.RegionDisjoint

/-!
# Properties C61 and C62: labels and inclusion of regions
-/

namespace Expdb
namespace Region

variable {L : Type}

/-! ### Labels -/

mutual
/-- The polytopes of a region with their labels. -/
def labels : Region L → List (Mat × Option L)
  | .polytope m l => [(m, l)]
  | .wrapped r => labels r
  | .complement r => labels r
  | .union rs => labelsList rs
  | .disjoint rs => labelsList rs
  | .intersect rs => labelsList rs
/-- The same for a list of regions. -/
def labelsList : List (Region L) → List (Mat × Option L)
  | [] => []
  | r :: rs => labels r ++ labelsList rs
end

mutual
/-- No region of type POLYTOPE has a `Region` as child. -/
def Proper : Region L → Prop
  | .polytope _ _ => True
  | .wrapped _ => False
  | .complement r => Proper r
  | .union rs => ProperList rs
  | .disjoint rs => ProperList rs
  | .intersect rs => ProperList rs
/-- The same for a list of regions. -/
def ProperList : List (Region L) → Prop
  | [] => True
  | r :: rs => Proper r ∧ ProperList rs
end

theorem setLabelList_eq (l : L) (rs : List (Region L)) : setLabelList l rs = rs.map (setLabel l) := by
  induction rs with
  | nil => rfl
  | cons r rs ih => rw [setLabelList, ih]; rfl

theorem properList_iff (rs : List (Region L)) : ProperList rs ↔ ∀ r ∈ rs, Proper r := by
  induction rs with
  | nil => simp [ProperList]
  | cons r rs ih => simp [ProperList, ih]

theorem setLabel_labelsList (l : L) (rs : List (Region L))
    (h : ∀ r ∈ rs, (r.setLabel l).labels = r.labels.map (fun p => (p.1, some l))) :
    labelsList (setLabelList l rs) = (labelsList rs).map (fun p => (p.1, some l)) := by
  induction rs with
  | nil => rfl
  | cons r rs ih =>
    rw [setLabelList, labelsList, labelsList, List.map_append, h r (by simp), ih (fun r' hr' => h r' (by simp [hr']))]

/-- **C61** `set_label(l)` gives every polytope of the region the label `l`, whatever its label was, and changes neither the
polytopes nor the points of the region. -/
theorem C61_setLabel (l : L) (r : Region L) (h : r.Proper) :
    (r.setLabel l).labels = r.labels.map (fun p => (p.1, some l)) ∧ ∀ x, (r.setLabel l).Mem x ↔ r.Mem x := by
  have any : ∀ rs : List (Region L), (∀ r ∈ rs, ∀ x, (r.setLabel l).Mem x ↔ r.Mem x) → ∀ x,
      (MemAny (setLabelList l rs) x ↔ MemAny rs x) ∧ (MemAll (setLabelList l rs) x ↔ MemAll rs x) := by
    intro rs
    induction rs with
    | nil => intro _ x; exact ⟨Iff.rfl, Iff.rfl⟩
    | cons r rs ih =>
      intro h x
      obtain ⟨h1, h2⟩ := ih (fun r' hr' => h r' (by simp [hr'])) x
      rw [setLabelList, MemAny, MemAny, MemAll, MemAll, h r (by simp), h1, h2]
      exact ⟨Iff.rfl, Iff.rfl⟩
  induction r using induct with
  | hp m o =>
    rw [setLabel]
    exact ⟨rfl, fun x => by rw [Mem, Mem]⟩
  | hw r _ => exact absurd h (by rw [Proper]; exact id)
  | hc r ih =>
    rw [Proper] at h
    obtain ⟨h1, h2⟩ := ih h
    rw [setLabel]
    exact ⟨by rw [labels, labels, h1], fun x => by rw [Mem, Mem, h2 x]⟩
  | hu rs ih =>
    rw [Proper, properList_iff] at h
    rw [setLabel]
    exact ⟨by rw [labels, labels, setLabel_labelsList l rs (fun r hr => (ih r hr (h r hr)).1)], fun x => by
      rw [Mem, Mem, (any rs (fun r hr => (ih r hr (h r hr)).2) x).1]⟩
  | hd rs ih =>
    rw [Proper, properList_iff] at h
    rw [setLabel]
    exact ⟨by rw [labels, labels, setLabel_labelsList l rs (fun r hr => (ih r hr (h r hr)).1)], fun x => by
      rw [Mem, Mem, (any rs (fun r hr => (ih r hr (h r hr)).2) x).1]⟩
  | hi rs ih =>
    rw [Proper, properList_iff] at h
    rw [setLabel]
    exact ⟨by rw [labels, labels, setLabel_labelsList l rs (fun r hr => (ih r hr (h r hr)).1)], fun x => by
      rw [Mem, Mem, (any rs (fun r hr => (ih r hr (h r hr)).2) x).2]⟩

example : ((Region.intersect [.complement (.polytope (Mat.ivl 0 1) (some 7)), .union [.polytope (Mat.ivl 2 3) none]]).setLabel 5).labels =
    [(Mat.ivl 0 1, some 5), (Mat.ivl 2 3, some 5)] :=
  (C61_setLabel 5 (.intersect [.complement (.polytope (Mat.ivl 0 1) (some 7)), .union [.polytope (Mat.ivl 2 3) none]])
    (by simp [Proper, ProperList])).1

/-! ### Inclusion -/

/-- Conditions on the polytopes of the first region: non-empty, bounded and of dimension `n - 1`. -/
def Solid (n : ℕ) (m : Mat) : Prop := m.WF ∧ m.cols = n ∧ m.Bounded ∧ ∃ x, m.Contains x

theorem polySubset_spec (lp : Mat.LPSolver) (hlp : Mat.LPSpec lp) (n : ℕ) (m : Mat) (hm : Solid n m) (target : Region L)
    (ht : target.AllMat (fun q => q.WF ∧ q.cols = n)) : ∀ b, polySubset lp m target = .ok b →
      (b = true ↔ ∀ x, m.Contains x → target.Mem x) := by
  have key : ∀ rs : List (Region L), (∀ r ∈ rs, ∀ b, polySubset lp m r = .ok b →
      (b = true ↔ ∀ x, m.Contains x → r.Mem x)) → ∀ b, polySubsetAll lp m rs = .ok b →
      (b = true ↔ ∀ x, m.Contains x → MemAll rs x) := by
    intro rs
    induction rs with
    | nil =>
      intro _ b h
      rw [polySubsetAll] at h
      have := Except.ok.inj h
      subst this
      simp [MemAll]
    | cons r rs ih =>
      intro hr b h
      rw [polySubsetAll] at h
      cases h1 : polySubset lp m r with
      | error e => rw [h1] at h; cases h
      | ok c =>
        have hc := hr r (by simp) c h1
        rw [h1] at h
        cases c with
        | false =>
          have := Except.ok.inj (show (Except.ok false : Py Bool) = .ok b from h)
          subst this
          simp only [Bool.false_eq_true, false_iff] at hc ⊢
          intro h'
          exact hc (fun x hx => ((h' x hx : r.Mem x ∧ MemAll rs x)).1)
        | true =>
          have h2 := ih (fun r' hr' => hr r' (by simp [hr'])) b (show polySubsetAll lp m rs = .ok b from h)
          rw [h2]
          have hc' := hc.mp rfl
          constructor
          · intro h' x hx
            rw [MemAll]
            exact ⟨hc' x hx, h' x hx⟩
          · intro h' x hx
            have := h' x hx
            rw [MemAll] at this
            exact this.2
  obtain ⟨hw, hcols, hbd, x0, hx0⟩ := hm
  induction target using induct with
  | hp q o =>
    intro b h
    rw [polySubset] at h
    have := Except.ok.inj h
    subst this
    rw [AllMat] at ht
    have h15 := Mat.C15_isSubsetOf_partial lp hlp m q hw ht.1 (by rw [hcols, ht.2]) ⟨x0, hx0⟩
      (fun ab _ => Mat.Bounded.below hbd ab)
    rw [h15]
    constructor
    · intro h' x hx; rw [Mem]; exact h' x hx
    · intro h' x hx; have := h' x hx; rw [Mem] at this; exact this
  | hw r _ => intro b h; rw [polySubset] at h; cases h
  | hc r _ => intro b h; rw [polySubset] at h; cases h
  | hu rs _ =>
    intro b h
    cases rs with
    | nil =>
      rw [polySubset] at h
      have := Except.ok.inj h
      subst this
      simp only [Bool.false_eq_true, false_iff]
      intro h'
      have := h' x0 hx0
      rw [Mem, MemAny] at this
      exact this
    | cons r rs => rw [polySubset] at h; cases h
  | hd rs _ =>
    intro b h
    cases rs with
    | nil =>
      rw [polySubset] at h
      have := Except.ok.inj h
      subst this
      simp only [Bool.false_eq_true, false_iff]
      intro h'
      have := h' x0 hx0
      rw [Mem, MemAny] at this
      exact this
    | cons r rs => rw [polySubset] at h; cases h
  | hi rs ih =>
    intro b h
    rw [polySubset] at h
    rw [AllMat, allMatList_iff] at ht
    rw [key rs (fun r hr => ih r hr (ht r hr)) b h]
    constructor
    · intro h' x hx; rw [Mem]; exact h' x hx
    · intro h' x hx; have := h' x hx; rw [Mem] at this; exact this

/-- **C62** (part) Whenever `r.is_subset_of(target)` returns, for `r` made of non-empty bounded polytopes, it returns `True`
exactly when every point of `r` is in `target`. Missing: it raises for every `target` which is a non-empty union
(`C62_union_counterexample`), and, as the code says, for intersections and complements on the left. -/
theorem C62_isSubsetOf_partial (lp : Mat.LPSolver) (hlp : Mat.LPSpec lp) (n : ℕ) (r target : Region L) (hr : r.AllMat (Solid n))
    (ht : target.AllMat (fun q => q.WF ∧ q.cols = n)) (b : Bool) (h : isSubsetOf lp target r = .ok b) :
    b = true ↔ ∀ x, r.Mem x → target.Mem x := by
  have key : ∀ rs : List (Region L), (∀ r ∈ rs, ∀ b, isSubsetOf lp target r = .ok b →
      (b = true ↔ ∀ x, r.Mem x → target.Mem x)) → ∀ b, isSubsetOfAll lp target rs = .ok b →
      (b = true ↔ ∀ x, MemAny rs x → target.Mem x) := by
    intro rs
    induction rs with
    | nil =>
      intro _ b h
      rw [isSubsetOfAll] at h
      have := Except.ok.inj h
      subst this
      simp [MemAny]
    | cons r rs ih =>
      intro hr b h
      rw [isSubsetOfAll] at h
      cases h1 : isSubsetOf lp target r with
      | error e => rw [h1] at h; cases h
      | ok c =>
        have hc := hr r (by simp) c h1
        rw [h1] at h
        cases c with
        | false =>
          have := Except.ok.inj (show (Except.ok false : Py Bool) = .ok b from h)
          subst this
          simp only [Bool.false_eq_true, false_iff] at hc ⊢
          intro h'
          exact hc (fun x hx => h' x (by rw [MemAny]; exact .inl hx))
        | true =>
          have h2 := ih (fun r' hr' => hr r' (by simp [hr'])) b (show isSubsetOfAll lp target rs = .ok b from h)
          rw [h2]
          have hc' := hc.mp rfl
          constructor
          · intro h' x hx
            rw [MemAny] at hx
            exact hx.elim (hc' x) (h' x)
          · intro h' x hx
            exact h' x (by rw [MemAny]; exact .inr hx)
  induction r using induct generalizing b with
  | hp m o =>
    rw [isSubsetOf] at h
    rw [AllMat] at hr
    rw [polySubset_spec lp hlp n m hr target ht b h]
    constructor
    · intro h' x hx; rw [Mem] at hx; exact h' x hx
    · intro h' x hx; exact h' x (by rw [Mem]; exact hx)
  | hw r _ => rw [isSubsetOf] at h; cases h
  | hc r _ => rw [isSubsetOf] at h; cases h
  | hi rs _ => rw [isSubsetOf] at h; cases h
  | hu rs ih =>
    rw [isSubsetOf] at h
    rw [AllMat, allMatList_iff] at hr
    rw [key rs (fun r hm b hb => ih r hm (hr r hm) b hb) b h]
    constructor
    · intro h' x hx; rw [Mem] at hx; exact h' x hx
    · intro h' x hx; exact h' x (by rw [Mem]; exact hx)
  | hd rs ih =>
    rw [isSubsetOf] at h
    rw [AllMat, allMatList_iff] at hr
    rw [key rs (fun r hm b hb => ih r hm (hr r hm) b hb) b h]
    constructor
    · intro h' x hx; rw [Mem] at hx; exact h' x hx
    · intro h' x hx; exact h' x (by rw [Mem]; exact hx)

mutual
/-- Unions of polytopes, nested in any way. -/
def UnionTree : Region L → Prop
  | .polytope _ _ => True
  | .wrapped _ => False
  | .complement _ => False
  | .union rs => UnionTreeList rs
  | .disjoint rs => UnionTreeList rs
  | .intersect _ => False
/-- The same for a list of regions. -/
def UnionTreeList : List (Region L) → Prop
  | [] => True
  | r :: rs => UnionTree r ∧ UnionTreeList rs
end

theorem unionTreeList_iff (rs : List (Region L)) : UnionTreeList rs ↔ ∀ r ∈ rs, UnionTree r := by
  induction rs with
  | nil => simp [UnionTreeList]
  | cons r rs ih => simp [UnionTreeList, ih]

mutual
/-- Intersections of polytopes, nested in any way. -/
def InterTree : Region L → Prop
  | .polytope _ _ => True
  | .wrapped _ => False
  | .complement _ => False
  | .union _ => False
  | .disjoint _ => False
  | .intersect rs => InterTreeList rs
/-- The same for a list of regions. -/
def InterTreeList : List (Region L) → Prop
  | [] => True
  | r :: rs => InterTree r ∧ InterTreeList rs
end

theorem interTreeList_iff (rs : List (Region L)) : InterTreeList rs ↔ ∀ r ∈ rs, InterTree r := by
  induction rs with
  | nil => simp [InterTreeList]
  | cons r rs ih => simp [InterTreeList, ih]

theorem polySubset_ok (lp : Mat.LPSolver) (m : Mat) (target : Region L) (ht : target.InterTree) :
    ∃ b, polySubset lp m target = .ok b := by
  have key : ∀ rs : List (Region L), (∀ r ∈ rs, ∃ b, polySubset lp m r = .ok b) → ∃ b, polySubsetAll lp m rs = .ok b := by
    intro rs
    induction rs with
    | nil => intro _; exact ⟨true, by rw [polySubsetAll]⟩
    | cons r rs ih =>
      intro h
      obtain ⟨c, hc⟩ := h r (by simp)
      obtain ⟨d, hd⟩ := ih (fun r' hr' => h r' (by simp [hr']))
      rw [polySubsetAll, hc]
      cases c with
      | false => exact ⟨false, rfl⟩
      | true => exact ⟨d, hd⟩
  induction target using induct with
  | hp q o => exact ⟨_, by rw [polySubset]⟩
  | hw r _ => rw [InterTree] at ht; exact ht.elim
  | hc r _ => rw [InterTree] at ht; exact ht.elim
  | hu rs _ => rw [InterTree] at ht; exact ht.elim
  | hd rs _ => rw [InterTree] at ht; exact ht.elim
  | hi rs ih =>
    rw [InterTree, interTreeList_iff] at ht
    rw [polySubset]
    exact key rs (fun r hr => ih r hr (ht r hr))

/-- **C62** (part) It does return if the first region is built by unions and the second by intersections. -/
theorem C62_isSubsetOf_total (lp : Mat.LPSolver) (r target : Region L) (hr : r.UnionTree) (ht : target.InterTree) :
    ∃ b, isSubsetOf lp target r = .ok b := by
  have key : ∀ rs : List (Region L), (∀ r ∈ rs, ∃ b, isSubsetOf lp target r = .ok b) → ∃ b, isSubsetOfAll lp target rs = .ok b := by
    intro rs
    induction rs with
    | nil => intro _; exact ⟨true, by rw [isSubsetOfAll]⟩
    | cons r rs ih =>
      intro h
      obtain ⟨c, hc⟩ := h r (by simp)
      obtain ⟨d, hd⟩ := ih (fun r' hr' => h r' (by simp [hr']))
      rw [isSubsetOfAll, hc]
      cases c with
      | false => exact ⟨false, rfl⟩
      | true => exact ⟨d, hd⟩
  induction r using induct with
  | hp q o => rw [isSubsetOf]; exact polySubset_ok lp q target ht
  | hw r _ => rw [UnionTree] at hr; exact hr.elim
  | hc r _ => rw [UnionTree] at hr; exact hr.elim
  | hi rs _ => rw [UnionTree] at hr; exact hr.elim
  | hu rs ih =>
    rw [UnionTree, unionTreeList_iff] at hr
    rw [isSubsetOf]
    exact key rs (fun r hm => ih r hm (hr r hm))
  | hd rs ih =>
    rw [UnionTree, unionTreeList_iff] at hr
    rw [isSubsetOf]
    exact key rs (fun r hm => ih r hm (hr r hm))

theorem ivl_solid (a b : ℚ) (h : a < b) : Solid 2 (Mat.ivl a b) := by
  have hf := ivl_fullDim a b h
  exact ⟨hf.wf, hf.cols, hf.bounded, hf.nonempty⟩

example (lp : Mat.LPSolver) (hlp : Mat.LPSpec lp) :
    isSubsetOf lp (.intersect [.polytope (Mat.ivl 0 5) none, .polytope (Mat.ivl (-1) 4) none] : Region Unit)
      (.union [.polytope (Mat.ivl 0 1) none, .polytope (Mat.ivl 2 3) none]) = .ok true := by
  obtain ⟨b, hb⟩ := C62_isSubsetOf_total lp (.union [.polytope (Mat.ivl 0 1) none, .polytope (Mat.ivl 2 3) none] : Region Unit)
    (.intersect [.polytope (Mat.ivl 0 5) none, .polytope (Mat.ivl (-1) 4) none]) (by simp [UnionTree, UnionTreeList])
    (by simp [InterTree, InterTreeList])
  have := (C62_isSubsetOf_partial lp hlp 2 _ _ (by
    simp only [AllMat, AllMatList]
    exact ⟨ivl_solid 0 1 (by norm_num), ivl_solid 2 3 (by norm_num), trivial⟩) (by
    simp only [AllMat, AllMatList]
    exact ⟨⟨(ivl_solid 0 5 (by norm_num)).1, rfl⟩, ⟨(ivl_solid (-1) 4 (by norm_num)).1, rfl⟩, trivial⟩) b hb).mpr (by
    intro x hx
    simp only [Mem, MemAny, MemAll, or_false, and_true, Mat.ivl_contains] at hx ⊢
    rcases hx with ⟨c, rfl, h1, h2⟩ | ⟨c, rfl, h1, h2⟩
    · exact ⟨⟨c, rfl, by linarith, by linarith⟩, ⟨c, rfl, by linarith, by linarith⟩⟩
    · exact ⟨⟨c, rfl, by linarith, by linarith⟩, ⟨c, rfl, by linarith, by linarith⟩⟩)
  rw [hb, this]

/-- Finding: a polytope is never found to be a subset of a union: `is_covered_by` gets `Region` objects instead of
`Polytope` objects and raises `AttributeError`. -/
theorem C62_union_counterexample (lp : Mat.LPSolver) (m : Mat) (o : Option L) (r : Region L) (rs : List (Region L)) :
    isSubsetOf lp (.union (r :: rs)) (.polytope m o) = .error .attributeError ∧
      isSubsetOf lp (.disjoint (r :: rs)) (.polytope m o) = .error .attributeError := by
  rw [isSubsetOf, isSubsetOf, polySubset, polySubset]
  exact ⟨rfl, rfl⟩

end Region
end Expdb
