import Verif.Model.Region
import Verif.Props.PolytopeOps

/-!
# Semantics of regions
-/

namespace Expdb
namespace Region

variable {L : Type}

/-- Induction over regions, with the hypothesis for all children. -/
theorem induct {P : Region L → Prop} (hp : ∀ m l, P (.polytope m l))
    (hw : ∀ r, P r → P (.wrapped r)) (hc : ∀ r, P r → P (.complement r))
    (hu : ∀ rs, (∀ r ∈ rs, P r) → P (.union rs)) (hd : ∀ rs, (∀ r ∈ rs, P r) → P (.disjoint rs))
    (hi : ∀ rs, (∀ r ∈ rs, P r) → P (.intersect rs)) (r : Region L) : P r :=
  Region.rec (motive_1 := P) (motive_2 := fun rs => ∀ r ∈ rs, P r) hp hw hc hu hd hi
    (fun _ h => by simp at h)
    (fun r rs h1 h2 s hs => by
      rcases List.mem_cons.mp hs with rfl | hs
      · exact h1
      · exact h2 s hs) r

/-! ### Specification: the point set denoted by a region -/

mutual
/-- The point set denoted by a region. -/
def Mem : Region L → Pt → Prop
  | .polytope m _, x => m.Contains x
  | .wrapped r, x => Mem r x
  | .complement r, x => ¬ Mem r x
  | .union rs, x => MemAny rs x
  | .disjoint rs, x => MemAny rs x
  | .intersect rs, x => MemAll rs x
/-- in one of the regions -/
def MemAny : List (Region L) → Pt → Prop
  | [], _ => False
  | r :: rs, x => Mem r x ∨ MemAny rs x
/-- in all of the regions -/
def MemAll : List (Region L) → Pt → Prop
  | [], _ => True
  | r :: rs, x => Mem r x ∧ MemAll rs x
end

theorem memAny_iff (rs : List (Region L)) (x : Pt) : MemAny rs x ↔ ∃ r ∈ rs, Mem r x := by
  induction rs with
  | nil => simp [MemAny]
  | cons r rs ih => simp [MemAny, ih]

theorem memAll_iff (rs : List (Region L)) (x : Pt) : MemAll rs x ↔ ∀ r ∈ rs, Mem r x := by
  induction rs with
  | nil => simp [MemAll]
  | cons r rs ih => simp [MemAll, ih]

mutual
/-- All polytopes of a region satisfy `P`. -/
def AllMat (P : Mat → Prop) : Region L → Prop
  | .polytope m _ => P m
  | .wrapped r => AllMat P r
  | .complement r => AllMat P r
  | .union rs => AllMatList P rs
  | .disjoint rs => AllMatList P rs
  | .intersect rs => AllMatList P rs
/-- All polytopes of a list of regions satisfy `P`. -/
def AllMatList (P : Mat → Prop) : List (Region L) → Prop
  | [] => True
  | r :: rs => AllMat P r ∧ AllMatList P rs
end

theorem allMatList_iff (P : Mat → Prop) (rs : List (Region L)) :
    AllMatList P rs ↔ ∀ r ∈ rs, AllMat P r := by
  induction rs with
  | nil => simp [AllMatList]
  | cons r rs ih => simp [AllMatList, ih]

theorem allMat_imp {P Q : Mat → Prop} (h : ∀ m, P m → Q m) (r : Region L) :
    AllMat P r → AllMat Q r := by
  induction r using induct with
  | hp m l => exact h m
  | hw r ih => simpa [AllMat] using ih
  | hc r ih => simpa [AllMat] using ih
  | hu rs ih =>
    simp only [AllMat, allMatList_iff]; exact fun hh r hr => ih r hr (hh r hr)
  | hd rs ih =>
    simp only [AllMat, allMatList_iff]; exact fun hh r hr => ih r hr (hh r hr)
  | hi rs ih =>
    simp only [AllMat, allMatList_iff]; exact fun hh r hr => ih r hr (hh r hr)

theorem containsAny_ok (rs : List (Region L)) (x : Pt)
    (h : ∀ r ∈ rs, ∃ b, r.contains x = .ok b ∧ (b = true ↔ r.Mem x)) :
    ∃ b, containsAny rs x = .ok b ∧ (b = true ↔ MemAny rs x) := by
  induction rs with
  | nil => exact ⟨false, rfl, by simp [MemAny]⟩
  | cons r rs ih =>
    obtain ⟨b, h1, h2⟩ := h r (by simp)
    obtain ⟨b', h3, h4⟩ := ih (fun s hs => h s (by simp [hs]))
    unfold containsAny MemAny
    rw [h1]
    simp only [bind, Except.bind]
    cases b with
    | true => exact ⟨true, rfl, by simp [← h2]⟩
    | false =>
      refine ⟨b', h3, ?_⟩
      rw [h4, ← h2]; simp

theorem containsAll_ok (rs : List (Region L)) (x : Pt)
    (h : ∀ r ∈ rs, ∃ b, r.contains x = .ok b ∧ (b = true ↔ r.Mem x)) :
    ∃ b, containsAll rs x = .ok b ∧ (b = true ↔ MemAll rs x) := by
  induction rs with
  | nil => exact ⟨true, rfl, by simp [MemAll]⟩
  | cons r rs ih =>
    obtain ⟨b, h1, h2⟩ := h r (by simp)
    obtain ⟨b', h3, h4⟩ := ih (fun s hs => h s (by simp [hs]))
    unfold containsAll MemAll
    rw [h1]
    simp only [bind, Except.bind]
    cases b with
    | false => exact ⟨false, rfl, by simp [← h2]⟩
    | true =>
      refine ⟨b', h3, ?_⟩
      rw [h4, ← h2]; simp

theorem mapMatList_ok {f : Mat → Py Mat} (rs : List (Region L)) (Q : Region L → Region L → Prop)
    (h : ∀ r ∈ rs, ∃ r', r.mapMat f = .ok r' ∧ Q r r') :
    ∃ rs', mapMatList f rs = .ok rs' ∧ List.Forall₂ Q rs rs' := by
  induction rs with
  | nil => exact ⟨[], rfl, .nil⟩
  | cons r rs ih =>
    obtain ⟨r', h1, h2⟩ := h r (by simp)
    obtain ⟨rs', h3, h4⟩ := ih (fun s hs => h s (by simp [hs]))
    refine ⟨r' :: rs', ?_, .cons h2 h4⟩
    unfold mapMatList
    rw [h1, h3]; rfl

theorem liftList_ok {vars : List Mat.LiftVar} (rs : List (Region L))
    (Q : Region L → Region L → Prop)
    (h : ∀ r ∈ rs, ∃ r', r.lift vars = .ok r' ∧ Q r r') :
    ∃ rs', liftList vars rs = .ok rs' ∧ List.Forall₂ Q rs rs' := by
  induction rs with
  | nil => exact ⟨[], rfl, .nil⟩
  | cons r rs ih =>
    obtain ⟨r', h1, h2⟩ := h r (by simp)
    obtain ⟨rs', h3, h4⟩ := ih (fun s hs => h s (by simp [hs]))
    refine ⟨r' :: rs', ?_, .cons h2 h4⟩
    unfold liftList
    rw [h1, h3]; rfl

theorem memAny_congr {rs rs' : List (Region L)} {x y : Pt}
    (h : List.Forall₂ (fun r r' => r'.Mem x ↔ r.Mem y) rs rs') : MemAny rs' x ↔ MemAny rs y := by
  induction h with
  | nil => rfl
  | cons h1 _ ih => unfold MemAny; rw [h1, ih]

theorem memAll_congr {rs rs' : List (Region L)} {x y : Pt}
    (h : List.Forall₂ (fun r r' => r'.Mem x ↔ r.Mem y) rs rs') : MemAll rs' x ↔ MemAll rs y := by
  induction h with
  | nil => rfl
  | cons h1 _ ih => unfold MemAll; rw [h1, ih]

end Region
end Expdb
