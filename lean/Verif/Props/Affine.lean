import Verif.Lemmas.AffineCells

/-!
# Properties C05, C06: envelopes of affine functions
-/

namespace Expdb
namespace Affine

open Expdb.Interval

variable {L : Type} [DecidableEq L]

/-! ### Critical points -/

omit [DecidableEq L] in
theorem mem_crits (self : Affine L) (f2 : List (Affine L)) (domain : Option Interval) (c : ℚ) :
    c ∈ crits self f2 domain ↔ c ∈ cropCrits domain (rawCrits self f2) := by
  unfold crits
  rw [List.mem_insertionSort, List.mem_dedup]

omit [DecidableEq L] in
theorem crits_sorted (self : Affine L) (f2 : List (Affine L)) (domain : Option Interval) :
    (crits self f2 domain).Pairwise (· < ·) := by
  unfold crits
  have h1 := List.pairwise_insertionSort (· ≤ ·) (cropCrits domain (rawCrits self f2)).dedup
  have h2 : (List.insertionSort (· ≤ ·) (cropCrits domain (rawCrits self f2)).dedup).Nodup :=
    (List.perm_insertionSort _ _).nodup_iff.mpr (List.nodup_dedup _)
  rw [List.Nodup] at h2
  exact (h1.and h2).imp (fun h => lt_of_le_of_ne h.1 h.2)

/-- The functions of the list cover the domain of `self`. -/
def Covers (self : Affine L) (f2 : List (Affine L)) (domain : Option Interval) : Prop :=
  ∀ x, InD domain x → self.dom.contains x = true → ∃ f ∈ f2, f.dom.contains x = true

/-- The label of `self` is used by no other function. -/
def FreshLabel (self : Affine L) (f2 : List (Affine L)) : Prop := ∀ f ∈ f2, f.label ≠ self.label

/-- Merging creates no reference to `self`. -/
theorem mergeLoop_noself (self : Affine L) (rest : List (Ref L)) (p : Ref L) (h : Ref.self ∉ p :: rest) :
    Ref.self ∉ (mergeLoop self p rest).2 := by
  induction rest generalizing p with
  | nil => exact h
  | cons q rest ih =>
    unfold mergeLoop
    split
    · cases p with
      | self => exact absurd List.mem_cons_self h
      | new f => exact ih _ (by simp only [List.mem_cons, not_or] at h ⊢; exact ⟨by simp, h.2.2⟩)
    · simp only [List.mem_cons, not_or] at h ⊢
      exact ⟨h.1, ih q (by simp only [List.mem_cons, not_or]; exact h.2)⟩

/-- The envelope computation for a comparator `s*u < s*v`, with the returned references. -/
theorem compareRefs_spec (s : ℚ) (cmp : ℚ → ℚ → Bool)
    (hcmp : ∀ u v, cmp u v = decide (s * u < s * v))
    (self : Affine L) (f2 : List (Affine L)) (domain : Option Interval)
    (hle : ∀ f ∈ self :: f2, f.dom.x0 ≤ f.dom.x1) (hD : ∀ D, domain = some D → D.x0 ≤ D.x1)
    (hyp : Covers self f2 domain ∨ FreshLabel self f2) :
    ∃ refs, compareRefs cmp self f2 domain = .ok (self, refs) ∧
      (∀ p ∈ refs.map (Ref.deref self), Proper p.dom ∧ ∀ x, p.dom.contains x = true →
        ∃ g ∈ self :: f2, g.dom.contains x = true ∧ g.ev x = p.ev x ∧ g.label = p.label) ∧
      (∀ x, InD domain x → (∃ g ∈ self :: f2, g.dom.contains x = true) →
        ∃ p ∈ refs.map (Ref.deref self), p.dom.contains x = true ∧
          ∀ h ∈ self :: f2, h.dom.contains x = true → s * p.ev x ≤ s * h.ev x) ∧
      (Covers self f2 domain →
        (refs.map (Ref.deref self)).Pairwise (fun a b => Before a.dom b.dom) ∧
        (∀ p ∈ refs.map (Ref.deref self), ∀ x, p.dom.contains x = true → InD domain x) ∧
        Ref.self ∉ refs) := by
  have hne : ∃ x cs, crits self f2 domain = x :: cs := by
    have : self.dom.x0 ∈ crits self f2 domain ∨ ∃ D, domain = some D ∧ D.x0 ∈ crits self f2 domain := by
      cases domain with
      | none => left; rw [mem_crits]; exact (mem_rawCrits_end self f2 self (by simp)).1
      | some D => right; refine ⟨D, rfl, ?_⟩; rw [mem_crits]; unfold cropCrits; simp
    cases hc : crits self f2 domain with
    | nil => rw [hc] at this; simp at this
    | cons x cs => exact ⟨x, cs, rfl⟩
  obtain ⟨x0, cs, hcs⟩ := hne
  have hsort := crits_sorted self f2 domain
  rw [hcs] at hsort
  have hmem : ∀ c, c ∈ x0 :: cs ↔ c ∈ cropCrits domain (rawCrits self f2) := fun c => by
    rw [← hcs]; exact mem_crits self f2 domain c
  obtain ⟨cells, k1, k2, k3, k4, k5⟩ := cellLoop_spec cmp hcmp self f2 hle domain x0 cs hsort (by
    intro c hc hcD
    left
    rw [hmem]
    unfold cropCrits
    cases domain with
    | none => exact hc
    | some D => simp only [List.mem_append, List.mem_filter]; exact Or.inl ⟨hc, hcD D rfl⟩) (by
    rintro c hc D rfl
    have hDD := hD D rfl
    rw [hmem] at hc
    unfold cropCrits at hc
    simp only [List.mem_append, List.mem_filter, List.mem_cons, List.not_mem_nil, or_false] at hc
    rcases hc with ⟨_, hc⟩ | rfl | rfl
    · rw [contains_iff] at hc; unfold Mem at hc
      constructor
      · rcases hc.1 with h | ⟨_, h⟩ <;> linarith
      · rcases hc.2 with h | ⟨_, h⟩ <;> linarith
    · exact ⟨le_refl _, hDD⟩
    · exact ⟨hDD, le_refl _⟩)
  -- every covered point of the domain lies in a cell
  have hcov : ∀ z, InD domain z → (∃ g ∈ self :: f2, g.dom.contains z = true) →
      ∃ e ∈ cells, e.1.contains z = true := by
    rintro z hz ⟨g, hg, hgz⟩
    have hlohi : (∃ c ∈ x0 :: cs, c ≤ z) ∧ ∃ c ∈ x0 :: cs, z ≤ c := by
      cases domain with
      | none =>
        obtain ⟨e0, e1⟩ := mem_rawCrits_end self f2 g hg
        rw [contains_iff] at hgz; unfold Mem at hgz
        refine ⟨⟨g.dom.x0, (hmem _).mpr e0, ?_⟩, ⟨g.dom.x1, (hmem _).mpr e1, ?_⟩⟩
        · rcases hgz.1 with h | ⟨_, h⟩ <;> linarith
        · rcases hgz.2 with h | ⟨_, h⟩ <;> linarith
      | some D =>
        have hzD := hz D rfl
        rw [contains_iff] at hzD; unfold Mem at hzD
        refine ⟨⟨D.x0, (hmem _).mpr (by unfold cropCrits; simp), ?_⟩,
          ⟨D.x1, (hmem _).mpr (by unfold cropCrits; simp), ?_⟩⟩
        · rcases hzD.1 with h | ⟨_, h⟩ <;> linarith
        · rcases hzD.2 with h | ⟨_, h⟩ <;> linarith
    obtain ⟨⟨c, hc, hcz⟩, hhi⟩ := hlohi
    refine k5 z hz ?_ hhi
    rcases List.mem_cons.mp hc with rfl | hc
    · exact hcz
    · rw [List.pairwise_cons] at hsort
      have := hsort.1 c hc
      linarith
  set ps := cells.flatMap (·.2) with hps
  -- the reference `self` is used only if the list does not cover
  have hself : Ref.self ∈ ps → ∃ x, InD domain x ∧ self.dom.contains x = true ∧
      ∀ f ∈ f2, ¬ f.dom.contains x = true := by
    intro h
    rw [hps, List.mem_flatMap] at h
    obtain ⟨e, he, hr⟩ := h
    obtain ⟨⟨_, x, hx⟩, h1 | h1 | ⟨q, h1, _⟩⟩ := k2 e he
    · rw [h1.1] at hr; simp at hr
    · exact ⟨x, (k4 e he x hx).2, h1.2 x hx⟩
    · rw [h1] at hr; simp at hr
  have hnoself : Covers self f2 domain → Ref.self ∉ ps := by
    intro hc h
    obtain ⟨x, h1, h2, h3⟩ := hself h
    obtain ⟨f, hf, hfx⟩ := hc x h1 h2
    exact h3 f hf hfx
  have hnew : ∀ q, Ref.new q ∈ ps → ∃ e ∈ cells, e.2 = [Ref.new q] ∧ Proper e.1 ∧
      PieceOn s (self :: f2) e.1 q := by
    intro q h
    rw [hps, List.mem_flatMap] at h
    obtain ⟨e, he, hr⟩ := h
    obtain ⟨hpr, h1 | h1 | ⟨q', h1, h2, h3⟩⟩ := k2 e he
    · rw [h1.1] at hr; simp at hr
    · rw [h1.1] at hr; simp at hr
    · rw [h1] at hr
      simp only [List.mem_singleton, Ref.new.injEq] at hr
      subst hr
      exact ⟨e, he, h1, hpr, h2⟩
  have hselfProper : Ref.self ∈ ps → Proper self.dom := by
    intro h
    obtain ⟨x, _, h2, _⟩ := hself h
    exact ⟨hle self (by simp), x, h2⟩
  -- every piece is an argument on its domain
  have hsrc : ∀ r ∈ ps, Proper (r.deref self).dom ∧ ∀ x, (r.deref self).dom.contains x = true →
      ∃ g ∈ self :: f2, g.dom.contains x = true ∧ g.ev x = (r.deref self).ev x ∧
        g.label = (r.deref self).label := by
    intro r hr
    cases r with
    | self => exact ⟨hselfProper hr, fun x hx => ⟨self, by simp, hx, rfl, rfl⟩⟩
    | new q =>
      obtain ⟨e, _, _, hpr, h1, h2, ⟨g, hg, e1, e2, e3, e4⟩, _⟩ := hnew q hr
      refine ⟨⟨h1, ?_⟩, ?_⟩
      · obtain ⟨x, hx⟩ := hpr.2; exact ⟨x, (h2 x).mpr hx⟩
      · intro x hx
        refine ⟨g, hg, e4 x ((h2 x).mp hx), ?_, e3⟩
        unfold ev Ref.deref; rw [e1, e2]
  -- new pieces of different cells are ordered
  have hpairCells : ∀ a ∈ cells, ∀ b ∈ cells, Before a.1 b.1 → ∀ q r, Ref.new q ∈ a.2 → Ref.new r ∈ b.2 →
      Before q.dom r.dom := by
    intro a ha b hb hab q r hq hr
    have key : ∀ e ∈ cells, ∀ q, Ref.new q ∈ e.2 → ∀ x, q.dom.contains x = true → e.1.contains x = true := by
      intro e he q hq x hx
      obtain ⟨_, h1 | h1 | ⟨q', h1, h2, _⟩⟩ := k2 e he
      · rw [h1.1] at hq; simp at hq
      · rw [h1.1] at hq; simp at hq
      · rw [h1] at hq
        simp only [List.mem_singleton, Ref.new.injEq] at hq
        subst hq
        exact (h2.2.1 x).mp hx
    intro x y hx hy
    exact hab x y (key a ha q hq x hx) (key b hb r hr y hy)
  have hlen : ∀ e ∈ cells, e.2.Pairwise (fun _ _ => False) := by
    intro e he
    obtain ⟨_, h1 | h1 | ⟨q', h1, _⟩⟩ := k2 e he
    · rw [h1.1]; exact List.Pairwise.nil
    · rw [h1.1]; exact List.pairwise_singleton _ _
    · rw [h1]; exact List.pairwise_singleton _ _
  have hordered : Ref.self ∉ ps → (ps.map (Ref.deref self)).Pairwise (fun a b => Before a.dom b.dom) := by
    intro hns
    rw [List.pairwise_map, hps, List.pairwise_flatMap]
    refine ⟨fun e he => (hlen e he).imp (fun h => h.elim), ?_⟩
    refine List.Pairwise.imp_of_mem ?_ k3
    intro a b ha hb hab r1 hr1 r2 hr2
    cases r1 with
    | self => exact absurd (List.mem_flatMap.mpr ⟨a, ha, hr1⟩) hns
    | new q =>
      cases r2 with
      | self => exact absurd (List.mem_flatMap.mpr ⟨b, hb, hr2⟩) hns
      | new r => exact hpairCells a ha b hb hab q r hr1 hr2
  have hlabel : FreshLabel self f2 → ∀ r ∈ ps, (r.deref self).label = self.label →
      (r.deref self).m = self.m ∧ (r.deref self).c = self.c ∧
        ∀ x, (r.deref self).dom.contains x = true → self.dom.contains x = true := by
    intro hf r hr hl
    cases r with
    | self => exact ⟨rfl, rfl, fun x hx => hx⟩
    | new q =>
      obtain ⟨e, _, _, hpr, h1, h2, ⟨g, hg, e1, e2, e3, e4⟩, _⟩ := hnew q hr
      have hgs : g = self := by
        rcases List.mem_cons.mp hg with h | h
        · exact h
        · exact absurd (e3.trans hl) (hf g h)
      subst hgs
      exact ⟨e1.symm, e2.symm, fun x hx => e4 x ((h2 x).mp hx)⟩
  have hinv : MergeInv self ps := by
    refine ⟨fun r hr => (hsrc r hr).1, ?_, ?_⟩
    · by_cases hns : Ref.self ∈ ps
      · have hf : FreshLabel self f2 := by
          rcases hyp with h | h
          · exact absurd hns (hnoself h)
          · exact h
        rw [List.pairwise_map, hps, List.pairwise_flatMap]
        refine ⟨fun e he => (hlen e he).imp (fun h => h.elim), ?_⟩
        refine List.Pairwise.imp_of_mem ?_ k3
        intro a b ha hb hab r1 hr1 r2 hr2 hl
        have m1 : r1 ∈ ps := List.mem_flatMap.mpr ⟨a, ha, hr1⟩
        have m2 : r2 ∈ ps := List.mem_flatMap.mpr ⟨b, hb, hr2⟩
        cases r1 with
        | self =>
          obtain ⟨l1, l2, _⟩ := hlabel hf r2 m2 hl.symm
          exact Or.inl ⟨l1.symm, l2.symm⟩
        | new q =>
          cases r2 with
          | self =>
            obtain ⟨l1, l2, _⟩ := hlabel hf _ m1 hl
            exact Or.inl ⟨l1, l2⟩
          | new r => exact Or.inr (hpairCells a ha b hb hab q r hr1 hr2)
      · exact (hordered hns).imp (fun h _ => Or.inr h)
    · intro hns r hr hl x hx
      have hf : FreshLabel self f2 := by
        rcases hyp with h | h
        · exact absurd hns (hnoself h)
        · exact h
      exact (hlabel hf r hr hl).2.2 x hx
  obtain ⟨out, m1, m2, m3, m4⟩ := merge_spec self ps hinv
  refine ⟨out, ?_, ?_, ?_, ?_⟩
  · unfold compareRefs
    rw [hcs, k1]
    simp only [bind, Except.bind, pure, Except.pure, m1]
  · intro p hp
    rw [List.mem_map] at hp
    obtain ⟨r, hr, rfl⟩ := hp
    refine ⟨m3 r hr, fun x hx => ?_⟩
    have := (m2 x _ _).mp ⟨r.deref self, List.mem_map_of_mem hr, hx, rfl, rfl⟩
    obtain ⟨p', hp', h1, h2, h3⟩ := this
    rw [List.mem_map] at hp'
    obtain ⟨r', hr', rfl⟩ := hp'
    obtain ⟨g, hg, g1, g2, g3⟩ := (hsrc r' hr').2 x h1
    exact ⟨g, hg, g1, g2.trans h2, g3.trans h3⟩
  · intro x hx hgx
    obtain ⟨e, he, hex⟩ := hcov x hx hgx
    have : ∃ r ∈ ps, (r.deref self).dom.contains x = true ∧
        ∀ h ∈ self :: f2, h.dom.contains x = true → s * (r.deref self).ev x ≤ s * h.ev x := by
      obtain ⟨_, h1 | h1 | ⟨q', h1, h2, _⟩⟩ := k2 e he
      · obtain ⟨g, hg, hgx⟩ := hgx
        exact absurd hgx (h1.2 x hex g hg)
      · refine ⟨Ref.self, List.mem_flatMap.mpr ⟨e, he, by rw [h1.1]; simp⟩, (h1.2 x hex).1, ?_⟩
        intro h hh hhx
        rcases List.mem_cons.mp hh with rfl | hh
        · exact le_refl _
        · exact absurd hhx ((h1.2 x hex).2 h hh)
      · exact ⟨Ref.new q', List.mem_flatMap.mpr ⟨e, he, by rw [h1]; simp⟩, (h2.2.1 x).mpr hex,
          h2.2.2.2 x hex⟩
    obtain ⟨r, hr, r1, r2⟩ := this
    obtain ⟨p, hp, p1, p2, p3⟩ := (m2 x _ _).mpr ⟨r.deref self, List.mem_map_of_mem hr, r1, rfl, rfl⟩
    refine ⟨p, hp, p1, ?_⟩
    rw [p2]; exact r2
  · intro hc
    have hns := hnoself hc
    refine ⟨m4 (hordered hns), ?_, ?_⟩
    swap
    · have : (merge self ps).2 = out := by rw [m1]
      rw [← this]
      unfold merge
      cases hps' : ps with
      | nil => simp
      | cons r rest => rw [hps'] at hns; exact mergeLoop_noself self rest r hns
    intro p hp x hx
    obtain ⟨p', hp', h1, _, _⟩ := (m2 x _ _).mp ⟨p, hp, hx, rfl, rfl⟩
    rw [List.mem_map] at hp'
    obtain ⟨r', hr', rfl⟩ := hp'
    cases r' with
    | self => exact absurd hr' hns
    | new q =>
      obtain ⟨e, he, _, _, _, h2, _⟩ := hnew q hr'
      exact (k4 e he x ((h2 x).mp h1)).2

/-- The envelope computation for a comparator `s*u < s*v`. -/
theorem compareWith_spec (s : ℚ) (cmp : ℚ → ℚ → Bool)
    (hcmp : ∀ u v, cmp u v = decide (s * u < s * v))
    (self : Affine L) (f2 : List (Affine L)) (domain : Option Interval)
    (hle : ∀ f ∈ self :: f2, f.dom.x0 ≤ f.dom.x1) (hD : ∀ D, domain = some D → D.x0 ≤ D.x1)
    (hyp : Covers self f2 domain ∨ FreshLabel self f2) :
    ∃ out, compareWith cmp self f2 domain = .ok (self, out) ∧
      (∀ p ∈ out, Proper p.dom ∧ ∀ x, p.dom.contains x = true →
        ∃ g ∈ self :: f2, g.dom.contains x = true ∧ g.ev x = p.ev x ∧ g.label = p.label) ∧
      (∀ x, InD domain x → (∃ g ∈ self :: f2, g.dom.contains x = true) →
        ∃ p ∈ out, p.dom.contains x = true ∧
          ∀ h ∈ self :: f2, h.dom.contains x = true → s * p.ev x ≤ s * h.ev x) ∧
      (Covers self f2 domain →
        out.Pairwise (fun a b => Before a.dom b.dom) ∧
        ∀ p ∈ out, ∀ x, p.dom.contains x = true → InD domain x) := by
  obtain ⟨refs, h1, h2, h3, h4⟩ := compareRefs_spec s cmp hcmp self f2 domain hle hD hyp
  refine ⟨refs.map (Ref.deref self), ?_, h2, h3, fun hc => ⟨(h4 hc).1, (h4 hc).2.1⟩⟩
  unfold compareWith
  rw [h1]; rfl

/-! ### Specification -/

/-- `v` is the value at `x` of one of the functions `m x + c` on their domains. -/
def HasValue (fs : List (Affine L)) (x v : ℚ) : Prop :=
  ∃ f ∈ fs, Mem f.dom.x0 f.dom.x1 f.dom.incL f.dom.incU x ∧ f.m * x + f.c = v

/-- `x` belongs to the domain argument (`None` imposes nothing). -/
def InDomain (domain : Option Interval) (x : ℚ) : Prop :=
  ∀ D, domain = some D → Mem D.x0 D.x1 D.incL D.incU x

/-- The pieces lie in increasing order without common points. -/
def Ordered (out : List (Affine L)) : Prop :=
  out.Pairwise (fun p q => ∀ x y, Mem p.dom.x0 p.dom.x1 p.dom.incL p.dom.incU x →
    Mem q.dom.x0 q.dom.x1 q.dom.incL q.dom.incU y → x < y)

/-- All domains are interval objects that the constructor accepts. -/
def WellFormed (self : Affine L) (f2 : List (Affine L)) (domain : Option Interval) : Prop :=
  (∀ f ∈ self :: f2, f.dom.Constructible) ∧ ∀ D, domain = some D → D.Constructible

omit [DecidableEq L] in
theorem hasValue_iff (fs : List (Affine L)) (x v : ℚ) :
    HasValue fs x v ↔ ∃ f ∈ fs, f.dom.contains x = true ∧ f.ev x = v := by
  unfold HasValue ev; simp only [contains_iff]

theorem inDomain_iff (domain : Option Interval) (x : ℚ) : InDomain domain x ↔ InD domain x := by
  unfold InDomain InD; simp only [contains_iff]

theorem pairwise_or {α : Type} {R : α → α → Prop} {l : List α} (h : l.Pairwise R) :
    ∀ a ∈ l, ∀ b ∈ l, a ≠ b → R a b ∨ R b a := by
  induction l with
  | nil => simp
  | cons x l ih =>
    rw [List.pairwise_cons] at h
    intro a ha b hb hab
    rcases List.mem_cons.mp ha with e1 | ha' <;> rcases List.mem_cons.mp hb with e2 | hb'
    · exact absurd (e1.trans e2.symm) hab
    · rw [e1]; exact Or.inl (h.1 b hb')
    · rw [e2]; exact Or.inr (h.1 a ha')
    · exact ih h.2 a ha' b hb' hab

/-- The envelope theorem for both comparators. -/
theorem envelope_covered (s : ℚ) (cmp : ℚ → ℚ → Bool)
    (hcmp : ∀ u v, cmp u v = decide (s * u < s * v)) (hs : ∀ u v : ℚ, s * u = s * v → u = v)
    (self : Affine L) (f2 : List (Affine L)) (domain : Option Interval)
    (hw : WellFormed self f2 domain)
    (hc : ∀ x, InDomain domain x → (∃ v, HasValue [self] x v) → ∃ v, HasValue f2 x v) :
    ∃ out, compareWith cmp self f2 domain = .ok (self, out) ∧ Ordered out ∧
      ∀ x v, HasValue out x v ↔ (InDomain domain x ∧ HasValue (self :: f2) x v ∧
        ∀ w, HasValue (self :: f2) x w → s * v ≤ s * w) := by
  have hcv : Covers self f2 domain := by
    intro x hx h
    obtain ⟨v, f, hf, h1, _⟩ := hc x ((inDomain_iff _ _).mpr hx)
      ⟨self.ev x, self, by simp, (contains_iff _ _).mp h, rfl⟩
    exact ⟨f, hf, (contains_iff _ _).mpr h1⟩
  obtain ⟨out, h1, h2, h3, h4⟩ := compareWith_spec s cmp hcmp self f2 domain
    (fun f hf => (constructible_iff _).mp (hw.1 f hf)) (fun D hD => (constructible_iff _).mp (hw.2 D hD))
    (Or.inl hcv)
  obtain ⟨h4, h5⟩ := h4 hcv
  have hord : Ordered out := by
    refine h4.imp ?_
    intro a b hab x y hx hy
    exact hab x y ((contains_iff _ _).mpr hx) ((contains_iff _ _).mpr hy)
  refine ⟨out, h1, hord, ?_⟩
  -- at most one piece is defined at a point
  have huniq : ∀ p ∈ out, ∀ q ∈ out, ∀ x, p.dom.contains x = true → q.dom.contains x = true → p = q := by
    intro p hp q hq x hpx hqx
    by_contra hne
    have hsym : ∀ a ∈ out, ∀ b ∈ out, a ≠ b → Before a.dom b.dom ∨ Before b.dom a.dom := by
      intro a ha b hb hab
      exact pairwise_or h4 a ha b hb hab
    rcases hsym p hp q hq hne with h | h
    · exact absurd (h x x hpx hqx) (lt_irrefl _)
    · exact absurd (h x x hqx hpx) (lt_irrefl _)
  intro x v
  rw [inDomain_iff]
  simp only [hasValue_iff]
  constructor
  · rintro ⟨p, hp, hpx, rfl⟩
    have hxD := h5 p hp x hpx
    obtain ⟨g, hg, g1, g2, _⟩ := (h2 p hp).2 x hpx
    refine ⟨hxD, ⟨g, hg, g1, g2⟩, ?_⟩
    rintro w ⟨h, hh, hhx, rfl⟩
    obtain ⟨q, hq, hqx, hbest⟩ := h3 x hxD ⟨g, hg, g1⟩
    rw [huniq p hp q hq x hpx hqx]
    exact hbest h hh hhx
  · rintro ⟨hxD, ⟨g, hg, g1, rfl⟩, hmin⟩
    obtain ⟨q, hq, hqx, hbest⟩ := h3 x hxD ⟨g, hg, g1⟩
    refine ⟨q, hq, hqx, ?_⟩
    obtain ⟨g', hg', g1', g2', _⟩ := (h2 q hq).2 x hqx
    exact hs _ _ (le_antisymm (hbest g hg g1) (hmin _ ⟨g', hg', g1', g2'⟩))

/-- **C05** (partial: requires that the functions of the list together cover the part of `self`'s
domain inside `domain`). `min_with` then returns ordered disjoint pieces that are exactly the lower
envelope of `self` and the list on the domain: `v` is the value of the result at `x` iff `x` is in
the domain and `v` is the least value of the functions defined at `x`. Without the covering
hypothesis the statement is false, see `C05_min_with_counterexample`. -/
theorem C05_min_with_partial (self : Affine L) (f2 : List (Affine L)) (domain : Option Interval)
    (hw : WellFormed self f2 domain)
    (hc : ∀ x, InDomain domain x → (∃ v, HasValue [self] x v) → ∃ v, HasValue f2 x v) :
    ∃ out, minWith self f2 domain = .ok (self, out) ∧ Ordered out ∧
      ∀ x v, HasValue out x v ↔ (InDomain domain x ∧ HasValue (self :: f2) x v ∧
        ∀ w, HasValue (self :: f2) x w → v ≤ w) := by
  have := envelope_covered 1 (fun x y => decide (x < y)) (by intro u v; simp)
    (by intro u v h; simpa using h) self f2 domain hw hc
  unfold minWith
  simpa only [one_mul] using this

/-- **C05** (partial, as `C05_min_with_partial`) for `max_with`. -/
theorem C05_max_with_partial (self : Affine L) (f2 : List (Affine L)) (domain : Option Interval)
    (hw : WellFormed self f2 domain)
    (hc : ∀ x, InDomain domain x → (∃ v, HasValue [self] x v) → ∃ v, HasValue f2 x v) :
    ∃ out, maxWith self f2 domain = .ok (self, out) ∧ Ordered out ∧
      ∀ x v, HasValue out x v ↔ (InDomain domain x ∧ HasValue (self :: f2) x v ∧
        ∀ w, HasValue (self :: f2) x w → w ≤ v) := by
  have := envelope_covered (-1) (fun x y => decide (x > y))
    (by intro u v; simp) (by intro u v h; simpa using h) self f2 domain hw hc
  unfold maxWith
  simpa only [neg_mul, one_mul, neg_le_neg_iff] using this

/-- **C05** (partial: the functions need not cover, but then the result may contain further pieces).
If the label of `self` is not used in the list, every value of the result of `min_with` is the value
of the argument with the same label, and the minimum is one of the values at every covered point
of the domain. This is the form used by `compute_best_beta_bounds`. -/
theorem C05_min_with_labels_partial (self : Affine L) (f2 : List (Affine L)) (domain : Option Interval)
    (hw : WellFormed self f2 domain) (hl : ∀ f ∈ f2, f.label ≠ self.label) :
    ∃ out, minWith self f2 domain = .ok (self, out) ∧
      (∀ p ∈ out, p.dom.Constructible ∧ ∀ x v, HasValue [p] x v →
        ∃ g ∈ self :: f2, g.label = p.label ∧ HasValue [g] x v) ∧
      ∀ x v, InDomain domain x → HasValue (self :: f2) x v →
        (∀ w, HasValue (self :: f2) x w → v ≤ w) → HasValue out x v := by
  obtain ⟨out, h1, h2, h3, _⟩ := compareWith_spec 1 (fun x y => decide (x < y)) (by intro u v; simp)
    self f2 domain (fun f hf => (constructible_iff _).mp (hw.1 f hf))
    (fun D hD => (constructible_iff _).mp (hw.2 D hD)) (Or.inr hl)
  refine ⟨out, h1, ?_, ?_⟩
  · intro p hp
    refine ⟨(constructible_iff _).mpr (h2 p hp).1.1, fun x v hv => ?_⟩
    simp only [hasValue_iff, List.mem_singleton, exists_eq_left] at hv ⊢
    obtain ⟨g, hg, g1, g2, g3⟩ := (h2 p hp).2 x hv.1
    exact ⟨g, hg, g3, g1, g2.trans hv.2⟩
  · intro x v hx hv hmin
    rw [inDomain_iff] at hx
    simp only [hasValue_iff] at hv hmin ⊢
    obtain ⟨g, hg, g1, rfl⟩ := hv
    obtain ⟨q, hq, hqx, hbest⟩ := h3 x hx ⟨g, hg, g1⟩
    refine ⟨q, hq, hqx, ?_⟩
    obtain ⟨g', hg', g1', g2', _⟩ := (h2 q hq).2 x hqx
    refine le_antisymm ?_ (hmin _ ⟨g', hg', g1', g2'⟩)
    have := hbest g hg g1
    simpa using this

/-- **C06** (partial: requires that the list covers `self` on the domain, or that the label of
`self` is not used in the list). `min_with` and `max_with` leave the receiver unchanged. Without
the hypothesis this is false, see `C06_counterexample`. -/
theorem C06_receiver_unchanged_partial (self : Affine L) (f2 : List (Affine L)) (domain : Option Interval)
    (hw : WellFormed self f2 domain)
    (h : (∀ x, InDomain domain x → (∃ v, HasValue [self] x v) → ∃ v, HasValue f2 x v) ∨
      ∀ f ∈ f2, f.label ≠ self.label) :
    (∃ out, minWith self f2 domain = .ok (self, out)) ∧
      ∃ out, maxWith self f2 domain = .ok (self, out) := by
  have h' : Covers self f2 domain ∨ FreshLabel self f2 := by
    rcases h with hc | hl
    · left
      intro x hx h
      obtain ⟨v, f, hf, h1, _⟩ := hc x ((inDomain_iff _ _).mpr hx)
        ⟨self.ev x, self, by simp, (contains_iff _ _).mp h, rfl⟩
      exact ⟨f, hf, (contains_iff _ _).mpr h1⟩
    · exact Or.inr hl
  obtain ⟨o1, h1, _⟩ := compareWith_spec 1 (fun x y => decide (x < y)) (by intro u v; simp)
    self f2 domain (fun f hf => (constructible_iff _).mp (hw.1 f hf))
    (fun D hD => (constructible_iff _).mp (hw.2 D hD)) h'
  obtain ⟨o2, h2, _⟩ := compareWith_spec (-1) (fun x y => decide (x > y)) (by intro u v; simp)
    self f2 domain (fun f hf => (constructible_iff _).mp (hw.1 f hf))
    (fun D hD => (constructible_iff _).mp (hw.2 D hD)) h'
  exact ⟨⟨o1, h1⟩, ⟨o2, h2⟩⟩

/-! ### Counterexamples -/

/-- `Affine(0,0,[0,1]).min_with([Affine(-1,0,[0,0])])`, both with label `None`. -/
theorem min_with_run :
    minWith (L := Unit) ⟨0, 0, ⟨0, 1, true, true⟩, ()⟩ [⟨-1, 0, ⟨0, 0, true, true⟩, ()⟩] none =
      .ok (⟨0, 0, ⟨0, 1, true, true⟩, ()⟩,
        [⟨-1, 0, ⟨0, 1, true, true⟩, ()⟩, ⟨0, 0, ⟨0, 1, true, true⟩, ()⟩]) := by
  decide +kernel

/-- **C05** is false without the covering hypothesis: the minimum of `0` on `[0,1]` and `-x` on
`[0,0]` is given the value `-1` at `1`, which no argument has there. -/
theorem C05_min_with_counterexample :
    ∃ (self f : Affine Unit) (out : List (Affine Unit)), WellFormed self [f] none ∧
      (∃ s', minWith self [f] none = .ok (s', out)) ∧ HasValue out 1 (-1) ∧
      ¬ HasValue [self, f] 1 (-1) := by
  refine ⟨⟨0, 0, ⟨0, 1, true, true⟩, ()⟩, ⟨-1, 0, ⟨0, 0, true, true⟩, ()⟩, _, ⟨?_, ?_⟩,
    ⟨_, min_with_run⟩, ?_, ?_⟩
  · intro f hf
    rw [constructible_iff]
    simp only [List.mem_cons, List.not_mem_nil, or_false] at hf
    rcases hf with rfl | rfl <;> norm_num
  · intro D hD; cases hD
  · exact ⟨_, List.mem_cons_self, by unfold Mem; norm_num, by norm_num⟩
  · rintro ⟨f, hf, hm, hv⟩
    simp only [List.mem_cons, List.not_mem_nil, or_false] at hf
    rcases hf with rfl | rfl
    · norm_num at hv
    · unfold Mem at hm; norm_num at hm

/-- **C06** is false in general: `f = Affine(0,0,[0,1])`, `f.min_with([Affine(0,0,[1,2])])` changes
the domain of `f` to `[0,2]`. -/
theorem C06_counterexample :
    ∃ (self f self' : Affine Unit) (out : List (Affine Unit)), WellFormed self [f] none ∧
      minWith self [f] none = .ok (self', out) ∧ (∃ x v, HasValue [self'] x v ∧ ¬ HasValue [self] x v) := by
  refine ⟨⟨0, 0, ⟨0, 1, true, true⟩, ()⟩, ⟨0, 0, ⟨1, 2, true, true⟩, ()⟩,
    ⟨0, 0, ⟨0, 2, true, true⟩, ()⟩, _, ⟨?_, ?_⟩,
    (by decide +kernel : minWith (L := Unit) ⟨0, 0, ⟨0, 1, true, true⟩, ()⟩
      [⟨0, 0, ⟨1, 2, true, true⟩, ()⟩] none = .ok (⟨0, 0, ⟨0, 2, true, true⟩, ()⟩,
        [⟨0, 0, ⟨0, 2, true, true⟩, ()⟩, ⟨0, 0, ⟨0, 2, true, true⟩, ()⟩])), 2, 0, ?_, ?_⟩
  · intro f hf
    rw [constructible_iff]
    simp only [List.mem_cons, List.not_mem_nil, or_false] at hf
    rcases hf with rfl | rfl <;> norm_num
  · intro D hD; cases hD
  · exact ⟨_, List.mem_cons_self, by unfold Mem; norm_num, by norm_num⟩
  · rintro ⟨f, hf, hm, hv⟩
    rw [List.mem_singleton] at hf
    subst hf
    unfold Mem at hm; norm_num at hm

/-! ### Non-vacuity -/

/-- Example data: `x` on `[0,1]` against `1/2` on `[0,2)` and `1 - x` on `(0,1]`. -/
def exSelf : Affine ℕ := ⟨1, 0, ⟨0, 1, true, true⟩, 0⟩
/-- see `exSelf` -/
def exList : List (Affine ℕ) := [⟨0, 1/3, ⟨0, 2, true, false⟩, 1⟩, ⟨-1, 1, ⟨0, 1, false, true⟩, 2⟩]

theorem ex_wf : WellFormed exSelf exList (some ⟨0, 3/2, true, true⟩) := by
  refine ⟨?_, ?_⟩
  · intro f hf
    rw [constructible_iff]
    simp only [exSelf, exList, List.mem_cons, List.not_mem_nil, or_false] at hf
    rcases hf with rfl | rfl | rfl <;> norm_num
  · intro D hD; cases hD; rw [constructible_iff]; norm_num

theorem ex_cov : ∀ x, InDomain (some ⟨0, 3/2, true, true⟩) x → (∃ v, HasValue [exSelf] x v) →
    ∃ v, HasValue exList x v := by
  rintro x - ⟨v, f, hf, hm, -⟩
  rw [List.mem_singleton] at hf
  subst hf
  refine ⟨1/3, _, List.mem_cons_self, ?_, by norm_num⟩
  unfold Mem exSelf at hm
  unfold Mem
  refine ⟨?_, Or.inl ?_⟩
  · simpa using hm.1
  · rcases hm.2 with h | ⟨_, h⟩ <;> simp only at h ⊢ <;> linarith

/-- The hypotheses of the theorems above hold for data with crossings inside the domain, and the
envelope has four pieces. -/
example : (∃ out, minWith exSelf exList (some ⟨0, 3/2, true, true⟩) = .ok (exSelf, out) ∧
    Ordered out ∧ out.length = 4) ∧ (∀ f ∈ exList, f.label ≠ exSelf.label) := by
  constructor
  · obtain ⟨out, h1, h2, h3⟩ := C05_min_with_partial exSelf exList (some ⟨0, 3/2, true, true⟩) ex_wf ex_cov
    refine ⟨out, h1, h2, ?_⟩
    have : (minWith exSelf exList (some ⟨0, 3/2, true, true⟩)).toOption.map (fun r => r.2.length) =
        some 4 := by decide +kernel
    rw [h1] at this
    simpa [Except.toOption] using this
  · decide +kernel

example : (∃ out, maxWith exSelf exList (some ⟨0, 3/2, true, true⟩) = .ok (exSelf, out)) :=
  (C06_receiver_unchanged_partial exSelf exList _ ex_wf (Or.inl ex_cov)).2

end Affine
end Expdb
