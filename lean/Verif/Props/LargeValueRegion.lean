import Verif.Model.ZeroDensity
import Verif.Props.RegionThin
import Verif.Props.Printing

/-!
# Property C65: the large value region computed from a list of hypotheses
-/

namespace Expdb
namespace Region

variable {L : Type} [DecidableEq L]

/-! ### Labels -/

/-- All reported dependencies satisfy `P`. -/
def DepsIn (P : L → Prop) (ps : List (Piece L)) : Prop := ∀ p ∈ ps, ∀ l ∈ p.deps, P l

theorem mergeDeps_in {track : Bool} {P : L → Prop} {a b : List L} (ha : ∀ l ∈ a, P l) (hb : ∀ l ∈ b, P l) :
    ∀ l ∈ mergeDeps track a b, P l := by
  unfold mergeDeps
  split
  · intro l hl
    rcases (mem_union_list a b l).mp hl with h | h
    · exact ha l h
    · exact hb l h
  · simp

theorem pieceInter_deps {eng : Engine} {track : Bool} {P : L → Prop} {p q : Piece L} {o : Option (Piece L)}
    (hp : ∀ l ∈ p.deps, P l) (hq : ∀ l ∈ q.deps, P l) (h : pieceInter eng track p q = .ok o) : DepsIn P o.toList := by
  unfold pieceInter at h
  split at h
  · cases h; intro r hr; simp at hr; subst hr; exact hp
  split at h
  · cases h; intro r hr; simp at hr; subst hr; exact hq
  cases hi : Mat.intersect eng.canon p.mat q.mat with
  | error e => rw [hi] at h; cases h
  | ok i =>
    rw [hi] at h
    simp only [bind, Except.bind, pure, Except.pure] at h
    split at h
    · cases h; intro r hr; simp at hr
    · cases h; intro r hr; simp at hr; subst hr; exact mergeDeps_in hp hq

theorem inters_deps {eng : Engine} {track : Bool} {P : L → Prop} {p : Piece L} (hp : ∀ l ∈ p.deps, P l) :
    ∀ (B out : List (Piece L)), DepsIn P B → inters eng track p B = .ok out → DepsIn P out := by
  intro B
  induction B with
  | nil => intro out _ h; cases h; intro r hr; simp at hr
  | cons q B ih =>
    intro out hB h
    unfold inters at h
    cases h1 : pieceInter eng track p q with
    | error e => rw [h1] at h; cases h
    | ok o =>
      cases h2 : inters eng track p B with
      | error e => rw [h1, h2] at h; cases h
      | ok rest =>
        rw [h1, h2] at h
        cases h
        intro r hr
        rcases List.mem_append.mp hr with hr | hr
        · exact pieceInter_deps hp (hB q (by simp)) h1 r hr
        · exact ih rest (fun s hs => hB s (by simp [hs])) h2 r hr

theorem foldl_union_mem (ps : List (Piece L)) : ∀ (d : List L) (l : L),
    l ∈ ps.foldl (fun d a => d.union a.deps) d ↔ l ∈ d ∨ ∃ p ∈ ps, l ∈ p.deps := by
  induction ps with
  | nil => intro d l; simp
  | cons p ps ih =>
    intro d l
    rw [List.foldl_cons, ih, mem_union_list]
    simp [or_assoc]

theorem mergeInters_deps {eng : Engine} {track : Bool} {P : L → Prop} {ps out : List (Piece L)} (hp : DepsIn P ps)
    (h : mergeInters eng track ps = .ok out) : DepsIn P out := by
  unfold mergeInters at h
  split at h
  · cases h1 : Mat.tryUnion eng.canon eng.lp eng.verts (ps.map (·.mat)) with
    | error e => rw [h1] at h; cases h
    | ok o =>
      rw [h1] at h
      simp only [bind, Except.bind, pure, Except.pure] at h
      cases o with
      | none => cases h; exact hp
      | some u =>
        cases h
        intro r hr
        rw [List.mem_singleton] at hr
        subst hr
        intro l hl
        simp only at hl
        split at hl
        · rcases (foldl_union_mem ps [] l).mp hl with h0 | ⟨p, h1, h2⟩
          · simp at h0
          · exact hp p h1 l h2
        · simp at hl
  · cases h; exact hp

theorem distribute_deps {eng : Engine} {track : Bool} {P : L → Prop} {B : List (Piece L)} (hB : DepsIn P B) :
    ∀ (A out : List (Piece L)), DepsIn P A → distribute eng track B A = .ok out → DepsIn P out := by
  intro A
  induction A with
  | nil => intro out _ h; cases h; intro r hr; simp at hr
  | cons p A ih =>
    intro out hA h
    unfold distribute at h
    cases h1 : inters eng track p B with
    | error e => rw [h1] at h; cases h
    | ok is =>
      cases h2 : mergeInters eng track is with
      | error e => rw [h1] at h; simp only [bind, Except.bind] at h; rw [h2] at h; cases h
      | ok m =>
        cases h3 : distribute eng track B A with
        | error e => rw [h1] at h; simp only [bind, Except.bind] at h; rw [h2, h3] at h; cases h
        | ok rest =>
          rw [h1] at h
          simp only [bind, Except.bind] at h
          rw [h2, h3] at h
          cases h
          intro r hr
          rcases List.mem_append.mp hr with hr | hr
          · exact mergeInters_deps (inters_deps (hA p (by simp)) B is hB h1) h2 r hr
          · exact ih rest (fun s hs => hA s (by simp [hs])) h3 r hr

theorem simpStep_deps {unionFn : List Mat → Py (Option Mat)} {track : Bool} {P : L → Prop} {st st' : SimpState L}
    {c : Nat × Nat} (hst : DepsIn P st.polys) (h : simpStep unionFn track st c = .ok st') : DepsIn P st'.polys := by
  unfold simpStep at h
  split at h
  · cases h; exact hst
  split at h
  · cases h; exact hst
  cases h1 : st.polys[c.1]? with
  | none => rw [h1] at h; cases h
  | some p =>
    cases h2 : st.polys[c.2]? with
    | none => rw [h1, h2] at h; cases h
    | some q =>
      rw [h1, h2] at h
      simp only at h
      cases h3 : unionFn [p.mat, q.mat] with
      | error e => rw [h3] at h; cases h
      | ok o =>
        rw [h3] at h
        simp only [bind, Except.bind] at h
        cases o with
        | none => cases h; exact hst
        | some u =>
          cases h
          intro r hr
          rcases List.mem_append.mp hr with hr | hr
          · exact hst r hr
          · rw [List.mem_singleton] at hr
            subst hr
            exact mergeDeps_in (hst p (List.mem_of_getElem? h1)) (hst q (List.mem_of_getElem? h2))

theorem foldlM_deps {unionFn : List Mat → Py (Option Mat)} {track : Bool} {P : L → Prop} :
    ∀ (cs : List (Nat × Nat)) (st st' : SimpState L), DepsIn P st.polys →
      cs.foldlM (simpStep unionFn track) st = .ok st' → DepsIn P st'.polys := by
  intro cs
  induction cs with
  | nil => intro st st' hst h; cases h; exact hst
  | cons c cs ih =>
    intro st st' hst h
    rw [List.foldlM_cons] at h
    cases h1 : simpStep unionFn track st c with
    | error e => rw [h1] at h; cases h
    | ok s => rw [h1] at h; exact ih s st' (simpStep_deps hst h1) h

theorem simpLoop_deps {unionFn : List Mat → Py (Option Mat)} {order : List Nat → List Nat} {track : Bool} {P : L → Prop} :
    ∀ (k : Nat) (st st' : SimpState L), st.index.length ≤ k → DepsIn P st.polys →
      simpLoop unionFn order track st = .ok st' → DepsIn P st'.polys := by
  intro k
  induction k with
  | zero =>
    intro st st' hk hst h
    rw [simpLoop] at h
    cases h1 : simpRound unionFn order track st with
    | error e => rw [h1] at h; cases h
    | ok s =>
      rw [h1] at h
      simp only at h
      have hs : DepsIn P s.polys := foldlM_deps _ { st with changed := false } s hst h1
      split at h
      · split at h
        · omega
        · cases h
      · cases h; exact hs
  | succ k ih =>
    intro st st' hk hst h
    rw [simpLoop] at h
    cases h1 : simpRound unionFn order track st with
    | error e => rw [h1] at h; cases h
    | ok s =>
      rw [h1] at h
      simp only at h
      have hs : DepsIn P s.polys := foldlM_deps _ { st with changed := false } s hst h1
      split at h
      · split at h
        · exact ih s st' (by omega) hs h
        · cases h
      · cases h; exact hs

omit [DecidableEq L] in
theorem pick_mem {polys : List (Piece L)} : ∀ (is : List Nat) (out : List (Piece L)), pick polys is = .ok out →
    ∀ p ∈ out, p ∈ polys := by
  intro is
  induction is with
  | nil => intro out h; cases h; simp
  | cons i is ih =>
    intro out h
    unfold pick at h
    cases h1 : polys[i]? with
    | none => rw [h1] at h; cases h
    | some q =>
      rw [h1] at h
      simp only at h
      cases h2 : pick polys is with
      | error e => rw [h2] at h; cases h
      | ok rest =>
        rw [h2] at h
        cases h
        intro p hp
        rcases List.mem_cons.mp hp with rfl | hp
        · exact List.mem_of_getElem? h1
        · exact ih rest h2 p hp

theorem simplifyUnion_deps {unionFn : List Mat → Py (Option Mat)} {order : List Nat → List Nat} {track : Bool} {P : L → Prop}
    {ps out : List (Piece L)} (hp : DepsIn P ps) (h : simplifyUnion unionFn order track ps = .ok out) : DepsIn P out := by
  unfold simplifyUnion at h
  cases h1 : simpLoop unionFn order track ⟨ps, List.range ps.length, [], true⟩ with
  | error e => rw [h1] at h; cases h
  | ok st =>
    rw [h1] at h
    intro p hp'
    exact simpLoop_deps _ _ _ (le_refl _) hp h1 p (pick_mem _ _ h p hp')

theorem intersectLoop_deps {eng : Engine} {track : Bool} {P : L → Prop} : ∀ (Bs : List (List (Piece L))) (i : Nat)
    (A out : List (Piece L)), DepsIn P A → (∀ B ∈ Bs, DepsIn P B) → intersectLoop eng track i A Bs = .ok out → DepsIn P out := by
  intro Bs
  induction Bs with
  | nil => intro i A out hA _ h; cases h; exact hA
  | cons B Bs ih =>
    intro i A out hA hB h
    unfold intersectLoop at h
    cases h1 : distribute eng track B A with
    | error e => rw [h1] at h; cases h
    | ok A' =>
      rw [h1] at h
      simp only [bind, Except.bind] at h
      have hA' := distribute_deps (hB B (by simp)) A A' hA h1
      cases h2 : periodicSimplify eng track (i + 1) A' with
      | error e => rw [h2] at h; cases h
      | ok A'' =>
        rw [h2] at h
        refine ih (i + 1) A'' out ?_ (fun B' hB' => hB B' (by simp [hB'])) h
        unfold periodicSimplify at h2
        split at h2
        · exact simplifyUnion_deps hA' h2
        · cases h2; exact hA'

end Region

namespace ZeroDensity

open Mat Region

/-! ### The computation for any notion `M` of the points of a polytope and any invariant `G` -/

/-- The polytopes have the invariant, their points satisfy `S`, and the generic points of `S` are covered. -/
structure AppM (M : Mat → Pt → Prop) (G : Mat → Prop) (Gen S : Pt → Prop) (ms : List Mat) : Prop where
  good : ∀ m ∈ ms, G m
  sound : ∀ m ∈ ms, ∀ x, M m x → S x
  cover : ∀ x, Gen x → S x → ∃ m ∈ ms, M m x

/-- What is used of the operations on polytopes. -/
structure Kit (eng : Engine) (n : ℕ) (M : Mat → Pt → Prop) (G : Mat → Prop) (Gen : Pt → Prop) : Prop where
  wf : ∀ m, G m → m.WF ∧ m.cols = n
  union : UnionExactM M G (tryUnion eng.canon eng.lp eng.verts)
  order : ∀ l, (eng.order l).Perm l
  loop : ∀ (track : Bool) (i : ℕ) (A : List (Piece ℕ)) (S : Pt → Prop) (Bs : List (List (Piece ℕ))) (Ts : List (Pt → Prop)),
    AppM M G Gen S (A.map (·.mat)) → List.Forall₂ (fun T B => AppM M G Gen T (B.map (·.mat))) Ts Bs →
    ∃ out, intersectLoop eng track i A Bs = .ok out ∧ AppM M G Gen (fun x => S x ∧ ∀ T ∈ Ts, T x) (out.map (·.mat))

theorem AppM.imp {M : Mat → Pt → Prop} {G : Mat → Prop} {Gen S T : Pt → Prop} {ms : List Mat} (h : AppM M G Gen S ms)
    (hST : ∀ x, S x ↔ T x) : AppM M G Gen T ms :=
  ⟨h.good, fun m hm x hx => (hST x).mp (h.sound m hm x hx), fun x hg hx => h.cover x hg ((hST x).mpr hx)⟩

theorem AppM.self {M : Mat → Pt → Prop} {G : Mat → Prop} {Gen : Pt → Prop} {ms : List Mat} (h : ∀ m ∈ ms, G m) :
    AppM M G Gen (fun x => ∃ m ∈ ms, M m x) ms := ⟨h, fun m hm _ hx => ⟨m, hm, hx⟩, fun _ _ h => h⟩

/-- A region that the conversion represents. -/
def Conv (eng : Engine) (M : Mat → Pt → Prop) (G : Mat → Prop) (Gen : Pt → Prop) (r : Region ℕ) : Prop :=
  ∃ out, asDisjoint eng false r = .ok out ∧ AppM M G Gen r.Mem (out.map (·.mat))

/-- A disjoint union of polytopes without labels. -/
def disjOf (ms : List Mat) : Region ℕ := .disjoint (ms.map (fun m => .polytope m none))

theorem polyMats_map {L : Type} (ms : List Mat) : polyMats (L := L) (ms.map (fun m => .polytope m none)) = some ms := by
  induction ms with
  | nil => rfl
  | cons m ms ih => rw [List.map_cons, polyMats, ih]

variable {eng : Engine} {n : ℕ} {M : Mat → Pt → Prop} {G : Mat → Prop} {Gen : Pt → Prop}

/-- The simplification of a clipped region. -/
theorem clip_of_disjoint (k : Kit eng n M G Gen) (domain r : Region ℕ) {S : Pt → Prop} {out : List (Piece ℕ)}
    (e1 : asDisjoint eng false (.intersect [domain, r]) = .ok out) (h6 : AppM M G Gen S (out.map (·.mat))) :
    ∃ ms, clip eng domain r = .ok (disjOf ms) ∧ AppM M G Gen S ms := by
  obtain ⟨out', h7, _, h8, h9, _⟩ := simplifyUnion_spec M G _ k.union eng.order k.order false
    ((out.map (·.mat)).map (fun m => (⟨m, []⟩ : Piece ℕ))) (by
      intro p hp
      obtain ⟨m, hm, rfl⟩ := List.mem_map.mp hp
      exact h6.good m hm)
  have h10 : ∀ x, (∃ m ∈ out'.map (·.mat), M m x) ↔ ∃ m ∈ out.map (·.mat), M m x := by
    intro x
    have := h8 x
    simp only [List.mem_map, exists_exists_and_eq_and] at this ⊢
    exact this
  refine ⟨out'.map (·.mat), ?_, ⟨?_, ?_, ?_⟩⟩
  · unfold clip asDisjointUnion
    rw [e1]
    simp only [bind, Except.bind, pure, Except.pure]
    simp only [simplify, simplifyChildren]
    rw [show (out.map (fun p => (Region.polytope p.mat none : Region ℕ))) = (out.map (·.mat)).map (fun m => .polytope m none) by
      rw [List.map_map]; rfl, polyMats_map]
    simp only [bind, Except.bind, pure, Except.pure]
    rw [h7]
    unfold disjOf
    rw [List.map_map]
    rfl
  · intro m hm
    obtain ⟨p, hp, rfl⟩ := List.mem_map.mp hm
    exact h9 p hp
  · intro m hm x hx
    obtain ⟨m', hm', hx'⟩ := (h10 x).mp ⟨m, hm, hx⟩
    exact h6.sound m' hm' x hx'
  · intro x hg hx
    exact (h10 x).mpr (h6.cover x hg hx)

theorem clip_spec (k : Kit eng n M G Gen) (domain r : Region ℕ) (hd : Conv eng M G Gen domain) (hr : Conv eng M G Gen r) :
    ∃ ms, clip eng domain r = .ok (disjOf ms) ∧ AppM M G Gen (fun x => domain.Mem x ∧ r.Mem x) ms := by
  obtain ⟨A, h1, h2⟩ := hd
  obtain ⟨B, h3, h4⟩ := hr
  obtain ⟨out, h5, h6⟩ := k.loop false 0 A _ [B] [r.Mem] h2 (.cons h4 .nil)
  have e1 : asDisjoint eng false (.intersect [domain, r]) = .ok out := by
    unfold asDisjoint asDisjointList asDisjointList asDisjointList
    rw [h1, h3]
    exact h5
  exact clip_of_disjoint k domain r e1 (h6.imp (fun x => by simp))

theorem setLabel_disjOf (ms : List Mat) (i : ℕ) :
    (disjOf ms).setLabel i = .disjoint (ms.map (fun m => .polytope m (some i))) := by
  unfold disjOf setLabel
  congr 1
  induction ms with
  | nil => simp [setLabelList]
  | cons m ms ih => rw [List.map_cons, setLabelList, ih, setLabel, List.map_cons]

theorem clipLoop_spec (k : Kit eng n M G Gen) (domain : Region ℕ) (hs : List (Region ℕ))
    (h : ∀ r ∈ hs, ∃ ms, clip eng domain r = .ok (disjOf ms) ∧ AppM M G Gen (fun x => domain.Mem x ∧ r.Mem x) ms) :
    ∀ (i : ℕ) (seen : List Printing.Str) (old : List (List Mat)),
      (∀ s ∈ seen, ∃ ms ∈ old, (∀ m ∈ ms, G m) ∧ Printing.regionStr none (disjOf ms) = .ok s) →
      ∃ ks : List (ℕ × List Mat),
        clipLoop eng domain i seen hs = .ok (ks.map (fun k => .disjoint (k.2.map (fun m => .polytope m (some k.1))))) ∧
        (∀ k ∈ ks, ∃ j r, k.1 = i + j ∧ hs[j]? = some r ∧ AppM M G Gen (fun x => domain.Mem x ∧ r.Mem x) k.2) ∧
        (∀ r ∈ hs, (∃ k ∈ ks, AppM M G Gen (fun x => domain.Mem x ∧ r.Mem x) k.2) ∨
          ∃ ms ∈ old, AppM M G Gen (fun x => domain.Mem x ∧ r.Mem x) ms) := by
  induction hs with
  | nil => intro i seen old _; exact ⟨[], rfl, by simp, by simp⟩
  | cons r hs ih =>
    intro i seen old hold
    obtain ⟨ms, h1, h2⟩ := h r (by simp)
    obtain ⟨ss, h3, _, _⟩ := Printing.regionStrs_polytopes (L := ℕ) ms (fun m hm => (k.wf m (h2.good m hm)).1)
    have h4 : Printing.regionStr none (disjOf ms) = .ok (Printing.joinStr "Disjoint union" ss) := by
      unfold disjOf
      rw [Printing.regionStr, h3]
      rfl
    by_cases hin : Printing.joinStr "Disjoint union" ss ∈ seen
    · obtain ⟨ms', h5, h6, h7⟩ := hold _ hin
      have e : ms = ms' := Printing.C46_region_injective (L := ℕ) n ms ms' (fun m hm => k.wf m (h2.good m hm))
        (fun m hm => k.wf m (h6 m hm)) (by
          have : Printing.regionStr none (disjOf ms) = Printing.regionStr none (disjOf ms') := by rw [h4, h7]
          exact this)
      subst e
      obtain ⟨ks, a1, a2, a3⟩ := ih (fun r' hr' => h r' (by simp [hr'])) (i + 1) seen old hold
      refine ⟨ks, ?_, ?_, ?_⟩
      · unfold clipLoop
        rw [h1]
        simp only [bind, Except.bind]
        rw [h4]
        simp only
        rw [if_pos hin]
        exact a1
      · intro t ht
        obtain ⟨j, r', b1, b2, b3⟩ := a2 t ht
        exact ⟨j + 1, r', by omega, by simpa using b2, b3⟩
      · intro r' hr'
        rcases List.mem_cons.mp hr' with rfl | hr'
        · exact Or.inr ⟨ms, h5, h2⟩
        · exact a3 r' hr'
    · obtain ⟨ks, a1, a2, a3⟩ := ih (fun r' hr' => h r' (by simp [hr'])) (i + 1) (Printing.joinStr "Disjoint union" ss :: seen)
        (ms :: old) (by
          intro s hs
          rcases List.mem_cons.mp hs with rfl | hs
          · exact ⟨ms, by simp, h2.good, h4⟩
          · obtain ⟨ms', h5, h6, h7⟩ := hold s hs
            exact ⟨ms', by simp [h5], h6, h7⟩)
      refine ⟨(i, ms) :: ks, ?_, ?_, ?_⟩
      · unfold clipLoop
        rw [h1]
        simp only [bind, Except.bind]
        rw [h4]
        simp only
        rw [if_neg hin, a1]
        simp only [pure, Except.pure, setLabel_disjOf, List.map_cons]
      · intro t ht
        rcases List.mem_cons.mp ht with rfl | ht
        · exact ⟨0, r, rfl, rfl, h2⟩
        · obtain ⟨j, r', b1, b2, b3⟩ := a2 t ht
          exact ⟨j + 1, r', by omega, by simpa using b2, b3⟩
      · intro r' hr'
        rcases List.mem_cons.mp hr' with rfl | hr'
        · exact Or.inl ⟨(i, ms), by simp, h2⟩
        · rcases a3 r' hr' with ⟨t, b1, b2⟩ | ⟨ms', b1, b2⟩
          · exact Or.inl ⟨t, by simp [b1], b2⟩
          · rcases List.mem_cons.mp b1 with rfl | b1
            · exact Or.inl ⟨(i, ms'), by simp, b2⟩
            · exact Or.inr ⟨ms', b1, b2⟩

theorem asDisjoint_labelled (i : ℕ) (ms : List Mat) :
    asDisjoint eng true (.disjoint (ms.map (fun m => .polytope m (some i)))) = .ok (ms.map (fun m => ⟨m, [i]⟩)) := by
  unfold asDisjoint
  have : asDisjointList eng true (ms.map (fun m => .polytope m (some i))) = .ok (ms.map (fun m => [⟨m, [i]⟩])) := by
    induction ms with
    | nil => simp [asDisjointList]
    | cons m ms ih =>
      rw [List.map_cons, asDisjointList, ih]
      unfold asDisjoint leafPieces
      rfl
  rw [this]
  simp only [bind, Except.bind, pure, Except.pure]
  congr 1
  clear this
  induction ms with
  | nil => rfl
  | cons m ms ih => rw [List.map_cons, List.flatten_cons, ih]; rfl

theorem region_of_clip (k : Kit eng n M G Gen) (domain : Region ℕ) (hs : List (Region ℕ)) (hne : hs ≠ [])
    (hh : ∀ r ∈ hs, ∃ ms, clip eng domain r = .ok (disjOf ms) ∧ AppM M G Gen (fun x => domain.Mem x ∧ r.Mem x) ms) :
    ∃ ms deps, largeValueRegion eng domain hs = .ok (ms, deps) ∧
      AppM M G Gen (fun x => domain.Mem x ∧ ∀ r ∈ hs, r.Mem x) ms ∧ ∀ i ∈ deps, i < hs.length := by
  obtain ⟨ks, h1, h2, h3⟩ := clipLoop_spec k domain hs hh 0 [] [] (by simp)
  have h3' : ∀ r ∈ hs, ∃ k ∈ ks, AppM M G Gen (fun x => domain.Mem x ∧ r.Mem x) k.2 := by
    intro r hr
    rcases h3 r hr with h | ⟨ms, h, _⟩
    · exact h
    · simp at h
  have hlist : ∀ ks : List (ℕ × List Mat), asDisjointList eng true
      (ks.map (fun k => .disjoint (k.2.map (fun m => .polytope m (some k.1))))) =
      .ok (ks.map (fun k => k.2.map (fun m => ⟨m, [k.1]⟩))) := by
    intro ks
    induction ks with
    | nil => simp [asDisjointList]
    | cons t ks ih => rw [List.map_cons, asDisjointList, ih, asDisjoint_labelled]; rfl
  cases ks with
  | nil =>
    cases hs with
    | nil => exact absurd rfl hne
    | cons r hs =>
      obtain ⟨t, ht, _⟩ := h3' r (by simp)
      simp at ht
  | cons t ks =>
    have hself : ∀ t' ∈ t :: ks, AppM M G Gen (fun x => ∃ m ∈ t'.2, M m x) ((t'.2.map (fun m => (⟨m, [t'.1]⟩ : Piece ℕ))).map (·.mat)) := by
      intro t' ht'
      obtain ⟨_, _, _, _, b⟩ := h2 t' ht'
      rw [List.map_map]
      rw [show ((fun p : Piece ℕ => p.mat) ∘ fun m => (⟨m, [t'.1]⟩ : Piece ℕ)) = id from rfl, List.map_id]
      exact AppM.self b.good
    obtain ⟨out, h5, h6⟩ := k.loop true 0 (t.2.map (fun m => ⟨m, [t.1]⟩)) _ (ks.map (fun k => k.2.map (fun m => ⟨m, [k.1]⟩)))
      (ks.map (fun k => fun x => ∃ m ∈ k.2, M m x)) (hself t (by simp)) (by
        rw [List.forall₂_map_left_iff, List.forall₂_map_right_iff, List.forall₂_same]
        intro t' ht'
        exact hself t' (by simp [ht']))
    refine ⟨out.map (·.mat), out.foldl (fun d p => d.union p.deps) [], ?_, ⟨h6.good, ?_, ?_⟩, ?_⟩
    · unfold largeValueRegion
      rw [h1]
      simp only [bind, Except.bind]
      unfold asDisjoint
      rw [hlist]
      simp only [bind, Except.bind, List.map_cons]
      simp only [intersectSets, h5]
      rfl
    · intro m hm x hx
      obtain ⟨c1, c2⟩ := h6.sound m hm x hx
      have c3 : ∀ t' ∈ t :: ks, ∃ m ∈ t'.2, M m x := by
        intro t' ht'
        rcases List.mem_cons.mp ht' with rfl | ht'
        · exact c1
        · exact c2 _ (List.mem_map.mpr ⟨t', ht', rfl⟩)
      have c4 : ∀ r ∈ hs, domain.Mem x ∧ r.Mem x := by
        intro r hr
        obtain ⟨t', ht', b⟩ := h3' r hr
        obtain ⟨m', hm', hx'⟩ := c3 t' ht'
        exact b.sound m' hm' x hx'
      refine ⟨?_, fun r hr => (c4 r hr).2⟩
      cases hs with
      | nil => exact absurd rfl hne
      | cons r hs => exact (c4 r (by simp)).1
    · rintro x hg ⟨c1, c2⟩
      have c3 : ∀ t' ∈ t :: ks, ∃ m ∈ t'.2, M m x := by
        intro t' ht'
        obtain ⟨j, r, _, b2, b3⟩ := h2 t' ht'
        exact b3.cover x hg ⟨c1, c2 r (List.mem_of_getElem? b2)⟩
      refine h6.cover x hg ⟨c3 t (by simp), ?_⟩
      intro T hT
      obtain ⟨t', ht', rfl⟩ := List.mem_map.mp hT
      exact c3 t' (by simp [ht'])
    · intro i hi
      rcases (foldl_union_mem out [] i).mp hi with h0 | ⟨p, hp, hip⟩
      · simp at h0
      · have hidx : ∀ t' ∈ t :: ks, t'.1 < hs.length := by
          intro t' ht'
          obtain ⟨j, r, b1, b2, _⟩ := h2 t' ht'
          have := (List.getElem?_eq_some_iff.mp b2).1
          omega
        have hin : ∀ t' ∈ t :: ks, DepsIn (fun i => i < hs.length) (t'.2.map (fun m => (⟨m, [t'.1]⟩ : Piece ℕ))) := by
          intro t' ht' q hq l hl
          obtain ⟨m, _, rfl⟩ := List.mem_map.mp hq
          rw [List.mem_singleton] at hl
          subst hl
          exact hidx t' ht'
        refine intersectLoop_deps _ 0 _ out (hin t (by simp)) ?_ h5 p hp i hip
        intro B hB
        obtain ⟨t', ht', rfl⟩ := List.mem_map.mp hB
        exact hin t' (by simp [ht'])

theorem region_spec (k : Kit eng n M G Gen) (domain : Region ℕ) (hd : Conv eng M G Gen domain) (hs : List (Region ℕ))
    (hne : hs ≠ []) (hh : ∀ r ∈ hs, Conv eng M G Gen r) :
    ∃ ms deps, largeValueRegion eng domain hs = .ok (ms, deps) ∧
      AppM M G Gen (fun x => domain.Mem x ∧ ∀ r ∈ hs, r.Mem x) ms ∧ ∀ i ∈ deps, i < hs.length :=
  region_of_clip k domain hs hne (fun r hr => clip_spec k domain r hd (hh r hr))

/-! ### The two instances -/

theorem approx_iff {S : Pt → Prop} {ps : List (Piece ℕ)} :
    AppM Mat.Contains (Good n Gen) Gen S (ps.map (·.mat)) ↔ Approx n Gen S ps := by
  constructor
  · intro h
    refine ⟨fun p hp => h.good _ (List.mem_map.mpr ⟨p, hp, rfl⟩), fun p hp => h.sound _ (List.mem_map.mpr ⟨p, hp, rfl⟩), ?_⟩
    intro x hg hx
    obtain ⟨m, hm, hx⟩ := h.cover x hg hx
    obtain ⟨p, hp, rfl⟩ := List.mem_map.mp hm
    exact ⟨p, hp, hx⟩
  · intro h
    refine ⟨?_, ?_, ?_⟩
    · intro m hm
      obtain ⟨p, hp, rfl⟩ := List.mem_map.mp hm
      exact h.good p hp
    · intro m hm
      obtain ⟨p, hp, rfl⟩ := List.mem_map.mp hm
      exact h.sound p hp
    · intro x hg hx
      obtain ⟨p, hp, hx⟩ := h.cover x hg hx
      exact ⟨_, List.mem_map.mpr ⟨p, hp, rfl⟩, hx⟩

theorem sapprox_iff {S : Pt → Prop} {ps : List (Piece ℕ)} :
    AppM (SMem n) (GoodW n Gen) Gen S (ps.map (·.mat)) ↔ Thin.SApprox n Gen S ps := by
  constructor
  · intro h
    refine ⟨fun p hp => h.good _ (List.mem_map.mpr ⟨p, hp, rfl⟩), fun p hp => h.sound _ (List.mem_map.mpr ⟨p, hp, rfl⟩), ?_⟩
    intro x hg hx
    obtain ⟨m, hm, hx⟩ := h.cover x hg hx
    obtain ⟨p, hp, rfl⟩ := List.mem_map.mp hm
    exact ⟨p, hp, hx⟩
  · intro h
    refine ⟨?_, ?_, ?_⟩
    · intro m hm
      obtain ⟨p, hp, rfl⟩ := List.mem_map.mp hm
      exact h.good p hp
    · intro m hm
      obtain ⟨p, hp, rfl⟩ := List.mem_map.mp hm
      exact h.sound p hp
    · intro x hg hx
      obtain ⟨p, hp, hx⟩ := h.cover x hg hx
      exact ⟨_, List.mem_map.mpr ⟨p, hp, rfl⟩, hx⟩

theorem kit_full (heng : EngineSpec eng) (hn : 2 ≤ n) (hGen : ∀ x, Gen x → x.length + 1 = n) :
    Kit eng n Mat.Contains (Good n Gen) Gen := by
  refine ⟨fun m h => ⟨h.wf, h.cols⟩, tryUnion_unionExact heng hn, heng.order, ?_⟩
  intro track i A S Bs Ts hA hB
  obtain ⟨out, h1, h2, _⟩ := intersectLoop_spec (track := track) heng hn hGen i A S (approx_iff.mp hA) Bs Ts
    (hB.imp (fun _ _ h => approx_iff.mp h))
  exact ⟨out, h1, approx_iff.mpr h2⟩

theorem kit_thin (heng : EngineSpec eng) (hn : 2 ≤ n) (hGen : ∀ x, Gen x → x.length + 1 = n) :
    Kit eng n (SMem n) (GoodW n Gen) Gen := by
  refine ⟨fun m h => ⟨h.wf, h.cols⟩, Thin.tryUnion_unionExact heng hn, heng.order, ?_⟩
  intro track i A S Bs Ts hA hB
  obtain ⟨out, h1, h2, _⟩ := Thin.intersectLoop_spec (track := track) heng hn hGen i A S (sapprox_iff.mp hA) Bs Ts
    (hB.imp (fun _ _ h => sapprox_iff.mp h))
  exact ⟨out, h1, sapprox_iff.mpr h2⟩

/-! ### Intersections with an unbounded polytope -/

/-- Contract for minimisations without a minimum over a non-empty set: the reported objective value is negative. (The value is
read by `is_subset_of`, polytope.py:648-665, whatever the status of the linear program.) -/
def UnboundedNeg (lp : LPSolver) : Prop :=
  ∀ (m : Mat) (obj : Row) (w : ℚ), m.WF → obj.cs.length + 1 = m.cols → (∃ x, m.Feasible x) → lp false m obj = .other w → w < 0

/-- An unbounded polytope with interior points, such as a half-space. -/
structure Unb (n : ℕ) (H : Mat) : Prop extends Base n H where
  inner : HasInner n H
  unbounded : ¬ H.Bounded

theorem subset_of_unb (heng : EngineSpec eng) (hneg : UnboundedNeg eng.lp) {p q : Mat} (hp : Base n p) (hq : Base n q)
    (h : Mat.isSubsetOf eng.lp p q = true) : ∀ x, p.Contains x → q.Contains x := by
  intro x hx
  rw [← feasible_iff] at hx ⊢
  refine ⟨by rw [hq.cols, ← hp.cols]; exact hx.1, (holds_iff_asIneqs q x).mpr (fun r hr => ?_)⟩
  have hlen : r.cs.length + 1 = p.cols := by rw [hp.cols, ← hq.cols]; exact asIneqs_length q hq.wf r hr
  unfold Mat.isSubsetOf at h
  rw [List.all_eq_true] at h
  have h1 := h r hr
  simp only [Bool.not_eq_true', decide_eq_false_iff_not, not_lt] at h1
  cases hres : eng.lp false p r with
  | optimal y v =>
    rw [hres] at h1
    obtain ⟨_, _, h3⟩ := heng.lp.min_opt p r y v hp.wf hlen hres
    exact le_trans h1 (h3 x hx)
  | other w =>
    rw [hres] at h1
    exact absurd (hneg p r w hp.wf hlen ⟨x, hx⟩ hres) (not_lt.mpr h1)

theorem pieceInter_unb (heng : EngineSpec eng) (hneg : UnboundedNeg eng.lp) (hn : 2 ≤ n)
    (hGen : ∀ x, Gen x → x.length + 1 = n) (p q : Piece ℕ) (hp : Unb n p.mat)
    (hpg : ∀ x, Gen x → p.mat.Contains x → p.mat.Interior x) (hq : GoodW n Gen q.mat) :
    ∃ o, pieceInter eng false p q = .ok o ∧
      (∀ r, o = some r → GoodW n Gen r.mat ∧ (r.mat = q.mat ∨ HasInner n r.mat) ∧
        (∀ x, SMem n r.mat x → p.mat.Contains x ∧ SMem n q.mat x)) ∧
      (∀ x, Gen x → p.mat.Contains x → SMem n q.mat x → ∃ r, o = some r ∧ SMem n r.mat x) := by
  unfold pieceInter
  by_cases h1 : Mat.isSubsetOf eng.lp p.mat q.mat = true
  · exfalso
    have hs := subset_of_unb heng hneg hp.toBase hq.toBase h1
    obtain ⟨s, h3, h4⟩ := hp.inner
    obtain ⟨B, hB⟩ := hq.bounded ⟨s, h3, interior_of_subset n hp.cols hq.cols hs h3 h4⟩
    exact hp.unbounded ⟨B, fun x hx => hB x (hs x hx)⟩
  rw [if_neg h1]
  by_cases h2 : Mat.isSubsetOf eng.lp q.mat p.mat = true
  · rw [if_pos h2]
    refine ⟨_, rfl, fun r hr => ?_, fun x _ _ hx => ⟨_, rfl, hx⟩⟩
    cases hr
    refine ⟨hq, Or.inl rfl, fun x hx => ⟨?_, hx⟩⟩
    exact (subset_iffW heng (hq.fullDim hx.1) hp.toBase).mp h2 x hx.2
  rw [if_neg h2]
  obtain ⟨i, e1, e2, e3, e4⟩ := C10_intersection_exact eng.canon heng.canon true [p.mat, q.mat]
    (by simp) n (by
      intro r hr
      simp only [List.mem_cons, List.not_mem_nil, or_false] at hr
      rcases hr with rfl | rfl
      · exact ⟨hp.wf, hp.cols⟩
      · exact ⟨hq.wf, hq.cols⟩)
  have e5 : ∀ x, i.Contains x ↔ p.mat.Contains x ∧ q.mat.Contains x := fun x => by rw [e4]; simp
  have hi : Mat.intersect eng.canon p.mat q.mat = .ok i := e1
  have hnz := base_intersect_noZero heng hp.toBase hq.toBase hi
  have hem := C14_isEmptyExcl_iff eng.lp heng.lp i e2 hnz (by omega)
  rw [hi]
  simp only [bind, Except.bind]
  have hint : ∀ x, Gen x → p.mat.Contains x → SMem n q.mat x → i.Interior x := fun x hx h3 h4 =>
    interior_inter n hp.cols hq.cols e3 e5 (hGen x hx) (hpg x hx h3) (hq.gen h4.1 x hx h4.2)
  have hqi : ∀ s : Pt, s.length + 1 = n → i.Interior s → q.mat.Interior s := fun s h3 h4 =>
    interior_of_subset n e3 hq.cols (fun x hx => ((e5 x).mp hx).2) h3 h4
  by_cases h3 : Mat.isEmptyExcl eng.lp i = true
  · rw [if_pos h3]
    refine ⟨none, rfl, fun r hr => (by cases hr), fun x hx h4 h5 => ?_⟩
    exact absurd (hint x hx h4 h5) (hem.mp h3 x (by rw [e3]; exact hGen x hx))
  · rw [if_neg h3]
    rw [hem] at h3
    push Not at h3
    obtain ⟨s, hs1, hs2⟩ := h3
    have hs1 : s.length + 1 = n := by rw [← e3]; exact hs1
    have hsi : HasInner n i := ⟨s, hs1, hs2⟩
    have hsq := hqi s hs1 hs2
    refine ⟨_, rfl, fun r hr => ?_, fun x hx h4 h5 => ⟨_, rfl, hsi, (e5 x).mpr ⟨h4, h5.2⟩⟩⟩
    cases hr
    refine ⟨⟨⟨e2, e3, hnz⟩, fun _ => ?_, fun _ x hx hix => ?_⟩, Or.inr hsi, fun x hx => ?_⟩
    · obtain ⟨B, hB⟩ := hq.bounded ⟨s, hs1, hsq⟩
      exact ⟨B, fun x hx => hB x ((e5 x).mp hx).2⟩
    · have := (e5 x).mp hix
      exact hint x hx this.1 ⟨⟨s, hs1, hsq⟩, this.2⟩
    · have := (e5 x).mp hx.2
      exact ⟨this.1, ⟨s, hs1, hsq⟩, this.2⟩

theorem inters_unb (heng : EngineSpec eng) (hneg : UnboundedNeg eng.lp) (hn : 2 ≤ n)
    (hGen : ∀ x, Gen x → x.length + 1 = n) (p : Piece ℕ) (hp : Unb n p.mat)
    (hpg : ∀ x, Gen x → p.mat.Contains x → p.mat.Interior x) (B : List (Piece ℕ)) (hB : ∀ q ∈ B, GoodW n Gen q.mat) :
    ∃ out, inters eng false p B = .ok out ∧ (∀ r ∈ out, (∃ q ∈ B, r.mat = q.mat) ∨ HasInner n r.mat) ∧
      Thin.SApprox n Gen (fun x => p.mat.Contains x ∧ ∃ q ∈ B, SMem n q.mat x) out := by
  induction B with
  | nil =>
    refine ⟨[], rfl, by simp, ⟨by simp, by simp, ?_⟩⟩
    rintro x _ ⟨_, q, hq, _⟩; simp at hq
  | cons q B ih =>
    obtain ⟨out, h1, h3, h2⟩ := ih (fun r hr => hB r (by simp [hr]))
    obtain ⟨o, h4, h5, h6⟩ := pieceInter_unb heng hneg hn hGen p q hp hpg (hB q (by simp))
    refine ⟨o.toList ++ out, ?_, ?_, ⟨?_, ?_, ?_⟩⟩
    · unfold inters
      rw [h4, h1]; rfl
    · intro r hr
      rcases List.mem_append.mp hr with hr | hr
      · rcases (h5 r (Option.mem_toList.mp hr)).2.1 with h | h
        · exact Or.inl ⟨q, by simp, h⟩
        · exact Or.inr h
      · rcases h3 r hr with ⟨q', hq', h⟩ | h
        · exact Or.inl ⟨q', by simp [hq'], h⟩
        · exact Or.inr h
    · intro r hr
      rcases List.mem_append.mp hr with hr | hr
      · exact (h5 r (Option.mem_toList.mp hr)).1
      · exact h2.good r hr
    · intro r hr x hx
      rcases List.mem_append.mp hr with hr | hr
      · have := (h5 r (Option.mem_toList.mp hr)).2.2 x hx
        exact ⟨this.1, q, by simp, this.2⟩
      · obtain ⟨a, r', hr', b⟩ := h2.sound r hr x hx
        exact ⟨a, r', by simp [hr'], b⟩
    · rintro x hg ⟨hpx, r, hr, hrx⟩
      rcases List.mem_cons.mp hr with rfl | hr
      · obtain ⟨s, rfl, hsx⟩ := h6 x hg hpx hrx
        exact ⟨s, by simp, hsx⟩
      · obtain ⟨s, hs, hsx⟩ := h2.cover x hg ⟨hpx, r, hr, hrx⟩
        exact ⟨s, by simp [hs], hsx⟩

theorem asDisjoint_pair (H : Mat) (l : Option ℕ) (R : Region ℕ) (B is out : List (Piece ℕ))
    (hR : asDisjoint eng false R = .ok B) (h1 : inters eng false ⟨H, []⟩ B = .ok is)
    (h2 : mergeInters eng false is = .ok out) :
    asDisjoint eng false (.intersect [.polytope H l, R]) = .ok out := by
  unfold asDisjoint asDisjointList asDisjointList asDisjointList
  rw [hR]
  unfold asDisjoint leafPieces
  simp only [bind, Except.bind, pure, Except.pure, Bool.false_eq_true, if_false, intersectSets, intersectLoop, distribute,
    h1, h2, List.append_nil, periodicSimplify]
  rfl

/-! ### The requirements on the hypotheses -/

/-- A region which the conversion represents: built by (non-empty) intersections and disjoint unions from polytopes with `P`,
or the intersection of an unbounded polytope with such a region. -/
def Hyp (n : ℕ) (P : Mat → Prop) (r : Region ℕ) : Prop :=
  (Plain false r ∧ ∀ m ∈ r.leaves, P m) ∨
  ∃ H l R, r = .intersect [.polytope H l, R] ∧ Unb n H ∧ Plain false R ∧ ∀ m ∈ R.leaves, P m

/-- Polytopes with or without interior points; those with interior points are bounded. -/
def Leaf (n : ℕ) (m : Mat) : Prop := Base n m ∧ (HasInner n m → m.Bounded)

theorem base_of_fullDim {m : Mat} (h : FullDim n m) : Base n m := ⟨h.wf, h.cols, h.noZero⟩

theorem hyp_base {P : Mat → Prop} (hP : ∀ m, P m → Base n m) {r : Region ℕ} (h : Hyp n P r) : ∀ m ∈ r.leaves, Base n m := by
  rcases h with ⟨_, h⟩ | ⟨H, l, R, rfl, hH, _, h⟩
  · exact fun m hm => hP m (h m hm)
  · intro m hm
    simp only [leaves, leavesList, List.append_nil, List.cons_append, List.nil_append, List.mem_cons] at hm
    rcases hm with rfl | hm
    · exact hH.toBase
    · exact hP m (h m hm)

theorem mem_pair (H : Mat) (l : Option ℕ) (R : Region ℕ) (x : Pt) :
    (Region.intersect [.polytope H l, R]).Mem x ↔ H.Contains x ∧ R.Mem x := by
  rw [Mem, memAll_iff]
  simp [Mem]

/-- An unbounded polytope intersected with a region that the conversion represents. -/
theorem conv_pair (heng : EngineSpec eng) (hneg : UnboundedNeg eng.lp) (hn : 2 ≤ n) (ms : List Mat) (H : Mat) (l : Option ℕ)
    (R : Region ℕ) (hH : Unb n H) (hmH : H ∈ ms) (hR : Conv eng Mat.Contains (Good n (Generic n ms)) (Generic n ms) R) :
    Conv eng Mat.Contains (Good n (Generic n ms)) (Generic n ms) (.intersect [.polytope H l, R]) := by
  have hGen : ∀ x, Generic n ms x → x.length + 1 = n := fun x hx => hx.1
  obtain ⟨B, hB, hB2⟩ := hR
  have hB3 := approx_iff.mp hB2
  have hfi : ∀ m, FullDim n m → HasInner n m := fun m hm => hm.inner
  have hgw : ∀ q ∈ B, GoodW n (Generic n ms) q.mat := fun q hq =>
    ⟨base_of_fullDim (hB3.good q hq).toFullDim, fun _ => (hB3.good q hq).bounded, fun _ => (hB3.good q hq).gen⟩
  obtain ⟨is, i1, i2, i3⟩ := inters_unb heng hneg hn hGen ⟨H, []⟩ hH
    (fun x hx hc => Mat.Thin.off_interior (hx.2 H hmH) ((contains_iff_holds H x (contains_length hc)).mp hc)) B hgw
  have i4 : ∀ r ∈ is, HasInner n r.mat := by
    intro r hr
    rcases i2 r hr with ⟨q, hq, e⟩ | h
    · rw [e]; exact hfi _ (hB3.good q hq).toFullDim
    · exact h
  have i5 : Approx n (Generic n ms) (fun x => H.Contains x ∧ R.Mem x) is := by
    refine ⟨?_, ?_, ?_⟩
    · intro r hr
      exact ⟨(i3.good r hr).fullDim (i4 r hr), (i3.good r hr).gen (i4 r hr)⟩
    · intro r hr x hx
      obtain ⟨a, q, hq, b⟩ := i3.sound r hr x ⟨i4 r hr, hx⟩
      exact ⟨a, hB3.sound q hq x b.2⟩
    · rintro x hg ⟨a, b⟩
      obtain ⟨q, hq, hqx⟩ := hB3.cover x hg b
      obtain ⟨r, hr, hrx⟩ := i3.cover x hg ⟨a, q, hq, hfi _ (hB3.good q hq).toFullDim, hqx⟩
      exact ⟨r, hr, hrx.2⟩
  obtain ⟨out, o1, o2, _⟩ := mergeInters_spec (track := false) heng hn _ is i5
  exact ⟨out, asDisjoint_pair H l R B is out hB i1 o1, (approx_iff.mpr o2).imp (fun x => (mem_pair H l R x).symm)⟩

theorem conv_full (heng : EngineSpec eng) (hn : 2 ≤ n) (ms : List Mat) (r : Region ℕ) (hms : ∀ m ∈ r.leaves, m ∈ ms)
    (h : Hyp n (FullDim n) r) (hneg : UnboundedNeg eng.lp ∨ Plain false r ∧ ∀ m ∈ r.leaves, FullDim n m) :
    Conv eng Mat.Contains (Good n (Generic n ms)) (Generic n ms) r := by
  have hGen : ∀ x, Generic n ms x → x.length + 1 = n := fun x hx => hx.1
  have plain : ∀ R : Region ℕ, (∀ m ∈ R.leaves, m ∈ ms) → Plain false R → (∀ m ∈ R.leaves, FullDim n m) →
      Conv eng Mat.Contains (Good n (Generic n ms)) (Generic n ms) R := by
    intro R h1 h2 h3
    obtain ⟨out, a1, a2, _⟩ := asDisjoint_spec heng hn hGen R h2
      ((allMat_iff_leaves _ R).mpr (fun m hm => good_of_generic _ m (h1 m hm) (h3 m hm)))
    exact ⟨out, a1, approx_iff.mpr a2⟩
  rcases h with ⟨h1, h2⟩ | ⟨H, l, R, rfl, hH, h1, h2⟩
  · exact plain r hms h1 h2
  rcases hneg with hneg | ⟨h3, h4⟩
  swap
  · exact plain _ hms h3 h4
  exact conv_pair heng hneg hn ms H l R hH (hms H (by simp [leaves, leavesList]))
    (plain R (fun m hm => hms m (by simp [leaves, leavesList, hm])) h1 h2)

theorem conv_thin (heng : EngineSpec eng) (hn : 2 ≤ n) (ms : List Mat) (r : Region ℕ) (hms : ∀ m ∈ r.leaves, m ∈ ms)
    (h : Hyp n (Leaf n) r) (hneg : UnboundedNeg eng.lp ∨ Plain false r ∧ ∀ m ∈ r.leaves, Leaf n m) :
    Conv eng (SMem n) (GoodW n (Generic n ms)) (Generic n ms) r := by
  have hGen : ∀ x, Generic n ms x → x.length + 1 = n := fun x hx => hx.1
  have plain : ∀ R : Region ℕ, (∀ m ∈ R.leaves, m ∈ ms) → Plain false R → (∀ m ∈ R.leaves, Leaf n m) →
      Conv eng (SMem n) (GoodW n (Generic n ms)) (Generic n ms) R := by
    intro R h1 h2 h3
    obtain ⟨out, a1, a2, _⟩ := Thin.asDisjoint_spec heng hn hGen R h2
      ((allMat_iff_leaves _ R).mpr (fun m hm => Thin.leafW_of_generic _ m (h1 m hm) (h3 m hm).1 (h3 m hm).2))
    exact ⟨out, a1, sapprox_iff.mpr a2⟩
  rcases h with ⟨h1, h2⟩ | ⟨H, l, R, rfl, hH, h1, h2⟩
  · exact plain r hms h1 h2
  rcases hneg with hneg | ⟨h3, h4⟩
  swap
  · exact plain _ hms h3 h4
  have hmR : ∀ m ∈ R.leaves, m ∈ ms := fun m hm => hms m (by simp [leaves, leavesList, hm])
  have hmH : H ∈ ms := hms H (by simp [leaves, leavesList])
  obtain ⟨B, hB, hB2⟩ := plain R hmR h1 h2
  have hB3 := sapprox_iff.mp hB2
  obtain ⟨is, i1, i2, i3⟩ := inters_unb heng hneg hn hGen ⟨H, []⟩ hH
    (fun x hx hc => Mat.Thin.off_interior (hx.2 H hmH) ((contains_iff_holds H x (contains_length hc)).mp hc)) B hB3.good
  have i5 : Thin.SApprox n (Generic n ms) (fun x => H.Contains x ∧ R.Mem x) is := by
    refine ⟨i3.good, ?_, ?_⟩
    · intro r hr x hx
      obtain ⟨a, q, hq, b⟩ := i3.sound r hr x hx
      exact ⟨a, hB3.sound q hq x b⟩
    · rintro x hg ⟨a, b⟩
      exact i3.cover x hg ⟨a, hB3.cover x hg b⟩
  obtain ⟨out, o1, o2, _⟩ := Thin.mergeInters_spec (track := false) heng hn _ is i5
  exact ⟨out, asDisjoint_pair H l R B is out hB i1 o1, (sapprox_iff.mpr o2).imp (fun x => (mem_pair H l R x).symm)⟩

/-! ### Limits -/

theorem cover_near (ms : List Mat) (Q : Mat → Prop) (x : Pt) (hx : x.length + 1 = n) (hcols : ∀ m ∈ ms, m.cols = n)
    (h : ∀ ε : ℚ, 0 < ε → ∃ y, Near ε x y ∧ ∃ m ∈ ms, Q m ∧ m.Contains y) : ∃ m ∈ ms, Q m ∧ m.Contains x := by
  obtain ⟨m, hm, hmx⟩ := union_closed (ms.filter (fun q => @decide (Q q) (Classical.propDecidable _))) x (by
    intro δ hδ
    obtain ⟨y, hy, m, hm, hQ, hc⟩ := h δ hδ
    exact ⟨y, hy, m, List.mem_filter.mpr ⟨hm, by simpa using hQ⟩, (contains_iff_holds _ _ (contains_length hc)).mp hc⟩)
  rw [List.mem_filter] at hm
  exact ⟨m, hm.1, by simpa using hm.2, (contains_iff_holds _ _ (by rw [hcols m hm.1]; exact hx)).mpr hmx⟩

theorem cover_interior {P : Mat → Prop} (hP : ∀ m, P m → Base n m) (rs : List (Region ℕ)) (hrs : ∀ r ∈ rs, Hyp n P r)
    (y : Pt) (hy : y.length + 1 = n) (hi : ∀ r ∈ rs, IntMem r y) {ε : ℚ} (hε : 0 < ε) :
    ∃ z, Near ε y z ∧ Generic n (leavesList rs) z ∧ ∀ r ∈ rs, r.Mem z := by
  obtain ⟨δ, hδ, h1⟩ := near_all (fun (r : Region ℕ) y => r.Mem y) y rs hi
  obtain ⟨z, h2, h3⟩ := Thin.generic_near (leavesList rs) (by
    intro m hm
    obtain ⟨r, hr, hm⟩ := (mem_leavesList _ _).mp hm
    exact hyp_base hP (hrs r hr) m hm) y hy (lt_min hε hδ)
  exact ⟨z, h2.mono (min_le_left _ _), h3, h1 z (h2.mono (min_le_right _ _))⟩

theorem region_full (heng : EngineSpec eng) (hn : 2 ≤ n) (domain : Region ℕ) (hyps : List (Region ℕ)) (hne : hyps ≠ [])
    (hrs : ∀ r ∈ domain :: hyps, Hyp n (FullDim n) r)
    (hneg : UnboundedNeg eng.lp ∨ ∀ r ∈ domain :: hyps, Plain false r ∧ ∀ m ∈ r.leaves, FullDim n m) :
    ∃ ms deps, largeValueRegion eng domain hyps = .ok (ms, deps) ∧
      AppM Mat.Contains (Good n (Generic n (leavesList (domain :: hyps)))) (Generic n (leavesList (domain :: hyps)))
        (fun x => ∀ r ∈ domain :: hyps, r.Mem x) ms ∧ ∀ i ∈ deps, i < hyps.length := by
  have hc : ∀ r ∈ domain :: hyps, Conv eng Mat.Contains (Good n (Generic n (leavesList (domain :: hyps))))
      (Generic n (leavesList (domain :: hyps))) r := fun r hr =>
    conv_full heng hn _ r (fun m hm => (mem_leavesList _ _).mpr ⟨r, hr, hm⟩) (hrs r hr) (hneg.imp_right (fun h => h r hr))
  obtain ⟨ms, deps, h1, h2, h3⟩ := region_spec (kit_full heng hn (fun x hx => hx.1)) domain (hc domain (by simp)) hyps hne
    (fun r hr => hc r (by simp [hr]))
  exact ⟨ms, deps, h1, h2.imp (fun x => by simp), h3⟩

/-- The computation for an unbounded domain. -/
theorem region_unb (heng : EngineSpec eng) (hneg : UnboundedNeg eng.lp) (hn : 2 ≤ n) (D : Mat) (hD : Unb n D) (hyps : List (Region ℕ))
    (hne : hyps ≠ []) (hrs : ∀ r ∈ hyps, Hyp n (FullDim n) r) :
    ∃ ms deps, largeValueRegion eng (.polytope D none) hyps = .ok (ms, deps) ∧
      AppM Mat.Contains (Good n (Generic n (D :: leavesList hyps))) (Generic n (D :: leavesList hyps))
        (fun x => D.Contains x ∧ ∀ r ∈ hyps, r.Mem x) ms ∧ ∀ i ∈ deps, i < hyps.length := by
  have k := kit_full heng hn (Gen := Generic n (D :: leavesList hyps)) (fun x hx => hx.1)
  obtain ⟨ms, deps, h1, h2, h3⟩ := region_of_clip k (.polytope D none) hyps hne (fun r hr => by
    obtain ⟨out, e1, e2⟩ := conv_pair heng hneg hn (D :: leavesList hyps) D none r hD (by simp)
      (conv_full heng hn _ r (fun m hm => List.mem_cons_of_mem _ ((mem_leavesList _ _).mpr ⟨r, hr, hm⟩)) (hrs r hr) (.inl hneg))
    obtain ⟨ms, f1, f2⟩ := clip_of_disjoint k (.polytope D none) r e1 e2
    exact ⟨ms, f1, f2.imp (fun x => by rw [mem_pair, Mem])⟩)
  exact ⟨ms, deps, h1, h2.imp (fun x => by rw [Mem]), h3⟩

theorem region_thin (heng : EngineSpec eng) (hn : 2 ≤ n) (domain : Region ℕ) (hyps : List (Region ℕ)) (hne : hyps ≠ [])
    (hrs : ∀ r ∈ domain :: hyps, Hyp n (Leaf n) r)
    (hneg : UnboundedNeg eng.lp ∨ ∀ r ∈ domain :: hyps, Plain false r ∧ ∀ m ∈ r.leaves, Leaf n m) :
    ∃ ms deps, largeValueRegion eng domain hyps = .ok (ms, deps) ∧
      AppM (SMem n) (GoodW n (Generic n (leavesList (domain :: hyps)))) (Generic n (leavesList (domain :: hyps)))
        (fun x => ∀ r ∈ domain :: hyps, r.Mem x) ms ∧ ∀ i ∈ deps, i < hyps.length := by
  have hc : ∀ r ∈ domain :: hyps, Conv eng (SMem n) (GoodW n (Generic n (leavesList (domain :: hyps))))
      (Generic n (leavesList (domain :: hyps))) r := fun r hr =>
    conv_thin heng hn _ r (fun m hm => (mem_leavesList _ _).mpr ⟨r, hr, hm⟩) (hrs r hr) (hneg.imp_right (fun h => h r hr))
  obtain ⟨ms, deps, h1, h2, h3⟩ := region_spec (kit_thin heng hn (fun x hx => hx.1)) domain (hc domain (by simp)) hyps hne
    (fun r hr => hc r (by simp [hr]))
  exact ⟨ms, deps, h1, h2.imp (fun x => by simp), h3⟩

/-- **C65** For every non-empty list of hypotheses whose regions (and the domain) are built by non-empty intersections and
disjoint unions from bounded full-dimensional polytopes, possibly intersected with one unbounded polytope (as made by
`lv_to_zlv`), `compute_large_value_region` does not raise, and: the polytopes of the result are bounded and
full-dimensional and contained in the domain and in all regions, although hypotheses are dropped whose clipped regions
have the same text; every common point of the domain and all regions that is on no bounding hyperplane, and every limit of
points that are interior to the domain and all regions, is in one of the polytopes; and the dependencies are indices of
hypotheses. Missing: polytopes without interior points (`C65_region_thin_partial`), and unbounded polytopes when the
linear programming library reports a non-negative value for an unbounded minimisation (`C65_halfspace_counterexample`). -/
theorem C65_region_partial (heng : EngineSpec eng) (hn : 2 ≤ n) (domain : Region ℕ) (hyps : List (Region ℕ)) (hne : hyps ≠ [])
    (hrs : ∀ r ∈ domain :: hyps, Hyp n (FullDim n) r)
    (hneg : UnboundedNeg eng.lp ∨ ∀ r ∈ domain :: hyps, Plain false r ∧ ∀ m ∈ r.leaves, FullDim n m) :
    ∃ ms deps, largeValueRegion eng domain hyps = .ok (ms, deps) ∧
      (∀ m ∈ ms, FullDim n m ∧ ∀ x, m.Contains x → ∀ r ∈ domain :: hyps, r.Mem x) ∧
      (∀ x, Generic n (leavesList (domain :: hyps)) x → (∀ r ∈ domain :: hyps, r.Mem x) → ∃ m ∈ ms, m.Contains x) ∧
      (∀ x, x.length + 1 = n → (∀ ε : ℚ, 0 < ε → ∃ y, Near ε x y ∧ ∀ r ∈ domain :: hyps, IntMem r y) →
        ∃ m ∈ ms, m.Contains x) ∧
      ∀ i ∈ deps, i < hyps.length := by
  obtain ⟨ms, deps, h1, h2, h3⟩ := region_full heng hn domain hyps hne hrs hneg
  refine ⟨ms, deps, h1, fun m hm => ⟨(h2.good m hm).toFullDim, h2.sound m hm⟩, h2.cover, ?_, h3⟩
  intro x hx h
  obtain ⟨m, hm, _, hmx⟩ := cover_near ms (fun _ => True) x hx (fun m hm => (h2.good m hm).cols) (by
    intro ε hε
    obtain ⟨y, hy, hi⟩ := h (ε / 2) (by linarith)
    obtain ⟨z, hz, hg, hr⟩ := cover_interior (P := FullDim n) (fun m hm => base_of_fullDim hm) (domain :: hyps) hrs y
      (by rw [hy.length]; exact hx) hi (show 0 < ε / 2 by linarith)
    obtain ⟨m, hm, hmz⟩ := h2.cover z hg hr
    exact ⟨z, (hy.trans hz).mono (by linarith), m, hm, trivial, hmz⟩)
  exact ⟨m, hm, hmx⟩

/-- **C65, polytopes without interior points allowed** The same with polytopes that may lie in a hyperplane, where the
statements are about the polytopes of the result that have interior points. Missing: lower-dimensional parts of the region
(`C21_lower_dim_counterexample`). -/
theorem C65_region_thin_partial (heng : EngineSpec eng) (hn : 2 ≤ n) (domain : Region ℕ) (hyps : List (Region ℕ))
    (hne : hyps ≠ []) (hrs : ∀ r ∈ domain :: hyps, Hyp n (Leaf n) r)
    (hneg : UnboundedNeg eng.lp ∨ ∀ r ∈ domain :: hyps, Plain false r ∧ ∀ m ∈ r.leaves, Leaf n m) :
    ∃ ms deps, largeValueRegion eng domain hyps = .ok (ms, deps) ∧
      (∀ m ∈ ms, HasInner n m → FullDim n m ∧ ∀ x, m.Contains x → ∀ r ∈ domain :: hyps, r.Mem x) ∧
      (∀ x, Generic n (leavesList (domain :: hyps)) x → (∀ r ∈ domain :: hyps, r.Mem x) →
        ∃ m ∈ ms, HasInner n m ∧ m.Contains x) ∧
      (∀ x, x.length + 1 = n → (∀ ε : ℚ, 0 < ε → ∃ y, Near ε x y ∧ ∀ r ∈ domain :: hyps, IntMem r y) →
        ∃ m ∈ ms, HasInner n m ∧ m.Contains x) ∧
      ∀ i ∈ deps, i < hyps.length := by
  obtain ⟨ms, deps, h1, h2, h3⟩ := region_thin heng hn domain hyps hne hrs hneg
  refine ⟨ms, deps, h1, fun m hm hi => ⟨(h2.good m hm).fullDim hi, fun x hx => h2.sound m hm x ⟨hi, hx⟩⟩, h2.cover, ?_, h3⟩
  intro x hx h
  refine cover_near ms (HasInner n) x hx (fun m hm => (h2.good m hm).cols) ?_
  intro ε hε
  obtain ⟨y, hy, hi⟩ := h (ε / 2) (by linarith)
  obtain ⟨z, hz, hg, hr⟩ := cover_interior (P := Leaf n) (fun m hm => hm.1) (domain :: hyps) hrs y
    (by rw [hy.length]; exact hx) hi (show 0 < ε / 2 by linarith)
  obtain ⟨m, hm, hmz⟩ := h2.cover z hg hr
  exact ⟨z, (hy.trans hz).mono (by linarith), m, hm, hmz⟩

/-- **C65, no hypothesis** Without hypotheses the function raises `IndexError` (it takes the first of an empty list of
regions) instead of returning the domain. -/
theorem C65_empty (eng : Engine) (domain : Region ℕ) : largeValueRegion eng domain [] = .error .indexError := by
  unfold largeValueRegion clipLoop
  simp only [bind, Except.bind]
  unfold asDisjoint asDisjointList
  rfl

/-! ### Boxes -/

/-- The box `[a, b] × [c, d] × [e, f]`. -/
def box3 (a b c d e f : ℚ) : Mat :=
  ⟨4, [⟨false, -a, [1, 0, 0]⟩, ⟨false, b, [-1, 0, 0]⟩, ⟨false, -c, [0, 1, 0]⟩, ⟨false, d, [0, -1, 0]⟩,
    ⟨false, -e, [0, 0, 1]⟩, ⟨false, f, [0, 0, -1]⟩]⟩

theorem box3_rect (a b c d e f : ℚ) : Mat.rect [(a, b), (c, d), (e, f)] = .ok (box3 a b c d e f) := by
  simp [Mat.rect, Mat.ofConstraints, Mat.ofRows, Mat.rangeRows, Mat.unitRow, box3, Row.isZero, List.zipIdx]

theorem box3_wf (a b c d e f : ℚ) : (box3 a b c d e f).WF := by
  intro r hr
  simp only [box3, List.mem_cons, List.not_mem_nil, or_false] at hr
  rcases hr with rfl | rfl | rfl | rfl | rfl | rfl <;> rfl

theorem box3_contains (a b c d e f : ℚ) (x : Pt) :
    (box3 a b c d e f).Contains x ↔ ∃ s t r, x = [s, t, r] ∧ (a ≤ s ∧ s ≤ b) ∧ (c ≤ t ∧ t ≤ d) ∧ (e ≤ r ∧ r ≤ f) := by
  constructor
  · intro h
    have hl := contains_length h
    rw [contains_iff_holds _ _ hl] at h
    match x, hl with
    | [s, t, r], _ =>
      have h1 := (h ⟨false, -a, [1, 0, 0]⟩ (by simp [box3])).2 rfl
      have h2 := (h ⟨false, b, [-1, 0, 0]⟩ (by simp [box3])).2 rfl
      have h3 := (h ⟨false, -c, [0, 1, 0]⟩ (by simp [box3])).2 rfl
      have h4 := (h ⟨false, d, [0, -1, 0]⟩ (by simp [box3])).2 rfl
      have h5 := (h ⟨false, -e, [0, 0, 1]⟩ (by simp [box3])).2 rfl
      have h6 := (h ⟨false, f, [0, 0, -1]⟩ (by simp [box3])).2 rfl
      simp at h1 h2 h3 h4 h5 h6
      exact ⟨s, t, r, rfl, ⟨by linarith, by linarith⟩, ⟨by linarith, by linarith⟩, by linarith, by linarith⟩
  · rintro ⟨s, t, r, rfl, ⟨h1, h2⟩, ⟨h3, h4⟩, h5, h6⟩
    rw [contains_iff_holds _ _ rfl]
    intro r hr
    simp only [box3, List.mem_cons, List.not_mem_nil, or_false] at hr
    rcases hr with rfl | rfl | rfl | rfl | rfl | rfl <;> refine ⟨fun h => (by cases h), fun _ => ?_⟩ <;> simp <;> linarith

theorem box3_fullDim (a b c d e f : ℚ) (h1 : a < b) (h2 : c < d) (h3 : e < f) : FullDim 4 (box3 a b c d e f) := by
  refine ⟨box3_wf _ _ _ _ _ _, rfl, ?_, ⟨max (max |a| |b|) (max (max |c| |d|) (max |e| |f|)), ?_⟩,
    [(a + b) / 2, (c + d) / 2, (e + f) / 2], rfl, Strict.interior ?_⟩
  · intro r hr
    simp only [box3, List.mem_cons, List.not_mem_nil, or_false] at hr
    rcases hr with rfl | rfl | rfl | rfl | rfl | rfl <;> simp [Row.isZero]
  · intro x hx v hv
    obtain ⟨s, t, r, rfl, ⟨k1, k2⟩, ⟨k3, k4⟩, k5, k6⟩ := (box3_contains a b c d e f x).mp hx
    simp only [List.mem_cons, List.not_mem_nil, or_false] at hv
    rcases hv with rfl | rfl | rfl
    · exact (abs_le_max_abs_abs k1 k2).trans (le_max_left _ _)
    · exact (abs_le_max_abs_abs k3 k4).trans ((le_max_left _ _).trans (le_max_right _ _))
    · exact (abs_le_max_abs_abs k5 k6).trans ((le_max_right _ _).trans (le_max_right _ _))
  · intro r hr
    simp only [box3, List.mem_cons, List.not_mem_nil, or_false] at hr
    rcases hr with rfl | rfl | rfl | rfl | rfl | rfl <;> refine ⟨rfl, ?_⟩ <;> simp <;> linarith

/-- The half-space `τ ≥ 2` of `lv_to_zlv` (zeta_large_values.py:82). -/
def tauTwo : Mat := ⟨4, [⟨false, -2, [0, 1, 0]⟩]⟩

theorem tauTwo_contains (x : Pt) : tauTwo.Contains x ↔ ∃ s t r, x = [s, t, r] ∧ 2 ≤ t := by
  constructor
  · intro h
    have hl := contains_length h
    rw [contains_iff_holds _ _ hl] at h
    match x, hl with
    | [s, t, r], _ =>
      have h1 := (h ⟨false, -2, [0, 1, 0]⟩ (by simp [tauTwo])).2 rfl
      simp at h1
      exact ⟨s, t, r, rfl, by linarith⟩
  · rintro ⟨s, t, r, rfl, h1⟩
    rw [contains_iff_holds _ _ rfl]
    intro r hr
    simp only [tauTwo, List.mem_cons, List.not_mem_nil, or_false] at hr
    subst hr
    refine ⟨fun h => (by cases h), fun _ => ?_⟩
    simp
    linarith

theorem tauTwo_unb : Unb 4 tauTwo := by
  refine ⟨⟨?_, rfl, ?_⟩, ⟨[0, 3, 0], rfl, Strict.interior ?_⟩, ?_⟩
  · intro r hr
    simp only [tauTwo, List.mem_cons, List.not_mem_nil, or_false] at hr
    subst hr
    rfl
  · intro r hr
    simp only [tauTwo, List.mem_cons, List.not_mem_nil, or_false] at hr
    subst hr
    simp [Row.isZero]
  · intro r hr
    simp only [tauTwo, List.mem_cons, List.not_mem_nil, or_false] at hr
    subst hr
    refine ⟨rfl, ?_⟩
    simp
    norm_num
  · rintro ⟨B, hB⟩
    have := hB [0, |B| + 2, 0] ((tauTwo_contains _).mpr ⟨_, _, _, rfl, by linarith [abs_nonneg B]⟩) (|B| + 2) (by simp)
    rw [abs_of_nonneg (by linarith [abs_nonneg B])] at this
    linarith [le_abs_self B]

theorem lvToZlv_tauTwo (lvs : List (Region ℕ)) :
    LargeValues.lvToZlv lvs [] = .ok (lvs.map (fun r => .intersect [.polytope tauTwo none, r])) := by
  unfold LargeValues.lvToZlv LargeValues.applyTransforms
  rw [show Mat.ofConstraints [LargeValues.rowOf [-2, 0, 1, 0]] = .ok tauTwo by
    simp [Mat.ofConstraints, Mat.ofRows, LargeValues.rowOf, Row.isZero, tauTwo]]
  simp [bind, Except.bind, pure, Except.pure]

/-- The two contracts can be met together. -/
theorem engineNeg_satisfiable : ∃ eng, EngineSpec eng ∧ UnboundedNeg eng.lp := by
  obtain ⟨lp, hlp, hw⟩ := lpSpec_satisfiable (-1)
  obtain ⟨verts, hv⟩ := vertsSpec_satisfiable
  refine ⟨⟨id, lp, verts, id⟩, ⟨fun m h => ⟨rfl, h, fun _ _ => Iff.rfl⟩, fun m _ h => h, hlp, hv, fun l => List.Perm.refl l⟩, ?_⟩
  intro m obj w _ _ _ hres
  change lp false m obj = _ at hres
  rcases hw false m obj with ⟨x, v, h⟩ | h
  · rw [h] at hres
    cases hres
  · rw [h] at hres
    cases hres
    norm_num

/-- Non-vacuity of `C65_region_partial`: with the engine of a library that reports negative values for unbounded
minimisations, the hypotheses hold for a box as domain, a disjoint union of two boxes, and a region made by `lv_to_zlv`. -/
example : ∃ eng, EngineSpec eng ∧ UnboundedNeg eng.lp ∧ ∃ z, LargeValues.lvToZlv [.polytope (box3 0 1 0 5 0 1) none] [] = .ok [z] ∧
    ∀ r ∈ [.polytope (box3 (1/2) 1 2 4 0 9) none,
      .disjoint [.polytope (box3 0 1 0 5 0 1) none, .polytope (box3 1 2 0 5 0 2) none], z], Hyp 4 (FullDim 4) r := by
  obtain ⟨eng, heng, hneg⟩ := engineNeg_satisfiable
  refine ⟨eng, heng, hneg, _, lvToZlv_tauTwo _, ?_⟩
  · intro r hr
    simp only [List.mem_cons, List.not_mem_nil, or_false] at hr
    rcases hr with rfl | rfl | rfl
    · exact Or.inl ⟨by simp [Plain], by simpa [leaves] using box3_fullDim _ _ _ _ _ _ (by norm_num) (by norm_num) (by norm_num)⟩
    · refine Or.inl ⟨by simp [Plain, PlainList], ?_⟩
      intro m hm
      simp only [leaves, leavesList, List.append_nil, List.cons_append, List.nil_append, List.mem_cons, List.not_mem_nil,
        or_false] at hm
      rcases hm with rfl | rfl <;> exact box3_fullDim _ _ _ _ _ _ (by norm_num) (by norm_num) (by norm_num)
    · exact Or.inr ⟨_, _, _, rfl, tauTwo_unb, by simp [Plain],
        by simpa [leaves] using box3_fullDim _ _ _ _ _ _ (by norm_num) (by norm_num) (by norm_num)⟩

/-- Non-vacuity of `C65_region_thin_partial`: a rectangle as domain and a disjoint union of a rectangle and a segment. -/
example : ∀ r ∈ [.polytope (box2 0 2 0 1) none, .disjoint [.polytope (box2 0 2 0 1) none, .polytope (box2 2 3 0 0) none]],
    Plain false (r : Region ℕ) ∧ ∀ m ∈ r.leaves, Leaf 3 m := by
  intro r hr
  simp only [List.mem_cons, List.not_mem_nil, or_false] at hr
  rcases hr with rfl | rfl
  · exact ⟨by simp [Plain], by simpa [leaves] using ⟨box2_base _ _ _ _, fun _ => box2_bounded _ _ _ _⟩⟩
  · refine ⟨by simp [Plain, PlainList], ?_⟩
    intro m hm
    simp only [leaves, leavesList, List.append_nil, List.cons_append, List.nil_append, List.mem_cons, List.not_mem_nil,
      or_false] at hm
    rcases hm with rfl | rfl <;> exact ⟨box2_base _ _ _ _, fun _ => box2_bounded _ _ _ _⟩

/-- Finding (why C65 needs `UnboundedNeg`): `is_subset_of` reads the objective value of linear programs without an optimum. The
regions made by `lv_to_zlv` are intersections of the half-space `τ ≥ 2` with a large value region. With a linear programming
library that meets the contract and leaves the objective value 0 when there is no minimum, the half-space counts as a
subset of every box with `τ ≥ 0`, and the converted region is the half-space: the large value estimate is lost. -/
theorem C65_halfspace_counterexample : ∃ eng, ∃ z : Region ℕ, EngineSpec eng ∧
    LargeValues.lvToZlv [.polytope (box3 (1/2) 1 0 5 0 1) none] [] = .ok [z] ∧
    asDisjointUnion eng false z = .ok (.disjoint [.polytope tauTwo none]) ∧
    tauTwo.Contains [1, 3, 100] ∧ ¬ z.Mem [1, 3, 100] := by
  obtain ⟨lp, hlp, hw⟩ := lpSpec_satisfiable 0
  obtain ⟨verts, hv⟩ := vertsSpec_satisfiable
  refine ⟨⟨id, lp, verts, id⟩, _, ⟨fun m h => ⟨rfl, h, fun _ _ => Iff.rfl⟩, fun m _ h => h, hlp, hv, fun l => List.Perm.refl l⟩,
    lvToZlv_tauTwo _, ?_, (tauTwo_contains _).mpr ⟨_, _, _, rfl, by norm_num⟩, ?_⟩
  · have hsub : Mat.isSubsetOf lp tauTwo (box3 (1/2) 1 0 5 0 1) = true := by
      unfold Mat.isSubsetOf
      rw [List.all_eq_true]
      intro r hr
      have hlen := asIneqs_length _ (box3_wf _ _ _ _ _ _) r hr
      rcases hw false tauTwo r with ⟨x, v, h⟩ | h
      · obtain ⟨h1, h2, h3⟩ := hlp.min_opt tauTwo r x v tauTwo_unb.wf hlen h
        have hf : ∀ a b : ℚ, ∀ t, 2 ≤ t → v ≤ r.c0 + dot r.cs [a, t, b] := fun a b t ht =>
          h3 _ ((feasible_iff _ _).mpr ((tauTwo_contains _).mpr ⟨_, _, _, rfl, ht⟩))
        obtain ⟨s, t, q, rfl, ht⟩ := (tauTwo_contains _).mp ((feasible_iff _ _).mp h1)
        rw [h]
        rw [Bool.not_eq_true', decide_eq_false_iff_not, not_lt]
        change 0 ≤ v
        rcases (mem_asIneqs _ _).mp hr with ⟨h4, _⟩ | ⟨s', h4, h5, _⟩ | ⟨s', h4, h5, _⟩
        · simp only [box3, List.mem_cons, List.not_mem_nil, or_false] at h4
          rcases h4 with rfl | rfl | rfl | rfl | rfl | rfl <;> simp at hf h2
          · have := hf (v - 1) 2 le_rfl; linarith
          · have := hf (-(v - 2)) 2 le_rfl; linarith
          · linarith
          · have := hf (|v| + 10) (by linarith [abs_nonneg v]); linarith [neg_abs_le v]
          · have := hf (v - 1) 2 le_rfl; linarith
          · have := hf (-(v - 2)) 2 le_rfl; linarith
        · simp only [box3, List.mem_cons, List.not_mem_nil, or_false] at h4
          rcases h4 with rfl | rfl | rfl | rfl | rfl | rfl <;> cases h5
        · simp only [box3, List.mem_cons, List.not_mem_nil, or_false] at h4
          rcases h4 with rfl | rfl | rfl | rfl | rfl | rfl <;> cases h5
      · rw [h]
        simp [LPResult.objValue]
    unfold asDisjointUnion
    rw [asDisjoint_pair tauTwo none _ [⟨box3 (1/2) 1 0 5 0 1, []⟩] [⟨tauTwo, []⟩] [⟨tauTwo, []⟩]]
    · rfl
    · unfold asDisjoint leafPieces
      rfl
    · unfold inters inters pieceInter
      simp only [hsub, if_true]
      rfl
    · unfold mergeInters
      simp
  · rw [mem_pair]
    rintro ⟨_, h⟩
    rw [Mem] at h
    obtain ⟨s, t, r, e, _, _, _, h⟩ := (box3_contains _ _ _ _ _ _ _).mp h
    simp only [List.cons.injEq, and_true] at e
    rw [← e.2.2] at h
    norm_num at h

end ZeroDensity
end Expdb
