import Verif.Model.EnergyLabels
import Verif.Tactics

/-!
# Properties C114 and C115: hypotheses about large value patterns stay true

A hypothesis with "zeta" in its type is about the patterns of the zeta function only. The conversions of `additive_energy.py` keep track of this, with one
exception.
-/

namespace Expdb
namespace Labels

/-! ### Specification -/

/-- What the type of a hypothesis says. `G` is the set of the tuples `(sigma, tau, rho, rho*, s)` of all large value patterns, `Z` the set of those of the zeta
function; `mem` is membership in a region. -/
def Holds {R : Type} (mem : R → List ℚ → Prop) (G Z : List ℚ → Prop) (h : Hyp R) : Prop :=
  (h.htype = "Large value energy region" → ∃ r, h.data = .region r ∧ ∀ x, G x → mem r x) ∧
  (h.htype = "Zeta large value energy region" → ∃ r, h.data = .region r ∧ ∀ x, Z x → mem r x) ∧
  (h.htype = "Large value estimate" → ∃ r, h.data = .region r ∧ ∀ a b c d e, G [a, b, c, d, e] → mem r [a, b, c]) ∧
  (h.htype = "Zeta large value estimate" → ∃ r, h.data = .region r ∧ ∀ a b c d e, Z [a, b, c, d, e] → mem r [a, b, c]) ∧
  (h.htype = "Additive energy estimate" → ∃ r, h.data = .region r ∧ ∀ a b c d e, G [a, b, c, d, e] → mem r [a, b, d]) ∧
  (h.htype = "Large value energy region transform" → ∃ k, 1 ≤ k ∧ h.data = .power k)

/-- The patterns: tuples of five numbers, the last three up to the limit used in the code (constants.py:24-25), those of the zeta function among all. -/
structure Patterns (G Z : List ℚ → Prop) : Prop where
  sub : ∀ x, Z x → G x
  dim : ∀ x, G x → ∃ a b c d e, x = [a, b, c, d, e]
  box : ∀ a b c d e, G [a, b, c, d, e] → (0 ≤ c ∧ c ≤ 1000000) ∧ (0 ≤ d ∧ d ≤ 1000000) ∧ 0 ≤ e ∧ e ≤ 1000000

/-- Raising to a power (additive_energy.tex:245), which is for general patterns only. -/
def PowerClosed (G : List ℚ → Prop) : Prop :=
  ∀ k : ℕ, 1 ≤ k → ∀ a b c d e, G [a, b, c, d, e] → G [a, b / k, c / k, d / k, e / k]

/-- The contract of `scale_all([1, k, k, k, k])` (region.py). -/
def ScaleSpec {R : Type} (mem : R → List ℚ → Prop) (scale : ℕ → R → Py R) : Prop :=
  ∀ k : ℕ, 1 ≤ k → ∀ r s, scale k r = .ok s → ∀ a b c d e : ℚ, mem s [a, b, c, d, e] ↔ mem r [a, b / k, c / k, d / k, e / k]

/-- The contract of the intersection. -/
def InterSpec {R : Type} (mem : R → List ℚ → Prop) (inter : List R → Py R) : Prop :=
  ∀ l r, inter l = .ok r → ∀ x, mem r x ↔ ∀ q ∈ l, mem q x

/-- The contract of the lift to five dimensions (additive_energy.py:282-288). -/
def LiftSpec {R : Type} (mem : R → List ℚ → Prop) (lift : R → Py R) : Prop :=
  ∀ r s, lift r = .ok s → ∀ a b c d e : ℚ, mem r [a, b, c] → 0 ≤ d ∧ d ≤ 1000000 → 0 ≤ e ∧ e ≤ 1000000 → mem s [a, b, c, d, e]

/-- The contract of the projections to `(sigma, tau, rho)` and `(sigma, tau, rho*)`. -/
def ProjSpec {R : Type} (mem : R → List ℚ → Prop) (proj : List ℕ → R → Py (Option R)) : Prop :=
  (∀ r p, proj [0, 1, 2] r = .ok (some p) → ∀ a b c d e : ℚ, mem r [a, b, c, d, e] → mem p [a, b, c]) ∧
  (∀ r p, proj [0, 1, 3] r = .ok (some p) → ∀ a b c d e : ℚ, mem r [a, b, c, d, e] → mem p [a, b, d])

/-! ### Proofs -/

section
variable {R : Type} {mem : R → List ℚ → Prop} {G Z : List ℚ → Prop}

theorem mem_mapM {α β : Type} {f : α → Py β} : ∀ {l : List α} {r : List β}, l.mapM f = .ok r → ∀ b ∈ r, ∃ a ∈ l, f a = .ok b
  | [], r, h, b, hb => by cases h; cases hb
  | a :: l, r, h, b, hb => by
    rw [List.mapM_cons] at h
    simp only [bind, Except.bind, pure, Except.pure] at h
    cases ha : f a with
    | error e => rw [ha] at h; cases h
    | ok v =>
      rw [ha] at h
      cases hl : l.mapM f with
      | error e => rw [hl] at h; cases h
      | ok w =>
        rw [hl] at h
        cases h
        rcases List.mem_cons.mp hb with rfl | hb
        · exact ⟨a, List.mem_cons_self .., ha⟩
        · obtain ⟨c, h1, h2⟩ := mem_mapM hl b hb
          exact ⟨c, List.mem_cons_of_mem _ h1, h2⟩

theorem mem_listOf {t : String} {hs : List (Hyp R)} {h : Hyp R} (hm : h ∈ listOf t hs) : h ∈ hs ∧ h.htype = t := by
  obtain ⟨h1, h2⟩ := List.mem_filter.mp hm
  exact ⟨h1, of_decide_eq_true h2⟩

theorem holds_lver {r : R} (h : ∀ x, G x → mem r x) : Holds mem G Z (derivedLver r) := by
  refine ⟨fun _ => ⟨r, rfl, h⟩, ?_, ?_, ?_, ?_, ?_⟩ <;> intro h <;> exact absurd h (by simp [derivedLver])

theorem holds_zlver {r : R} (h : ∀ x, Z x → mem r x) : Holds mem G Z (derivedZetaLver r) := by
  refine ⟨?_, fun _ => ⟨r, rfl, h⟩, ?_, ?_, ?_, ?_⟩ <;> intro h <;> exact absurd h (by simp [derivedZetaLver])

theorem holds_lv {r : R} (h : ∀ a b c d e, G [a, b, c, d, e] → mem r [a, b, c]) : Holds mem G Z (derivedLV r) := by
  refine ⟨?_, ?_, fun _ => ⟨r, rfl, h⟩, ?_, ?_, ?_⟩ <;> intro h <;> exact absurd h (by simp [derivedLV])

theorem holds_zlv {r : R} (h : ∀ a b c d e, Z [a, b, c, d, e] → mem r [a, b, c]) : Holds mem G Z (derivedZetaLV r) := by
  refine ⟨?_, ?_, ?_, fun _ => ⟨r, rfl, h⟩, ?_, ?_⟩ <;> intro h <;> exact absurd h (by simp [derivedZetaLV])

theorem holds_energy {r : R} {z : Bool} (h : ∀ a b c d e, G [a, b, c, d, e] → mem r [a, b, d]) : Holds mem G Z (derivedEnergy r z) := by
  refine ⟨?_, ?_, ?_, ?_, fun _ => ⟨r, rfl, h⟩, ?_⟩ <;> intro h <;> exact absurd h (by simp [derivedEnergy])

theorem transform_holds (hP : Patterns G Z) (hpow : PowerClosed G) {scale : ℕ → R → Py R} (hsc : ScaleSpec mem scale) {hs new : List (Hyp R)}
    (hh : ∀ h ∈ hs, Holds mem G Z h) (e : transformAll scale hs = .ok new) :
    ∀ h ∈ new, h.htype = "Large value energy region" ∧ Holds mem G Z h := by
  intro h hm
  unfold transformAll at e
  simp only [bind, Except.bind, pure, Except.pure] at e
  split at e
  · cases e
  · rename_i l hl
    cases e
    obtain ⟨ys, hys, hm⟩ := List.mem_flatten.mp hm
    obtain ⟨tf, htf, h1⟩ := mem_mapM hl ys hys
    obtain ⟨g, hg, h2⟩ := mem_mapM h1 h hm
    obtain ⟨htf, t1⟩ := mem_listOf htf
    obtain ⟨hg, t2⟩ := mem_listOf hg
    obtain ⟨k, hk, hd⟩ := (hh tf htf).2.2.2.2.2 t1
    obtain ⟨r, hr, hGr⟩ := (hh g hg).1 t2
    unfold applyTf at h2
    rw [hd] at h2
    simp only [bind, Except.bind, pure, Except.pure, Hyp.region, hr] at h2
    split at h2
    · cases h2
    · rename_i s hs'
      cases h2
      refine ⟨rfl, holds_lver fun x hx => ?_⟩
      obtain ⟨a, b, c, d, e, rfl⟩ := hP.dim x hx
      exact (hsc k hk r s hs' a b c d e).mpr (hGr _ (hpow k hk _ _ _ _ _ hx))

/-- **C114** (`expand_lver`) If all hypotheses of a set hold then so do all after `expand_lver`, and the old ones are still there. -/
theorem C114_expand (hP : Patterns G Z) (hpow : PowerClosed G) {scale : ℕ → R → Py R} (hsc : ScaleSpec mem scale) {hs hs' : List (Hyp R)}
    (hh : ∀ h ∈ hs, Holds mem G Z h) (e : expandLver scale hs = .ok hs') : (∀ h ∈ hs, h ∈ hs') ∧ ∀ h ∈ hs', Holds mem G Z h := by
  unfold expandLver at e
  simp only [bind, Except.bind, pure, Except.pure] at e
  split at e
  · cases e
  · rename_i new hn
    cases e
    refine ⟨fun h hm => List.mem_append_left _ hm, fun h hm => ?_⟩
    rcases List.mem_append.mp hm with hm | hm
    · exact hh h hm
    · exact (transform_holds hP hpow hsc hh hn h hm).2

/-- **C114** (`lv_to_lver`) The regions made of true large value estimates are true, those made of zeta large value estimates included. -/
theorem C114_lv_to_lver (hP : Patterns G Z) {lift : R → Py R} (hl : LiftSpec mem lift) {hs new : List (Hyp R)} {zeta : Bool}
    (hh : ∀ h ∈ hs, Holds mem G Z h) (e : lvToLver lift zeta hs = .ok new) : ∀ h ∈ new, Holds mem G Z h := by
  intro h hm
  obtain ⟨g, hg, h2⟩ := mem_mapM e h hm
  obtain ⟨hg', t⟩ := mem_listOf hg
  cases zeta with
  | true =>
    obtain ⟨r, hr, hZ⟩ := (hh g hg').2.2.2.1 t
    simp only [bind, Except.bind, pure, Except.pure, Hyp.region, hr, if_true] at h2
    split at h2
    · cases h2
    · rename_i s hs'
      cases h2
      refine holds_zlver fun x hx => ?_
      obtain ⟨a, b, c, d, e, rfl⟩ := hP.dim x (hP.sub x hx)
      obtain ⟨_, h3, h4⟩ := hP.box _ _ _ _ _ (hP.sub _ hx)
      exact hl r s hs' a b c d e (hZ _ _ _ _ _ hx) h3 h4
  | false =>
    obtain ⟨r, hr, hG⟩ := (hh g hg').2.2.1 t
    simp only [bind, Except.bind, pure, Except.pure, Hyp.region, hr] at h2
    split at h2
    · cases h2
    · rename_i s hs'
      cases h2
      refine holds_lver fun x hx => ?_
      obtain ⟨a, b, c, d, e, rfl⟩ := hP.dim x hx
      obtain ⟨_, h3, h4⟩ := hP.box _ _ _ _ _ hx
      exact hl r s hs' a b c d e (hG _ _ _ _ _ hx) h3 h4

/-- **C114** (`compute_best_lver`) The best region holds for the patterns of the domain: for all of them, or for those of the zeta function if `zeta` is set. -/
theorem C114_best (hP : Patterns G Z) (hpow : PowerClosed G) {scale : ℕ → R → Py R} (hsc : ScaleSpec mem scale) {inter : List R → Py R}
    (hi : InterSpec mem inter) {domain : R} {zeta : Bool} {hs : List (Hyp R)} {h : Hyp R} (hh : ∀ h ∈ hs, Holds mem G Z h)
    (e : bestLver scale inter domain zeta hs = .ok h) :
    h.htype = (if zeta then "Zeta large value energy region" else "Large value energy region") ∧
      Holds mem (fun x => G x ∧ mem domain x) (fun x => Z x ∧ mem domain x) h := by
  unfold bestLver at e
  simp only [bind, Except.bind, pure, Except.pure] at e
  split at e
  · cases e
  rename_i new hn
  split at e
  · cases e
  rename_i rs hrs
  split at e
  · cases e
  rename_i E hE
  cases e
  have hnew := transform_holds hP hpow hsc hh hn
  cases zeta with
  | true =>
    refine ⟨rfl, holds_zlver fun x hx => (hi _ _ hE x).mpr fun q hq => ?_⟩
    rcases List.mem_cons.mp hq with rfl | hq
    · exact hx.2
    · obtain ⟨g, hg, hr⟩ := mem_mapM hrs q hq
      have hd : ∃ r, g.data = .region r ∧ mem r x := by
        rcases List.mem_append.mp hg with hg | hg
        · rcases List.mem_append.mp hg with hg | hg
          · obtain ⟨hg, t⟩ := mem_listOf hg
            obtain ⟨r, h1, h2⟩ := (hh g hg).1 t
            exact ⟨r, h1, h2 x (hP.sub x hx.1)⟩
          · obtain ⟨t, hg⟩ := hnew g hg
            obtain ⟨r, h1, h2⟩ := hg.1 t
            exact ⟨r, h1, h2 x (hP.sub x hx.1)⟩
        · obtain ⟨hg, t⟩ := mem_listOf hg
          obtain ⟨r, h1, h2⟩ := (hh g hg).2.1 t
          exact ⟨r, h1, h2 x hx.1⟩
      obtain ⟨r, h1, h2⟩ := hd
      unfold Hyp.region at hr
      rw [h1] at hr
      cases hr
      exact h2
  | false =>
    refine ⟨rfl, holds_lver fun x hx => (hi _ _ hE x).mpr fun q hq => ?_⟩
    rcases List.mem_cons.mp hq with rfl | hq
    · exact hx.2
    · obtain ⟨g, hg, hr⟩ := mem_mapM hrs q hq
      have hd : ∃ r, g.data = .region r ∧ mem r x := by
        rcases List.mem_append.mp hg with hg | hg
        · rcases List.mem_append.mp hg with hg | hg
          · obtain ⟨hg, t⟩ := mem_listOf hg
            obtain ⟨r, h1, h2⟩ := (hh g hg).1 t
            exact ⟨r, h1, h2 x hx.1⟩
          · obtain ⟨t, hg⟩ := hnew g hg
            obtain ⟨r, h1, h2⟩ := hg.1 t
            exact ⟨r, h1, h2 x hx.1⟩
        · cases hg
      obtain ⟨r, h1, h2⟩ := hd
      unfold Hyp.region at hr
      rw [h1] at hr
      cases hr
      exact h2

/-- **C114** (`lver_to_lv`) The large value estimate made of a true region is true, and is a zeta large value estimate exactly if the region is about the zeta
function. -/
theorem C114_lver_to_lv {proj : List ℕ → R → Py (Option R)} (hp : ProjSpec mem proj) {h h' : Hyp R} (hh : Holds mem G Z h)
    (e : lverToLv proj h = .ok h') :
    Holds mem G Z h' ∧ (h.htype = "Large value energy region" ∧ h'.htype = "Large value estimate" ∨
      h.htype = "Zeta large value energy region" ∧ h'.htype = "Zeta large value estimate") := by
  unfold lverToLv at e
  split at e
  · cases e
  rename_i ht
  by_cases h1 : h.htype = "Large value energy region"
  · obtain ⟨r, hr, hG⟩ := hh.1 h1
    simp only [bind, Except.bind, pure, Except.pure, Hyp.region, hr] at e
    split at e
    · cases e
    rename_i o ho
    cases o with
    | none => cases e
    | some p =>
      simp only [if_pos h1] at e
      cases e
      exact ⟨holds_lv fun a b c d e hx => hp.1 r p ho a b c d e (hG _ hx), .inl ⟨h1, rfl⟩⟩
  · have h2 : h.htype = "Zeta large value energy region" := by
      by_contra h2
      exact ht ⟨h1, h2⟩
    obtain ⟨r, hr, hZ⟩ := hh.2.1 h2
    simp only [bind, Except.bind, pure, Except.pure, Hyp.region, hr] at e
    split at e
    · cases e
    rename_i o ho
    cases o with
    | none => cases e
    | some p =>
      simp only [if_neg h1] at e
      cases e
      exact ⟨holds_zlv fun a b c d e hx => hp.1 r p ho a b c d e (hZ _ hx), .inr ⟨h2, rfl⟩⟩

/-- **C115** (partial: for the regions of general patterns; a region of the zeta function gives an estimate that holds for the patterns of the zeta function
only, but does not say so, see `C115_zeta_counterexample`). The additive energy estimate that `lver_to_energy` makes of a true region. -/
theorem C115_energy_partial {proj : List ℕ → R → Py (Option R)} (hp : ProjSpec mem proj) {h h' : Hyp R} (hh : Holds mem G Z h)
    (e : lverToEnergy proj h = .ok (some h')) :
    (h.htype = "Large value energy region" → Holds mem G Z h') ∧ (h.htype = "Zeta large value energy region" → Holds mem Z Z h') := by
  unfold lverToEnergy at e
  split at e
  · cases e
  constructor
  · intro h1
    obtain ⟨r, hr, hG⟩ := hh.1 h1
    simp only [bind, Except.bind, pure, Except.pure, Hyp.region, hr] at e
    split at e
    · cases e
    rename_i o ho
    cases o with
    | none => cases e
    | some p =>
      cases e
      exact holds_energy fun a b c d e hx => hp.2 r p ho a b c d e (hG _ hx)
  · intro h2
    obtain ⟨r, hr, hZ⟩ := hh.2.1 h2
    simp only [bind, Except.bind, pure, Except.pure, Hyp.region, hr] at e
    split at e
    · cases e
    rename_i o ho
    cases o with
    | none => cases e
    | some p =>
      cases e
      exact holds_energy fun a b c d e hx => hp.2 r p ho a b c d e (hZ _ hx)

/-- All pairs of a transform and a region are treated. -/
theorem mapM_all {α β : Type} {f : α → Py β} : ∀ {l : List α} {r : List β}, l.mapM f = .ok r → ∀ a ∈ l, ∃ b ∈ r, f a = .ok b
  | [], _, _, a, ha => by cases ha
  | c :: l, r, h, a, ha => by
    rw [List.mapM_cons] at h
    simp only [bind, Except.bind, pure, Except.pure] at h
    cases hc : f c with
    | error e => rw [hc] at h; cases h
    | ok v =>
      rw [hc] at h
      cases hl : l.mapM f with
      | error e => rw [hl] at h; cases h
      | ok w =>
        rw [hl] at h
        cases h
        rcases List.mem_cons.mp ha with rfl | ha
        · exact ⟨v, List.mem_cons_self .., hc⟩
        · obtain ⟨b, h1, h2⟩ := mapM_all hl a ha
          exact ⟨b, List.mem_cons_of_mem _ h1, h2⟩

theorem transform_all {scale : ℕ → R → Py R} {hs new : List (Hyp R)} (e : transformAll scale hs = .ok new) (k : ℕ) (r : R)
    (hk : (⟨"Large value energy region transform", .power k⟩ : Hyp R) ∈ hs) (hr : (⟨"Large value energy region", .region r⟩ : Hyp R) ∈ hs) :
    ∃ s, scale k r = .ok s ∧ (⟨"Large value energy region", .region s⟩ : Hyp R) ∈ new := by
  unfold transformAll at e
  simp only [bind, Except.bind, pure, Except.pure] at e
  split at e
  · cases e
  rename_i l hl
  cases e
  obtain ⟨ys, hys, h1⟩ := mapM_all hl _ (List.mem_filter.mpr ⟨hk, by simp⟩)
  obtain ⟨h, hm, h2⟩ := mapM_all h1 _ (List.mem_filter.mpr ⟨hr, by simp⟩)
  unfold applyTf at h2
  simp only [bind, Except.bind, pure, Except.pure, Hyp.region] at h2
  split at h2
  · cases h2
  · rename_i s hs'
    cases h2
    exact ⟨s, hs', List.mem_flatten.mpr ⟨ys, hys, hm⟩⟩

/-- **C114** (`expand_lver`, all powers) Every region of the set is raised to every power in the set. -/
theorem C114_expand_all {scale : ℕ → R → Py R} {hs hs' : List (Hyp R)} (e : expandLver scale hs = .ok hs') (k : ℕ) (r : R)
    (hk : (⟨"Large value energy region transform", .power k⟩ : Hyp R) ∈ hs) (hr : (⟨"Large value energy region", .region r⟩ : Hyp R) ∈ hs) :
    ∃ s, scale k r = .ok s ∧ (⟨"Large value energy region", .region s⟩ : Hyp R) ∈ hs' := by
  unfold expandLver at e
  simp only [bind, Except.bind, pure, Except.pure] at e
  split at e
  · cases e
  rename_i new hn
  cases e
  obtain ⟨s, h1, h2⟩ := transform_all hn k r hk hr
  exact ⟨s, h1, List.mem_append_right _ h2⟩

/-- **C114** (`get_raise_to_power_hypothesis`) With the hypothesis for the `k`-th power in the set, every region of the set is raised to that power. -/
theorem C114_raise {scale : ℕ → R → Py R} {hs hs' : List (Hyp R)} (e : expandLver scale hs = .ok hs') (k : ℕ) (r : R)
    (hk : raiseToPower k ∈ hs) (hr : (⟨"Large value energy region", .region r⟩ : Hyp R) ∈ hs) :
    ∃ s, scale k r = .ok s ∧ (⟨"Large value energy region", .region s⟩ : Hyp R) ∈ hs' :=
  C114_expand_all e k r hk hr

/-- **C114** (`compute_best_lver`, everything used) The best region lies in the domain and in every region of the set, raised to every power in the set as well;
and in those of the zeta function if `zeta` is set. -/
theorem C114_best_all {scale : ℕ → R → Py R} (hsc : ScaleSpec mem scale) {inter : List R → Py R} (hi : InterSpec mem inter) {domain : R} {zeta : Bool}
    {hs : List (Hyp R)} {h : Hyp R} (e : bestLver scale inter domain zeta hs = .ok h) :
    ∃ E, h.data = .region E ∧ ∀ a b c d e : ℚ, mem E [a, b, c, d, e] → mem domain [a, b, c, d, e] ∧
      (∀ r, (⟨"Large value energy region", .region r⟩ : Hyp R) ∈ hs → mem r [a, b, c, d, e] ∧
        ∀ k : ℕ, 1 ≤ k → (⟨"Large value energy region transform", .power k⟩ : Hyp R) ∈ hs → mem r [a, b / k, c / k, d / k, e / k]) ∧
      (zeta = true → ∀ r, (⟨"Zeta large value energy region", .region r⟩ : Hyp R) ∈ hs → mem r [a, b, c, d, e]) := by
  unfold bestLver at e
  simp only [bind, Except.bind, pure, Except.pure] at e
  split at e
  · cases e
  rename_i new hn
  split at e
  · cases e
  rename_i rs hrs
  split at e
  · cases e
  rename_i E hE
  cases e
  refine ⟨E, by cases zeta <;> rfl, fun a b c d e hx => ?_⟩
  have hall := (hi _ _ hE _).mp hx
  have use : ∀ t r, (⟨t, .region r⟩ : Hyp R) ∈ listOf "Large value energy region" hs ++ new ++
      (if zeta then listOf "Zeta large value energy region" hs else []) → mem r [a, b, c, d, e] := by
    intro t r hm
    obtain ⟨q, hq, h1⟩ := mapM_all hrs _ hm
    exact Except.ok.inj h1 ▸ hall q (List.mem_cons_of_mem _ hq)
  refine ⟨hall _ (List.mem_cons_self ..), fun r hr => ⟨?_, fun k hk1 hk => ?_⟩, fun hz r hr => ?_⟩
  · exact use _ r (List.mem_append_left _ (List.mem_append_left _ (List.mem_filter.mpr ⟨hr, by simp⟩)))
  · obtain ⟨s, h1, h2⟩ := transform_all hn k r hk hr
    exact (hsc k hk1 r s h1 a b c d e).mp (use _ s (List.mem_append_left _ (List.mem_append_right _ h2)))
  · refine use "Zeta large value energy region" r (List.mem_append_right _ ?_)
    rw [if_pos hz]
    exact List.mem_filter.mpr ⟨hr, by simp⟩

/-- **C114** (`lv_to_lver`, everything used) Every large value estimate of the kind asked for is converted, to a region of the same kind. -/
theorem C114_lv_to_lver_all {lift : R → Py R} {hs new : List (Hyp R)} {zeta : Bool} (e : lvToLver lift zeta hs = .ok new) (r : R)
    (hr : (⟨if zeta then "Zeta large value estimate" else "Large value estimate", .region r⟩ : Hyp R) ∈ hs) :
    ∃ s, lift r = .ok s ∧ (⟨if zeta then "Zeta large value energy region" else "Large value energy region", .region s⟩ : Hyp R) ∈ new := by
  obtain ⟨h, hm, h1⟩ := mapM_all e _ (List.mem_filter.mpr ⟨hr, by simp⟩)
  simp only [bind, Except.bind, pure, Except.pure, Hyp.region] at h1
  split at h1
  · cases h1
  · rename_i s hs'
    refine ⟨s, hs', ?_⟩
    cases zeta <;> cases h1 <;> exact hm

/-- **C115** (the rest of `lver_to_energy` and `lver_to_lv`) A region is accepted whichever of the two kinds it has, anything else is refused, and an empty
projection gives `None` in one case and an exception in the other. -/
theorem C115_accepts (proj : List ℕ → R → Py (Option R)) (r : R) (t : String) :
    (t = "Large value energy region" ∨ t = "Zeta large value energy region" →
      (∀ p, proj [0, 1, 3] r = .ok (some p) → lverToEnergy proj ⟨t, .region r⟩ = .ok (some ⟨"Additive energy estimate", .region p⟩)) ∧
      (proj [0, 1, 3] r = .ok none → lverToEnergy proj ⟨t, .region r⟩ = .ok none) ∧
      (∀ p, proj [0, 1, 2] r = .ok (some p) → ∃ h, lverToLv proj ⟨t, .region r⟩ = .ok h) ∧
      (proj [0, 1, 2] r = .ok none → lverToLv proj ⟨t, .region r⟩ = .error .attributeError)) ∧
    (¬ (t = "Large value energy region" ∨ t = "Zeta large value energy region") →
      lverToEnergy proj ⟨t, .region r⟩ = .error .valueError ∧ lverToLv proj ⟨t, .region r⟩ = .error .valueError) := by
  constructor
  · intro ht
    have hn : ¬ (t ≠ "Large value energy region" ∧ t ≠ "Zeta large value energy region") := by tauto
    refine ⟨fun p hp => ?_, fun hp => ?_, fun p hp => ?_, fun hp => ?_⟩
    · simp only [lverToEnergy, hn, if_false, bind, Except.bind, pure, Except.pure, Hyp.region, hp]; rfl
    · simp only [lverToEnergy, hn, if_false, bind, Except.bind, pure, Except.pure, Hyp.region, hp]
    · simp only [lverToLv, hn, if_false, bind, Except.bind, pure, Except.pure, Hyp.region, hp]; exact ⟨_, rfl⟩
    · simp only [lverToLv, hn, if_false, bind, Except.bind, Hyp.region, hp]
  · intro ht
    have hn : t ≠ "Large value energy region" ∧ t ≠ "Zeta large value energy region" := by tauto
    exact ⟨by unfold lverToEnergy; rw [if_pos hn], by unfold lverToLv; rw [if_pos hn]⟩

end

/-! ### Examples -/

/-- Regions as sets, with exact operations. -/
abbrev Sets : Type := List ℚ → Prop

def setMem (r : Sets) (x : List ℚ) : Prop := r x

def setScale (k : ℕ) (r : Sets) : Py Sets :=
  .ok (fun x => ∃ a b c d e : ℚ, x = [a, b, c, d, e] ∧ r [a, b / k, c / k, d / k, e / k])

def setInter (l : List Sets) : Py Sets := .ok (fun x => ∀ q ∈ l, q x)

def setLift (r : Sets) : Py Sets :=
  .ok (fun x => ∃ a b c d e : ℚ, x = [a, b, c, d, e] ∧ r [a, b, c] ∧ (0 ≤ d ∧ d ≤ 1000000) ∧ 0 ≤ e ∧ e ≤ 1000000)

def setProj (dims : List ℕ) (r : Sets) : Py (Option Sets) :=
  .ok (some (fun y => ∃ x, r x ∧ y = dims.map (fun i => x.getD i 0)))

theorem setScale_spec : ScaleSpec setMem setScale := by
  intro k _ r s h a b c d e
  cases h
  refine ⟨?_, fun hx => ⟨a, b, c, d, e, rfl, hx⟩⟩
  rintro ⟨a', b', c', d', e', h, hx⟩
  simp only [List.cons.injEq, and_true] at h
  obtain ⟨rfl, rfl, rfl, rfl, rfl⟩ := h
  exact hx

theorem setInter_spec : InterSpec setMem setInter := by
  intro l r h x
  cases h
  exact Iff.rfl

theorem setLift_spec : LiftSpec setMem setLift := by
  intro r s h a b c d e hx hd he
  cases h
  exact ⟨a, b, c, d, e, rfl, hx, hd, he⟩

theorem setProj_spec : ProjSpec setMem setProj := by
  constructor <;>
  · intro r p h a b c d e hx
    cases h
    exact ⟨_, hx, rfl⟩

/-- Patterns for the examples: those of the zeta function have `rho* <= 1`, the others `rho* <= 2`. -/
def exG (x : List ℚ) : Prop := ∃ b d : ℚ, x = [1 / 2, b, 0, d, 0] ∧ 0 ≤ d ∧ d ≤ 2
def exZ (x : List ℚ) : Prop := ∃ b d : ℚ, x = [1 / 2, b, 0, d, 0] ∧ 0 ≤ d ∧ d ≤ 1

theorem ex_patterns : Patterns exG exZ := by
  refine ⟨?_, ?_, ?_⟩
  · rintro x ⟨b, d, h, h0, h1⟩
    exact ⟨b, d, h, h0, by linarith⟩
  · rintro x ⟨b, d, h, _⟩
    exact ⟨_, _, _, _, _, h⟩
  · rintro a b c d e ⟨b', d', h, h0, h1⟩
    simp only [List.cons.injEq, and_true] at h
    obtain ⟨rfl, rfl, rfl, rfl, rfl⟩ := h
    norm_num
    exact ⟨h0, by linarith⟩

theorem ex_power : PowerClosed exG := by
  rintro k hk a b c d e ⟨b', d', h, h0, h1⟩
  simp only [List.cons.injEq, and_true] at h
  obtain ⟨rfl, rfl, rfl, rfl, rfl⟩ := h
  have : (1 : ℚ) ≤ k := by exact_mod_cast hk
  refine ⟨b / k, d / k, by simp, div_nonneg h0 (by linarith), ?_⟩
  rw [div_le_iff₀ (by linarith)]
  nlinarith

/-- A true region of each kind, and the transform for squares. -/
def exSet : List (Hyp Sets) := [derivedLver exG, derivedZetaLver exZ, raiseToPower 2, derivedLV (fun y => ∃ b, y = [1 / 2, b, 0])]

theorem ex_holds : ∀ h ∈ exSet, Holds setMem exG exZ h := by
  intro h hm
  simp only [exSet, List.mem_cons, List.not_mem_nil, or_false] at hm
  rcases hm with rfl | rfl | rfl | rfl
  · exact holds_lver fun x hx => hx
  · exact holds_zlver fun x hx => hx
  · refine ⟨?_, ?_, ?_, ?_, ?_, fun _ => ⟨2, by norm_num, rfl⟩⟩ <;> intro h <;> exact absurd h (by simp [raiseToPower])
  · refine holds_lv ?_
    rintro a b c d e ⟨b', d', h, _⟩
    simp only [List.cons.injEq, and_true] at h
    obtain ⟨rfl, rfl, rfl, rfl, rfl⟩ := h
    exact ⟨b, rfl⟩

/-- The theorems of C114 apply to this set. -/
example : (∃ hs', expandLver setScale exSet = .ok hs' ∧ hs'.length = 5 ∧ ∀ h ∈ hs', Holds setMem exG exZ h) ∧
    (∃ new, lvToLver setLift false exSet = .ok new ∧ new.length = 1 ∧ ∀ h ∈ new, Holds setMem exG exZ h) ∧
    (∃ h, bestLver setScale setInter (fun _ => True) true exSet = .ok h ∧ h.htype = "Zeta large value energy region") ∧
    ∃ h', lverToLv setProj (derivedZetaLver exZ) = .ok h' ∧ Holds setMem exG exZ h' ∧ h'.htype = "Zeta large value estimate" :=
  ⟨⟨_, rfl, rfl, (C114_expand ex_patterns ex_power setScale_spec ex_holds rfl).2⟩,
    ⟨_, rfl, rfl, C114_lv_to_lver ex_patterns setLift_spec ex_holds (zeta := false) rfl⟩,
    ⟨_, rfl, (C114_best ex_patterns ex_power setScale_spec setInter_spec ex_holds (zeta := true) rfl).1⟩,
    ⟨_, rfl, (C114_lver_to_lv setProj_spec (ex_holds (derivedZetaLver exZ) (by simp [exSet])) rfl).1, rfl⟩⟩

/-- The theorems on what is used apply to this set: the best region for the zeta function lies in that of `exZ`, and in `exG` raised to the second power. -/
example : ∃ h E, bestLver setScale setInter (fun _ => True) true exSet = .ok h ∧ h.data = .region E ∧
    ∀ b d, setMem E [1 / 2, b, 0, d, 0] → exZ [1 / 2, b, 0, d, 0] ∧ exG [1 / 2, b / 2, 0 / 2, d / 2, 0 / 2] := by
  obtain ⟨E, h1, h2⟩ := C114_best_all setScale_spec setInter_spec (hs := exSet) (domain := fun _ => True) (zeta := true) rfl
  refine ⟨_, E, rfl, h1, fun b d hx => ?_⟩
  obtain ⟨_, h3, h4⟩ := h2 _ _ _ _ _ hx
  refine ⟨h4 rfl exZ (by simp [exSet, derivedZetaLver]), ?_⟩
  have := (h3 exG (by simp [exSet, derivedLver])).2 2 (by norm_num) (by simp [exSet, raiseToPower])
  exact_mod_cast this

/-- The region of the set is raised to the second power, the large value estimate is converted, and a region of the zeta function is accepted. -/
example : (∃ s hs', expandLver setScale exSet = .ok hs' ∧ setScale 2 exG = .ok s ∧ (⟨"Large value energy region", .region s⟩ : Hyp Sets) ∈ hs') ∧
    (∃ s new, lvToLver setLift false exSet = .ok new ∧ (⟨"Large value energy region", .region s⟩ : Hyp Sets) ∈ new) ∧
    ∃ p, lverToEnergy setProj ⟨"Zeta large value energy region", .region exZ⟩ = .ok (some ⟨"Additive energy estimate", .region p⟩) := by
  obtain ⟨s, h1, h2⟩ := C114_raise (scale := setScale) (hs := exSet) rfl 2 exG (by simp [exSet]) (by simp [exSet, derivedLver])
  obtain ⟨t, _, h4⟩ := C114_lv_to_lver_all (lift := setLift) (zeta := false) (hs := exSet) rfl (fun y => ∃ b, y = [1 / 2, b, 0])
    (by simp [exSet, derivedLV])
  exact ⟨⟨s, _, rfl, h1, h2⟩, ⟨t, _, rfl, h4⟩, _, ((C115_accepts setProj exZ _).1 (.inr rfl)).1 _ rfl⟩

/-- The hypotheses of C115 hold for the general region of this set. -/
example : ∃ h', lverToEnergy setProj (derivedLver exG) = .ok (some h') ∧ Holds setMem exG exZ h' :=
  ⟨_, rfl, (C115_energy_partial setProj_spec (ex_holds (derivedLver exG) (by simp [exSet])) rfl).1 rfl⟩

/-- (additive_energy.py:126-163, 455-461) `lver_to_energy` notes whether its argument is about the zeta function but does not pass this on, and
`derived_additive_energy_estimate` does not use its parameter `zeta`: a true zeta large value energy region becomes an "Additive energy estimate" like any other,
which may be false for general patterns. -/
theorem C115_zeta_counterexample : ∃ (h h' : Hyp Sets), Patterns exG exZ ∧ PowerClosed exG ∧ ProjSpec setMem setProj ∧ Holds setMem exG exZ h ∧
    lverToEnergy setProj h = .ok (some h') ∧ ¬ Holds setMem exG exZ h' := by
  refine ⟨derivedZetaLver exZ, _, ex_patterns, ex_power, setProj_spec, ex_holds _ (by simp [exSet]), rfl, ?_⟩
  intro h
  obtain ⟨r, hr, hG⟩ := h.2.2.2.2.1 rfl
  cases hr
  obtain ⟨x, ⟨b, d, rfl, h0, h1⟩, hx⟩ := hG (1 / 2) 1 0 2 0 ⟨1, 2, rfl, by norm_num, le_rfl⟩
  simp only [List.map_cons, List.map_nil, List.getD_cons_zero, List.getD_cons_succ, List.cons.injEq, and_true] at hx
  obtain ⟨_, _, rfl⟩ := hx
  norm_num at h1

end Labels
end Expdb
