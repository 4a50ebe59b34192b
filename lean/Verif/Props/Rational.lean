import Verif.Model.Rational
import Verif.Tactics
import Mathlib.Topology.Order.IntermediateValue
import Mathlib.Topology.Instances.Real.Lemmas
import Mathlib.Algebra.Polynomial.Roots
import Mathlib.Data.Real.Basic

/-!
# Property C08: the piecewise maximum and minimum of rational functions
-/

namespace Expdb
namespace Rational

open Set

/-- A denominator does not vanish at the point. -/
def RF.Def (f : RF ℝ) (x : ℝ) : Prop := f.den.eval x ≠ 0

/-- Contract of `sympy.solve(f - g)` with its selection of the real solutions: all solutions are listed, unless the
two functions are equal. -/
def SolveSpec (solve : RF ℝ → RF ℝ → List ℝ) : Prop :=
  ∀ f g : RF ℝ, (∀ x, f.Def x → g.Def x → f.at x = g.at x) ∨ ∀ x, f.Def x → g.Def x → f.at x = g.at x → x ∈ solve f g

/-- Contract of sympy's zero test. -/
def ZeroSpec (isZero : Expr ℝ → Bool) : Prop := ∀ e, isZero e = true → ∀ x, e.eval x = 0

theorem Expr.continuous (e : Expr ℝ) : Continuous e.eval := by
  induction e with
  | const c => exact continuous_const
  | var => exact continuous_id
  | add a b iha ihb => exact iha.add ihb
  | sub a b iha ihb => exact iha.sub ihb
  | mul a b iha ihb => exact iha.mul ihb

theorem RF.continuousOn (f : RF ℝ) (s : Set ℝ) (h : ∀ x ∈ s, f.Def x) : ContinuousOn f.at s := by
  unfold RF.at
  exact ContinuousOn.div (f.num.continuous.continuousOn) (f.den.continuous.continuousOn) h

/-- Two functions without common values inside `(c, d)`, or equal: the comparison at one inner point decides the
comparison on `[c, d)`. -/
theorem sign_const (solve : RF ℝ → RF ℝ → List ℝ) (hs : SolveSpec solve) (f g : RF ℝ) (c d m s : ℝ) (hs0 : s ≠ 0)
    (hf : ∀ x, c ≤ x → x < d → f.Def x) (hg : ∀ x, c ≤ x → x < d → g.Def x) (hno : ∀ z ∈ solve f g, ¬ (c < z ∧ z < d))
    (hm1 : c < m) (hm2 : m < d) (h : s * g.at m ≤ s * f.at m) (x : ℝ) (hx1 : c ≤ x) (hx2 : x < d) :
    s * g.at x ≤ s * f.at x := by
  rcases hs f g with heq | hall
  · rw [heq x (hf x hx1 hx2) (hg x hx1 hx2)]
  · by_contra hcon
    push Not at hcon
    have hne : ∀ z, c < z → z < d → f.at z ≠ g.at z := fun z h1 h2 he =>
      hno z (hall z (hf z h1.le h2) (hg z h1.le h2) he) ⟨h1, h2⟩
    have hsub : ∀ z ∈ uIcc x m, c ≤ z ∧ z < d := by
      intro z hz
      rw [mem_uIcc] at hz
      rcases hz with ⟨h1, h2⟩ | ⟨h1, h2⟩
      · exact ⟨hx1.trans h1, h2.trans_lt hm2⟩
      · exact ⟨hm1.le.trans h1, h2.trans_lt hx2⟩
    have hc : ContinuousOn (fun z => s * f.at z - s * g.at z) (uIcc x m) :=
      ((f.continuousOn _ (fun z hz => hf z (hsub z hz).1 (hsub z hz).2)).const_smul s).sub
        ((g.continuousOn _ (fun z hz => hg z (hsub z hz).1 (hsub z hz).2)).const_smul s)
    have h0 : (0 : ℝ) ∈ uIcc (s * f.at x - s * g.at x) (s * f.at m - s * g.at m) :=
      mem_uIcc.mpr (Or.inl ⟨by linarith, by linarith⟩)
    obtain ⟨z, hz, hz0⟩ := intermediate_value_uIcc hc h0
    have hz1 : f.at z = g.at z := by
      have : s * (f.at z - g.at z) = 0 := by simp only at hz0; linarith
      rcases mul_eq_zero.mp this with h | h
      · exact absurd h hs0
      · linarith
    have hzx : z ≠ x := by
      rintro rfl
      rw [hz1] at hcon
      exact lt_irrefl _ hcon
    have hcz : c < z := by
      rcases eq_or_lt_of_le hx1 with rfl | h1
      · exact lt_of_le_of_ne (hsub z hz).1 (Ne.symm hzx)
      · rw [mem_uIcc] at hz
        rcases hz with ⟨h2, _⟩ | ⟨h2, _⟩
        · exact h1.trans_le h2
        · exact hm1.trans_le h2
    exact hne z hcz (hsub z hz).2 hz1

/-- The pieces are consecutive from `a` to `b` and none of them is empty. -/
def Chain : ℝ → ℝ → List (Piece ℝ) → Prop
  | a, b, [] => a = b
  | a, b, p :: ps => p.dom.x0 = a ∧ a < p.dom.x1 ∧ Chain p.dom.x1 b ps

theorem Chain.append {a c b : ℝ} {ps qs : List (Piece ℝ)} (h1 : Chain a c ps) (h2 : Chain c b qs) : Chain a b (ps ++ qs) := by
  induction ps generalizing a with
  | nil => rw [Chain] at h1; subst h1; exact h2
  | cons p ps ih => exact ⟨h1.1, h1.2.1, ih h1.2.2⟩

theorem Chain.le {a b : ℝ} {ps : List (Piece ℝ)} (h : Chain a b ps) : a ≤ b := by
  induction ps generalizing a with
  | nil => exact le_of_eq h
  | cons p ps ih => exact h.2.1.le.trans (ih h.2.2)

theorem Chain.lt {a b : ℝ} {ps : List (Piece ℝ)} (h : Chain a b ps) : ∀ p ∈ ps, p.dom.x0 < p.dom.x1 ∧ a ≤ p.dom.x0 ∧ p.dom.x1 ≤ b := by
  induction ps generalizing a with
  | nil => simp
  | cons q ps ih =>
    intro p hp
    rcases List.mem_cons.mp hp with rfl | hp
    · exact ⟨by rw [h.1]; exact h.2.1, h.1.ge, h.2.2.le⟩
    · obtain ⟨h1, h2, h3⟩ := ih h.2.2 p hp
      exact ⟨h1, h.2.1.le.trans h2, h3⟩

/-- Each point of `[a, b)` lies in exactly one piece. -/
theorem Chain.exists_unique {a b : ℝ} {ps : List (Piece ℝ)} (h : Chain a b ps) (x : ℝ) (hx1 : a ≤ x) (hx2 : x < b) :
    ∃ p ∈ ps, p.dom.x0 ≤ x ∧ x < p.dom.x1 ∧ ∀ q ∈ ps, q.dom.x0 ≤ x → x < q.dom.x1 → q = p := by
  induction ps generalizing a with
  | nil => rw [Chain] at h; linarith
  | cons p ps ih =>
    rcases lt_or_ge x p.dom.x1 with hlt | hge
    · refine ⟨p, by simp, by rw [h.1]; exact hx1, hlt, fun q hq h1 _ => ?_⟩
      rcases List.mem_cons.mp hq with rfl | hq
      · rfl
      · have := (h.2.2.lt q hq).2.1
        linarith
    · obtain ⟨q, hq, h1, h2, h3⟩ := ih h.2.2 hge
      refine ⟨q, by simp [hq], h1, h2, fun r hr h4 h5 => ?_⟩
      rcases List.mem_cons.mp hr with rfl | hr
      · linarith
      · exact h3 r hr h4 h5

/-- The specification of a piece, relative to the functions treated so far: `s = 1` for the maximum and `-1` for the
minimum. -/
structure PieceOk (s default : ℝ) (track : Bool) (fs : List (RF ℝ × Ival ℝ)) (p : Piece ℝ) : Prop where
  /-- with dependencies: the index names the function, and the piece lies in its domain -/
  src : track = true → (p.ref = -1 ∧ p.fn = RF.make [default] none) ∨
    ∃ i : ℕ, p.ref = i ∧ ∃ J, fs[i]? = some (p.fn, J) ∧ J.x0 ≤ p.dom.x0 ∧ p.dom.x1 ≤ J.x1
  /-- the value is the default or that of a function defined there -/
  val : ∀ x, p.dom.x0 ≤ x → x < p.dom.x1 → p.fn.at x = default ∨
    ∃ t ∈ fs, t.2.x0 ≤ x ∧ x < t.2.x1 ∧ p.fn.at x = t.1.at x
  /-- the function is one of the arguments or the default -/
  fn : p.fn = RF.make [default] none ∨ ∃ t ∈ fs, p.fn = t.1
  /-- the function is defined on the piece -/
  dfn : ∀ x, p.dom.x0 ≤ x → x < p.dom.x1 → p.fn.Def x
  /-- no function defined there is better -/
  best : ∀ x, p.dom.x0 ≤ x → x < p.dom.x1 → s * default ≤ s * p.fn.at x ∧
    ∀ t ∈ fs, t.2.x0 ≤ x → x < t.2.x1 → s * t.1.at x ≤ s * p.fn.at x

theorem PieceOk.mono {s default : ℝ} {track : Bool} {fs : List (RF ℝ × Ival ℝ)} {p q : Piece ℝ}
    (h : PieceOk s default track fs p) (h1 : q.fn = p.fn) (h2 : q.ref = p.ref) (h3 : p.dom.x0 ≤ q.dom.x0)
    (h4 : q.dom.x1 ≤ p.dom.x1) : PieceOk s default track fs q := by
  refine ⟨fun ht => ?_, fun x hx1 hx2 => ?_, ?_, fun x hx1 hx2 => ?_, fun x hx1 hx2 => ?_⟩
  · rw [h1, h2]
    rcases h.src ht with k | ⟨i, k1, J, k2, k3, k4⟩
    · exact Or.inl k
    · exact Or.inr ⟨i, k1, J, k2, k3.trans h3, h4.trans k4⟩
  · rw [h1]; exact h.val x (h3.trans hx1) (hx2.trans_le h4)
  · rw [h1]; exact h.fn
  · rw [h1]; exact h.dfn x (h3.trans hx1) (hx2.trans_le h4)
  · rw [h1]; exact h.best x (h3.trans hx1) (hx2.trans_le h4)

/-! ### Splitting -/

/-- Neighbours in a strictly increasing list. -/
theorem zip_tail {cs : List ℝ} (h : cs.Pairwise (· < ·)) {c d : ℝ} (hcd : (c, d) ∈ cs.zip cs.tail) :
    c < d ∧ c ∈ cs ∧ d ∈ cs ∧ ∀ e ∈ cs, e ≤ c ∨ d ≤ e := by
  induction cs with
  | nil => simp at hcd
  | cons a cs ih =>
    cases cs with
    | nil => simp at hcd
    | cons b cs =>
      simp only [List.tail_cons, List.zip_cons_cons, List.mem_cons] at hcd
      rw [List.pairwise_cons] at h
      rcases hcd with hcd | hcd
      · cases hcd
        refine ⟨h.1 _ (by simp), by simp, by simp, fun e he => ?_⟩
        rcases List.mem_cons.mp he with rfl | he
        · exact Or.inl (le_refl _)
        · rcases List.mem_cons.mp he with rfl | he
          · exact Or.inr (le_refl _)
          · exact Or.inr ((List.pairwise_cons.mp h.2).1 e he).le
      · obtain ⟨h1, h2, h3, h4⟩ := ih h.2 hcd
        refine ⟨h1, List.mem_cons_of_mem _ h2, List.mem_cons_of_mem _ h3, fun e he => ?_⟩
        rcases List.mem_cons.mp he with rfl | he
        · exact Or.inl (h.1 c h2).le
        · exact h4 e he

theorem chain_pairs (F : ℝ → ℝ → Piece ℝ) (hF : ∀ c d, (F c d).dom = Ival.half c d) (a : ℝ) (cs : List ℝ)
    (h : (a :: cs).Pairwise (· < ·)) :
    Chain a ((a :: cs).getLast (by simp)) (((a :: cs).zip cs).map (fun t => F t.1 t.2)) := by
  induction cs generalizing a with
  | nil => simp [Chain]
  | cons b cs ih =>
    rw [List.pairwise_cons] at h
    simp only [List.zip_cons_cons, List.map_cons]
    refine ⟨by rw [hF]; rfl, by rw [hF]; exact h.1 b (by simp), ?_⟩
    rw [hF]
    have := ih b h.2
    rw [List.getLast_cons (by simp : b :: cs ≠ [])]
    exact this

theorem crits_spec (solve : RF ℝ → RF ℝ → List ℝ) (f1 : RF ℝ) (in1 : Ival ℝ) (p : Piece ℝ) (hp : p.dom.x0 < p.dom.x1) :
    (crits solve f1 in1 p).Pairwise (· < ·) ∧ (∀ c ∈ crits solve f1 in1 p, p.dom.x0 ≤ c ∧ c ≤ p.dom.x1) ∧
      p.dom.x0 ∈ crits solve f1 in1 p ∧ p.dom.x1 ∈ crits solve f1 in1 p ∧
      ∀ c ∈ solve f1 p.fn ++ [in1.x0, in1.x1], p.dom.x0 < c → c < p.dom.x1 → c ∈ crits solve f1 in1 p := by
  have hcont : ∀ c, p.dom.contains c = true → p.dom.x0 ≤ c ∧ c ≤ p.dom.x1 := by
    intro c hc
    unfold Ival.contains at hc
    rw [Bool.and_eq_true] at hc
    obtain ⟨h1, h2⟩ := hc
    constructor
    · split at h1
      · exact of_decide_eq_true h1
      · exact (of_decide_eq_true h1).le
    · split at h2
      · exact of_decide_eq_true h2
      · exact (of_decide_eq_true h2).le
  have hcont' : ∀ c, p.dom.x0 < c → c < p.dom.x1 → p.dom.contains c = true := by
    intro c h1 h2
    unfold Ival.contains
    rw [Bool.and_eq_true]
    constructor
    · split
      · exact decide_eq_true h1.le
      · exact decide_eq_true h1
    · split
      · exact decide_eq_true h2.le
      · exact decide_eq_true h2
  have hmem : ∀ c, c ∈ crits solve f1 in1 p ↔ (c ∈ solve f1 p.fn ++ [in1.x0, in1.x1] ∧ p.dom.contains c = true) ∨
      c = p.dom.x0 ∨ c = p.dom.x1 := by
    intro c
    unfold crits
    rw [List.mem_insertionSort, List.mem_dedup, List.mem_append, List.mem_filter]
    simp
  refine ⟨?_, ?_, (hmem _).mpr (Or.inr (Or.inl rfl)), (hmem _).mpr (Or.inr (Or.inr rfl)), ?_⟩
  · have h1 : (crits solve f1 in1 p).Pairwise (· ≤ ·) := List.pairwise_insertionSort _ _
    have h2 : (crits solve f1 in1 p).Nodup := (List.perm_insertionSort _ _).nodup_iff.mpr (List.nodup_dedup _)
    exact h1.imp₂ (fun a b hab hne => lt_of_le_of_ne hab hne) h2
  · intro c hc
    rcases (hmem c).mp hc with ⟨_, h⟩ | rfl | rfl
    · exact hcont c h
    · exact ⟨le_refl _, hp.le⟩
    · exact ⟨hp.le, le_refl _⟩
  · intro c hc h1 h2
    exact (hmem c).mpr (Or.inl ⟨hc, hcont' c h1 h2⟩)

theorem choose_dom (cmp : ℝ → ℝ → Bool) (f1 : RF ℝ) (in1 : Ival ℝ) (ref1 : ℤ) (p : Piece ℝ) (c d : ℝ) :
    (choose cmp f1 in1 ref1 p c d).dom = Ival.half c d := by
  unfold choose
  simp only
  split <;> rfl

/-- The pieces of one piece are consecutive. -/
theorem splitPiece_chain (solve : RF ℝ → RF ℝ → List ℝ) (cmp : ℝ → ℝ → Bool) (f1 : RF ℝ) (in1 : Ival ℝ) (ref1 : ℤ)
    (p : Piece ℝ) (hp : p.dom.x0 < p.dom.x1) : Chain p.dom.x0 p.dom.x1 (splitPiece solve cmp f1 in1 ref1 p) := by
  obtain ⟨h1, h2, h3, h4, _⟩ := crits_spec solve f1 in1 p hp
  unfold splitPiece
  simp only
  generalize crits solve f1 in1 p = cs at h1 h2 h3 h4
  cases cs with
  | nil => simp at h3
  | cons a cs =>
    have ha : a = p.dom.x0 := by
      rcases List.mem_cons.mp h3 with h | h
      · exact h.symm
      · have := (List.pairwise_cons.mp h1).1 _ h
        have := (h2 a (by simp)).1
        linarith
    have hl : (a :: cs).getLast (by simp) = p.dom.x1 := by
      have hmem := List.getLast_mem (show a :: cs ≠ [] by simp)
      have hle := (h2 _ hmem).2
      apply le_antisymm hle
      have : ∀ (l : List ℝ) (hl : l ≠ []), l.Pairwise (· < ·) → ∀ e ∈ l, e ≤ l.getLast hl := by
        intro l
        induction l with
        | nil => intro hl; exact absurd rfl hl
        | cons b l ih =>
          intro hl hP e he
          cases l with
          | nil => simp at he; simp [he]
          | cons c l =>
            rw [List.getLast_cons (by simp)]
            rw [List.pairwise_cons] at hP
            rcases List.mem_cons.mp he with rfl | he
            · exact (hP.1 _ (List.getLast_mem (by simp))).le
            · exact ih (by simp) hP.2 e he
      exact this _ (by simp) h1 _ h4
    have := chain_pairs (choose cmp f1 in1 ref1 p) (choose_dom cmp f1 in1 ref1 p) a cs h1
    rw [hl, ha] at this
    rw [ha]
    exact this

variable {s default : ℝ} {track : Bool} {solve : RF ℝ → RF ℝ → List ℝ} {isZero : Expr ℝ → Bool} {cmp : ℝ → ℝ → Bool}

/-- One piece, one new function. -/
theorem splitPiece_ok (hs : SolveSpec solve) (hcmp : ∀ u v, cmp u v = decide (s * v < s * u)) (hs0 : s ≠ 0)
    {fs : List (RF ℝ × Ival ℝ)} {p : Piece ℝ} (hp : p.dom.x0 < p.dom.x1) (hok : PieceOk s default track fs p) (t : RF ℝ × Ival ℝ)
    (ht3 : ∀ x, t.2.x0 ≤ x → x < t.2.x1 → t.1.Def x) :
    ∀ q ∈ splitPiece solve cmp t.1 t.2 (fs.length : ℤ) p, PieceOk s default track (fs ++ [t]) q := by
  obtain ⟨h1, h2, h3, h4, h5⟩ := crits_spec solve t.1 t.2 p hp
  intro q hq
  unfold splitPiece at hq
  obtain ⟨⟨c, d⟩, hcd, rfl⟩ := List.mem_map.mp hq
  obtain ⟨k1, k2, k3, k4⟩ := zip_tail h1 hcd
  have hc0 := (h2 c k2).1
  have hd1 := (h2 d k3).2
  have hno : ∀ z ∈ solve t.1 p.fn ++ [t.2.x0, t.2.x1], ¬ (c < z ∧ z < d) := by
    rintro z hz ⟨l1, l2⟩
    rcases k4 z (h5 z hz (hc0.trans_lt l1) (l2.trans_le hd1)) with l | l
    · linarith
    · linarith
  set m := (Ival.half c d).midpoint with hm
  have hm' : m = (c + d) / 2 := rfl
  have hm1 : c < m := by rw [hm']; linarith
  have hm2 : m < d := by rw [hm']; linarith
  have n0 := hno t.2.x0 (by simp)
  have n1 := hno t.2.x1 (by simp)
  -- the mid point is not an end point of the domain, so that the flags do not matter
  have hin : t.2.contains m = true ↔ t.2.x0 ≤ m ∧ m < t.2.x1 := by
    have e0 : t.2.x0 ≠ m := fun h => n0 (by rw [h]; exact ⟨hm1, hm2⟩)
    have e1 : t.2.x1 ≠ m := fun h => n1 (by rw [h]; exact ⟨hm1, hm2⟩)
    unfold Ival.contains
    rw [Bool.and_eq_true]
    constructor
    · rintro ⟨l1, l2⟩
      constructor
      · split at l1
        · exact of_decide_eq_true l1
        · exact (of_decide_eq_true l1).le
      · split at l2
        · exact lt_of_le_of_ne (of_decide_eq_true l2) (Ne.symm e1)
        · exact of_decide_eq_true l2
    · rintro ⟨l1, l2⟩
      constructor
      · split
        · exact decide_eq_true l1
        · exact decide_eq_true (lt_of_le_of_ne l1 e0)
      · split
        · exact decide_eq_true l2.le
        · exact decide_eq_true l2
  have nsol : ∀ z ∈ solve t.1 p.fn, ¬ (c < z ∧ z < d) := fun z hz => hno z (List.mem_append_left _ hz)
  have hp2 : ∀ x, c ≤ x → x < d → p.fn.Def x := fun x l1 l2 => hok.dfn x (hc0.trans l1) (l2.trans_le hd1)
  -- the keep case
  have hkeep : (∀ x, c ≤ x → x < d → t.2.x0 ≤ x → x < t.2.x1 → s * t.1.at x ≤ s * p.fn.at x) →
      PieceOk s default track (fs ++ [t]) ⟨p.fn, Ival.half c d, p.ref⟩ := by
    intro hb
    refine ⟨fun htr => ?_, fun x l1 l2 => ?_, ?_, fun x l1 l2 => hp2 x l1 l2, fun x l1 l2 => ⟨?_, fun u hu l3 l4 => ?_⟩⟩
    · rcases hok.src htr with k | ⟨i, k5, J, k6, k7, k8⟩
      · exact Or.inl k
      · refine Or.inr ⟨i, k5, J, ?_, k7.trans hc0, hd1.trans k8⟩
        rw [List.getElem?_append_left]
        · exact k6
        · by_contra hcon
          rw [List.getElem?_eq_none (by omega)] at k6
          cases k6
    · rcases hok.val x (hc0.trans l1) (l2.trans_le hd1) with k | ⟨u, hu, k⟩
      · exact Or.inl k
      · exact Or.inr ⟨u, List.mem_append_left _ hu, k⟩
    · rcases hok.fn with k | ⟨u, hu, k⟩
      · exact Or.inl k
      · exact Or.inr ⟨u, List.mem_append_left _ hu, k⟩
    · exact (hok.best x (hc0.trans l1) (l2.trans_le hd1)).1
    · rcases List.mem_append.mp hu with hu | hu
      · exact (hok.best x (hc0.trans l1) (l2.trans_le hd1)).2 u hu l3 l4
      · rw [List.mem_singleton.mp hu] at l3 l4 ⊢
        exact hb x l1 l2 l3 l4
  unfold choose
  simp only [← hm]
  cases hM : t.2.contains m with
  | false =>
    simp only [Bool.not_false, Bool.true_or, if_true]
    apply hkeep
    intro x l1 l2 l3 l4
    exfalso
    have : ¬ (t.2.x0 ≤ m ∧ m < t.2.x1) := fun h => by rw [hin.mpr h] at hM; cases hM
    rw [not_and_or, not_le, not_lt] at this
    rcases this with h | h
    · exact n0 ⟨hm1.trans h, l3.trans_lt l2⟩
    · exact n1 ⟨l1.trans_lt l4, h.trans_lt hm2⟩
  | true =>
    obtain ⟨hM1, hM2⟩ := hin.mp hM
    have hsub0 : t.2.x0 ≤ c := by
      by_contra hcon
      push Not at hcon
      exact n0 ⟨hcon, hM1.trans_lt hm2⟩
    have hsub1 : d ≤ t.2.x1 := by
      by_contra hcon
      push Not at hcon
      exact n1 ⟨hm1.trans hM2, hcon⟩
    have ht3' : ∀ x, c ≤ x → x < d → t.1.Def x := fun x l1 l2 => ht3 x (hsub0.trans l1) (l2.trans_le hsub1)
    rw [hcmp]
    simp only [Bool.not_true, Bool.false_or]
    by_cases hlt : s * t.1.at m < s * p.fn.at m
    · rw [if_pos (decide_eq_true hlt)]
      apply hkeep
      intro x l1 l2 _ _
      have hneg := sign_const solve hs t.1 p.fn c d m (-s) (neg_ne_zero.mpr hs0) ht3' hp2 nsol hm1 hm2 (by linarith) x l1 l2
      linarith
    · rw [if_neg (by simpa using hlt)]
      push Not at hlt
      have hcmp2 := sign_const solve hs t.1 p.fn c d m s hs0 ht3' hp2 nsol hm1 hm2 hlt
      refine ⟨fun _ => Or.inr ⟨fs.length, rfl, t.2, ?_, hsub0, hsub1⟩, fun x l1 l2 => Or.inr ⟨t, by simp, hsub0.trans l1,
        l2.trans_le hsub1, rfl⟩, Or.inr ⟨t, by simp, rfl⟩, ht3', fun x l1 l2 => ⟨?_, fun u hu l3 l4 => ?_⟩⟩
      · rw [List.getElem?_append_right (le_refl _), Nat.sub_self]
        rfl
      · exact ((hok.best x (hc0.trans l1) (l2.trans_le hd1)).1).trans (hcmp2 x l1 l2)
      · rcases List.mem_append.mp hu with hu | hu
        · exact ((hok.best x (hc0.trans l1) (l2.trans_le hd1)).2 u hu l3 l4).trans (hcmp2 x l1 l2)
        · rw [List.mem_singleton.mp hu]

/-! ### Merging -/

theorem RF.eq_spec (hz : ZeroSpec isZero) {f g : RF ℝ} (h : RF.eq isZero f g = true) (x : ℝ) (hf : f.Def x) (hg : g.Def x) :
    f.at x = g.at x := by
  have := hz _ h x
  simp only [Expr.eval] at this
  unfold RF.at
  rw [div_eq_div_iff hf hg]
  linarith

/-- Numerator and denominator do not both vanish at `x`. -/
def RF.NoCommonZero (f : RF ℝ) (x : ℝ) : Prop := f.Def x ∨ f.num.eval x ≠ 0

/-- Two neighbouring pieces that the code merges. -/
theorem join_ok (hz : ZeroSpec isZero) {fs : List (RF ℝ × Ival ℝ)} {a b : ℝ} {p q : Piece ℝ}
    (hdef : track = false → ∀ x, a ≤ x → x < b → ∀ t ∈ fs, t.1.NoCommonZero x) (hq1 : a ≤ q.dom.x0) (hq2 : q.dom.x1 ≤ b)
    (hpq : p.dom.x1 = q.dom.x0)
    (hp : PieceOk s default track fs p) (hq : PieceOk s default track fs q) (heq : RF.eq isZero p.fn q.fn = true)
    (href : track = true → p.ref = q.ref) :
    PieceOk s default track fs ⟨p.fn, Ival.half p.dom.x0 q.dom.x1, p.ref⟩ := by
  -- with dependencies the functions are the same
  have hsame : track = true → p.fn = q.fn := by
    intro ht
    rcases hp.src ht with ⟨k1, k2⟩ | ⟨i, k1, J, k2, _⟩ <;> rcases hq.src ht with ⟨l1, l2⟩ | ⟨j, l1, J', l2, _⟩
    · rw [k2, l2]
    · have := href ht; omega
    · have := href ht; omega
    · have h := href ht
      obtain rfl : i = j := by omega
      rw [k2] at l2
      exact (Prod.mk.inj (Option.some.inj l2)).1
  have hdq : ∀ x, q.dom.x0 ≤ x → x < q.dom.x1 → p.fn.Def x := by
    intro x l1 l2
    cases htr : track with
    | true => rw [hsame htr]; exact hq.dfn x l1 l2
    | false =>
      rcases hp.fn with k | ⟨t, ht, k⟩
      · rw [k]
        unfold RF.Def RF.make
        simp [polyExpr, polyLoop, Expr.eval]
      · rcases hdef htr x (hq1.trans l1) (l2.trans_le hq2) t ht with h | h
        · rw [k]; exact h
        · intro h0
          have e := hz _ heq x
          simp only [Expr.eval] at e
          rw [h0, zero_mul, sub_zero, k] at e
          exact (mul_ne_zero h (hq.dfn x l1 l2)) e
  have hval : ∀ x, q.dom.x0 ≤ x → x < q.dom.x1 → p.fn.at x = q.fn.at x := fun x l1 l2 =>
    RF.eq_spec hz heq x (hdq x l1 l2) (hq.dfn x l1 l2)
  have hcase : ∀ x, x < q.dom.x1 → x < p.dom.x1 ∨ (q.dom.x0 ≤ x ∧ x < q.dom.x1) := by
    intro x hx
    rcases lt_or_ge x p.dom.x1 with h | h
    · exact Or.inl h
    · exact Or.inr ⟨by rw [← hpq]; exact h, hx⟩
  refine ⟨fun ht => ?_, fun x l1 l2 => ?_, hp.fn, fun x l1 l2 => ?_, fun x l1 l2 => ?_⟩
  · rcases hp.src ht with k | ⟨i, k1, J, k2, k3, k4⟩
    · exact Or.inl k
    · right
      rcases hq.src ht with ⟨l1, l2⟩ | ⟨j, l1, J', l2, l3, l4⟩
      · have := href ht; omega
      · have h := href ht
        obtain rfl : i = j := by omega
        rw [k2] at l2
        obtain rfl := (Prod.mk.inj (Option.some.inj l2)).2
        exact ⟨i, k1, J, k2, k3, l4⟩
  · rcases hcase x l2 with h | ⟨h1, h2⟩
    · exact hp.val x l1 h
    · simp only
      rw [hval x h1 h2]
      exact hq.val x h1 h2
  · rcases hcase x l2 with h | ⟨h1, h2⟩
    · exact hp.dfn x l1 h
    · exact hdq x h1 h2
  · rcases hcase x l2 with h | ⟨h1, h2⟩
    · exact hp.best x l1 h
    · simp only
      rw [hval x h1 h2]
      exact hq.best x h1 h2

theorem mergeFrom_ok (hz : ZeroSpec isZero) {fs : List (RF ℝ × Ival ℝ)} {a b : ℝ}
    (hdef : track = false → ∀ x, a ≤ x → x < b → ∀ t ∈ fs, t.1.NoCommonZero x) (qs : List (Piece ℝ)) (cur : Piece ℝ) (a' : ℝ) (ha : a ≤ a')
    (hch : Chain a' b (cur :: qs)) (hcur : PieceOk s default track fs cur) (hqs : ∀ q ∈ qs, PieceOk s default track fs q) :
    Chain a' b (mergeFrom isZero track cur qs) ∧ ∀ p ∈ mergeFrom isZero track cur qs,
      PieceOk s default track fs p ∧ p.dom = Ival.half p.dom.x0 p.dom.x1 := by
  induction qs generalizing cur a' with
  | nil =>
    unfold mergeFrom
    refine ⟨hch, fun p hp => ?_⟩
    rw [List.mem_singleton.mp hp]
    exact ⟨hcur.mono rfl rfl (le_refl _) (le_refl _), rfl⟩
  | cons q qs ih =>
    unfold mergeFrom
    obtain ⟨c1, c2, c3⟩ := hch
    split
    · rename_i hcond
      simp only [Bool.and_eq_true, Bool.or_eq_true, Bool.not_eq_true', decide_eq_true_eq] at hcond
      obtain ⟨⟨k1, k2⟩, k3⟩ := hcond
      have hq1 := c3.lt q (by simp)
      refine ih _ a' ha ⟨c1, ?_, c3.2.2⟩ ?_ (fun r hr => hqs r (by simp [hr]))
      · exact c2.trans (by rw [k2]; exact hq1.1)
      · refine join_ok hz hdef ?_ hq1.2.2 k2 hcur (hqs q (by simp)) k1 (fun ht => ?_)
        · exact (ha.trans c2.le).trans hq1.2.1
        · rcases k3 with k3 | k3
          · rw [ht] at k3; cases k3
          · exact k3
    · obtain ⟨d1, d2⟩ := ih q cur.dom.x1 (ha.trans c2.le) c3 (hqs q (by simp)) (fun r hr => hqs r (by simp [hr]))
      refine ⟨⟨c1, c2, d1⟩, fun p hp => ?_⟩
      rcases List.mem_cons.mp hp with rfl | hp
      · exact ⟨hcur.mono rfl rfl (le_refl _) (le_refl _), rfl⟩
      · exact d2 p hp

theorem flatMap_chain {a b : ℝ} (ps : List (Piece ℝ)) (h : Chain a b ps) (F : Piece ℝ → List (Piece ℝ))
    (hF : ∀ p ∈ ps, Chain p.dom.x0 p.dom.x1 (F p)) : Chain a b (ps.flatMap F) := by
  induction ps generalizing a with
  | nil => exact h
  | cons p ps ih =>
    rw [List.flatMap_cons]
    have := hF p (by simp)
    rw [h.1] at this
    exact this.append (ih h.2.2 (fun q hq => hF q (by simp [hq])))

/-- A function whose denominator does not vanish on `[x0, x1)`, where `x0` and `x1` are the end points of its
domain. -/
def ArgOk (t : RF ℝ × Ival ℝ) : Prop := ∀ x, t.2.x0 ≤ x → x < t.2.x1 → t.1.Def x

theorem optimalLoop_ok (hs : SolveSpec solve) (hz : ZeroSpec isZero) (hcmp : ∀ u v, cmp u v = decide (s * v < s * u)) (hs0 : s ≠ 0)
    {a b : ℝ} (ts : List (RF ℝ × Ival ℝ)) (fs : List (RF ℝ × Ival ℝ)) (best : List (Piece ℝ))
    (hts : ∀ t ∈ ts, ArgOk t) (hdef : track = false → ∀ x, a ≤ x → x < b → ∀ t ∈ fs ++ ts, t.1.NoCommonZero x)
    (hch : Chain a b best) (hok : ∀ p ∈ best, PieceOk s default track fs p) :
    Chain a b (optimalLoop solve isZero cmp track fs.length ts best) ∧
      ∀ p ∈ optimalLoop solve isZero cmp track fs.length ts best, PieceOk s default track (fs ++ ts) p ∧
        (ts ≠ [] → p.dom = Ival.half p.dom.x0 p.dom.x1) := by
  induction ts generalizing fs best with
  | nil => exact ⟨hch, fun p hp => ⟨by simpa using hok p hp, fun h => absurd rfl h⟩⟩
  | cons t ts ih =>
    unfold optimalLoop
    have ht := hts t (by simp)
    set new := best.flatMap (splitPiece solve cmp t.1 t.2 (fs.length : ℤ)) with hnew
    have hch' : Chain a b new := flatMap_chain best hch _ (fun p hp => splitPiece_chain _ _ _ _ _ p (hch.lt p hp).1)
    have hok' : ∀ q ∈ new, PieceOk s default track (fs ++ [t]) q := by
      intro q hq
      obtain ⟨p, hp, hqp⟩ := List.mem_flatMap.mp hq
      exact splitPiece_ok hs hcmp hs0 (hch.lt p hp).1 (hok p hp) t ht q hqp
    have hdef' : track = false → ∀ x, a ≤ x → x < b → ∀ u ∈ fs ++ [t], u.1.NoCommonZero x := fun h x l1 l2 u hu =>
      hdef h x l1 l2 u (by simp at hu ⊢; tauto)
    have hm : Chain a b (mergePieces isZero track new) ∧ ∀ p ∈ mergePieces isZero track new,
        PieceOk s default track (fs ++ [t]) p ∧ p.dom = Ival.half p.dom.x0 p.dom.x1 := by
      generalize new = new at hch' hok'
      cases new with
      | nil => exact ⟨hch', by simp [mergePieces]⟩
      | cons q qs =>
        exact mergeFrom_ok hz hdef' qs q a (le_refl _) hch' (hok' q (by simp)) (fun r hr => hok' r (by simp [hr]))
    have := ih (fs ++ [t]) (mergePieces isZero track new) (fun u hu => hts u (by simp [hu])) (by simpa using hdef) hm.1
      (fun p hp => (hm.2 p hp).1)
    rw [List.length_append, List.length_singleton] at this
    refine ⟨this.1, fun p hp => ⟨by simpa using (this.2 p hp).1, fun _ => ?_⟩⟩
    cases ts with
    | nil => exact (hm.2 p hp).2
    | cons u us => exact (this.2 p hp).2 (by simp)

theorem computeOptimal_ok (hs : SolveSpec solve) (hz : ZeroSpec isZero) (hcmp : ∀ u v, cmp u v = decide (s * v < s * u)) (hs0 : s ≠ 0)
    (fs : List (RF ℝ × Ival ℝ)) (D : Ival ℝ) (hD : D.x0 < D.x1) (hfs : ∀ t ∈ fs, ArgOk t)
    (hdef : track = false → ∀ x, D.x0 ≤ x → x < D.x1 → ∀ t ∈ fs, t.1.NoCommonZero x) :
    Chain D.x0 D.x1 (computeOptimal solve isZero cmp default fs D track) ∧
      ∀ p ∈ computeOptimal solve isZero cmp default fs D track, PieceOk s default track fs p ∧
        (fs ≠ [] → p.dom = Ival.half p.dom.x0 p.dom.x1) := by
  have hat : ∀ x : ℝ, (RF.make [default] none).at x = default := by
    intro x
    unfold RF.at RF.make
    simp [polyExpr, polyLoop, Expr.eval]
  exact optimalLoop_ok hs hz hcmp hs0 fs [] _ hfs (by simpa using hdef) ⟨rfl, hD, rfl⟩ (by
    intro p hp
    rw [List.mem_singleton.mp hp]
    refine ⟨fun _ => Or.inl ⟨rfl, rfl⟩, fun x _ _ => Or.inl (hat x), Or.inl rfl, fun x _ _ => ?_, fun x _ _ => ⟨?_, by simp⟩⟩
    · unfold RF.Def RF.make
      simp [polyExpr, polyLoop, Expr.eval]
    · rw [hat])

/-- **C08** The piecewise maximum. The pieces are consecutive half-open intervals from one end of the domain to the
other, none empty; on each piece the function is defined, is the default or an argument whose domain contains the
piece and which is named by the index, and at every point `x` it is at least the default and every argument with
`x0 ≤ x < x1`. Missing (and false, see `C08_closed_counterexample`): arguments that include the right end point
`x1` of their domain, at `x = x1`. -/
theorem C08_max_partial (solve : RF ℝ → RF ℝ → List ℝ) (hs : SolveSpec solve) (isZero : Expr ℝ → Bool) (hz : ZeroSpec isZero)
    (fs : List (RF ℝ × Ival ℝ)) (hfs : ∀ t ∈ fs, ArgOk t) (D : Ival ℝ) (hD : D.x0 < D.x1) :
    Chain D.x0 D.x1 (rfMax solve isZero fs D true) ∧ ∀ p ∈ rfMax solve isZero fs D true,
      (fs ≠ [] → p.dom = Ival.half p.dom.x0 p.dom.x1) ∧
      ((p.ref = -1 ∧ p.fn = RF.make [-1000000] none) ∨
        ∃ i : ℕ, p.ref = i ∧ ∃ J, fs[i]? = some (p.fn, J) ∧ J.x0 ≤ p.dom.x0 ∧ p.dom.x1 ≤ J.x1) ∧
      ∀ x, p.dom.x0 ≤ x → x < p.dom.x1 → p.fn.Def x ∧ -1000000 ≤ p.fn.at x ∧
        ∀ t ∈ fs, t.2.x0 ≤ x → x < t.2.x1 → t.1.at x ≤ p.fn.at x := by
  obtain ⟨h1, h2⟩ := computeOptimal_ok (s := 1) (default := -1000000) (track := true) (cmp := fun x y => decide (x > y)) hs hz
    (fun u v => by simp) (by norm_num) fs D hD hfs (by simp)
  refine ⟨h1, fun p hp => ?_⟩
  obtain ⟨h3, h4⟩ := h2 p hp
  refine ⟨h4, h3.src rfl, fun x l1 l2 => ⟨h3.dfn x l1 l2, by simpa using (h3.best x l1 l2).1, fun t ht k1 k2 => ?_⟩⟩
  simpa using (h3.best x l1 l2).2 t ht k1 k2

/-- **C08** The piecewise minimum; as for the maximum. -/
theorem C08_min_partial (solve : RF ℝ → RF ℝ → List ℝ) (hs : SolveSpec solve) (isZero : Expr ℝ → Bool) (hz : ZeroSpec isZero)
    (fs : List (RF ℝ × Ival ℝ)) (hfs : ∀ t ∈ fs, ArgOk t) (D : Ival ℝ) (hD : D.x0 < D.x1) :
    Chain D.x0 D.x1 (rfMin solve isZero fs D true) ∧ ∀ p ∈ rfMin solve isZero fs D true,
      (fs ≠ [] → p.dom = Ival.half p.dom.x0 p.dom.x1) ∧
      ((p.ref = -1 ∧ p.fn = RF.make [1000000] none) ∨
        ∃ i : ℕ, p.ref = i ∧ ∃ J, fs[i]? = some (p.fn, J) ∧ J.x0 ≤ p.dom.x0 ∧ p.dom.x1 ≤ J.x1) ∧
      ∀ x, p.dom.x0 ≤ x → x < p.dom.x1 → p.fn.Def x ∧ p.fn.at x ≤ 1000000 ∧
        ∀ t ∈ fs, t.2.x0 ≤ x → x < t.2.x1 → p.fn.at x ≤ t.1.at x := by
  obtain ⟨h1, h2⟩ := computeOptimal_ok (s := -1) (default := 1000000) (track := true) (cmp := fun x y => decide (x < y)) hs hz
    (fun u v => by simp) (by norm_num) fs D hD hfs (by simp)
  refine ⟨h1, fun p hp => ?_⟩
  obtain ⟨h3, h4⟩ := h2 p hp
  refine ⟨h4, h3.src rfl, fun x l1 l2 => ⟨h3.dfn x l1 l2, by have := (h3.best x l1 l2).1; linarith, fun t ht k1 k2 => ?_⟩⟩
  have := (h3.best x l1 l2).2 t ht k1 k2
  linarith

/-- **C08** (values, with or without dependencies) Every point of the domain lies in exactly one piece of the maximum,
and the value there is the greatest of the default and the values of the arguments with `x0 ≤ x < x1`. Without
dependencies no argument may have a common zero of numerator and denominator on the domain. Missing: as for `C08_max_partial`. -/
theorem C08_max_value_partial (solve : RF ℝ → RF ℝ → List ℝ) (hs : SolveSpec solve) (isZero : Expr ℝ → Bool) (hz : ZeroSpec isZero)
    (fs : List (RF ℝ × Ival ℝ)) (hfs : ∀ t ∈ fs, ArgOk t) (D : Ival ℝ) (hD : D.x0 < D.x1) (track : Bool)
    (hdef : track = false → ∀ x, D.x0 ≤ x → x < D.x1 → ∀ t ∈ fs, t.1.NoCommonZero x) (x : ℝ) (hx1 : D.x0 ≤ x) (hx2 : x < D.x1) :
    ∃ p ∈ rfMax solve isZero fs D track, p.dom.x0 ≤ x ∧ x < p.dom.x1 ∧
      (∀ q ∈ rfMax solve isZero fs D track, q.dom.x0 ≤ x → x < q.dom.x1 → q = p) ∧
      IsGreatest {v | v = -1000000 ∨ ∃ t ∈ fs, t.2.x0 ≤ x ∧ x < t.2.x1 ∧ v = t.1.at x} (p.fn.at x) := by
  obtain ⟨h1, h2⟩ := computeOptimal_ok (s := 1) (default := -1000000) (track := track) (cmp := fun x y => decide (x > y)) hs hz
    (fun u v => by simp) (by norm_num) fs D hD hfs hdef
  obtain ⟨p, hp, l1, l2, l3⟩ := h1.exists_unique x hx1 hx2
  refine ⟨p, hp, l1, l2, l3, (h2 p hp).1.val x l1 l2, ?_⟩
  · rintro v (rfl | ⟨t, ht, h3, h4, rfl⟩)
    · simpa using ((h2 p hp).1.best x l1 l2).1
    · simpa using ((h2 p hp).1.best x l1 l2).2 t ht h3 h4

/-- **C08** (values) The same for the minimum. -/
theorem C08_min_value_partial (solve : RF ℝ → RF ℝ → List ℝ) (hs : SolveSpec solve) (isZero : Expr ℝ → Bool) (hz : ZeroSpec isZero)
    (fs : List (RF ℝ × Ival ℝ)) (hfs : ∀ t ∈ fs, ArgOk t) (D : Ival ℝ) (hD : D.x0 < D.x1) (track : Bool)
    (hdef : track = false → ∀ x, D.x0 ≤ x → x < D.x1 → ∀ t ∈ fs, t.1.NoCommonZero x) (x : ℝ) (hx1 : D.x0 ≤ x) (hx2 : x < D.x1) :
    ∃ p ∈ rfMin solve isZero fs D track, p.dom.x0 ≤ x ∧ x < p.dom.x1 ∧
      (∀ q ∈ rfMin solve isZero fs D track, q.dom.x0 ≤ x → x < q.dom.x1 → q = p) ∧
      IsLeast {v | v = 1000000 ∨ ∃ t ∈ fs, t.2.x0 ≤ x ∧ x < t.2.x1 ∧ v = t.1.at x} (p.fn.at x) := by
  obtain ⟨h1, h2⟩ := computeOptimal_ok (s := -1) (default := 1000000) (track := track) (cmp := fun x y => decide (x < y)) hs hz
    (fun u v => by simp) (by norm_num) fs D hD hfs hdef
  obtain ⟨p, hp, l1, l2, l3⟩ := h1.exists_unique x hx1 hx2
  refine ⟨p, hp, l1, l2, l3, (h2 p hp).1.val x l1 l2, ?_⟩
  · rintro v (rfl | ⟨t, ht, h3, h4, rfl⟩)
    · have := ((h2 p hp).1.best x l1 l2).1
      linarith
    · have := ((h2 p hp).1.best x l1 l2).2 t ht h3 h4
      linarith

/-! ### The contracts can be met -/

/-- The polynomial of an expression. -/
noncomputable def Expr.toPoly : Expr ℝ → Polynomial ℝ
  | .const c => Polynomial.C c
  | .var => Polynomial.X
  | .add a b => a.toPoly + b.toPoly
  | .sub a b => a.toPoly - b.toPoly
  | .mul a b => a.toPoly * b.toPoly

theorem Expr.eval_toPoly (e : Expr ℝ) (x : ℝ) : e.toPoly.eval x = e.eval x := by
  induction e with
  | const c => simp [toPoly, eval]
  | var => simp [toPoly, eval]
  | add a b iha ihb => simp [toPoly, eval, iha, ihb]
  | sub a b iha ihb => simp [toPoly, eval, iha, ihb]
  | mul a b iha ihb => simp [toPoly, eval, iha, ihb]

/-- There are a solver and a zero test that meet the contracts. -/
theorem solveSpec_satisfiable : (∃ solve, SolveSpec solve) ∧ ∃ isZero, ZeroSpec isZero := by
  classical
  constructor
  · refine ⟨fun f g => (Expr.sub (.mul f.num g.den) (.mul f.den g.num)).toPoly.roots.toList, fun f g => ?_⟩
    have key : ∀ x, f.Def x → g.Def x → (f.at x = g.at x ↔ (Expr.sub (.mul f.num g.den) (.mul f.den g.num)).toPoly.eval x = 0) := by
      intro x hf hg
      rw [Expr.eval_toPoly]
      simp only [Expr.eval]
      unfold RF.at
      rw [div_eq_div_iff hf hg, sub_eq_zero, mul_comm (f.den.eval x)]
    by_cases h0 : (Expr.sub (.mul f.num g.den) (.mul f.den g.num)).toPoly = 0
    · left
      intro x hf hg
      rw [key x hf hg, h0, Polynomial.eval_zero]
    · right
      intro x hf hg h
      rw [Multiset.mem_toList, Polynomial.mem_roots h0]
      exact (key x hf hg).mp h
  · refine ⟨fun e => decide (∀ x, e.eval x = 0), fun e h => of_decide_eq_true h⟩

/-- Non-vacuity of C08: `x` on `[0,1)` and `1/(x+1)` on `[0,2)`, on the domain `[0,2)`. -/
example : (∀ t ∈ [(RF.make [1, 0] none, Ival.half 0 1), (RF.make [1] (some [1, 1]), Ival.half 0 2)], ArgOk t) ∧
    (Ival.half (0 : ℝ) 2).x0 < (Ival.half (0 : ℝ) 2).x1 := by
  refine ⟨fun t ht => ?_, by simp [Ival.half]⟩
  simp only [List.mem_cons, List.not_mem_nil, or_false] at ht
  rcases ht with rfl | rfl
  · intro x _ _
    simp [RF.Def, RF.make, polyExpr, polyLoop, Expr.eval]
  · intro x h _
    simp only [Ival.half] at h
    simp [RF.Def, RF.make, polyExpr, polyLoop, Expr.eval]
    intro h0
    linarith

/-- Finding: an argument that includes the right end point of its domain is ignored there: the maximum of 1 on the closed
interval `[0,1]` and 0 on `[0,2)` is returned as 0 on `[1,2)`, which is smaller than 1 at the point 1. -/
theorem C08_closed_counterexample : ∃ fs : List (RF ℚ × Ival ℚ), ∃ p ∈ rfMax (fun _ _ => []) (fun _ => false) fs (Ival.half 0 2) true,
    p.dom.contains 1 = true ∧ ∃ t ∈ fs, t.2.contains 1 = true ∧ p.fn.at 1 < t.1.at 1 := by
  refine ⟨[(RF.make [1] none, ⟨0, 1, true, true⟩), (RF.make [0] none, Ival.half 0 2)], ⟨RF.make [0] none, Ival.half 1 2, 1⟩, ?_, ?_, _,
    List.mem_cons_self, ?_, ?_⟩ <;> decide +kernel

end Rational
end Expdb
