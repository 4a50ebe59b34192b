import Verif.Props.PairZD

/-!
# The minimum of the zero density estimates from several exponent pairs (C80)
-/

namespace Expdb
namespace PairZD
open Rational

/-- The denominator `2(1 + k)σ - 1 - l` of the theorem of Bourgain (zero_density.tex, Theorem bourgain-zd). -/
noncomputable def bden (p : ℚ × ℚ) (x : ℝ) : ℝ := 2 * (1 + p.1) * x - 1 - p.2

/-- The bound of the theorem. -/
noncomputable def bval (p : ℚ × ℚ) (x : ℝ) : ℝ := 4 * p.1 / bden p x

/-- The lower limit for `σ` in the theorem, at least 1/2. -/
noncomputable def blim (p : ℚ × ℚ) : ℝ :=
  max (max (1 / 2) ((p.2 + 1) / (2 * (p.1 + 1)))) (if p.1 ≤ 11 / 85 then 1 / 2 else (144 * p.1 - 11 * p.2 - 11) / (170 * p.1 - 22))

/-- The theorem (in its closed form) applies to the pair, for some `σ < 1`. -/
def Usable (p : ℚ × ℚ) : Prop := 0 < p.1 ∧ p.1 ≤ 1 / 5 ∧ 3 / 5 ≤ p.2 ∧ 13 ≤ 15 * p.2 + 20 * p.1 ∧ blim p < 1

theorem blim_eq (p : ℚ × ℚ) : ((lowerLimit p.1 p.2 : ℚ) : ℝ) = blim p := by
  simp only [lowerLimit, blim]
  split_ifs
  · push_cast
    rw [max_eq_left (le_max_left _ _)]
  · push_cast
    rfl

theorem half_le_blim (p : ℚ × ℚ) : 1 / 2 ≤ blim p := (le_max_left _ _).trans (le_max_left _ _)

theorem bden_pos {p : ℚ × ℚ} (hp : 0 < p.1) {x : ℝ} (hx : blim p < x) : 0 < bden p x := by
  have h : ((p.2 : ℝ) + 1) / (2 * (p.1 + 1)) < x := ((le_max_right _ _).trans (le_max_left _ _)).trans_lt hx
  have hp' : (0 : ℝ) < p.1 := by exact_mod_cast hp
  rw [div_lt_iff₀ (by positivity)] at h
  unfold bden
  linarith

theorem bden_affine (p : ℚ × ℚ) (x y t : ℝ) : bden p (x + t * (y - x)) = bden p x + t * (bden p y - bden p x) := by
  unfold bden; ring

/-- The bound of the code for the pair. -/
noncomputable def mkB (p : ℚ × ℚ) : Bound ℝ := ⟨boundFn p.1 p.2, .half (blim p) 1, p⟩

theorem mem_bounds (eps : List (ℚ × ℚ)) (hk : ∀ p ∈ eps, 0 < p.1) (b : Bound ℝ) :
    b ∈ bounds (K := ℝ) eps ↔ ∃ p ∈ eps, Usable p ∧ b = mkB p := by
  induction eps with
  | nil => simp [bounds]
  | cons p ps ih =>
    have ih := ih (fun q hq => hk q (by simp [hq]))
    obtain ⟨k, l⟩ := p
    have h0 : 0 < k := hk (k, l) (by simp)
    have hb := blim_eq (k, l)
    simp only at hb
    have hl : lowerLimit k l ≥ 1 ↔ ¬ blim (k, l) < 1 := by
      rw [← hb, not_lt]; exact_mod_cast Iff.rfl
    simp only [List.mem_cons]
    have split : (∃ p, (p = (k, l) ∨ p ∈ ps) ∧ Usable p ∧ b = mkB p) ↔ (Usable (k, l) ∧ b = mkB (k, l)) ∨ ∃ p ∈ ps, Usable p ∧ b = mkB p := by
      constructor
      · rintro ⟨p, rfl | h, h1⟩
        · exact Or.inl h1
        · exact Or.inr ⟨p, h, h1⟩
      · rintro (h | ⟨p, h, h1⟩)
        · exact ⟨_, Or.inl rfl, h⟩
        · exact ⟨p, Or.inr h, h1⟩
    rw [split]
    unfold bounds
    split_ifs with h1 h2
    · rw [ih]
      constructor
      · exact Or.inr
      · rintro (h | h)
        · exact absurd h.1.2.2.2.2 (hl.mp h2)
        · exact h
    · rw [List.mem_cons, ih]
      have hu : Usable (k, l) := ⟨h0, h1.1, h1.2.1, h1.2.2, by by_contra hc; exact h2 (hl.mpr hc)⟩
      have he : (⟨boundFn k l, .half ((lowerLimit k l : ℚ) : ℝ) 1, (k, l)⟩ : Bound ℝ) = mkB (k, l) := by
        rw [mkB, hb]
      rw [he]
      constructor
      · rintro (h | h)
        · exact Or.inl ⟨hu, h⟩
        · exact Or.inr h
      · rintro (h | h)
        · exact Or.inl h.2
        · exact Or.inr h
    · rw [ih]
      constructor
      · exact Or.inr
      · rintro (h | h)
        · exact absurd ⟨h.1.2.1, h.1.2.2.1, h.1.2.2.2.1⟩ h1
        · exact h

theorem boundFn_num (p : ℚ × ℚ) (x : ℝ) : (boundFn (K := ℝ) p.1 p.2).num.eval x = 4 * p.1 := by
  simp [boundFn, RF.make, polyExpr, polyLoop, Expr.eval]

theorem boundFn_den (p : ℚ × ℚ) (x : ℝ) : (boundFn (K := ℝ) p.1 p.2).den.eval x = bden p x := by
  simp [boundFn, RF.make, polyExpr, polyLoop, Expr.eval, bden]
  ring

theorem boundFn_at (p : ℚ × ℚ) (x : ℝ) : (boundFn (K := ℝ) p.1 p.2).at x = bval p x := by
  rw [RF.at, boundFn_num, boundFn_den, bval]

theorem half_contains {a b x : ℝ} : (Ival.half a b).contains x = true ↔ a ≤ x ∧ x < b := by
  simp only [Ival.half, Ival.contains, if_true, Bool.false_eq_true, if_false, Bool.and_eq_true]
  exact and_congr decide_eq_true_iff decide_eq_true_iff

theorem meet_half {a b x : ℝ} (ha : a < 1) (hb : b < 1) : (meet (Ival.half a 1) (Ival.half b 1)).contains x = true ↔ a ≤ x ∧ b ≤ x ∧ x < 1 := by
  have h : ¬ max a b > 1 := not_lt.mpr (max_le ha.le hb.le)
  have e : meet (Ival.half a 1) (Ival.half b 1) = Ival.half (max a b) 1 := by
    simp only [meet, Ival.half, min_self, if_neg h, Bool.and_self, ite_self]
  rw [e, half_contains, max_le_iff, and_assoc]

/-! ### The critical points -/

section
variable (isConstant : Expr ℝ → Bool) (realRoots : Expr ℝ → List ℝ)

theorem critLoop_sub (seen bs : List (Bound ℝ)) :
    (∀ b ∈ bs, ∀ c ∈ seen, ∀ x ∈ critPair isConstant realRoots b c, x ∈ critLoop isConstant realRoots seen bs) ∧
    bs.Pairwise (fun c b => ∀ x ∈ critPair isConstant realRoots b c, x ∈ critLoop isConstant realRoots seen bs) := by
  induction bs generalizing seen with
  | nil => simp
  | cons b bs ih =>
    obtain ⟨h1, h2⟩ := ih (seen ++ [b])
    constructor
    · intro b' hb' c hc x hx
      simp only [critLoop, List.mem_append]
      rcases List.mem_cons.mp hb' with rfl | hb'
      · exact Or.inl (List.mem_flatMap.mpr ⟨c, hc, hx⟩)
      · exact Or.inr (h1 b' hb' c (by simp [hc]) x hx)
    · rw [List.pairwise_cons]
      constructor
      · intro b' hb' x hx
        simp only [critLoop, List.mem_append]
        exact Or.inr (h1 b' hb' b (by simp) x hx)
      · refine h2.imp ?_
        intro c d h x hx
        simp only [critLoop, List.mem_append]
        exact Or.inr (h x hx)

theorem critLoop_mem (seen bs : List (Bound ℝ)) (x : ℝ) (h : x ∈ critLoop isConstant realRoots seen bs) :
    ∃ b ∈ bs, ∃ c ∈ seen ++ bs, x ∈ critPair isConstant realRoots b c := by
  induction bs generalizing seen with
  | nil => simp [critLoop] at h
  | cons b bs ih =>
    simp only [critLoop, List.mem_append, List.mem_flatMap] at h
    rcases h with ⟨c, hc, hx⟩ | h
    · exact ⟨b, by simp, c, by simp [hc], hx⟩
    · obtain ⟨b', hb', c, hc, hx⟩ := ih _ h
      exact ⟨b', by simp [hb'], c, by simpa [or_assoc] using hc, hx⟩

theorem critList_mem (bs : List (Bound ℝ)) (x : ℝ) : x ∈ critList isConstant realRoots bs ↔ x ∈ critLoop isConstant realRoots [] bs := by
  rw [critList, List.mem_insertionSort, List.mem_dedup]

theorem critList_sorted (bs : List (Bound ℝ)) : (critList isConstant realRoots bs).Pairwise (· < ·) := by
  have h1 : (critList isConstant realRoots bs).Pairwise (· ≤ ·) := List.pairwise_insertionSort _ _
  have h2 : (critList isConstant realRoots bs).Nodup := by
    rw [critList, List.Perm.nodup_iff (List.perm_insertionSort _ _)]
    exact List.nodup_dedup _
  exact (h1.and h2).imp (fun h => lt_of_le_of_ne h.1 h.2)

/-- Two different bounds: their end points and their intersections are critical points. -/
theorem critList_pair {bs : List (Bound ℝ)} {b c : Bound ℝ} (hb : b ∈ bs) (hc : c ∈ bs) (hne : b ≠ c) :
    (∀ x ∈ critPair isConstant realRoots b c, x ∈ critList isConstant realRoots bs) ∨
      ∀ x ∈ critPair isConstant realRoots c b, x ∈ critList isConstant realRoots bs := by
  have h := (critLoop_sub isConstant realRoots [] bs).2
  simp only [critList_mem]
  have h' : bs.Pairwise (fun b c => (∀ x ∈ critPair isConstant realRoots b c, x ∈ critLoop isConstant realRoots [] bs) ∨
      ∀ x ∈ critPair isConstant realRoots c b, x ∈ critLoop isConstant realRoots [] bs) := h.imp (fun h => Or.inr h)
  have : Std.Symm (fun b c => (∀ x ∈ critPair isConstant realRoots b c, x ∈ critLoop isConstant realRoots [] bs) ∨
      ∀ x ∈ critPair isConstant realRoots c b, x ∈ critLoop isConstant realRoots [] bs) := ⟨fun _ _ h => h.symm⟩
  exact h'.forall hb hc hne

end

/-! ### Neighbours in a sorted list -/

theorem zip_tail_spec {l : List ℝ} (h : l.Pairwise (· < ·)) :
    ∀ t ∈ l.zip l.tail, t.1 < t.2 ∧ t.1 ∈ l ∧ t.2 ∈ l ∧ ∀ z ∈ l, z ≤ t.1 ∨ t.2 ≤ z := by
  induction l with
  | nil => simp
  | cons a l ih =>
    cases l with
    | nil => simp
    | cons b l =>
      obtain ⟨h1, h2⟩ := List.pairwise_cons.mp h
      intro t ht
      simp only [List.tail_cons, List.zip_cons_cons, List.mem_cons] at ht
      rcases ht with rfl | ht
      · refine ⟨h1 b (by simp), by simp, by simp, ?_⟩
        intro z hz
        rcases List.mem_cons.mp hz with rfl | hz
        · exact Or.inl le_rfl
        · rcases List.mem_cons.mp hz with rfl | hz'
          · exact Or.inr le_rfl
          · exact Or.inr ((List.pairwise_cons.mp h2).1 z hz').le
      · obtain ⟨e1, e2, e3, e4⟩ := ih h2 t (by simpa using ht)
        refine ⟨e1, by simp [e2], by simp [e3], ?_⟩
        intro z hz
        rcases List.mem_cons.mp hz with rfl | hz
        · exact Or.inl (h1 _ e2).le
        · exact e4 z hz

theorem zip_tail_cover {l : List ℝ} (h : l.Pairwise (· < ·)) {x y z : ℝ} (hy : y ∈ l) (hyx : y ≤ x) (hz : z ∈ l) (hxz : x < z) :
    ∃ t ∈ l.zip l.tail, t.1 ≤ x ∧ x < t.2 := by
  induction l generalizing y with
  | nil => simp at hy
  | cons a l ih =>
    cases l with
    | nil =>
      simp only [List.mem_singleton] at hy hz
      subst hy hz
      exact absurd hxz (not_lt.mpr hyx)
    | cons b l =>
      obtain ⟨h1, h2⟩ := List.pairwise_cons.mp h
      have hax : a ≤ x := by
        rcases List.mem_cons.mp hy with rfl | hy
        · exact hyx
        · exact (h1 _ hy).le.trans hyx
      by_cases hb : x < b
      · exact ⟨(a, b), by simp, hax, hb⟩
      · have hz' : z ∈ b :: l := by
          rcases List.mem_cons.mp hz with rfl | hz
          · exact absurd hxz (not_lt.mpr hax)
          · exact hz
        obtain ⟨t, ht, h3⟩ := ih h2 (y := b) (by simp) (not_lt.mp hb) hz'
        exact ⟨t, by simp only [List.tail_cons, List.zip_cons_cons, List.mem_cons]; exact Or.inr (by simpa using ht), h3⟩

theorem zip_tail_order {l : List ℝ} (h : l.Pairwise (· < ·)) : (l.zip l.tail).Pairwise (fun s t => s.2 ≤ t.1) := by
  induction l with
  | nil => simp
  | cons a l ih =>
    cases l with
    | nil => simp
    | cons b l =>
      obtain ⟨h1, h2⟩ := List.pairwise_cons.mp h
      simp only [List.tail_cons, List.zip_cons_cons, List.pairwise_cons]
      refine ⟨?_, by simpa using ih h2⟩
      intro t ht
      have := (zip_tail_spec h2 t (by simpa using ht)).2.1
      rcases List.mem_cons.mp this with h | h
      · exact h.symm.le
      · exact ((List.pairwise_cons.mp h2).1 _ h).le

/-! ### The choice at the test point -/

theorem argmin_spec (s : ℝ) (cur : Option (Bound ℝ)) (bs : List (Bound ℝ)) :
    (cur = none → bs = [] → argmin s cur bs = none) ∧
    (cur.isSome ∨ bs ≠ [] → ∃ b, argmin s cur bs = some b ∧ (some b = cur ∨ b ∈ bs) ∧ (∀ c, cur = some c → b.fn.at s ≤ c.fn.at s) ∧
      ∀ c ∈ bs, b.fn.at s ≤ c.fn.at s) := by
  induction bs generalizing cur with
  | nil =>
    refine ⟨fun h _ => by subst h; rfl, ?_⟩
    rintro (h | h)
    · obtain ⟨c, rfl⟩ := Option.isSome_iff_exists.mp h
      exact ⟨c, by simp [argmin], Or.inl rfl, fun d hd => by cases hd; exact le_rfl, by simp⟩
    · exact absurd rfl h
  | cons b bs ih =>
    refine ⟨fun _ h => absurd h (by simp), fun _ => ?_⟩
    cases cur with
    | none =>
      obtain ⟨a, h1, h2, h3, h4⟩ := (ih (some b)).2 (Or.inl rfl)
      refine ⟨a, by simpa only [argmin] using h1, ?_, by simp, ?_⟩
      · rcases h2 with h2 | h2
        · cases h2; simp
        · simp [h2]
      · intro c hc
        rcases List.mem_cons.mp hc with rfl | hc
        · exact h3 _ rfl
        · exact h4 c hc
    | some c =>
      simp only [argmin]
      split_ifs with hlt
      · obtain ⟨a, h1, h2, h3, h4⟩ := (ih (some b)).2 (Or.inl rfl)
        refine ⟨a, h1, ?_, ?_, ?_⟩
        · rcases h2 with h2 | h2
          · cases h2; simp
          · simp [h2]
        · intro d hd
          cases hd
          exact (h3 _ rfl).trans hlt.le
        · intro d hd
          rcases List.mem_cons.mp hd with rfl | hd
          · exact h3 _ rfl
          · exact h4 d hd
      · obtain ⟨a, h1, h2, h3, h4⟩ := (ih (some c)).2 (Or.inl rfl)
        refine ⟨a, h1, ?_, h3, ?_⟩
        · rcases h2 with h2 | h2
          · exact Or.inl h2
          · simp [h2]
        · intro d hd
          rcases List.mem_cons.mp hd with rfl | hd
          · exact (h3 _ rfl).trans (not_lt.mp hlt)
          · exact h4 d hd

/-! ### The pieces -/

/-- A piece that gives the least bound on its interval, written without division. -/
def Good (eps : List (ℚ × ℚ)) (s : Sol ℝ) : Prop :=
  ∃ p ∈ eps, Usable p ∧ s.fn = boundFn p.1 p.2 ∧ s.pair = p ∧ s.dom.incL = true ∧ s.dom.incU = false ∧ s.dom.x0 < s.dom.x1 ∧ s.dom.x1 ≤ 1 ∧
    blim p ≤ s.dom.x0 ∧
    ∀ q ∈ eps, Usable q → ∀ x, s.dom.x0 ≤ x → x < s.dom.x1 → blim q ≤ x → p.1 * bden q x ≤ q.1 * bden p x

theorem Good.contains {eps : List (ℚ × ℚ)} {s : Sol ℝ} (h : Good eps s) (x : ℝ) : s.dom.contains x = true ↔ s.dom.x0 ≤ x ∧ x < s.dom.x1 := by
  obtain ⟨p, _, _, _, _, h1, h2, _⟩ := h
  simp only [Ival.contains, h1, h2, if_true, Bool.false_eq_true, if_false, Bool.and_eq_true]
  exact and_congr decide_eq_true_iff decide_eq_true_iff

section
variable {isConstant : Expr ℝ → Bool} {realRoots : Expr ℝ → List ℝ} (hr : RootsSpec isConstant realRoots) (hcs : ConstSpec isConstant)
include hr hcs

/-- A crossing of two bounds where both are claimed is a critical point. -/
theorem crossing {bs : List (Bound ℝ)} {p q : ℚ × ℚ} (hp : mkB p ∈ bs) (hq : mkB q ∈ bs) (hup : Usable p) (huq : Usable q) {z y : ℝ}
    (hz : q.1 * bden p z = p.1 * bden q z) (hy : q.1 * bden p y ≠ p.1 * bden q y) (h1 : blim p ≤ z) (h2 : blim q ≤ z) (h3 : z < 1) :
    z ∈ critList isConstant realRoots bs := by
  have hne : mkB p ≠ mkB q := by
    intro h
    have : p = q := congrArg Bound.pair h
    subst this
    exact hy rfl
  have ev : ∀ (p q : ℚ × ℚ) (x : ℝ), (Expr.sub (.mul (boundFn (K := ℝ) p.1 p.2).num (boundFn q.1 q.2).den) (.mul (boundFn p.1 p.2).den (boundFn q.1 q.2).num)).eval x =
      4 * (p.1 * bden q x - q.1 * bden p x) := by
    intro p q x
    simp only [Expr.eval, boundFn_num, boundFn_den]; ring
  have key : ∀ {p q : ℚ × ℚ}, Usable p → Usable q → q.1 * bden p z = p.1 * bden q z → q.1 * bden p y ≠ p.1 * bden q y → blim p ≤ z → blim q ≤ z →
      z ∈ critPair isConstant realRoots (mkB p) (mkB q) := by
    intro p q hp hq hz hy h1 h2
    simp only [critPair, List.mem_append, RF.intersections]
    left
    have hn : isConstant (Expr.sub (.mul (boundFn (K := ℝ) p.1 p.2).num (boundFn q.1 q.2).den) (.mul (boundFn p.1 p.2).den (boundFn q.1 q.2).num)) = false := by
      by_contra hc
      have := hcs _ (by simpa using hc) z y
      rw [ev, ev, hz] at this
      apply hy
      linarith
    simp only [mkB, hn, Bool.false_eq_true, if_false, List.mem_filter]
    refine ⟨(hr _ hn z).mpr ?_, (meet_half hp.2.2.2.2 hq.2.2.2.2).mpr ⟨h1, h2, h3⟩⟩
    rw [ev, hz]; ring
  rcases critList_pair isConstant realRoots hp hq hne with h | h
  · exact h z (key hup huq hz hy h1 h2)
  · exact h z (key huq hup hz.symm (fun h => hy h.symm) h2 h1)

/-- The piece made between two neighbouring critical points. -/
theorem piece_good (eps : List (ℚ × ℚ)) (hk : ∀ p ∈ eps, 0 < p.1) (c d : ℝ) (hcd : c < d) (hd1 : d ≤ 1)
    (hgap : ∀ z ∈ critList isConstant realRoots (bounds (K := ℝ) eps), z ≤ c ∨ d ≤ z)
    (hends : ∀ p ∈ eps, Usable p → blim p ∈ critList isConstant realRoots (bounds (K := ℝ) eps))
    (hstart : ∃ p ∈ eps, Usable p ∧ blim p ≤ c) :
    ∃ b, argmin (Ival.half c d).midpoint none ((bounds (K := ℝ) eps).filter (fun b => b.dom.contains (Ival.half c d).midpoint)) = some b ∧
      Good eps ⟨b.fn, Ival.half c d, b.pair⟩ := by
  have hm : (Ival.half c d).midpoint = (c + d) / 2 := rfl
  set m := (Ival.half c d).midpoint with hmdef
  have hm1 : c < m := by rw [hm]; linarith
  have hm2 : m < d := by rw [hm]; linarith
  have hin : ∀ q ∈ eps, Usable q → blim q < d → blim q ≤ c := by
    intro q hq hu h
    rcases hgap _ (hends q hq hu) with h' | h'
    · exact h'
    · exact absurd h (not_lt.mpr h')
  have hfil : ∀ q ∈ eps, Usable q → blim q ≤ c → mkB q ∈ (bounds (K := ℝ) eps).filter (fun b => b.dom.contains m) := by
    intro q hq hu h
    rw [List.mem_filter]
    exact ⟨(mem_bounds eps hk _).mpr ⟨q, hq, hu, rfl⟩, half_contains.mpr ⟨h.trans hm1.le, hm2.trans_le hd1⟩⟩
  obtain ⟨p0, hp0, hu0, hl0⟩ := hstart
  obtain ⟨b, h1, h2, -, h4⟩ := (argmin_spec m none ((bounds (K := ℝ) eps).filter (fun b => b.dom.contains m))).2
    (Or.inr (List.ne_nil_of_mem (hfil p0 hp0 hu0 hl0)))
  refine ⟨b, h1, ?_⟩
  have hb : b ∈ (bounds (K := ℝ) eps).filter (fun b => b.dom.contains m) := by
    rcases h2 with h2 | h2
    · cases h2
    · exact h2
  rw [List.mem_filter, mem_bounds eps hk] at hb
  obtain ⟨⟨p, hp, hu, rfl⟩, hbm⟩ := hb
  have hpm := half_contains.mp hbm
  have hpc : blim p ≤ c := hin p hp hu (hpm.1.trans_lt hm2)
  refine ⟨p, hp, hu, rfl, rfl, rfl, rfl, hcd, hd1, hpc, ?_⟩
  intro q hq huq x hx1 hx2 hqx
  simp only [Ival.half] at hx1 hx2
  have hqc : blim q ≤ c := hin q hq huq (hqx.trans_lt hx2)
  have hv := h4 _ (hfil q hq huq hqc)
  simp only [mkB, boundFn_at, bval] at hv
  rw [div_le_div_iff₀ (bden_pos hu.1 (hpc.trans_lt hm1)) (bden_pos huq.1 (hqc.trans_lt hm1))] at hv
  have hv' : p.1 * bden q m ≤ q.1 * bden p m := by linarith
  by_contra hcon
  push Not at hcon
  -- the affine function `q.1 * bden p - p.1 * bden q` changes sign between `x` and `m`
  set G : ℝ → ℝ := fun y => q.1 * bden p y - p.1 * bden q y with hG
  have hGx : G x < 0 := by simp only [hG]; linarith
  have hGm : 0 ≤ G m := by simp only [hG]; linarith
  set t := G m / (G m - G x) with ht
  have hden : 0 < G m - G x := by linarith
  have ht0 : 0 ≤ t := div_nonneg hGm hden.le
  have ht1 : t < 1 := by rw [ht, div_lt_one hden]; linarith
  set z := m + t * (x - m) with hz
  have hGz : G z = 0 := by
    have : G z = G m + t * (G x - G m) := by
      simp only [hG, hz, bden_affine]; ring
    rw [this, ht]
    field_simp
    ring
  have hcz : c < z ∧ z < d := by
    rcases le_total x m with h | h
    · constructor <;> nlinarith
    · constructor <;> nlinarith
  have hzc := crossing hr hcs (bs := bounds (K := ℝ) eps) ((mem_bounds eps hk _).mpr ⟨p, hp, hu, rfl⟩) ((mem_bounds eps hk _).mpr ⟨q, hq, huq, rfl⟩) hu huq
    (z := z) (y := x) (by simp only [hG] at hGz; linarith) (by simp only [hG] at hGx; intro h; linarith) (hpc.trans hcz.1.le) (hqc.trans hcz.1.le)
    (hcz.2.trans_le hd1)
  rcases hgap z hzc with h | h
  · exact absurd hcz.1 (not_lt.mpr h)
  · exact absurd hcz.2 (not_lt.mpr h)

theorem solve_good (eps : List (ℚ × ℚ)) (hk : ∀ p ∈ eps, 0 < p.1) (ts : List (ℝ × ℝ))
    (h : ∀ t ∈ ts, t.1 < t.2 ∧ t.2 ≤ 1 ∧ (∀ z ∈ critList isConstant realRoots (bounds (K := ℝ) eps), z ≤ t.1 ∨ t.2 ≤ z) ∧ (∃ p ∈ eps, Usable p ∧ blim p ≤ t.1))
    (hord : ts.Pairwise (fun s t => s.2 ≤ t.1))
    (hends : ∀ p ∈ eps, Usable p → blim p ∈ critList isConstant realRoots (bounds (K := ℝ) eps)) :
    ∃ sol, solve (bounds (K := ℝ) eps) ts = .ok sol ∧ (∀ s ∈ sol, Good eps s) ∧ sol.map (fun s => (s.dom.x0, s.dom.x1)) = ts := by
  induction ts with
  | nil => exact ⟨[], rfl, by simp, rfl⟩
  | cons t ts ih =>
    obtain ⟨c, d⟩ := t
    obtain ⟨h1, h2, h3, h4⟩ := h (c, d) (by simp)
    obtain ⟨sol, e1, e2, e3⟩ := ih (fun t ht => h t (by simp [ht])) (List.pairwise_cons.mp hord).2
    obtain ⟨b, hb, hg⟩ := piece_good hr hcs eps hk c d h1 h2 h3 hends h4
    have hskip : ¬ (d = c ∨ c < 1 / 2) := by
      rintro (h | h)
      · exact absurd h h1.ne'
      · obtain ⟨p, _, _, hp⟩ := h4
        have := half_le_blim p
        simp only at hp
        linarith
    refine ⟨⟨b.fn, Ival.half c d, b.pair⟩ :: sol, ?_, ?_, ?_⟩
    · simp only [solve, if_neg hskip, hb, e1]
      rfl
    · intro s hs
      rcases List.mem_cons.mp hs with rfl | hs
      · exact hg
      · exact e2 s hs
    · rw [List.map_cons, e3]; rfl

end

/-- Merging keeps the pieces good, in order, and with the same union. -/
theorem mergeBack_good {isZero : Expr ℝ → Bool} (hz : ZeroSpec isZero) (eps : List (ℚ × ℚ)) (sol : List (Sol ℝ)) (hg : ∀ s ∈ sol, Good eps s)
    (hord : sol.Pairwise (fun s t => s.dom.x1 ≤ t.dom.x0)) :
    (∀ s ∈ mergeBack isZero sol, Good eps s) ∧ (mergeBack isZero sol).Pairwise (fun s t => s.dom.x1 ≤ t.dom.x0) ∧
      ∀ x, (∃ s ∈ mergeBack isZero sol, s.dom.x0 ≤ x ∧ x < s.dom.x1) ↔ ∃ s ∈ sol, s.dom.x0 ≤ x ∧ x < s.dom.x1 := by
  induction sol with
  | nil => simp [mergeBack]
  | cons p ps ih =>
    obtain ⟨ho1, ho2⟩ := List.pairwise_cons.mp hord
    obtain ⟨i1, i2, i3⟩ := ih (fun s hs => hg s (by simp [hs])) ho2
    have hgp := hg p (by simp)
    have hlow : ∀ s ∈ mergeBack isZero ps, p.dom.x1 ≤ s.dom.x0 := by
      intro s hs
      obtain ⟨_, _, _, _, _, _, _, hlt, _⟩ := i1 s hs
      obtain ⟨s', hs', h1, _⟩ := (i3 s.dom.x0).mp ⟨s, hs, le_rfl, hlt⟩
      exact (ho1 s' hs').trans h1
    simp only [mergeBack]
    cases hm : mergeBack isZero ps with
    | nil =>
      rw [hm] at i3
      simp only [List.not_mem_nil, false_and, exists_false, false_iff] at i3
      refine ⟨by simpa using hgp, by simp, fun x => ?_⟩
      constructor
      · rintro ⟨s, hs, h⟩
        exact ⟨s, by simp only [List.mem_singleton] at hs; simp [hs], h⟩
      · rintro ⟨s, hs, h⟩
        rcases List.mem_cons.mp hs with rfl | hs
        · exact ⟨s, by simp, h⟩
        · exact absurd ⟨s, hs, h⟩ (i3 x)
    | cons q qs =>
      rw [hm] at i1 i2 i3 hlow
      obtain ⟨j1, j2⟩ := List.pairwise_cons.mp i2
      simp only
      split_ifs with hc
      · simp only [Bool.and_eq_true, decide_eq_true_eq] at hc
        obtain ⟨heq, hxx⟩ := hc
        obtain ⟨a, a1, a2, a3, a4, a5, a6, a7, a8, a9, a10⟩ := hgp
        obtain ⟨b, b1, b2, b3, b4, b5, b6, b7, b8, b9, b10⟩ := i1 q (by simp)
        have hE : ∀ x, a.1 * bden b x = b.1 * bden a x := by
          intro x
          have := hz _ heq x
          rw [a3, b3] at this
          simp only [Expr.eval, boundFn_num, boundFn_den] at this
          linarith
        have hgn : Good eps ⟨p.fn, { p.dom with x1 := q.dom.x1 }, p.pair⟩ := by
          refine ⟨a, a1, a2, a3, a4, a5, a6, ?_, b8, a9, ?_⟩
          · simp only; rw [← hxx] at b7; linarith
          · intro r hr hu x h1 h2 h3
            simp only at h1 h2
            by_cases hx : x < p.dom.x1
            · exact a10 r hr hu x h1 hx h3
            · have h4 := b10 r hr hu x (by rw [← hxx]; exact not_lt.mp hx) h2 h3
              have ha : (0 : ℝ) < a.1 := by exact_mod_cast a2.1
              have hb : (0 : ℝ) < b.1 := by exact_mod_cast b2.1
              have e := hE x
              have h5 := mul_le_mul_of_nonneg_left h4 ha.le
              refine le_of_mul_le_mul_left ?_ hb
              calc (b.1 : ℝ) * (a.1 * bden r x) = a.1 * (b.1 * bden r x) := by ring
                _ ≤ a.1 * (r.1 * bden b x) := h5
                _ = r.1 * (a.1 * bden b x) := by ring
                _ = r.1 * (b.1 * bden a x) := by rw [e]
                _ = b.1 * (r.1 * bden a x) := by ring
        refine ⟨?_, ?_, ?_⟩
        · intro s hs
          rcases List.mem_cons.mp hs with rfl | hs
          · exact hgn
          · exact i1 s (by simp [hs])
        · rw [List.pairwise_cons]
          exact ⟨fun s hs => j1 s hs, j2⟩
        · intro x
          have i3x := i3 x
          simp only [List.mem_cons, exists_eq_or_imp] at i3x ⊢
          rw [← i3x]
          constructor
          · rintro (⟨h1, h2⟩ | h)
            · by_cases hx : x < p.dom.x1
              · exact Or.inl ⟨h1, hx⟩
              · exact Or.inr (Or.inl ⟨by rw [← hxx]; exact not_lt.mp hx, h2⟩)
            · exact Or.inr (Or.inr h)
          · rintro (⟨h1, h2⟩ | ⟨h1, h2⟩ | h)
            · exact Or.inl ⟨h1, h2.trans (by rw [hxx]; exact b7)⟩
            · exact Or.inl ⟨a7.le.trans (by rw [hxx]; exact h1), h2⟩
            · exact Or.inr h
      · refine ⟨?_, ?_, ?_⟩
        · intro s hs
          rcases List.mem_cons.mp hs with rfl | hs
          · exact hgp
          · exact i1 s hs
        · rw [List.pairwise_cons]
          exact ⟨hlow, i2⟩
        · intro x
          have i3x := i3 x
          rw [List.exists_mem_cons_iff, i3x, List.exists_mem_cons_iff]

/-- A list of pieces which at each point gives the least bound. -/
structure IsMinimum (eps : List (ℚ × ℚ)) (sol : List (Sol ℝ)) : Prop where
  /-- The pieces are intervals with more than one point that contain their left end only, up to 1 at most. -/
  shape : ∀ s ∈ sol, s.dom.incL = true ∧ s.dom.incU = false ∧ s.dom.x0 < s.dom.x1 ∧ s.dom.x1 ≤ 1
  /-- Each point is in at most one piece. -/
  unique : ∀ s ∈ sol, ∀ t ∈ sol, ∀ x, s.dom.contains x = true → t.dom.contains x = true → s = t
  /-- The points of the pieces are those from the least of the lower limits up to 1. -/
  cover : ∀ x, (∃ s ∈ sol, s.dom.contains x = true) ↔ (∃ p ∈ eps, Usable p ∧ blim p ≤ x) ∧ x < 1
  /-- A piece gives the bound of its pair. -/
  bound : ∀ s ∈ sol, s.pair ∈ eps ∧ Usable s.pair ∧ ∀ x, s.fn.at x = bval s.pair x
  /-- The pair can be used at the points of the piece. -/
  valid : ∀ s ∈ sol, ∀ x, s.dom.contains x = true → blim s.pair ≤ x
  /-- Its bound is the least one. -/
  least : ∀ s ∈ sol, ∀ x, s.dom.contains x = true → ∀ q ∈ eps, Usable q → blim q ≤ x → 0 < bden q x →
    0 < bden s.pair x ∧ bval s.pair x ≤ bval q x

/-- **C80.** If at least two of the exponent pairs can be used, the function succeeds, and its result is the minimum of the bounds: its
pieces are disjoint, reach from the least of the lower limits to 1, and at each point the piece there gives the bound of a pair of the
list that can be used there; no pair that can be used there with a finite bound gives a smaller one. (Where a finite bound is
available, the one given is finite.) -/
theorem C80_minimum (isConstant : Expr ℝ → Bool) (realRoots : Expr ℝ → List ℝ) (hr : RootsSpec isConstant realRoots) (hcs : ConstSpec isConstant)
    (isZero : Expr ℝ → Bool) (hz : ZeroSpec isZero) (eps : List (ℚ × ℚ)) (hk : ∀ p ∈ eps, 0 < p.1)
    (htwo : ∃ p ∈ eps, ∃ q ∈ eps, Usable p ∧ Usable q ∧ p ≠ q) :
    ∃ sol, bourgainEpToZd isConstant realRoots isZero eps = .ok sol ∧ IsMinimum eps sol := by
  set B := bounds (K := ℝ) eps with hB
  set cs := critList isConstant realRoots B with hC
  obtain ⟨p1, hp1, p2, hp2, hu1, hu2, hne⟩ := htwo
  have memB : ∀ p ∈ eps, Usable p → mkB p ∈ B := fun p hp hu => (mem_bounds eps hk _).mpr ⟨p, hp, hu, rfl⟩
  have two : ∀ p ∈ eps, Usable p → blim p ∈ cs ∧ (1 : ℝ) ∈ cs := by
    intro p hp hu
    obtain ⟨q, hq, huq, hpq⟩ : ∃ q ∈ eps, Usable q ∧ p ≠ q := by
      by_cases h : p = p1
      · exact ⟨p2, hp2, hu2, by rw [h]; exact hne⟩
      · exact ⟨p1, hp1, hu1, h⟩
    have hb : mkB p ≠ mkB q := fun h => hpq (congrArg Bound.pair h)
    rcases critList_pair isConstant realRoots (memB p hp hu) (memB q hq huq) hb with h | h
    · exact ⟨h _ (by simp [critPair, mkB, Ival.half]), h _ (by simp [critPair, mkB, Ival.half])⟩
    · exact ⟨h _ (by simp [critPair, mkB, Ival.half]), h _ (by simp [critPair, mkB, Ival.half])⟩
  have bnd : ∀ z ∈ cs, z ≤ 1 ∧ ∃ p ∈ eps, Usable p ∧ blim p ≤ z := by
    intro z hzc
    rw [hC, critList_mem] at hzc
    obtain ⟨b, hb, c, hc, hx⟩ := critLoop_mem isConstant realRoots [] B z hzc
    rw [List.nil_append] at hc
    rw [hB, mem_bounds eps hk] at hb hc
    obtain ⟨p, hp, hup, rfl⟩ := hb
    obtain ⟨q, hq, huq, rfl⟩ := hc
    simp only [critPair, List.mem_append, RF.intersections] at hx
    rcases hx with hx | hx
    · split at hx
      · simp at hx
      · rw [List.mem_filter] at hx
        have := (meet_half hup.2.2.2.2 huq.2.2.2.2).mp hx.2
        exact ⟨this.2.2.le, p, hp, hup, this.1⟩
    · simp only [mkB, Ival.half, List.mem_cons, List.not_mem_nil, or_false] at hx
      rcases hx with rfl | rfl | rfl | rfl
      · exact ⟨hup.2.2.2.2.le, p, hp, hup, le_rfl⟩
      · exact ⟨le_rfl, p, hp, hup, hup.2.2.2.2.le⟩
      · exact ⟨huq.2.2.2.2.le, q, hq, huq, le_rfl⟩
      · exact ⟨le_rfl, p, hp, hup, hup.2.2.2.2.le⟩
  have hsort := critList_sorted isConstant realRoots B
  have hzip := zip_tail_spec hsort
  obtain ⟨sol, e1, e2, e3⟩ := solve_good hr hcs eps hk (cs.zip cs.tail) (fun t ht => by
    obtain ⟨h1, h2, h3, h4⟩ := hzip t ht
    exact ⟨h1, (bnd _ h3).1, h4, (bnd _ h2).2⟩) (zip_tail_order hsort) (fun p hp hu => (two p hp hu).1)
  have hord : sol.Pairwise (fun s t => s.dom.x1 ≤ t.dom.x0) := by
    have := zip_tail_order hsort
    rw [← hC, ← e3, List.pairwise_map] at this
    exact this
  obtain ⟨g1, g2, g3⟩ := mergeBack_good hz eps sol e2 hord
  refine ⟨mergeBack isZero sol, ?_, ?_, ?_, ?_, ?_, ?_, ?_⟩
  · rw [← hB] at e1
    simp only [bourgainEpToZd, ← hB, ← hC, e1]
    rfl
  · intro s hs
    obtain ⟨p, _, _, _, _, h1, h2, h3, h4, _⟩ := g1 s hs
    exact ⟨h1, h2, h3, h4⟩
  · intro s hs t ht x hsx htx
    by_contra hst
    have hs' := (g1 s hs).contains x |>.mp hsx
    have ht' := (g1 t ht).contains x |>.mp htx
    have hR : (mergeBack isZero sol).Pairwise (fun s t => s.dom.x1 ≤ t.dom.x0 ∨ t.dom.x1 ≤ s.dom.x0) := g2.imp (fun h => Or.inl h)
    have : Std.Symm (fun s t : Sol ℝ => s.dom.x1 ≤ t.dom.x0 ∨ t.dom.x1 ≤ s.dom.x0) := ⟨fun _ _ h => h.symm⟩
    rcases hR.forall hs ht hst with h | h
    · linarith [hs'.2, ht'.1]
    · linarith [ht'.2, hs'.1]
  · intro x
    have step1 : (∃ s ∈ mergeBack isZero sol, s.dom.contains x = true) ↔ ∃ s ∈ sol, s.dom.x0 ≤ x ∧ x < s.dom.x1 := by
      rw [← g3 x]
      constructor
      · rintro ⟨s, hs, h⟩; exact ⟨s, hs, ((g1 s hs).contains x).mp h⟩
      · rintro ⟨s, hs, h⟩; exact ⟨s, hs, ((g1 s hs).contains x).mpr h⟩
    rw [step1]
    constructor
    · rintro ⟨s, hs, h1, h2⟩
      obtain ⟨p, hp, hu, _, _, _, _, _, h3, h4, _⟩ := e2 s hs
      exact ⟨⟨p, hp, hu, h4.trans h1⟩, h2.trans_le h3⟩
    · rintro ⟨⟨p, hp, hu, h1⟩, h2⟩
      obtain ⟨h3, h4⟩ := two p hp hu
      obtain ⟨t, ht, h5, h6⟩ := zip_tail_cover hsort h3 h1 h4 h2
      rw [← hC, ← e3, List.mem_map] at ht
      obtain ⟨s, hs, rfl⟩ := ht
      exact ⟨s, hs, h5, h6⟩
  · intro s hs
    obtain ⟨p, hp, hu, h1, h2, _⟩ := g1 s hs
    rw [h2, h1]
    exact ⟨hp, hu, boundFn_at p⟩
  · intro s hs x hx
    have hx' := ((g1 s hs).contains x).mp hx
    obtain ⟨p, hp, hu, h1, h2, _, _, _, _, h3, _⟩ := g1 s hs
    rw [h2]
    exact h3.trans hx'.1
  · intro s hs x hx q hq huq hqx hpos
    have hx' := ((g1 s hs).contains x).mp hx
    obtain ⟨p, hp, hu, h1, h2, _, _, _, _, h3, h4⟩ := g1 s hs
    rw [h2]
    have hcross := h4 q hq huq x hx'.1 hx'.2 hqx
    have hp0 : (0 : ℝ) < p.1 := by exact_mod_cast hu.1
    have hq0 : (0 : ℝ) < q.1 := by exact_mod_cast huq.1
    have hpp : 0 < bden p x := by
      have : 0 < q.1 * bden p x := (mul_pos hp0 hpos).trans_le hcross
      exact (mul_pos_iff_of_pos_left hq0).mp this
    refine ⟨hpp, ?_⟩
    rw [bval, bval, div_le_div_iff₀ hpp hpos]
    linarith

/-- **C80 (one pair).** If exactly one bound is found the result is empty: the critical points are only collected from pairs of bounds. -/
theorem C80_single (isConstant : Expr ℝ → Bool) (realRoots : Expr ℝ → List ℝ) (isZero : Expr ℝ → Bool) (eps : List (ℚ × ℚ)) (b : Bound ℝ)
    (h : bounds (K := ℝ) eps = [b]) : bourgainEpToZd isConstant realRoots isZero eps = .ok [] := by
  simp only [bourgainEpToZd, h, critList, critLoop, List.flatMap_nil, List.append_nil, List.dedup_nil, List.insertionSort_nil, List.zip_nil_left, solve]
  rfl

/-- Non-vacuity: a single pair for which the theorem applies gives one bound. -/
example : Usable (1 / 100, 14 / 15) ∧ ∃ b, bounds (K := ℝ) [(1 / 100, 14 / 15)] = [b] := by
  constructor
  · refine ⟨by norm_num, by norm_num, by norm_num, by norm_num, ?_⟩
    rw [← blim_eq]
    have : lowerLimit (1 / 100) (14 / 15) < 1 := by decide +kernel
    exact_mod_cast this
  · refine ⟨⟨boundFn (1 / 100) (14 / 15), .half ((lowerLimit (1 / 100) (14 / 15) : ℚ) : ℝ) 1, (1 / 100, 14 / 15)⟩, ?_⟩
    rw [bounds, if_pos (by decide +kernel), if_neg (by decide +kernel), bounds]

/-! ### The pairs of the code -/

theorem blim_of_small {p : ℚ × ℚ} (h : p.1 ≤ 11 / 85) (h' : p.1 ≤ p.2) (h0 : 0 < p.1) : blim p = (p.2 + 1) / (2 * (p.1 + 1)) := by
  have h1 : (p.1 : ℝ) ≤ p.2 := by exact_mod_cast h'
  have h2 : (0 : ℝ) < p.1 := by exact_mod_cast h0
  have h3 : (1 : ℝ) / 2 ≤ (p.2 + 1) / (2 * (p.1 + 1)) := by
    rw [div_le_div_iff₀ (by norm_num) (by positivity)]; linarith
  rw [blim, if_pos h, max_eq_right h3, max_eq_left h3]

/-- The pairs of the code, checked with rational numbers. -/
theorem pairs_ok : ∀ p ∈ bourgainPairs, 0 < p.1 ∧ p.1 ≤ 11 / 85 ∧ 3 / 5 ≤ p.2 ∧ 13 ≤ 15 * p.2 + 20 * p.1 ∧ p.1 ≤ p.2 ∧ 2 * p.1 + 1 > p.2 ∧
    (p = (11 / 85, 59 / 85) ∨ 3 / 4 * (2 * (p.1 + 1)) < p.2 + 1) := by decide +kernel

theorem pairs_usable (p : ℚ × ℚ) (hp : p ∈ bourgainPairs) : Usable p ∧ blim p = (p.2 + 1) / (2 * (p.1 + 1)) := by
  obtain ⟨h1, h2, h3, h4, h5, h6, -⟩ := pairs_ok p hp
  have e := blim_of_small h2 h5 h1
  refine ⟨⟨h1, h2.trans (by norm_num), h3, h4, ?_⟩, e⟩
  have a1 : (0 : ℝ) < p.1 := by exact_mod_cast h1
  have a2 : (p.2 : ℝ) < 2 * p.1 + 1 := by exact_mod_cast h6
  rw [e, div_lt_one (by positivity)]
  linarith

/-- A row of the table: `a / (b σ - c)` for `lo < σ ≤ hi`. -/
structure TRow where
  a : ℚ
  b : ℚ
  c : ℚ
  lo : ℚ
  hi : ℚ

/-- The published table (zero_density.tex, Corollary bourgain-zero-density-optimized). -/
def tableRows : List TRow :=
  [⟨11, 48, 36, 3 / 4, 14 / 15⟩,
    ⟨391, 2493, 2014, 14 / 15, 2841 / 3016⟩,
    ⟨22232, 163248, 134765, 2841 / 3016, 859 / 908⟩,
    ⟨4406612, 33911310, 28181831, 859 / 908, 635113 / 655952⟩,
    ⟨3918, 49189, 43490, 635113 / 655952, 637457 / 656512⟩,
    ⟨2351558, 39632665, 35918731, 637457 / 656512, 39 / 40⟩,
    ⟨1780, 35670, 32717, 39 / 40, 59 / 60⟩,
    ⟨6, 303, 290, 59 / 60, 1⟩]

/-- The row belongs to a pair of the list whose bound it is and whose limit it respects, and the bound is the least one, at both ends. -/
def rowOk (ps : List (ℚ × ℚ)) (r : TRow) : Bool :=
  ps.any (fun p => decide (r.a * (2 * (1 + p.1)) = 4 * p.1 * r.b) && decide (r.a * (1 + p.2) = 4 * p.1 * r.c) && decide (0 < r.a) &&
    decide ((p.2 + 1) ≤ r.lo * (2 * (p.1 + 1))) && decide (r.lo < r.hi) &&
    ps.all (fun q => decide (p.1 * (2 * (1 + q.1) * r.lo - 1 - q.2) ≤ q.1 * (2 * (1 + p.1) * r.lo - 1 - p.2)) &&
      decide (p.1 * (2 * (1 + q.1) * r.hi - 1 - q.2) ≤ q.1 * (2 * (1 + p.1) * r.hi - 1 - p.2))))

theorem rows_ok : ∀ r ∈ tableRows, rowOk bourgainPairs r = true := by decide +kernel

/-- **C80 (the table).** With the pairs of the code the result has, for every `3/4 < σ < 1`, exactly one piece, and its bound is the one
of the published table. -/
theorem C80_table (isConstant : Expr ℝ → Bool) (realRoots : Expr ℝ → List ℝ) (hr : RootsSpec isConstant realRoots) (hcs : ConstSpec isConstant)
    (isZero : Expr ℝ → Bool) (hz : ZeroSpec isZero) :
    ∃ sol, bourgainEpToZd isConstant realRoots isZero bourgainPairs = .ok sol ∧
      ∀ r ∈ tableRows, ∀ x : ℝ, (r.lo : ℝ) < x → x ≤ (r.hi : ℝ) → x < 1 →
        ∃ s ∈ sol, s.dom.contains x = true ∧ (∀ t ∈ sol, t.dom.contains x = true → t = s) ∧ s.fn.at x = r.a / (r.b * x - r.c) := by
  obtain ⟨sol, h1, h2⟩ := C80_minimum isConstant realRoots hr hcs isZero hz bourgainPairs (fun p hp => (pairs_ok p hp).1)
    ⟨(11 / 85, 59 / 85), by decide +kernel, (1 / 100, 14 / 15), by decide +kernel, (pairs_usable _ (by decide +kernel)).1,
      (pairs_usable _ (by decide +kernel)).1, by decide +kernel⟩
  refine ⟨sol, h1, ?_⟩
  intro r hrow x hlo hhi hx1
  have hok := rows_ok r hrow
  simp only [rowOk, List.any_eq_true, Bool.and_eq_true, decide_eq_true_eq, List.all_eq_true] at hok
  obtain ⟨p, hp, ⟨⟨⟨⟨c1, c2⟩, c3⟩, c4⟩, c5⟩, c6⟩ := hok
  obtain ⟨hu, hlim⟩ := pairs_usable p hp
  have a0 : (0 : ℝ) < p.1 := by exact_mod_cast hu.1
  have hpx : blim p < x := by
    rw [hlim, div_lt_iff₀ (by positivity)]
    have : ((p.2 : ℝ) + 1) ≤ r.lo * (2 * (p.1 + 1)) := by exact_mod_cast c4
    have : (r.lo : ℝ) * (2 * (p.1 + 1)) < x * (2 * (p.1 + 1)) := mul_lt_mul_of_pos_right hlo (by positivity)
    linarith
  have hdp := bden_pos hu.1 hpx
  obtain ⟨s, hs, hsx⟩ := (h2.cover x).mpr ⟨⟨p, hp, hu, hpx.le⟩, hx1⟩
  refine ⟨s, hs, hsx, fun t ht htx => h2.unique t ht s hs x htx hsx, ?_⟩
  obtain ⟨b1, b2, b3⟩ := h2.bound s hs
  obtain ⟨l1, l2⟩ := h2.least s hs x hsx p hp hu hpx.le hdp
  have hcross : p.1 * bden s.pair x ≤ s.pair.1 * bden p x := by
    obtain ⟨d1, d2⟩ := c6 s.pair b1
    have d1' : (p.1 : ℝ) * (2 * (1 + s.pair.1) * r.lo - 1 - s.pair.2) ≤ s.pair.1 * (2 * (1 + p.1) * r.lo - 1 - p.2) := by exact_mod_cast d1
    have d2' : (p.1 : ℝ) * (2 * (1 + s.pair.1) * r.hi - 1 - s.pair.2) ≤ s.pair.1 * (2 * (1 + p.1) * r.hi - 1 - p.2) := by exact_mod_cast d2
    have := Formula.lin_nonneg (p := s.pair.1 * (2 * (1 + p.1)) - p.1 * (2 * (1 + s.pair.1)))
      (q := s.pair.1 * (-1 - p.2) - p.1 * (-1 - s.pair.2)) hlo.le hhi (by linarith) (by linarith)
    unfold bden
    linarith
  have hval : bval s.pair x = bval p x := by
    apply le_antisymm l2
    rw [bval, bval, div_le_div_iff₀ hdp l1]
    linarith
  rw [b3, hval, bval]
  have c1' : (r.a : ℝ) * (2 * (1 + p.1)) = 4 * p.1 * r.b := by exact_mod_cast c1
  have c2' : (r.a : ℝ) * (1 + p.2) = 4 * p.1 * r.c := by exact_mod_cast c2
  have c3' : (0 : ℝ) < r.a := by exact_mod_cast c3
  have e : r.a * bden p x = 4 * p.1 * (r.b * x - r.c) := by
    unfold bden
    linear_combination x * c1' - c2'
  have hrd : r.b * x - r.c ≠ 0 := by
    intro h0
    rw [h0, mul_zero] at e
    rcases mul_eq_zero.mp e with h | h
    · exact c3'.ne' h
    · exact hdp.ne' h
  rw [div_eq_div_iff hdp.ne' hrd]
  linarith

/-- The rows cover `3/4 < σ < 1`. -/
theorem C80_table_cover (x : ℝ) (h1 : 3 / 4 < x) (h2 : x < 1) : ∃ r ∈ tableRows, (r.lo : ℝ) < x ∧ x ≤ (r.hi : ℝ) := by
  have key : ∀ rs : List TRow, ∀ a b : ℚ, (rs.head?.map TRow.lo = some a) → (rs.getLast?.map TRow.hi = some b) →
      rs.IsChain (fun r s => r.hi = s.lo) → (a : ℝ) < x → x ≤ (b : ℝ) → ∃ r ∈ rs, (r.lo : ℝ) < x ∧ x ≤ (r.hi : ℝ) := by
    intro rs
    induction rs with
    | nil => intro a b h; simp at h
    | cons r rs ih =>
      intro a b h3 h4 h5 h6 h7
      simp only [List.head?_cons, Option.map_some, Option.some.injEq] at h3
      subst h3
      by_cases hx : x ≤ (r.hi : ℝ)
      · exact ⟨r, by simp, h6, hx⟩
      · cases rs with
        | nil =>
          simp only [List.getLast?_singleton, Option.map_some, Option.some.injEq] at h4
          subst h4
          exact absurd h7 hx
        | cons s rs =>
          have h8 := List.isChain_cons_cons.mp h5
          obtain ⟨t, ht, h9⟩ := ih s.lo b rfl (by simpa using h4) h8.2 (by rw [← h8.1]; exact not_le.mp hx) h7
          exact ⟨t, by simp [ht], h9⟩
  exact key tableRows (3 / 4) 1 rfl rfl (by
      simp only [tableRows]
      repeat' apply List.IsChain.cons_cons
      all_goals first | rfl | exact List.IsChain.singleton _) (by push_cast; exact h1) (by push_cast; exact h2.le)

/-- Non-vacuity: at 15/16 the bound is `391/(2493 · 15/16 - 2014)`. -/
example (isConstant : Expr ℝ → Bool) (realRoots : Expr ℝ → List ℝ) (hr : RootsSpec isConstant realRoots) (hcs : ConstSpec isConstant)
    (isZero : Expr ℝ → Bool) (hz : ZeroSpec isZero) : ∃ sol, bourgainEpToZd isConstant realRoots isZero bourgainPairs = .ok sol ∧
      ∃ s ∈ sol, s.dom.contains (15 / 16) = true ∧ s.fn.at (15 / 16) = 6256 / 5171 := by
  obtain ⟨sol, h1, h2⟩ := C80_table isConstant realRoots hr hcs isZero hz
  obtain ⟨s, hs, h3, -, h4⟩ := h2 ⟨391, 2493, 2014, 14 / 15, 2841 / 3016⟩ (by simp [tableRows]) (15 / 16) (by norm_num) (by norm_num) (by norm_num)
  exact ⟨sol, h1, s, hs, h3, by rw [h4]; norm_num⟩

/-- Non-vacuity of the contracts. -/
example : (∃ isConstant realRoots, RootsSpec isConstant realRoots ∧ ConstSpec isConstant) ∧ ∃ isZero, ZeroSpec isZero :=
  ⟨rootsSpec_satisfiable, solveSpec_satisfiable.2⟩

/-- Finding: the ranges made by `bourgain_ep_to_zd` contain their left end (zero_density_estimate.py:645-650, the published theorem
needs `σ > (l+1)/(2(k+1))`): the first piece contains 3/4, where its denominator vanishes, so that the estimate has no value there. -/
theorem C80_left_counterexample (isConstant : Expr ℝ → Bool) (realRoots : Expr ℝ → List ℝ) (hr : RootsSpec isConstant realRoots)
    (hcs : ConstSpec isConstant) (isZero : Expr ℝ → Bool) (hz : ZeroSpec isZero) :
    ∃ sol, bourgainEpToZd isConstant realRoots isZero bourgainPairs = .ok sol ∧
      ∃ s ∈ sol, s.dom.contains (3 / 4) = true ∧ s.pair = (11 / 85, 59 / 85) ∧ bden s.pair (3 / 4) = 0 := by
  obtain ⟨sol, h1, h2⟩ := C80_minimum isConstant realRoots hr hcs isZero hz bourgainPairs (fun p hp => (pairs_ok p hp).1)
    ⟨(11 / 85, 59 / 85), by decide +kernel, (1 / 100, 14 / 15), by decide +kernel, (pairs_usable _ (by decide +kernel)).1,
      (pairs_usable _ (by decide +kernel)).1, by decide +kernel⟩
  have hm : (11 / 85, 59 / 85) ∈ bourgainPairs := by decide +kernel
  obtain ⟨s, hs, hsx⟩ := (h2.cover (3 / 4)).mpr ⟨⟨_, hm, (pairs_usable _ hm).1, by rw [(pairs_usable _ hm).2]; push_cast; norm_num⟩, by norm_num⟩
  have hp : s.pair = (11 / 85, 59 / 85) := by
    obtain ⟨b1, _⟩ := h2.bound s hs
    have hv := h2.valid s hs (3 / 4) hsx
    obtain ⟨e1, _, _, _, _, _, e2⟩ := pairs_ok s.pair b1
    rcases e2 with e2 | e2
    · exact e2
    · exfalso
      rw [(pairs_usable _ b1).2] at hv
      have a0 : (0 : ℝ) < s.pair.1 := by exact_mod_cast e1
      have e3 : (((3 / 4 * (2 * (s.pair.1 + 1)) : ℚ)) : ℝ) < ((s.pair.2 + 1 : ℚ) : ℝ) := by exact_mod_cast e2
      push_cast at e3
      rw [div_le_iff₀ (by positivity)] at hv
      linarith
  refine ⟨sol, h1, s, hs, hsx, hp, ?_⟩
  rw [hp, bden]
  push_cast
  norm_num

end PairZD
end Expdb
