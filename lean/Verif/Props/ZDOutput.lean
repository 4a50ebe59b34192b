import Verif.Props.DerivedBeta
import Verif.Model.ZDOutput

/-!
# C117: what `prove_zero_density` prints and draws

`lv_zlv_to_zd` returns bounds on `A(sigma) (1 - sigma)`; the curves show bounds on `A(sigma)`.
-/

namespace Expdb
namespace ZDOutput

open Rational DerivedZD SupRatio

/-! ### The returned intervals -/

/-- All intervals contain their left end and not their right end. -/
def HalfOpen (l : List (Rational.Piece ℝ)) : Prop := ∀ q ∈ l, q.dom.incL = true ∧ q.dom.incU = false

theorem halfOpen_mergeFrom (isZero : Expr ℝ → Bool) (track : Bool) : ∀ (l : List (Rational.Piece ℝ)) (p : Rational.Piece ℝ), HalfOpen (mergeFrom isZero track p l) := by
  intro l
  induction l with
  | nil =>
    intro p q hq
    rw [mergeFrom, List.mem_singleton] at hq
    subst hq
    exact ⟨rfl, rfl⟩
  | cons a l ih =>
    intro p
    rw [mergeFrom]
    split
    · exact ih _
    · intro q hq
      rcases List.mem_cons.mp hq with rfl | hq
      · exact ⟨rfl, rfl⟩
      · exact ih _ q hq

theorem halfOpen_loop (solve : RF ℝ → RF ℝ → List ℝ) (isZero : Expr ℝ → Bool) (cmp : ℝ → ℝ → Bool) (track : Bool) :
    ∀ (fs : List (RF ℝ × Ival ℝ)) (i : ℕ) (best : List (Rational.Piece ℝ)), HalfOpen best → HalfOpen (optimalLoop solve isZero cmp track i fs best) := by
  intro fs
  induction fs with
  | nil => intro i best h; exact h
  | cons t fs ih =>
    intro i best _
    refine ih _ _ ?_
    cases best.flatMap (splitPiece solve cmp t.1 t.2 (i : ℤ)) with
    | nil => intro q hq; exact absurd hq (by simp [mergePieces])
    | cons a l => exact halfOpen_mergeFrom _ _ _ _

theorem halfOpen_max (solve : RF ℝ → RF ℝ → List ℝ) (isZero : Expr ℝ → Bool) (fs : List (RF ℝ × Ival ℝ)) (x0 x1 : ℝ) (track : Bool) :
    HalfOpen (rfMax solve isZero fs ⟨x0, x1, true, false⟩ track) := by
  refine halfOpen_loop _ _ _ _ _ _ _ ?_
  intro q hq
  rw [List.mem_singleton] at hq
  subst hq
  exact ⟨rfl, rfl⟩

theorem contains_half {l : List (Rational.Piece ℝ)} (h : HalfOpen l) {q : Rational.Piece ℝ} (hq : q ∈ l) (x : ℝ) :
    q.dom.contains x = true ↔ q.dom.x0 ≤ x ∧ x < q.dom.x1 := by
  obtain ⟨h1, h2⟩ := h q hq
  simp [Ival.contains, h1, h2]

/-- The intervals returned by `prove_zero_density`. -/
theorem halfOpen_beta {eng : Engine} {edges : Mat → List (Pt × Pt)} {solve : RF ℝ → RF ℝ → List ℝ} {isZero : Expr ℝ → Bool}
    {orderR : List (Region ℕ) → List (Region ℕ)} {orderK : List ℚ → List ℚ} {lvs : List (Region ℕ)} {betas : List Beta.Hyp} {x0 x1 tau0 : ℚ}
    {out : List (Rational.Piece ℝ)} (h : proveZeroDensityBeta eng edges solve isZero orderR orderK lvs betas x0 x1 tau0 = .ok out) : HalfOpen out := by
  unfold proveZeroDensityBeta ZeroDensity.lvZlvToZd at h
  simp only [bind, Except.bind, pure, Except.pure] at h
  repeat' (split at h; · cases h)
  cases h
  exact halfOpen_max _ _ _ _ _ _

/-! ### Specification and theorems -/

theorem min_const {v : ℝ} : ∀ l : List ℝ, (∀ y ∈ l, y = v) → l.foldl min v = v := by
  intro l
  induction l with
  | nil => intro _; rfl
  | cons a l ih =>
    intro h
    rw [List.foldl_cons, h a List.mem_cons_self, min_self]
    exact ih fun y hy => h y (List.mem_cons_of_mem _ hy)

/-- The height that is drawn at a point. -/
theorem height_eq {x0 x1 : ℚ} {out : List (Rational.Piece ℝ)} (hp : Pieces x0 x1 out) (hh : HalfOpen out) (hx1 : x1 ≤ 1) {W : ℝ → ℝ} (hW : IsBound x0 x1 out W)
    (x : ℝ) : height out x = .ok (if (x0 : ℝ) ≤ x ∧ x < x1 then some (W x / (1 - x)) else none) := by
  unfold height
  simp only
  by_cases h1 : (out.filter (fun z => z.dom.contains x)).length > 0 <;> by_cases h2 : (x0 : ℝ) ≤ x ∧ x < x1
  · rw [if_pos h1, if_pos h2]
    obtain ⟨q, q1, q2, q3, q4, q5⟩ := hW x h2.1 h2.2
    have hne : 1 - x ≠ 0 := by
      have : (x1 : ℝ) ≤ 1 := by exact_mod_cast hx1
      have := h2.2
      intro h
      linarith
    have hall : ∀ z ∈ out.filter (fun z => z.dom.contains x), z = q := by
      intro z hz
      obtain ⟨z1, z2⟩ := List.mem_filter.mp hz
      obtain ⟨z3, z4⟩ := (contains_half hh z1 x).mp z2
      exact q4 z z1 z3 z4
    revert h1 hall
    generalize out.filter (fun z => z.dom.contains x) = zs
    intro h1 hall
    have hm : ∀ l : List (Rational.Piece ℝ), (∀ z ∈ l, z = q) → l.mapM (ratio x) = Except.ok (l.map fun _ => W x / (1 - x)) := by
      intro l
      induction l with
      | nil => intro _; rfl
      | cons a l ih =>
        intro h
        rw [List.mapM_cons, ih fun z hz => h z (List.mem_cons_of_mem _ hz), h a List.mem_cons_self]
        simp [ratio, hne, q5, bind, Except.bind, pure, Except.pure]
    rw [hm zs hall]
    cases zs with
    | nil => simp at h1
    | cons a l =>
      simp only [bind, Except.bind, List.map_cons, minOf, pure, Except.pure]
      rw [min_const _ (by simp)]
  · exfalso
    obtain ⟨z, hz⟩ := List.exists_mem_of_length_pos h1
    obtain ⟨z1, z2⟩ := List.mem_filter.mp hz
    obtain ⟨z3, z4⟩ := (contains_half hh z1 x).mp z2
    obtain ⟨_, k1, k2⟩ := hp.1.lt z z1
    exact h2 ⟨k1.trans z3, z4.trans_le k2⟩
  · exfalso
    obtain ⟨q, q1, q2, q3, _⟩ := hW x h2.1 h2.2
    exact h1 (List.length_pos_of_mem (List.mem_filter.mpr ⟨q1, (contains_half hh q1 x).mpr ⟨q2, q3⟩⟩))
  · rw [if_neg h1, if_neg h2]

/-- **C117** (the curve) If the returned pieces are the bound `W` for `A(sigma) (1 - sigma)` on `[x0, x1)`, then `prove_zero_density` with `plot=True` does not raise
and draws 100 points from `1/2` to `1`: the bound `W / (1 - sigma)` for `A(sigma)` on `[x0, x1)`, and gaps elsewhere. -/
theorem C117_curve {x0 x1 : ℚ} {out : List (Rational.Piece ℝ)} (hp : Pieces x0 x1 out) (hh : HalfOpen out) (hx : x0 < x1) (hx1 : x1 ≤ 1) {W : ℝ → ℝ}
    (hW : IsBound x0 x1 out W) : ∃ c, curve out = .ok c ∧ c.length = 100 ∧ ∀ i : ℕ, i < 100 → ∃ x y, c[i]? = some (x, y) ∧ x = 1 / 2 + i / 198 ∧
      (x0 ≤ x → x < x1 → y = some (W x / (1 - x))) ∧ (x < x0 ∨ x1 ≤ x → y = none) := by
  have hlen : out.length > 0 := by
    obtain ⟨q, q1, _⟩ := hW x0 le_rfl (by exact_mod_cast hx)
    exact List.length_pos_of_mem q1
  have hm : ∀ l : List ℝ, (l.mapM fun x => do
      let y ← height out x
      return (x, y)) = Except.ok (l.map fun x : ℝ => (x, if (x0 : ℝ) ≤ x ∧ x < x1 then some (W x / (1 - x)) else none)) := by
    intro l
    induction l with
    | nil => rfl
    | cons a l ih =>
      rw [List.mapM_cons, ih, height_eq hp hh hx1 hW]
      rfl
  refine ⟨_, by unfold curve; rw [if_pos hlen]; exact hm _, by simp [points], fun i hi => ?_⟩
  refine ⟨1 / 2 + i * ((1 - 1 / 2) / 99), _, by simp only [points, List.getElem?_map, List.getElem?_range hi, Option.map_some]; rfl, by ring, ?_, ?_⟩
  · intro h1 h2
    rw [if_pos ⟨h1, h2⟩]
  · intro h
    rw [if_neg]
    rintro ⟨h1, h2⟩
    rcases h with h | h <;> linarith

/-- **C117** (the printed proof) The proof that is printed is that of the piece which gives the bound at the midpoint of the interval. -/
theorem C117_printed {x0 x1 : ℚ} {out : List (Rational.Piece ℝ)} (hh : HalfOpen out) (hx : x0 < x1) {W : ℝ → ℝ} (hW : IsBound x0 x1 out W) :
    ∃ q ∈ out, printed out (x0 : ℝ) x1 = some q ∧ q.dom.x0 ≤ ((x0 : ℝ) + x1) / 2 ∧ ((x0 : ℝ) + x1) / 2 < q.dom.x1 ∧
      q.fn.at (((x0 : ℝ) + x1) / 2) = W (((x0 : ℝ) + x1) / 2) := by
  have hx' : (x0 : ℝ) < x1 := by exact_mod_cast hx
  obtain ⟨q, q1, q2, q3, q4, q5⟩ := hW (((x0 : ℝ) + x1) / 2) (by linarith) (by linarith)
  refine ⟨q, q1, ?_, q2, q3, q5⟩
  unfold printed
  rw [if_pos (List.length_pos_of_mem q1)]
  cases hf : out.find? (fun h => h.dom.contains (((x0 : ℝ) + x1) / 2)) with
  | none => exact absurd ((contains_half hh q1 _).mpr ⟨q2, q3⟩) (List.find?_eq_none.mp hf q q1)
  | some p =>
    have hp := List.mem_of_find?_eq_some hf
    obtain ⟨p1, p2⟩ := (contains_half hh hp _).mp (by have := List.find?_some hf; exact this)
    rw [q4 p hp p1 p2]

/-- **C117** (`plot` of the examples) At the points of the interval `plot` shows `W / (1 - sigma)`. All its 500 points lie in `[1/2, 1)`. -/
theorem C117_example {x0 x1 : ℚ} {out : List (Rational.Piece ℝ)} (hh : HalfOpen out) {W : ℝ → ℝ} (hW : IsBound x0 x1 out W) (i : ℕ) (hi : i < 500) :
    (1 / 2 ≤ (examplePoint i : ℝ) ∧ (examplePoint i : ℝ) < 1) ∧
      (x0 ≤ (examplePoint i : ℝ) → (examplePoint i : ℝ) < x1 → exampleValue out (examplePoint i) = .ok (W (examplePoint i) / (1 - examplePoint i))) := by
  have hb : 1 / 2 ≤ (examplePoint i : ℝ) ∧ (examplePoint i : ℝ) < 1 := by
    have h1 : (i : ℝ) < 500 := by exact_mod_cast hi
    have h2 : (0 : ℝ) ≤ i := Nat.cast_nonneg i
    unfold examplePoint
    constructor <;> linarith
  refine ⟨hb, fun h1 h2 => ?_⟩
  obtain ⟨q, q1, q2, q3, q4, q5⟩ := hW _ h1 h2
  unfold exampleValue
  cases hf : out.find? (fun p => p.dom.contains (examplePoint i : ℝ)) with
  | none => exact absurd ((contains_half hh q1 _).mpr ⟨q2, q3⟩) (List.find?_eq_none.mp hf q q1)
  | some p =>
    have hp := List.mem_of_find?_eq_some hf
    obtain ⟨p1, p2⟩ := (contains_half hh hp _).mp (by have := List.find?_some hf; exact this)
    rw [q4 p hp p1 p2]
    simp only
    rw [if_neg (by intro h; linarith [hb.2]), q5]

/-- **C117** (`plot` of the examples, elsewhere) Outside the interval of the estimate `plot` shows the value `0`, not a gap. The calls in the file use `[1/2, 1)`,
which contains all points. -/
theorem C117_outside {x0 x1 : ℚ} {out : List (Rational.Piece ℝ)} (hp : Pieces x0 x1 out) (hh : HalfOpen out) (i : ℕ) (hi : i < 500)
    (h : (examplePoint i : ℝ) < x0 ∨ x1 ≤ (examplePoint i : ℝ)) : exampleValue out (examplePoint i : ℝ) = .ok 0 := by
  have hb : (examplePoint i : ℝ) < 1 := by
    have h1 : (i : ℝ) < 500 := by exact_mod_cast hi
    unfold examplePoint
    linarith
  unfold exampleValue
  cases hf : out.find? (fun p => p.dom.contains (examplePoint i : ℝ)) with
  | none =>
    simp only
    rw [if_neg (by intro h; linarith), zero_div]
  | some p =>
    exfalso
    have hm := List.mem_of_find?_eq_some hf
    obtain ⟨p1, p2⟩ := (contains_half hh hm _).mp (by have := List.find?_some hf; exact this)
    obtain ⟨_, k1, k2⟩ := hp.1.lt p hm
    rcases h with h | h <;> linarith

/-- The theorems apply to one piece, the bound `3 (1 - sigma)` on `[1/2, 1)`. -/
example : ∃ out : List (Rational.Piece ℝ), Pieces (1 / 2) 1 out ∧ HalfOpen out ∧ IsBound (1 / 2) 1 out (fun x => 3 * (1 - x)) ∧
    (∃ c, curve out = .ok c ∧ ∃ x, c[99]? = some (x, none)) ∧ exampleValue out (examplePoint 250) = .ok 3 := by
  obtain ⟨q, hq, hd, hat⟩ : ∃ q : Rational.Piece ℝ, q.dom = ⟨1 / 2, 1, true, false⟩ ∧ (∀ x, q.fn.Def x) ∧ ∀ x, q.fn.at x = 3 * (1 - x) := by
    refine ⟨⟨RF.make [-3, 3] none, ⟨1 / 2, 1, true, false⟩, 0⟩, rfl, fun x => ?_, fun x => ?_⟩
    · simp [RF.make, RF.Def, polyExpr, polyLoop, Expr.eval]
    · simp [RF.make, RF.at, polyExpr, polyLoop, Expr.eval]
      ring
  have hp : Pieces (1 / 2) 1 [q] := by
    refine ⟨⟨by rw [hq]; norm_num, by rw [hq]; norm_num, by rw [hq, Chain]; norm_num⟩, fun p hp x _ _ => ?_⟩
    rw [List.mem_singleton.mp hp]
    exact hd x
  have hh : HalfOpen [q] := by
    intro p hp
    rw [List.mem_singleton.mp hp, hq]
    exact ⟨rfl, rfl⟩
  have hW : IsBound (1 / 2) 1 [q] (fun x => 3 * (1 - x)) := by
    intro x l1 l2
    push_cast at l1 l2
    exact ⟨q, List.mem_singleton.mpr rfl, by rw [hq]; exact l1, by rw [hq]; exact l2, fun p hp _ _ => List.mem_singleton.mp hp, hat x⟩
  refine ⟨[q], hp, hh, hW, ?_, ?_⟩
  · obtain ⟨c, c1, _, c3⟩ := C117_curve hp hh (by norm_num) le_rfl hW
    obtain ⟨x, y, d1, d2, _, d4⟩ := c3 99 (by norm_num)
    norm_num at d2
    refine ⟨c, c1, x, ?_⟩
    rw [d1, d4 (.inr (by rw [d2]; norm_num))]
  · have h := (C117_example hh hW 250 (by norm_num)).2 (by unfold examplePoint; norm_num) (by unfold examplePoint; norm_num)
    rw [h]
    unfold examplePoint
    norm_num

/-- An estimate on `[3/4, 1)` is shown as `0` at `1/2`. -/
example : ∃ out : List (Rational.Piece ℝ), Pieces (3 / 4) 1 out ∧ HalfOpen out ∧ exampleValue out (examplePoint 0 : ℝ) = .ok 0 := by
  have hp : Pieces (3 / 4) 1 [⟨RF.make [-3, 3] none, ⟨3 / 4, 1, true, false⟩, 0⟩] := by
    refine ⟨⟨by norm_num, by norm_num, by norm_num [Chain]⟩, fun p hp x _ _ => ?_⟩
    rw [List.mem_singleton.mp hp]
    simp [RF.make, RF.Def, polyExpr, polyLoop, Expr.eval]
  have hh : HalfOpen [⟨RF.make [-3, 3] none, ⟨3 / 4, 1, true, false⟩, 0⟩] := by
    intro p hp
    rw [List.mem_singleton.mp hp]
    exact ⟨rfl, rfl⟩
  exact ⟨_, hp, hh, C117_outside hp hh 0 (by norm_num) (.inl (by unfold examplePoint; norm_num))⟩

/-- **C117** (the extended Heath-Brown estimate) `prove_zero_density_heathbrown_extended`, the only derivation with `plot=True` (derived.py:577), draws
`3 / (10 sigma - 7)` at the points of `[20/23, 1)` and nothing elsewhere, and prints the proof of the piece that contains `43/46`. -/
theorem C117_extended {eng : Engine} {edges : Mat → List (Pt × Pt)} {solve : RF ℝ → RF ℝ → List ℝ} {isZero : Expr ℝ → Bool}
    {orderR : List (Region ℕ) → List (Region ℕ)} {orderK : List ℚ → List ℚ} (C : Contracts eng edges solve isZero orderR orderK) :
    ∃ out c, proveHBExtended eng edges solve isZero orderR orderK = .ok out ∧ curve out = .ok c ∧ c.length = 100 ∧
      (∀ i : ℕ, i < 100 → ∃ x y, c[i]? = some (x, y) ∧ x = 1 / 2 + i / 198 ∧ (20 / 23 ≤ x → x < 1 → y = some (3 / (10 * x - 7))) ∧
        (x < 20 / 23 ∨ 1 ≤ x → y = none)) ∧
      ∃ q ∈ out, printed out (20 / 23) 1 = some q ∧ q.fn.at (43 / 46) = 1 / 12 := by
  obtain ⟨R, e1, e2⟩ := jut_of C
  obtain ⟨H, h1, h2⟩ := covers_of C hb (by simp [hb]) hb_staggered
  replace h1 : LargeValues.convertBounds eng.canon Literature.heathBrown = .ok H := h1
  have e3 : Covers [R, H] [(jut, 1), (hb, 1)] := e2.append h2
  obtain ⟨out, g1, g2, _⟩ := C91_value C [jut, hb] [R, H] ⟨0, BetaPairs.pairBound (3 / 40) (31 / 40)⟩ rfl e3 (by decide +kernel) (by simp [jut, hb])
    (20 / 23) 4 (by norm_num) (by norm_num) (by norm_num) (by norm_num) (by norm_num [BetaPairs.pairBound]) (by norm_num [BetaPairs.pairBound])
    (by norm_num [BetaPairs.pairBound])
  have hok : proveHBExtended eng edges solve isZero orderR orderK = .ok out := by
    unfold proveHBExtended
    rw [e1, h1]
    exact g1
  obtain ⟨out', k1, k2⟩ := C91_extended C
  obtain rfl : out = out' := Except.ok.inj (hok.symm.trans k1)
  have hh : HalfOpen out := halfOpen_beta g1
  obtain ⟨c, c1, c2, c3⟩ := C117_curve g2 hh (by norm_num) le_rfl k2
  refine ⟨out, c, hok, c1, c2, ?_, ?_⟩
  · intro i hi
    obtain ⟨x, y, d1, d2, d3, d4⟩ := c3 i hi
    push_cast at d3 d4
    refine ⟨x, y, d1, d2, fun l1 l2 => ?_, d4⟩
    rw [d3 l1 l2]
    congr 1
    have h1 : 10 * x - 7 ≠ 0 := by intro h; linarith
    have h2 : 1 - x ≠ 0 := by intro h; linarith
    field_simp
  · obtain ⟨q, q1, q2, _, _, q5⟩ := C117_printed hh (by norm_num) k2
    push_cast at q2 q5
    refine ⟨q, q1, q2, ?_⟩
    rw [show (43 / 46 : ℝ) = (20 / 23 + 1) / 2 by norm_num, q5]
    norm_num

/-- The contracts can be met: at `179/198` the value `297/202` is drawn, and at `1/2` there is a gap. -/
example : ∃ eng edges solve isZero orderR orderK out c, proveHBExtended eng edges solve isZero orderR orderK = .ok out ∧ curve out = .ok c ∧
    c[80]? = some ((179 / 198 : ℝ), some (297 / 202)) ∧ c[0]? = some (1 / 2, none) := by
  obtain ⟨eng, edges, solve, isZero, orderR, orderK, C⟩ := contracts_satisfiable
  obtain ⟨out, c, h1, h2, _, h4, _⟩ := C117_extended C
  refine ⟨eng, edges, solve, isZero, orderR, orderK, out, c, h1, h2, ?_, ?_⟩
  · obtain ⟨x, y, d1, d2, d3, _⟩ := h4 80 (by norm_num)
    norm_num at d2
    subst d2
    rw [d1, d3 (by norm_num) (by norm_num)]
    norm_num
  · obtain ⟨x, y, d1, d2, _, d4⟩ := h4 0 (by norm_num)
    norm_num at d2
    subst d2
    rw [d1, d4 (.inl (by norm_num))]

end ZDOutput
end Expdb
