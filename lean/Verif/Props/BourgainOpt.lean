import Verif.Model.BourgainOpt
import Verif.Props.LiteratureLV

/-!
# Property C98: the optimiser for Bourgain's large value theorem
-/

namespace Expdb
namespace BourgainOpt

open Literature (bourgainMax Allowed InRow rowBound bourgain_lt bourgain_le C71_table C71_cover)

/-! ### Specification -/

/-- The value of the linear form `[c, a, b]` at `(σ, τ)`. -/
def lin (f : List ℚ) (σ τ : ℚ) : ℚ := f.getD 0 0 + f.getD 1 0 * σ + f.getD 2 0 * τ

/-- A row of `eqns` as an equation in `a1, a2, sigma, tau, M`. -/
def Holds (e : List ℚ) (a1 a2 σ τ M : ℚ) : Prop :=
  e.getD 0 0 * a1 + e.getD 1 0 * a2 + e.getD 2 0 * σ + e.getD 3 0 * τ + e.getD 4 0 * M + e.getD 5 0 = 0

/-- The choices of the parameters found by the loop. -/
def choices : List (List ℚ × List ℚ) := triples.filterMap step

/-- The intersection that the comments of the code describe: for every choice of the parameters, the point lies where the choice is
not admissible or below one of the six functions. -/
def Intended (σ τ ρ : ℚ) : Prop :=
  ∀ a ∈ choices, lin a.1 σ τ < 0 ∨ lin a.2 σ τ < 0 ∨ ∃ f ∈ fns a.1 a.2, ρ ≤ lin f σ τ

/-! ### Row reduction -/

/-- The value of a row at a vector. -/
def dot (r x : List ℚ) : ℚ := (List.zipWith (· * ·) r x).sum

theorem dot_subRow (f : ℚ) : ∀ r o x : List ℚ, r.length = x.length → o.length = x.length →
    dot (subRow r o f) x = dot r x - dot o x * f
  | [], [], [], _, _ => by simp [dot, subRow]
  | [], _ :: _, [], _, h => by simp at h
  | _ :: _, _, [], h, _ => by simp at h
  | [], _, _ :: _, h, _ => by simp at h
  | _ :: _, [], _ :: _, _, h => by simp at h
  | a :: r, b :: o, c :: x, h1, h2 => by
    have ih := dot_subRow f r o x (by simpa using h1) (by simpa using h2)
    simp only [dot, subRow, List.zipWith_cons_cons, List.sum_cons] at ih ⊢
    rw [ih]; ring

theorem dot_map_div (d : ℚ) : ∀ r x : List ℚ, dot (r.map (fun a => a / d)) x = dot r x / d
  | [], x => by simp [dot]
  | a :: r, [] => by simp [dot]
  | a :: r, c :: x => by
    have ih := dot_map_div d r x
    simp only [dot, List.map_cons, List.zipWith_cons_cons, List.sum_cons] at ih ⊢
    rw [ih]; ring

theorem splitPivot_spec (j : ℕ) : ∀ (l : List (List ℚ)) p rest, splitPivot j l = some (p, rest) →
    p.getD j 0 ≠ 0 ∧ ∀ r, r ∈ l ↔ r = p ∨ r ∈ rest
  | [], p, rest, h => by simp [splitPivot] at h
  | r :: rs, p, rest, h => by
    unfold splitPivot at h
    split_ifs at h with h0
    · simp only [Option.some.injEq, Prod.mk.injEq] at h
      obtain ⟨rfl, rfl⟩ := h
      exact ⟨h0, fun s => by simp⟩
    · obtain ⟨⟨p', rest'⟩, h1, h2⟩ := Option.map_eq_some_iff.mp h
      simp only [Prod.mk.injEq] at h2
      obtain ⟨rfl, rfl⟩ := h2
      obtain ⟨k1, k2⟩ := splitPivot_spec j rs _ _ h1
      refine ⟨k1, fun s => ?_⟩
      simp only [List.mem_cons, k2 s]
      tauto

theorem rrefLoop_sound (x : List ℚ) : ∀ (n j : ℕ) (done todo : List (List ℚ)),
    (∀ r ∈ done, r.length = x.length) → (∀ r ∈ todo, r.length = x.length) →
    ((∀ r ∈ rrefLoop n j done todo, dot r x = 0) ↔ (∀ r ∈ done, dot r x = 0) ∧ ∀ r ∈ todo, dot r x = 0)
  | 0, j, done, todo, _, _ => by
    unfold rrefLoop
    simp only [List.mem_append, or_imp, forall_and]
  | n + 1, j, done, todo, h1, h2 => by
    unfold rrefLoop
    cases hs : splitPivot j todo with
    | none => exact rrefLoop_sound x n (j + 1) done todo h1 h2
    | some pr =>
      obtain ⟨p, rest⟩ := pr
      obtain ⟨k1, k2⟩ := splitPivot_spec j todo p rest hs
      have hp : p.length = x.length := h2 p ((k2 p).mpr (Or.inl rfl))
      have hr : ∀ r ∈ rest, r.length = x.length := fun r hr => h2 r ((k2 r).mpr (Or.inr hr))
      set q := p.map (fun x => x / p.getD j 0) with hq
      have hql : q.length = x.length := by rw [hq, List.length_map, hp]
      have hlen : ∀ r : List ℚ, r.length = x.length → (subRow r q (r.getD j 0)).length = x.length := fun r h => by
        simp [subRow, h, hql]
      dsimp only
      rw [rrefLoop_sound x n (j + 1) _ _ ?_ ?_]
      · have e0 : dot q x = 0 ↔ dot p x = 0 := by
          rw [hq, dot_map_div, div_eq_zero_iff]
          exact ⟨fun h => h.resolve_right k1, Or.inl⟩
        constructor
        · rintro ⟨ha, hb⟩
          have hq0 : dot q x = 0 := ha q (List.mem_append_right _ (List.mem_singleton.mpr rfl))
          refine ⟨fun r hr' => ?_, fun r hr' => ?_⟩
          · have := ha (subRow r q (r.getD j 0)) (List.mem_append_left _ (List.mem_map.mpr ⟨r, hr', rfl⟩))
            rw [dot_subRow _ _ _ _ (h1 r hr') hql, hq0] at this
            linarith
          · rcases (k2 r).mp hr' with rfl | hr''
            · exact e0.mp hq0
            · have := hb (subRow r q (r.getD j 0)) (List.mem_map.mpr ⟨r, hr'', rfl⟩)
              rw [dot_subRow _ _ _ _ (hr r hr'') hql, hq0] at this
              linarith
        · rintro ⟨ha, hb⟩
          have hq0 : dot q x = 0 := e0.mpr (hb p ((k2 p).mpr (Or.inl rfl)))
          refine ⟨fun r hr' => ?_, fun r hr' => ?_⟩
          · rcases List.mem_append.mp hr' with h | h
            · obtain ⟨s, hs', rfl⟩ := List.mem_map.mp h
              rw [dot_subRow _ _ _ _ (h1 s hs') hql, hq0, ha s hs']; ring
            · rw [List.mem_singleton.mp h]; exact hq0
          · obtain ⟨s, hs', rfl⟩ := List.mem_map.mp hr'
            rw [dot_subRow _ _ _ _ (hr s hs') hql, hq0, hb s ((k2 s).mpr (Or.inr hs'))]; ring
      · intro r hr'
        rcases List.mem_append.mp hr' with h | h
        · obtain ⟨s, hs', rfl⟩ := List.mem_map.mp h
          exact hlen s (h1 s hs')
        · rw [List.mem_singleton.mp h]; exact hql
      · intro r hr'
        obtain ⟨s, hs', rfl⟩ := List.mem_map.mp hr'
        exact hlen s (hr s hs')

/-- **C98** (row reduction) The row reduction keeps the set of solutions, for every matrix. -/
theorem C98_rref (cols : ℕ) (m : List (List ℚ)) (x : List ℚ) (h : ∀ r ∈ m, r.length = x.length) :
    (∀ r ∈ rref cols m, dot r x = 0) ↔ ∀ r ∈ m, dot r x = 0 := by
  unfold rref
  rw [rrefLoop_sound x cols 0 [] m (by simp) h]
  simp

/-- The first matrix of the code, its reduced form, and the common solution of both for `σ = 3/4` and `τ = 2`. -/
example : rref 6 (triples.getD 0 []) = [[1, 0, 0, -1 / 5, -3 / 10, 2 / 5], [0, 1, 0, -2 / 5, -3 / 5, 4 / 5], [0, 0, 1, -1 / 5, 1 / 5, -3 / 5]] ∧
    (∀ r ∈ triples.getD 0 [], r.length = 6) ∧ ∀ r ∈ rref 6 (triples.getD 0 []), dot r [3 / 8, 3 / 4, 3 / 4, 2, 5 / 4, 1] = 0 := by
  decide +kernel

/-! ### The choices of the parameters -/

theorem lin_fnOf (e a1 a2 : List ℚ) (σ τ : ℚ) : lin (fnOf e a1 a2) σ τ =
    e.getD 0 0 * lin a1 σ τ + e.getD 1 0 * lin a2 σ τ + e.getD 2 0 * σ + e.getD 3 0 * τ + e.getD 5 0 := by
  simp only [lin, fnOf, List.getD_cons_zero, List.getD_cons_succ]
  ring

theorem solves_check : (triples.all fun c => match step c with
    | none => true
    | some a => c.all fun e => decide ((e.getD 4 0 = 0 ∧ fnOf e a.1 a.2 = [0, 0, 0]) ∨
      (e.getD 4 0 = -1 ∧ fnOf e a.1 a.2 = fnOf (c.getD 0 []) a.1 a.2))) = true := by
  decide +kernel

/-- **C98** (the choices solve their equations) The parameters that the loop computes from three of the eight equations satisfy these
three equations for all `σ, τ`, with a suitable value of the maximum `M`. -/
theorem C98_solves (c : List (List ℚ)) (hc : c ∈ triples) (a : List ℚ × List ℚ) (ha : step c = some a) (σ τ : ℚ) :
    ∃ M, ∀ e ∈ c, Holds e (lin a.1 σ τ) (lin a.2 σ τ) σ τ M := by
  have h := List.all_eq_true.mp solves_check c hc
  rw [ha] at h
  refine ⟨lin (fnOf (c.getD 0 []) a.1 a.2) σ τ, fun e he => ?_⟩
  have k := of_decide_eq_true (List.all_eq_true.mp h e he)
  have l := lin_fnOf e a.1 a.2 σ τ
  unfold Holds
  rcases k with ⟨k1, k2⟩ | ⟨k1, k2⟩
  · rw [k2] at l
    have : lin [0, 0, 0] σ τ = 0 := by simp [lin]
    rw [k1]; linarith
  · rw [k2] at l
    rw [k1]; linarith

/-- The fourth row of the table comes from the equations 0, 2 and 6. -/
example : ∃ c ∈ triples, step c = some ([0, 0, 0], [1, -3, 1]) ∧ ∃ M, ∀ e ∈ c, Holds e (lin [0, 0, 0] 1 2) (lin [1, -3, 1] 1 2) 1 2 M := by
  have hc : triples.getD 9 [] ∈ triples := by decide +kernel
  have ha : step (triples.getD 9 []) = some ([0, 0, 0], [1, -3, 1]) := by decide +kernel
  exact ⟨_, hc, ha, C98_solves _ hc _ ha 1 2⟩

/-! ### The best choice -/

theorem bourgain_eq (σ τ a1 a2 ρ : ℚ) : ρ ≤ bourgainMax σ τ a1 a2 ↔
    ρ ≤ a2 + 2 - 2 * σ ∨ ρ ≤ a1 + a2 / 2 + 2 - 2 * σ ∨ ρ ≤ -a2 + 2 * τ + 4 - 8 * σ ∨ ρ ≤ -2 * a1 + τ + 12 - 16 * σ ∨
      ρ ≤ 4 * a1 + 3 - 4 * σ ∨ ρ ≤ 4 * a1 + 2 * τ - 4 * σ := by
  unfold bourgainMax
  simp only [le_max_iff]
  have : ρ ≤ 4 * a1 + 2 + max 1 (2 * τ - 2) - 4 * σ ↔ ρ ≤ 4 * a1 + 3 - 4 * σ ∨ ρ ≤ 4 * a1 + 2 * τ - 4 * σ := by
    constructor
    · intro h
      rcases max_choice (1 : ℚ) (2 * τ - 2) with e | e <;> rw [e] at h
      · left; linarith
      · right; linarith
    · have m1 := le_max_left (1 : ℚ) (2 * τ - 2)
      have m2 := le_max_right (1 : ℚ) (2 * τ - 2)
      rintro (h | h) <;> linarith
  rw [this]

theorem fns_iff (a1 a2 : List ℚ) (σ τ ρ : ℚ) : (∃ f ∈ fns a1 a2, ρ ≤ lin f σ τ) ↔ ρ ≤ bourgainMax σ τ (lin a1 σ τ) (lin a2 σ τ) := by
  rw [bourgain_eq]
  simp only [fns, eqns, List.take_succ_cons, List.take_zero, List.map_cons, List.map_nil, List.mem_cons, List.not_mem_nil, or_false,
    exists_eq_or_imp, exists_eq_left, lin_fnOf, List.getD_cons_zero, List.getD_cons_succ]
  refine or_congr ?_ (or_congr ?_ (or_congr ?_ (or_congr ?_ (or_congr ?_ ?_)))) <;> constructor <;> intro h <;> linarith

theorem choices_mem : ([10 / 3, -14 / 3, 1 / 3], [0, 0, 0]) ∈ choices ∧ ([7 / 2, -9 / 2, 1 / 8], [-1, -1, 5 / 4]) ∈ choices ∧
    ([0, 0, 0], [1, -3, 1]) ∈ choices ∧ ([9 / 2, -11 / 2, 0], [1, -3, 1]) ∈ choices ∧
    ([2, -2, -1 / 6], [0, 0, 0]) ∈ choices ∧ ([2, -2, -1 / 6], [-4, 4, 2 / 3]) ∈ choices ∧ ([0, 0, 0], [0, 0, 0]) ∈ choices ∧
    ([3 / 2, -2, 1 / 6], [0, 0, 0]) ∈ choices ∧ ([3 / 2, -2, 1 / 6], [-5, 4, 4 / 3]) ∈ choices := by
  decide +kernel

/-- A choice that gives the bound of a row. -/
def Attains (a : List ℚ × List ℚ) (σ τ v : ℚ) : Prop :=
  0 ≤ lin a.1 σ τ ∧ 0 ≤ lin a.2 σ τ ∧ bourgainMax σ τ (lin a.1 σ τ) (lin a.2 σ τ) ≤ v

theorem row_attained (i : ℕ) (σ τ : ℚ) (h : InRow i σ τ) : ∃ a ∈ choices, Attains a σ τ (rowBound i σ τ) := by
  obtain ⟨c1, c2, c3, c4, c5, c6, c7, c8, c9⟩ := choices_mem
  match i, h with
  | 1, ⟨p1, p2, p3, p4⟩ =>
    refine ⟨_, c1, ?_, ?_, bourgain_le ?_ ?_ ?_ ?_ ?_ ?_⟩ <;>
      simp only [lin, rowBound, List.getD_cons_zero, List.getD_cons_succ] <;> linarith
  | 2, ⟨p1, p2, p3, p4⟩ =>
    refine ⟨_, c2, ?_, ?_, bourgain_le ?_ ?_ ?_ ?_ ?_ ?_⟩ <;>
      simp only [lin, rowBound, List.getD_cons_zero, List.getD_cons_succ] <;> linarith
  | 3, ⟨p1, p2, p3, p4⟩ =>
    rcases le_total (0 : ℚ) (9 / 2 - 11 / 2 * σ) with e | e
    · refine ⟨_, c4, ?_, ?_, bourgain_le ?_ ?_ ?_ ?_ ?_ ?_⟩ <;>
        simp only [lin, rowBound, List.getD_cons_zero, List.getD_cons_succ] <;> linarith
    · refine ⟨_, c3, ?_, ?_, bourgain_le ?_ ?_ ?_ ?_ ?_ ?_⟩ <;>
        simp only [lin, rowBound, List.getD_cons_zero, List.getD_cons_succ] <;> linarith
  | 4, ⟨p1, p2, p3, p4, p5⟩ =>
    refine ⟨_, c3, ?_, ?_, bourgain_le ?_ ?_ ?_ ?_ ?_ ?_⟩ <;>
      simp only [lin, rowBound, List.getD_cons_zero, List.getD_cons_succ] <;> linarith
  | 5, ⟨p1, p2, p3, p4, p5⟩ =>
    rcases le_total (0 : ℚ) (2 / 3 * τ - 4 + 4 * σ) with e | e
    · refine ⟨_, c6, ?_, ?_, bourgain_le ?_ ?_ ?_ ?_ ?_ ?_⟩ <;>
        simp only [lin, rowBound, List.getD_cons_zero, List.getD_cons_succ] <;> linarith
    · refine ⟨_, c5, ?_, ?_, bourgain_le ?_ ?_ ?_ ?_ ?_ ?_⟩ <;>
        simp only [lin, rowBound, List.getD_cons_zero, List.getD_cons_succ] <;> linarith
  | 6, ⟨p1, p2, p3, p4, p5, p6⟩ =>
    refine ⟨_, c7, ?_, ?_, bourgain_le ?_ ?_ ?_ ?_ ?_ ?_⟩ <;>
      simp only [lin, rowBound, List.getD_cons_zero, List.getD_cons_succ] <;> linarith
  | 7, ⟨p1, p2, p3, p4, p5⟩ =>
    rcases le_total (0 : ℚ) (4 / 3 * τ - 5 + 4 * σ) with e | e
    · refine ⟨_, c9, ?_, ?_, bourgain_le ?_ ?_ ?_ ?_ ?_ ?_⟩ <;>
        simp only [lin, rowBound, List.getD_cons_zero, List.getD_cons_succ] <;> linarith
    · refine ⟨_, c8, ?_, ?_, bourgain_le ?_ ?_ ?_ ?_ ?_ ?_⟩ <;>
        simp only [lin, rowBound, List.getD_cons_zero, List.getD_cons_succ] <;> linarith
  | 0, h => exact h.elim
  | _ + 8, h => exact h.elim

/-- **C98** (the choices suffice) For every `(σ, τ)` with `1/2 ≤ σ ≤ 1` and `1 ≤ τ ≤ 1000000` one of the choices that the loop finds is
admissible and at least as good as every other choice of the parameters. -/
theorem C98_optimal (σ τ : ℚ) (h1 : 1 / 2 ≤ σ) (h2 : σ ≤ 1) (h3 : 1 ≤ τ) (h4 : τ ≤ 1000000) : ∃ a ∈ choices,
    0 ≤ lin a.1 σ τ ∧ 0 ≤ lin a.2 σ τ ∧
      ∀ b1 b2, 0 ≤ b1 → 0 ≤ b2 → bourgainMax σ τ (lin a.1 σ τ) (lin a.2 σ τ) ≤ bourgainMax σ τ b1 b2 := by
  obtain ⟨i, hi⟩ := C71_cover σ τ h1 h2 h3 h4
  obtain ⟨a, ha, k1, k2, k3⟩ := row_attained i σ τ hi
  exact ⟨a, ha, k1, k2, fun b1 b2 g1 g2 => k3.trans ((C71_table i σ τ _ hi).mpr le_rfl b1 b2 g1 g2)⟩

/-- At `(3/4, 8/5)` the best choice has maximum `17/15`. -/
example : ∃ a ∈ choices, bourgainMax (3 / 4) (8 / 5) (lin a.1 (3 / 4) (8 / 5)) (lin a.2 (3 / 4) (8 / 5)) ≤ 17 / 15 := by
  obtain ⟨a, ha, -, -, h⟩ := C98_optimal (3 / 4) (8 / 5) (by norm_num) (by norm_num) (by norm_num) (by norm_num)
  refine ⟨a, ha, (h (7 / 30) (1 / 15) (by norm_num) (by norm_num)).trans ?_⟩
  unfold bourgainMax
  norm_num

/-- **C98** (the intended region) The region that the comments of the function describe consists, for `1/2 ≤ σ ≤ 1` and
`1 ≤ τ ≤ 1000000`, of exactly the points that satisfy Bourgain's theorem for all choices of the parameters: a function that computed
this intersection would be right. -/
theorem C98_intended (σ τ ρ : ℚ) (h1 : 1 / 2 ≤ σ) (h2 : σ ≤ 1) (h3 : 1 ≤ τ) (h4 : τ ≤ 1000000) :
    Intended σ τ ρ ↔ ∀ a1 a2, 0 ≤ a1 → 0 ≤ a2 → ρ ≤ bourgainMax σ τ a1 a2 := by
  constructor
  · intro h b1 b2 g1 g2
    obtain ⟨a, ha, k1, k2, k3⟩ := C98_optimal σ τ h1 h2 h3 h4
    rcases h a ha with h | h | h
    · exact absurd k1 (not_le.mpr h)
    · exact absurd k2 (not_le.mpr h)
    · exact ((fns_iff a.1 a.2 σ τ ρ).mp h).trans (k3 b1 b2 g1 g2)
  · intro h a _
    by_cases k1 : lin a.1 σ τ < 0
    · exact Or.inl k1
    by_cases k2 : lin a.2 σ τ < 0
    · exact Or.inr (Or.inl k2)
    exact Or.inr (Or.inr ((fns_iff a.1 a.2 σ τ ρ).mpr (h _ _ (not_lt.mp k1) (not_lt.mp k2))))

/-- The point `(3/4, 8/5)`: the intersection ends at `ρ = 17/15`. -/
example : Intended (3 / 4) (8 / 5) (17 / 15) ∧ ¬ Intended (3 / 4) (8 / 5) (18 / 15) := by
  have h : InRow 5 (3 / 4) (8 / 5) := by simp only [InRow]; norm_num
  rw [C98_intended _ _ _ (by norm_num) (by norm_num) (by norm_num) (by norm_num),
    C98_intended _ _ _ (by norm_num) (by norm_num) (by norm_num) (by norm_num)]
  change Allowed _ _ _ ∧ ¬ Allowed _ _ _
  rw [C71_table 5 _ _ _ h, C71_table 5 _ _ _ h]
  simp only [rowBound]
  norm_num

/-! ### The functions as they are -/

theorem loop_error {R : Type} (rest : List ℚ → List ℚ → Mat → Py R) : loop rest triples = .error .typeError := by
  have h : ∃ c cs a p, triples = c :: cs ∧ step c = some a ∧
      Mat.ofConstraints [⟨false, a.1.headD 0, a.1.tail⟩, ⟨false, a.2.headD 0, a.2.tail⟩] = .ok p := by
    refine ⟨triples.headD [], triples.tail, ([1 / 2, -3 / 2, 1 / 2], [1, -3, 1]), ⟨3, [⟨false, 1 / 2, [-3 / 2, 1 / 2]⟩, ⟨false, 1, [-3, 1]⟩]⟩, ?_, ?_, ?_⟩
    · decide +kernel
    · decide +kernel
    · decide +kernel
  obtain ⟨c, cs, a, p, h1, h2, h3⟩ := h
  rw [h1]
  unfold loop
  rw [h2]
  simp only [domainOf, h3, callLift, bind, Except.bind]

/-- **C98** `optimize_bourgain_large_value_estimate` always raises `TypeError`, whatever the rest of its loop does: for the first three
equations the method `lift`, which takes one argument, is called with three (large_values.py:265-267). The same holds for
`prove_bourgain_large_values_theorem` and for `prove_all_large_value_estimates`. -/
theorem C98_optimize_counterexample {R : Type} (rest : List ℚ → List ℚ → Mat → Py R) (finish : List R → Py R) (use : R → Py Unit) (gm : Py Unit) :
    optimize rest finish = .error .typeError ∧ proveBourgain rest finish use = .error .typeError ∧
      proveAllLV rest finish use gm = .error .typeError := by
  have h : optimize rest finish = .error .typeError := by
    simp only [optimize, loop_error, bind, Except.bind]
  refine ⟨h, ?_, ?_⟩ <;> simp only [proveAllLV, proveBourgain, h, bind, Except.bind]

theorem forM_error {α : Type} (f : α → Py Unit) : ∀ (l : List α) (a : α), a ∈ l → (∃ e, f a = .error e) → ∃ e, l.forM f = .error e
  | [], a, h, _ => by simp at h
  | b :: l, a, h, he => by
    rw [show (b :: l).forM f = (do f b; l.forM f) from rfl]
    cases hb : f b with
    | error e => exact ⟨e, rfl⟩
    | ok u =>
      rcases List.mem_cons.mp h with rfl | h
      · obtain ⟨e, he⟩ := he
        rw [hb] at he; cases he
      · exact forM_error f l a h he

theorem checkPoint_error {R : Type} (region : R) (x : Option (List ℚ)) : ∃ e, checkPoint region x = .error e := by
  unfold checkPoint
  cases x with
  | none => exact ⟨_, rfl⟩
  | some v =>
    dsimp only
    cases v[2]? with
    | none => exact ⟨_, rfl⟩
    | some y => exact ⟨_, rfl⟩

/-- **C98** `check_bourgain_large_value_estimate` never completes, whatever scipy's solver returns: it reads `hypothesis.data.bound`, but
a `Large_Value_Estimate` has no such attribute (large_values.py:364). This is reached, since the grid point `σ = 1, τ = 1001/1000` is not skipped. -/
theorem C98_check_counterexample {R : Type} (linprog : ℚ → ℚ → Option (List ℚ)) (region : R) : ∃ e, check linprog region = .error e := by
  refine forM_error _ grid (1000, 0) ?_ ?_
  · unfold grid
    rw [List.mem_flatMap]
    exact ⟨1000, by simp, List.mem_map.mpr ⟨0, by simp, rfl⟩⟩
  · have : skipped (gridσ 1000) (gridτ 0) = false := by decide +kernel
    simp only [this]
    exact checkPoint_error region _

/-- If scipy's solver returns a vector of length three at every point, the exception is `AttributeError`. -/
theorem C98_check_attribute {R : Type} (linprog : ℚ → ℚ → Option (List ℚ)) (region : R)
    (h : ∀ σ τ, ∃ v, linprog σ τ = some v ∧ v.length = 3) : check linprog region = .error .attributeError := by
  obtain ⟨e, he⟩ := C98_check_counterexample linprog region
  have key : ∀ l : List (ℕ × ℕ), ∀ e, (l.forM fun p => if skipped (gridσ p.1) (gridτ p.2) then .ok () else
      checkPoint region (linprog (gridσ p.1) (gridτ p.2)) : Py Unit) = .error e → e = .attributeError := by
    intro l
    induction l with
    | nil => intro e h; cases h
    | cons p l ih =>
      intro e he
      simp only [List.forM, bind, Except.bind] at he
      split_ifs at he with hs
      · exact ih e he
      · obtain ⟨v, hv, hl⟩ := h (gridσ p.1) (gridτ p.2)
        have : v[2]? = some (v[2]'(by omega)) := List.getElem?_eq_getElem _
        simp only [checkPoint, hv, this, getAttr, bind, Except.bind, Except.error.injEq] at he
        exact he.symm
  rw [he, key grid e he]

/-- A solver that always returns a vector of length three. -/
example : ∀ σ τ : ℚ, ∃ v, (fun _ _ => some [0, 0, 1] : ℚ → ℚ → Option (List ℚ)) σ τ = some v ∧ v.length = 3 := fun _ _ => ⟨_, rfl, rfl⟩

/-- **C98** `apply_huxley_subdivision` raises for every argument; for a large value estimate it raises `NotImplementedError`
(large_values.py:375-383). -/
theorem C98_subdivision_counterexample (t : Option String) : (∃ e, applyHuxleySubdivision t = .error e) ∧
    applyHuxleySubdivision (some "Large value estimate") = .error .notImplemented := by
  constructor
  · unfold applyHuxleySubdivision
    cases t with
    | none => exact ⟨_, rfl⟩
    | some t => dsimp only; split_ifs <;> exact ⟨_, rfl⟩
  · rfl

end BourgainOpt
end Expdb
