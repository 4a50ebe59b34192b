import Verif.Model.DensityPlot
import Verif.Props.PrimeGapInput
import Verif.Props.BourgainZD

/-!
# The bounds drawn by `zero_density_plot` are those of the table of the text (C103)
-/

namespace Expdb
namespace DensityPlot
open Rational (Expr RootsSpec ConstSpec ZeroSpec Ival)
open Formula (Fml parse LF readLF lin toLF lin_sound lin_pos lin_nonneg)
open LitZD (Entry Best rows rowLe rowLe_sound)
open PairZD (bourgainEpToZd bourgainPairs IsMinimum bval bden blim Sol TRow tableRows)

/-! ### The minimum -/

/-- All formulas of the list can be parsed. -/
def Parsable (hs : List Est) : Prop := ∀ h ∈ hs, ∀ s, ∃ q, h.value s = .ok q

/-- The values that count. -/
def Values (hs : List Est) (s : ℚ) : Set ℝ := {v | ∃ h ∈ hs, h.contains s = true ∧ h.value s = .ok (some v)}

theorem bestLoop_spec (s : ℚ) (hs : List Est) (hp : Parsable hs) (m : ℝ) :
    ∃ v, bestLoop s m hs = .ok v ∧ IsLeast (insert m (Values hs s)) v := by
  induction hs generalizing m with
  | nil =>
    refine ⟨m, rfl, by simp, ?_⟩
    rintro w (rfl | ⟨h, hh, -⟩)
    · exact le_rfl
    · cases hh
  | cons h hs ih =>
    have ih := ih (fun g hg => hp g (by simp [hg]))
    have skip : (∀ v, ¬ (h.contains s = true ∧ h.value s = .ok (some v))) → Values (h :: hs) s = Values hs s := by
      intro hn
      ext w
      constructor
      · rintro ⟨g, hg, g1, g2⟩
        rcases List.mem_cons.mp hg with rfl | hg
        · exact absurd ⟨g1, g2⟩ (hn w)
        · exact ⟨g, hg, g1, g2⟩
      · rintro ⟨g, hg, g1, g2⟩
        exact ⟨g, by simp [hg], g1, g2⟩
    rw [bestLoop]
    by_cases hc : h.contains s = true
    · obtain ⟨q, hq⟩ := hp h (by simp) s
      rw [if_pos hc, hq]
      cases q with
      | none =>
        rw [skip (fun v hv => by rw [hq] at hv; cases hv.2)]
        exact ih m
      | some v =>
        have mem : ∀ w, w ∈ Values (h :: hs) s ↔ w = v ∨ w ∈ Values hs s := by
          intro w
          constructor
          · rintro ⟨g, hg, g1, g2⟩
            rcases List.mem_cons.mp hg with rfl | hg
            · rw [hq] at g2
              exact Or.inl (Option.some.inj (Except.ok.inj g2)).symm
            · exact Or.inr ⟨g, hg, g1, g2⟩
          · rintro (rfl | ⟨g, hg, g1, g2⟩)
            · exact ⟨h, by simp, hc, hq⟩
            · exact ⟨g, by simp [hg], g1, g2⟩
        by_cases hm : m > v
        · obtain ⟨w, w1, w2, w3⟩ := ih v
          refine ⟨w, by simpa [bind, Except.bind, hm] using w1, ?_, ?_⟩
          · rcases w2 with rfl | w2
            · exact Or.inr ((mem _).mpr (Or.inl rfl))
            · exact Or.inr ((mem _).mpr (Or.inr w2))
          · rintro u (rfl | hu)
            · exact (w3 (by simp)).trans hm.le
            · rcases (mem u).mp hu with rfl | hu
              · exact w3 (by simp)
              · exact w3 (by simp [hu])
        · obtain ⟨w, w1, w2, w3⟩ := ih m
          refine ⟨w, by simpa [bind, Except.bind, hm] using w1, ?_, ?_⟩
          · rcases w2 with rfl | w2
            · simp
            · exact Or.inr ((mem _).mpr (Or.inr w2))
          · rintro u (rfl | hu)
            · exact w3 (by simp)
            · rcases (mem u).mp hu with rfl | hu
              · exact (w3 (by simp)).trans (not_lt.mp hm)
              · exact w3 (by simp [hu])
    · rw [if_neg hc, skip (fun v hv => hc hv.1)]
      exact ih m

/-- **C103 (the minimum).** For every list of hypotheses whose formulas can be parsed, the number drawn is the least one of `1000000` and the
finite real values of the estimates that apply at the point. In particular it does not depend on the order, and a larger set never
gives a larger number. -/
theorem C103_minimum (hs : List Est) (hp : Parsable hs) (s : ℚ) : ∃ v, bestAt hs s = .ok v ∧ IsLeast (insert 1000000 (Values hs s)) v :=
  bestLoop_spec s hs hp 1000000

theorem value_of_toLF {e : Entry} {g : LF} (h : readLF e.expr = some g) (s : ℚ) (hd : (g.b * s + g.c : ℝ) ≠ 0) :
    (Est.text e).value s = .ok (some (g.val s)) := by
  have fin : ∀ f : Fml, ∀ p, lin f = some p → Finite f s := by
    intro f
    induction f with
    | num q => intro _ _; trivial
    | x => intro _ _; trivial
    | add a b ha hb =>
      intro p hp
      simp only [lin] at hp
      split at hp
      · rename_i h1 h2; exact ⟨ha _ h1, hb _ h2⟩
      · cases hp
    | sub a b ha hb =>
      intro p hp
      simp only [lin] at hp
      split at hp
      · rename_i h1 h2; exact ⟨ha _ h1, hb _ h2⟩
      · cases hp
    | mul a b ha hb =>
      intro p hp
      simp only [lin] at hp
      split at hp
      · rename_i h1 h2; exact ⟨ha _ h1, hb _ h2⟩
      · cases hp
    | div a b ha hb =>
      intro p hp
      simp only [lin] at hp
      split at hp
      · rename_i p1 q1 h1 h2
        split at hp
        · rename_i h0
          refine ⟨ha _ h1, hb _ h2, ?_⟩
          rw [lin_sound _ _ h2, h0.1]
          simpa using h0.2
        · cases hp
      · cases hp
    | pow a b => intro p hp; simp [lin] at hp
    | neg a ha =>
      intro p hp
      simp only [lin] at hp
      split at hp
      · rename_i h1; exact ha _ h1
      · cases hp
  obtain ⟨f, h1, h2⟩ := Formula.readLF_sound _ _ h
  have hg : toLF f = some g := by simpa [readLF, h1] using h
  have hf : Finite f s := by
    have key : ∀ f : Fml, (match lin f with
        | some p => if p.1 = 0 then some (⟨p.2, 0, 1⟩ : LF) else none
        | none => none) = some g → Finite f s := by
      intro f hf
      split at hf
      · rename_i p hp; exact fin f p hp
      · cases hf
    cases f with
    | div a b =>
      simp only [toLF] at hg
      split at hg
      · rename_i p q h3 h4
        split at hg
        · simp only [Option.some.injEq] at hg
          subst hg
          refine ⟨fin _ _ h3, fin _ _ h4, ?_⟩
          rw [lin_sound _ _ h4]
          exact hd
        · cases hg
      · cases hg
    | num q => exact key _ hg
    | x => exact key _ hg
    | add a b => exact key _ hg
    | sub a b => exact key _ hg
    | mul a b => exact key _ hg
    | pow a b => exact key _ hg
    | neg a => exact key _ hg
  simp only [Est.value, h1, bind, Except.bind, pure, Except.pure, if_pos hf, h2]

/-- What a formula with a value says about `at`. -/
theorem at_of_value {e : Entry} {s : ℚ} {v : ℝ} (hc : (Est.text e).contains s = true) (hv : (Est.text e).value s = .ok (some v)) :
    e.at s = .ok v := by
  simp only [Est.contains] at hc
  simp only [Est.value] at hv
  cases hp : parse e.expr with
  | error x => rw [hp] at hv; cases hv
  | ok f =>
    rw [hp] at hv
    simp only [bind, Except.bind, pure, Except.pure, Except.ok.injEq] at hv
    split at hv
    · simp only [Option.some.injEq] at hv
      subst hv
      simp only [Entry.at, hc, hp]
      rfl
    · cases hv

/-! ### The pieces of `bourgain_ep_to_zd` -/

theorem sol_fn {isConstant : Expr ℝ → Bool} {realRoots : Expr ℝ → List ℝ} {isZero : Expr ℝ → Bool} {eps : List (ℚ × ℚ)} {sol : List (Sol ℝ)}
    (h : bourgainEpToZd isConstant realRoots isZero eps = .ok sol) : ∀ t ∈ sol, t.fn = PairZD.boundFn t.pair.1 t.pair.2 := by
  have hb : ∀ l : List (ℚ × ℚ), ∀ b ∈ PairZD.bounds (K := ℝ) l, b.fn = PairZD.boundFn b.pair.1 b.pair.2 := by
    intro l
    induction l with
    | nil => intro b hb; cases hb
    | cons p l ih =>
      obtain ⟨k, m⟩ := p
      intro b hb
      simp only [PairZD.bounds] at hb
      split_ifs at hb
      · exact ih b hb
      · rcases List.mem_cons.mp hb with rfl | hb
        · rfl
        · exact ih b hb
      · exact ih b hb
  have ha : ∀ (x : ℝ) (l : List (PairZD.Bound ℝ)) (c : Option (PairZD.Bound ℝ)) (P : PairZD.Bound ℝ → Prop), (∀ b ∈ l, P b) → (∀ b, c = some b → P b) →
      ∀ b, PairZD.argmin x c l = some b → P b := by
    intro x l
    induction l with
    | nil => intro c P _ hc b hb; cases c <;> exact hc b (by simpa [PairZD.argmin] using hb)
    | cons d l ih =>
      intro c P hl hc b hb
      cases c with
      | none =>
        rw [PairZD.argmin] at hb
        exact ih _ P (fun b hb => hl b (by simp [hb])) (fun b hb => by rw [← Option.some.inj hb]; exact hl d (by simp)) b hb
      | some c =>
        rw [PairZD.argmin] at hb
        split_ifs at hb
        · exact ih _ P (fun b hb => hl b (by simp [hb])) (fun b hb => by rw [← Option.some.inj hb]; exact hl d (by simp)) b hb
        · exact ih _ P (fun b hb => hl b (by simp [hb])) hc b hb
  have hs : ∀ (bs : List (PairZD.Bound ℝ)), (∀ b ∈ bs, b.fn = PairZD.boundFn b.pair.1 b.pair.2) → ∀ cs sol, PairZD.solve bs cs = .ok sol →
      ∀ t ∈ sol, t.fn = PairZD.boundFn t.pair.1 t.pair.2 := by
    intro bs hbs cs
    induction cs with
    | nil => intro sol h t ht; rw [PairZD.solve] at h; obtain rfl := Except.ok.inj h; cases ht
    | cons c cs ih =>
      obtain ⟨s1, s2⟩ := c
      intro sol h t ht
      rw [PairZD.solve] at h
      split_ifs at h with h0
      · exact ih sol h t ht
      · dsimp only at h
        split at h
        · cases h
        · rename_i b hb'
          have hbb := ha _ _ _ (fun b => b.fn = PairZD.boundFn b.pair.1 b.pair.2) (fun b hb => hbs b (List.mem_of_mem_filter hb)) (by simp) b hb'
          cases hr : PairZD.solve bs cs with
          | error e => rw [hr] at h; cases h
          | ok rest =>
            rw [hr] at h
            obtain rfl := Except.ok.inj h
            rcases List.mem_cons.mp ht with rfl | ht
            · exact hbb
            · exact ih rest hr t ht
  have hm : ∀ l : List (Sol ℝ), (∀ t ∈ l, t.fn = PairZD.boundFn t.pair.1 t.pair.2) → ∀ t ∈ PairZD.mergeBack isZero l,
      t.fn = PairZD.boundFn t.pair.1 t.pair.2 := by
    intro l
    induction l with
    | nil => intro _ t ht; simp [PairZD.mergeBack] at ht
    | cons p ps ih =>
      intro hl t ht
      have ih := ih (fun t ht => hl t (by simp [ht]))
      rw [PairZD.mergeBack] at ht
      split at ht
      · rw [List.mem_singleton.mp ht]; exact hl p (by simp)
      · rename_i q qs hq
        rw [hq] at ih
        split_ifs at ht
        · rcases List.mem_cons.mp ht with rfl | ht
          · exact hl p (by simp)
          · exact ih t (by simp [ht])
        · rcases List.mem_cons.mp ht with rfl | ht
          · exact hl t (by simp)
          · exact ih t ht
  simp only [bourgainEpToZd] at h
  generalize hcs : PairZD.critList isConstant realRoots (PairZD.bounds eps) = cs at h
  cases hr : PairZD.solve (PairZD.bounds eps) (cs.zip cs.tail) with
  | error e => rw [hr] at h; cases h
  | ok rest =>
    rw [hr] at h
    obtain rfl := Except.ok.inj h
    exact hm _ (hs _ (hb eps) _ _ hr)

/-- The function of a row. -/
def TRow.lf (r : TRow) : LF := ⟨r.a, r.b, -r.c⟩

theorem TRow.lf_val (r : TRow) (x : ℝ) : (TRow.lf r).val x = r.a / (r.b * x - r.c) := by
  simp only [TRow.lf, LF.val]
  push_cast
  rw [← sub_eq_add_neg]

/-- What the pieces give at a point: a value only to the right of 3/4, and there that of the table of the pieces. -/
theorem piece_values (isConstant : Expr ℝ → Bool) (realRoots : Expr ℝ → List ℝ) (hr : RootsSpec isConstant realRoots) (hcs : ConstSpec isConstant)
    (isZero : Expr ℝ → Bool) (hz : ZeroSpec isZero) :
    ∃ sol, bourgainEpToZd isConstant realRoots isZero bourgainPairs = .ok sol ∧
      (∀ p ∈ sol, ∀ s : ℚ, ∀ v, (Est.piece p).contains s = true → (Est.piece p).value s = .ok (some v) →
        ∃ r ∈ tableRows, r.lo < s ∧ s ≤ r.hi ∧ v = (TRow.lf r).val s) ∧
      ∀ r ∈ tableRows, ∀ s : ℚ, r.lo < s → s ≤ r.hi → s < 1 → 0 < (TRow.lf r).val s → (TRow.lf r).val s ∈ Values (sol.map Est.piece) s := by
  obtain ⟨sol, h1, h2⟩ := PairZD.C80_minimum isConstant realRoots hr hcs isZero hz bourgainPairs (fun p hp => (PairZD.pairs_ok p hp).1)
    ⟨(11 / 85, 59 / 85), by decide +kernel, (1 / 100, 14 / 15), by decide +kernel, (PairZD.pairs_usable _ (by decide +kernel)).1,
      (PairZD.pairs_usable _ (by decide +kernel)).1, by decide +kernel⟩
  obtain ⟨sol', h3, h4⟩ := PairZD.C80_table isConstant realRoots hr hcs isZero hz
  rw [h1] at h3
  obtain rfl := Except.ok.inj h3
  refine ⟨sol, h1, ?_, ?_⟩
  · intro p hp s v hc hv
    simp only [Est.contains] at hc
    simp only [Est.value, Except.ok.injEq] at hv
    split at hv
    · cases hv
    · rename_i hd
      simp only [Option.some.injEq] at hv
      rw [sol_fn h1 p hp, PairZD.boundFn_den] at hd
      obtain ⟨b1, b2, b3⟩ := h2.bound p hp
      have hlt := ((h2.cover s).mp ⟨p, hp, hc⟩).2
      have hgt : (3 / 4 : ℝ) < s := by
        by_contra hn
        push Not at hn
        have hvd := h2.valid p hp s hc
        rw [(PairZD.pairs_usable _ b1).2] at hvd
        obtain ⟨e1, _, _, _, _, _, e2⟩ := PairZD.pairs_ok p.pair b1
        have a0 : (0 : ℝ) < p.pair.1 := by exact_mod_cast e1
        rw [div_le_iff₀ (by positivity)] at hvd
        rcases e2 with e2 | e2
        · apply hd
          rw [e2] at hvd ⊢
          rw [bden]
          push_cast at hvd ⊢
          linarith
        · have e3 : (((3 / 4 * (2 * (p.pair.1 + 1)) : ℚ)) : ℝ) < ((p.pair.2 + 1 : ℚ) : ℝ) := by exact_mod_cast e2
          push_cast at e3
          nlinarith
      obtain ⟨r, r1, r2, r3⟩ := PairZD.C80_table_cover s hgt hlt
      obtain ⟨t, t1, t2, t3, t4⟩ := h4 r r1 s r2 r3 hlt
      refine ⟨r, r1, by exact_mod_cast r2, by exact_mod_cast r3, ?_⟩
      rw [TRow.lf_val, ← t4, ← t3 p hp hc, ← hv]
  · intro r r1 s r2 r3 r4 r5
    obtain ⟨t, t1, t2, t3, t4⟩ := h4 r r1 s (by exact_mod_cast r2) (by exact_mod_cast r3) (by exact_mod_cast r4)
    refine ⟨.piece t, List.mem_map_of_mem t1, t2, ?_⟩
    rw [TRow.lf_val] at r5 ⊢
    simp only [Est.value]
    rw [if_neg, t4]
    intro h0
    rw [← t4, Rational.RF.at, h0, div_zero] at r5
    exact lt_irrefl _ r5

/-! ### The table is at most the pieces and the new estimates -/

/-- A row of the table of best estimates is at most a row of the pieces, where both apply. -/
def tableLe (r : LF × ℚ × ℚ × Bool) (t : TRow) : Bool :=
  decide (r.2.2.1 ≤ t.lo) || decide (t.hi < r.2.1) ||
    (decide (0 < r.1.b * max r.2.1 t.lo + r.1.c) && decide (0 < r.1.b * min r.2.2.1 t.hi + r.1.c) &&
      (decide (0 < t.b * max r.2.1 t.lo - t.c) || (decide (r.2.1 ≤ t.lo) && decide (0 ≤ t.b * t.lo - t.c))) && decide (0 < t.b * min r.2.2.1 t.hi - t.c) &&
      decide (r.1.a * (t.b * max r.2.1 t.lo - t.c) ≤ t.a * (r.1.b * max r.2.1 t.lo + r.1.c)) &&
      decide (r.1.a * (t.b * min r.2.2.1 t.hi - t.c) ≤ t.a * (r.1.b * min r.2.2.1 t.hi + r.1.c)))

theorem tableLe_sound {r : LF × ℚ × ℚ × Bool} {t : TRow} (h : tableLe r t = true) {s : ℚ} (h1 : r.2.1 ≤ s) (h2 : s < r.2.2.1) (h3 : t.lo < s)
    (h4 : s ≤ t.hi) : r.1.val s ≤ (TRow.lf t).val s := by
  simp only [tableLe, Bool.or_eq_true, Bool.and_eq_true, decide_eq_true_eq] at h
  rcases h with (h | h) | ⟨⟨⟨⟨⟨a1, a2⟩, a3⟩, a4⟩, a5⟩, a6⟩
  · linarith
  · linarith
  have hL : max r.2.1 t.lo ≤ s := max_le h1 h3.le
  have hH : s ≤ min r.2.2.1 t.hi := le_min h2.le h4
  set L := max r.2.1 t.lo with hLdef
  set H := min r.2.2.1 t.hi
  have f : 0 < r.1.b * s + r.1.c := by
    rcases le_total 0 r.1.b with hp | hp <;> nlinarith
  have g : 0 < t.b * s - t.c := by
    rcases a3 with a3 | ⟨a3, a3'⟩
    · rcases le_total 0 t.b with hp | hp <;> nlinarith
    · have e : L = t.lo := max_eq_right a3
      rcases le_total t.b 0 with hp | hp
      · nlinarith
      · rcases eq_or_lt_of_le hp with h0 | h0
        · rw [← h0] at a4 ⊢; linarith
        · nlinarith
  have k : r.1.a * (t.b * s - t.c) ≤ t.a * (r.1.b * s + r.1.c) := by
    have a5' : 0 ≤ (t.a * r.1.b - r.1.a * t.b) * L + (t.a * r.1.c + r.1.a * t.c) := by linarith
    have a6' : 0 ≤ (t.a * r.1.b - r.1.a * t.b) * H + (t.a * r.1.c + r.1.a * t.c) := by linarith
    have : 0 ≤ (t.a * r.1.b - r.1.a * t.b) * s + (t.a * r.1.c + r.1.a * t.c) := by
      rcases le_total 0 (t.a * r.1.b - r.1.a * t.b) with hp | hp <;> nlinarith
    linarith
  rw [TRow.lf_val, LF.val, div_le_div_iff₀ (by exact_mod_cast f) (by exact_mod_cast g)]
  exact_mod_cast k

theorem newEntries_eq : newEntries = .ok [⟨"2/(9*x - 6)".toList, ⟨17 / 22, 38 / 49, true, true⟩⟩, ⟨"9/(8*(2*x - 1))".toList, ⟨38 / 49, 4 / 5, true, true⟩⟩,
    ⟨"3/(10 * x - 7)".toList, ⟨701 / 1000, 1, true, true⟩⟩] := by
  decide +kernel

/-- The last row of the table for `n`, with the variable `η = 1 - σ`. -/
theorem pintz_bounds {n : ℕ} (hn : 6 ≤ n) {s : ℚ} (h1 : 1 - 1 / (2 * (n : ℚ) * (n - 1)) ≤ s) (h2 : s < 1 - 1 / (2 * (n : ℚ) * (n + 1))) :
    59 / 60 ≤ s ∧ s < 1 ∧ (n : ℚ) - 1 ≤ n * (1 - 2 * (n - 1) * (1 - s)) ∧ (n = 6 → s < 83 / 84) ∧ (n = 7 → s < 111 / 112) := by
  have n6 : (6 : ℚ) ≤ n := by exact_mod_cast hn
  have c1 : (1 - s) * (2 * n * (n - 1)) ≤ 1 := by
    have : 1 - s ≤ 1 / (2 * (n : ℚ) * (n - 1)) := by linarith
    exact (le_div_iff₀ (by nlinarith)).mp this
  have c2 : 1 < (1 - s) * (2 * n * (n + 1)) := by
    have : 1 / (2 * (n : ℚ) * (n + 1)) < 1 - s := by linarith
    exact (div_lt_iff₀ (by nlinarith)).mp this
  have h : (0 : ℚ) < 2 * n * (n + 1) := by nlinarith
  have pos : 0 < 1 - s := by
    by_contra hc
    nlinarith [mul_nonpos_of_nonpos_of_nonneg (not_lt.mp hc) h.le]
  refine ⟨?_, by linarith, by nlinarith, ?_, ?_⟩
  · have : (60 : ℚ) ≤ 2 * n * (n - 1) := by nlinarith
    nlinarith
  · rintro rfl
    push_cast at c2
    linarith
  · rintro rfl
    push_cast at c2
    linarith

/-- The last row of the table is at most `3 / 5`. -/
theorem pintz_small {n : ℕ} (hn : 6 ≤ n) {s : ℚ} (h1 : 1 - 1 / (2 * (n : ℚ) * (n - 1)) ≤ s) (h2 : s < 1 - 1 / (2 * (n : ℚ) * (n + 1))) :
    (0 : ℝ) < n * (1 - 2 * (n - 1) * (1 - s)) ∧ (3 : ℝ) / (n * (1 - 2 * (n - 1) * (1 - s))) ≤ 3 / 5 := by
  obtain ⟨b1, b2, b3, -⟩ := pintz_bounds hn h1 h2
  have n6 : (6 : ℝ) ≤ n := by exact_mod_cast hn
  have b4 : ((n : ℝ) - 1) ≤ n * (1 - 2 * (n - 1) * (1 - s)) := by exact_mod_cast b3
  have b5 : (0 : ℝ) < n * (1 - 2 * (n - 1) * (1 - s)) := by linarith
  refine ⟨b5, ?_⟩
  rw [div_le_div_iff₀ b5 (by norm_num)]
  linarith

/-- The table is at most the pieces. -/
theorem best_le_piece {s : ℚ} {b : ℝ} (hb : Best s b) {t : TRow} (ht : t ∈ tableRows) (h1 : t.lo < s) (h2 : s ≤ t.hi) : b ≤ (TRow.lf t).val s := by
  have hrows : ∀ r ∈ rows, ∀ t ∈ tableRows, tableLe r t = true := by decide +kernel
  cases hb with
  | row r hr b1 b2 => exact tableLe_sound (hrows r hr t ht) b1 b2 h1 h2
  | pintz n hn b1 b2 =>
    obtain ⟨c1, c2, c3, c4, c5⟩ := pintz_bounds hn b1 b2
    obtain ⟨d1, d2⟩ := pintz_small hn b1 b2
    have hcase : t = ⟨6, 303, 290, 59 / 60, 1⟩ ∨ t = ⟨1780, 35670, 32717, 39 / 40, 59 / 60⟩ ∨ t.hi < 59 / 60 := by
      simp only [tableRows, List.mem_cons, List.not_mem_nil, or_false] at ht
      rcases ht with rfl | rfl | rfl | rfl | rfl | rfl | rfl | rfl
      · exact Or.inr (Or.inr (by norm_num))
      · exact Or.inr (Or.inr (by norm_num))
      · exact Or.inr (Or.inr (by norm_num))
      · exact Or.inr (Or.inr (by norm_num))
      · exact Or.inr (Or.inr (by norm_num))
      · exact Or.inr (Or.inr (by norm_num))
      · exact Or.inr (Or.inl rfl)
      · exact Or.inl rfl
    rcases hcase with rfl | rfl | h
    · have e1 : (59 / 60 : ℝ) ≤ s := LitZD.cast_le' c1
      rw [TRow.lf_val]
      push_cast
      rw [div_le_div_iff₀ d1 (by linarith)]
      have n6 : (6 : ℝ) ≤ n := by exact_mod_cast hn
      have c3' : ((n : ℝ) - 1) ≤ n * (1 - 2 * (n - 1) * (1 - s)) := by exact_mod_cast c3
      have c2' : (s : ℝ) < 1 := by exact_mod_cast c2
      rcases Nat.lt_or_ge n 8 with h8 | h8
      · rcases (by omega : n = 6 ∨ n = 7) with rfl | rfl
        · have : (s : ℝ) < 83 / 84 := LitZD.cast_lt' (c4 rfl)
          push_cast at c3' ⊢
          linarith
        · have : (s : ℝ) < 111 / 112 := LitZD.cast_lt' (c5 rfl)
          push_cast at c3' ⊢
          linarith
      · have n8 : (8 : ℝ) ≤ n := by exact_mod_cast h8
        linarith
    · obtain rfl : s = 59 / 60 := le_antisymm h2 c1
      refine d2.trans ?_
      rw [TRow.lf_val]
      push_cast
      norm_num
    · linarith

/-- A row is at most an estimate on a closed interval. -/
def newLe (r : LF × ℚ × ℚ × Bool) (g : LF) (I : Interval) : Bool := decide (I.x1 < r.2.1) || rowLe r g I

theorem newLe_sound {r : LF × ℚ × ℚ × Bool} {g : LF} {I : Interval} (h : newLe r g I = true) {s : ℚ} (h1 : r.2.1 ≤ s) (h2 : s < r.2.2.1)
    (hs : I.contains s = true) : r.1.val s ≤ g.val s := by
  simp only [newLe, Bool.or_eq_true, decide_eq_true_eq] at h
  rcases h with h | h
  · have := (LitZD.contains_bounds hs).2
    linarith
  · exact rowLe_sound h h1 h2 hs

/-- The table is at most the new estimates. -/
theorem best_le_new {s : ℚ} {b : ℝ} (hb : Best s b) {es : List Entry} (hes : newEntries = .ok es) {e : Entry} (he : e ∈ es) {v : ℝ}
    (hv : e.at s = .ok v) : b ≤ v := by
  rw [newEntries_eq] at hes
  obtain rfl := Except.ok.inj hes
  have hrows : ∀ r ∈ rows, newLe r ⟨2, 9, -6⟩ ⟨17 / 22, 38 / 49, true, true⟩ = true ∧ newLe r ⟨9, 16, -8⟩ ⟨38 / 49, 4 / 5, true, true⟩ = true ∧
      newLe r ⟨3, 10, -7⟩ ⟨701 / 1000, 1, true, true⟩ = true := by decide +kernel
  simp only [List.mem_cons, List.not_mem_nil, or_false] at he
  rcases he with rfl | rfl | rfl
  · obtain ⟨g1, rfl⟩ := LitZD.Reads.of_at (LitZD.readLF_reads (g := ⟨2, 9, -6⟩) (by decide +kernel)) hv
    cases hb with
    | row r hr b1 b2 => exact newLe_sound (hrows r hr).1 b1 b2 g1
    | pintz n hn b1 b2 =>
      have := (LitZD.contains_bounds g1).2
      have := (pintz_bounds hn b1 b2).1
      norm_num at *
      linarith
  · obtain ⟨g1, rfl⟩ := LitZD.Reads.of_at (LitZD.readLF_reads (g := ⟨9, 16, -8⟩) (by decide +kernel)) hv
    cases hb with
    | row r hr b1 b2 => exact newLe_sound (hrows r hr).2.1 b1 b2 g1
    | pintz n hn b1 b2 =>
      have := (LitZD.contains_bounds g1).2
      have := (pintz_bounds hn b1 b2).1
      norm_num at *
      linarith
  · obtain ⟨g1, rfl⟩ := LitZD.Reads.of_at (LitZD.readLF_reads (g := ⟨3, 10, -7⟩) (by decide +kernel)) hv
    cases hb with
    | row r hr b1 b2 => exact newLe_sound (hrows r hr).2.2 b1 b2 g1
    | pintz n hn b1 b2 =>
      refine (pintz_small hn b1 b2).2.trans ?_
      obtain ⟨c1, c2, -⟩ := pintz_bounds hn b1 b2
      have c1' : (59 / 60 : ℝ) ≤ s := LitZD.cast_le' c1
      have c2' : (s : ℝ) < 1 := by exact_mod_cast c2
      simp only [LF.val]
      push_cast
      rw [div_le_div_iff₀ (by norm_num) (by linarith)]
      linarith

/-! ### The table is attained -/

/-- Some estimates of the literature with their functions: those that are written out and those of the first loop for `k = 3, …, 6`. -/
def litLFs : List (Entry × LF) := LitZD.lfs ++ [3, 4, 5, 6].map (fun k : ℕ => (LitZD.ivicEntry k, ⟨3 * k, 3 * k - 2, 2 - k⟩))

/-- The new estimates with their functions. -/
def newLFs : List (Entry × LF) :=
  [(⟨"2/(9*x - 6)".toList, ⟨17 / 22, 38 / 49, true, true⟩⟩, ⟨2, 9, -6⟩), (⟨"9/(8*(2*x - 1))".toList, ⟨38 / 49, 4 / 5, true, true⟩⟩, ⟨9, 16, -8⟩),
    (⟨"3/(10 * x - 7)".toList, ⟨701 / 1000, 1, true, true⟩⟩, ⟨3, 10, -7⟩)]

/-- The estimate applies on the whole row and is at most the row there. -/
def hits (r : LF × ℚ × ℚ × Bool) (p : Entry × LF) : Bool :=
  decide (p.1.dom.x0 ≤ r.2.1) && decide (r.2.2.1 ≤ p.1.dom.x1) && p.1.dom.incL && Formula.leOn p.2 r.1 r.2.1 r.2.2.1

/-- The row of the pieces applies on the whole row, except possibly at its left end, and is at most the row there. -/
def meets (r : LF × ℚ × ℚ × Bool) (t : TRow) : Bool :=
  decide (t.lo ≤ r.2.1) && decide (r.2.2.1 ≤ t.hi) && decide (0 < t.a) && Formula.leOn (TRow.lf t) r.1 r.2.1 r.2.2.1

/-- The row of the pieces applies at the left end and is at most the row there. -/
def touches (r : LF × ℚ × ℚ × Bool) (t : TRow) : Bool :=
  decide (t.lo < r.2.1) && decide (r.2.1 ≤ t.hi) && decide (0 < t.a) && Formula.leOn (TRow.lf t) r.1 r.2.1 r.2.1

theorem text_value {e : Entry} {g : LF} (h : readLF e.expr = some g) {r : LF × ℚ × ℚ × Bool} (hh : hits r (e, g) = true) {s : ℚ} (h1 : r.2.1 ≤ s)
    (h2 : s < r.2.2.1) : (Est.text e).contains s = true ∧ (Est.text e).value s = .ok (some (g.val s)) ∧ g.val s ≤ r.1.val s := by
  simp only [hits, Bool.and_eq_true, decide_eq_true_eq] at hh
  obtain ⟨⟨⟨a1, a2⟩, a3⟩, a4⟩ := hh
  obtain ⟨b1, b2, b3⟩ := Formula.leOn_pos a4 (t := (s : ℝ)) (by exact_mod_cast h1) (by exact_mod_cast h2.le)
  refine ⟨?_, value_of_toLF h s b1.ne', b3⟩
  simp only [Est.contains]
  rw [Interval.contains_iff]
  refine ⟨?_, Or.inl (lt_of_lt_of_le h2 a2)⟩
  rcases eq_or_lt_of_le (a1.trans h1) with h | h
  · exact Or.inr ⟨a3, h.symm⟩
  · exact Or.inl h

theorem litLFs_mem {es : List Entry} (hes : LitZD.all = .ok es) {p : Entry × LF} (hp : p ∈ litLFs) : p.1 ∈ es ∧ readLF p.1.expr = some p.2 := by
  obtain ⟨es', h1, h2⟩ := LitZD.C76_entries
  rw [hes] at h1
  obtain rfl := Except.ok.inj h1
  rcases List.mem_append.mp hp with h | h
  · obtain ⟨m1, m2⟩ := LitZD.mem_lfs (e := p.1) (g := p.2) h
    exact ⟨(h2 _).mpr (Or.inl m1), m2⟩
  · have hr : ∀ k ∈ [3, 4, 5, 6], 3 ≤ k ∧ k < 100 ∧ readLF (LitZD.ivicEntry k).expr = some ⟨3 * k, 3 * k - 2, 2 - k⟩ := by decide +kernel
    obtain ⟨k, hk, rfl⟩ := List.mem_map.mp h
    obtain ⟨k1, k2, k3⟩ := hr k hk
    exact ⟨(h2 _).mpr (Or.inr (Or.inl ⟨k, k1, k2, rfl⟩)), k3⟩

theorem text_parsable {e : Entry} (h : ∃ f, LitZD.Reads e.expr f) (s : ℚ) : ∃ q, (Est.text e).value s = .ok q := by
  obtain ⟨f, g, h1, -⟩ := h
  exact ⟨_, by simp only [Est.value, h1, bind, Except.bind, pure, Except.pure]; rfl⟩

theorem litSet_spec : ∃ es, LitZD.all = .ok es ∧ litSet = .ok (es.map Est.text) ∧ Parsable (es.map Est.text) := by
  obtain ⟨es, h1, h2⟩ := PrimeGap.lit_kind
  refine ⟨es, h1, by rw [litSet, h1]; rfl, ?_⟩
  intro h hh s
  obtain ⟨e, he, rfl⟩ := List.mem_map.mp hh
  obtain ⟨f, hf, -⟩ := h2 e he
  exact text_parsable ⟨f, hf⟩ s

/-- The values of the literature are at least the table. -/
theorem lit_ge {es : List Entry} (hes : LitZD.all = .ok es) {s : ℚ} {b : ℝ} (hb : Best s b) {v : ℝ} (hv : v ∈ Values (es.map Est.text) s) : b ≤ v := by
  obtain ⟨es', h1, h2⟩ := LitZD.C77_best
  rw [hes] at h1
  obtain rfl := Except.ok.inj h1
  obtain ⟨h, hh, h3, h4⟩ := hv
  obtain ⟨e, he, rfl⟩ := List.mem_map.mp hh
  exact h2 s b hb e he v (at_of_value h3 h4)

/-- A row that the table takes from the literature is attained there. -/
theorem lit_attains {es : List Entry} (hes : LitZD.all = .ok es) {r : LF × ℚ × ℚ × Bool} (hr : r ∈ rows) (ht : r.2.2.2 = true) {s : ℚ} (h1 : r.2.1 ≤ s)
    (h2 : s < r.2.2.1) : ∃ v ∈ Values (es.map Est.text) s, v ≤ r.1.val s := by
  have hc : ∀ r ∈ rows, r.2.2.2 = true → ∃ p ∈ litLFs, hits r p = true := by decide +kernel
  obtain ⟨p, hp, hh⟩ := hc r hr ht
  obtain ⟨m1, m2⟩ := litLFs_mem hes hp
  obtain ⟨v1, v2, v3⟩ := text_value m2 hh h1 h2
  exact ⟨_, ⟨.text p.1, List.mem_map_of_mem m1, v1, v2⟩, v3⟩

/-- The last row is attained as far as the loop reaches. -/
theorem lit_attains_pintz {es : List Entry} (hes : LitZD.all = .ok es) {n : ℕ} (h6 : 6 ≤ n) (h22 : n ≤ 22) {s : ℚ}
    (h1 : 1 - 1 / (2 * (n : ℚ) * (n - 1)) ≤ s) (h2 : s < 1 - 1 / (2 * (n : ℚ) * (n + 1))) :
    (3 / (n * (1 - 2 * (n - 1) * (1 - s))) : ℝ) ∈ Values (es.map Est.text) s := by
  obtain ⟨es', k1, k2⟩ := LitZD.C76_entries
  rw [hes] at k1
  obtain rfl := Except.ok.inj k1
  have hc : ∀ n ∈ List.range' 6 17, readLF (LitZD.pintzEntry n).expr = some ⟨3, 2 * n * (n - 1), n - 2 * n * (n - 1)⟩ := by decide +kernel
  have hn := hc n (List.mem_range'_1.mpr ⟨h6, by omega⟩)
  have e : ((2 * n * (n - 1) : ℚ) * s + (n - 2 * n * (n - 1) : ℚ) : ℝ) = n * (1 - 2 * (n - 1) * (1 - s)) := by push_cast; ring
  refine ⟨.text (LitZD.pintzEntry n), List.mem_map_of_mem ((k2 _).mpr (Or.inr (Or.inr ⟨n, h6, h22, rfl⟩))), ?_, ?_⟩
  · simp only [Est.contains, LitZD.pintzEntry, LitZD.half_open]
    exact ⟨h1, h2⟩
  · have hp := (pintz_small h6 h1 h2).1
    rw [value_of_toLF hn s (by simp only; rw [e]; exact hp.ne')]
    simp only [LF.val]
    rw [e]
    norm_num

theorem best_small {s : ℚ} {b : ℝ} (hb : Best s b) : b ≤ 3 := by
  have hc : ∀ r ∈ rows, Formula.leOn r.1 ⟨3, 0, 1⟩ r.2.1 r.2.2.1 = true := by decide +kernel
  cases hb with
  | row r hr b1 b2 =>
    have := (Formula.leOn_pos (hc r hr) (t := (s : ℝ)) (by exact_mod_cast b1) (by exact_mod_cast b2.le)).2.2
    refine this.trans (le_of_eq ?_)
    simp [LF.val]
  | pintz n hn b1 b2 => exact (pintz_small hn b1 b2).2.trans (by norm_num)

/-- From the two inequalities to the value. -/
theorem bestAt_eq {l : List Est} (hp : Parsable l) {s : ℚ} {b : ℝ} (h3 : b ≤ 3) (hge : ∀ v ∈ Values l s, b ≤ v) (hle : ∃ v ∈ Values l s, v ≤ b) :
    bestAt l s = .ok b := by
  obtain ⟨w, w1, w2, w3⟩ := C103_minimum l hp s
  obtain ⟨v, v1, v2⟩ := hle
  have a : w ≤ b := (w3 (Or.inr v1)).trans v2
  have c : b ≤ w := by
    rcases w2 with rfl | w2
    · linarith
    · exact hge w w2
  rw [w1, le_antisymm a c]

theorem values_congr {l m : List Est} (h : ∀ e, e ∈ l ↔ e ∈ m) (s : ℚ) : Values l s = Values m s := by
  ext v
  constructor
  · rintro ⟨e, e1, e2⟩; exact ⟨e, (h e).mp e1, e2⟩
  · rintro ⟨e, e1, e2⟩; exact ⟨e, (h e).mpr e1, e2⟩

/-- **C103 (the literature).** For every order of the hypotheses and every `σ` at which the table of the text has a bound, the number drawn for
the literature is at least that bound, and it is equal to it in the rows that the table takes from the literature. -/
theorem C103_literature : ∃ hs, litSet = .ok hs ∧ ∀ l, (∀ h, h ∈ l ↔ h ∈ hs) → ∀ s b, Best s b → ∃ v, bestAt l s = .ok v ∧ b ≤ v ∧
    ((∃ r ∈ rows, r.2.2.2 = true ∧ r.2.1 ≤ s ∧ s < r.2.2.1) → v = b) := by
  obtain ⟨es, h1, h2, h3⟩ := litSet_spec
  refine ⟨_, h2, fun l hl s b hb => ?_⟩
  have hp : Parsable l := fun h hh => h3 h ((hl h).mp hh)
  have hge : ∀ v ∈ Values l s, b ≤ v := fun v hv => lit_ge h1 hb (by rwa [values_congr hl] at hv)
  obtain ⟨w, w1, w2, w3⟩ := C103_minimum l hp s
  have c : b ≤ w := by
    rcases w2 with rfl | w2
    · have := best_small hb; linarith
    · exact hge w w2
  refine ⟨w, w1, c, ?_⟩
  rintro ⟨r, r1, r2, r3, r4⟩
  obtain ⟨v, v1, v2⟩ := lit_attains h1 r1 r2 r3 r4
  rw [← values_congr hl] at v1
  have hs1 : 1 / 2 ≤ s ∧ s < 1 := by
    have : ∀ r ∈ rows, 1 / 2 ≤ r.2.1 ∧ r.2.2.1 ≤ 1 := by decide +kernel
    exact ⟨(this r r1).1.trans r3, lt_of_lt_of_le r4 (this r r1).2⟩
  obtain ⟨b', hb', hu⟩ := LitZD.C77_complete s hs1.1 hs1.2
  have e : b = r.1.val s := (hu b hb).trans (hu _ (Best.row r r1 r3 r4)).symm
  exact le_antisymm ((w3 (Or.inr v1)).trans (v2.trans e.ge)) c

/-- **C103 (the best bound).** For every order of the hypotheses, the number that is drawn as best estimate at `σ` is the bound of the table of
the text, for every `σ < 1011/1012` at which the table has a bound: every number drawn has a source in the table, and no row of the table is missing
from the code. -/
theorem C103_plot (isConstant : Expr ℝ → Bool) (realRoots : Expr ℝ → List ℝ) (hr : RootsSpec isConstant realRoots) (hcs : ConstSpec isConstant)
    (isZero : Expr ℝ → Bool) (hz : ZeroSpec isZero) :
    ∃ hs, plotSet (bourgainEpToZd isConstant realRoots isZero bourgainPairs) = .ok hs ∧ ∀ l, (∀ h, h ∈ l ↔ h ∈ hs) →
      ∀ s b, Best s b → s < 1011 / 1012 → bestAt l s = .ok b := by
  obtain ⟨es, h1, h2, h3⟩ := litSet_spec
  obtain ⟨sol, k1, k2, k3⟩ := piece_values isConstant realRoots hr hcs isZero hz
  refine ⟨es.map Est.text ++ (newLFs.map Prod.fst).map Est.text ++ sol.map Est.piece, ?_, fun l hl s b hb hs => ?_⟩
  · rw [plotSet, h2, newEntries_eq, k1]
    rfl
  have hnew : newEntries = .ok (newLFs.map Prod.fst) := newEntries_eq
  have hread : ∀ p ∈ newLFs, readLF p.1.expr = some p.2 := by decide +kernel
  have hp : Parsable l := by
    intro h hh s
    rcases List.mem_append.mp ((hl h).mp hh) with hm | hm
    · rcases List.mem_append.mp hm with hm | hm
      · exact h3 h hm s
      · obtain ⟨e, he, rfl⟩ := List.mem_map.mp hm
        obtain ⟨p, hp, rfl⟩ := List.mem_map.mp he
        exact text_parsable ⟨_, LitZD.readLF_reads (hread p hp)⟩ s
    · obtain ⟨p, hp, rfl⟩ := List.mem_map.mp hm
      exact ⟨_, rfl⟩
  have sub : ∀ m : List Est, (∀ h ∈ m, h ∈ l) → ∀ v ∈ Values m s, v ∈ Values l s := by
    rintro m hm v ⟨e, e1, e2⟩
    exact ⟨e, hm e e1, e2⟩
  have hlit : ∀ h ∈ es.map Est.text, h ∈ l := fun h hh => (hl h).mpr (by simp only [List.mem_append]; exact Or.inl (Or.inl hh))
  have hne : ∀ h ∈ (newLFs.map Prod.fst).map Est.text, h ∈ l := fun h hh => (hl h).mpr (by simp only [List.mem_append]; exact Or.inl (Or.inr hh))
  have hpi : ∀ h ∈ sol.map Est.piece, h ∈ l := fun h hh => (hl h).mpr (by simp only [List.mem_append]; exact Or.inr hh)
  refine bestAt_eq hp (best_small hb) ?_ ?_
  · intro v hv
    obtain ⟨h, hh, v1, v2⟩ := hv
    rcases List.mem_append.mp ((hl h).mp hh) with hm | hm
    · rcases List.mem_append.mp hm with hm | hm
      · exact lit_ge h1 hb ⟨h, hm, v1, v2⟩
      · obtain ⟨e, he, rfl⟩ := List.mem_map.mp hm
        exact best_le_new hb hnew he (at_of_value v1 v2)
    · obtain ⟨p, hp, rfl⟩ := List.mem_map.mp hm
      obtain ⟨t, t1, t2, t3, rfl⟩ := k2 p hp s v v1 v2
      exact best_le_piece hb t1 t2 t3
  · have hc : ∀ r ∈ rows, r.2.2.2 = true ∨ (∃ p ∈ newLFs, hits r p = true) ∨
        ∃ t ∈ tableRows, meets r t = true ∧ ∃ u ∈ tableRows, touches r u = true := by decide +kernel
    cases hb with
    | row r hr b1 b2 =>
      rcases hc r hr with h | ⟨p, hp, h⟩ | ⟨t, ht, h, u, hu, h'⟩
      · obtain ⟨v, v1, v2⟩ := lit_attains h1 hr h b1 b2
        exact ⟨v, sub _ hlit v v1, v2⟩
      · obtain ⟨v1, v2, v3⟩ := text_value (hread p hp) h b1 b2
        exact ⟨_, sub _ hne _ ⟨.text p.1, List.mem_map_of_mem (List.mem_map_of_mem hp), v1, v2⟩, v3⟩
      · simp only [meets, touches, Bool.and_eq_true, decide_eq_true_eq] at h h'
        rcases eq_or_lt_of_le b1 with he | hlt
        · subst he
          obtain ⟨⟨⟨a1, a2⟩, a3⟩, a4⟩ := h'
          obtain ⟨c1, c2, c3⟩ := Formula.leOn_pos a4 (t := ((r.2.1 : ℚ) : ℝ)) le_rfl le_rfl
          refine ⟨_, sub _ hpi _ (k3 u hu _ a1 a2 (lt_trans hs (by norm_num)) ?_), c3⟩
          exact div_pos (by exact_mod_cast a3) c1
        · obtain ⟨⟨⟨a1, a2⟩, a3⟩, a4⟩ := h
          obtain ⟨c1, c2, c3⟩ := Formula.leOn_pos a4 (t := (s : ℝ)) (by exact_mod_cast b1) (by exact_mod_cast b2.le)
          refine ⟨_, sub _ hpi _ (k3 t ht _ (lt_of_le_of_lt a1 hlt) (b2.le.trans a2) (lt_trans hs (by norm_num)) ?_), c3⟩
          exact div_pos (by exact_mod_cast a3) c1
    | pintz n hn b1 b2 =>
      have h22 : n ≤ 22 := by
        by_contra hc
        have n23 : (23 : ℚ) ≤ n := by exact_mod_cast (by omega : 23 ≤ n)
        have : 1 / (2 * (n : ℚ) * (n - 1)) ≤ 1 / 1012 := one_div_le_one_div_of_le (by norm_num) (by nlinarith)
        linarith
      exact ⟨_, sub _ hlit _ (lit_attains_pintz h1 hn h22 b1 b2), le_rfl⟩

/-- **C103 (the points of the plot).** The table has a bound at each of the 500 points of the plot, and the theorem applies to all of them. -/
theorem C103_points (i : ℕ) (hi : i < 500) : point i < 1011 / 1012 ∧ ∃! b, Best (point i) b := by
  have h : (i : ℚ) ≤ 499 := by exact_mod_cast (by omega : i ≤ 499)
  have h0 : (0 : ℚ) ≤ i := by positivity
  have e : point i = 1 / 2 + i / 1000 := by rw [point]; ring
  refine ⟨by rw [e]; linarith, LitZD.C77_complete _ (by rw [e]; linarith) (by rw [e]; linarith)⟩

/-- Non-vacuity: a point of the plot at which the pieces give the bound, and one at which a new estimate does. -/
example : Best (point 420) ((⟨11, 48, -36⟩ : LF).val (point 420)) ∧ Best (point 280) ((⟨9, 16, -8⟩ : LF).val (point 280)) :=
  ⟨Best.row (⟨11, 48, -36⟩, 31 / 34, 14 / 15, false) (by decide +kernel) (by norm_num [point]) (by norm_num [point]),
    Best.row (⟨9, 16, -8⟩, 7 / 9, 1867 / 2347, false) (by decide +kernel) (by norm_num [point]) (by norm_num [point])⟩

/-- Non-vacuity of the contracts, and a list to which the first theorem applies. -/
example : (∃ isConstant realRoots, RootsSpec isConstant realRoots ∧ ConstSpec isConstant) ∧ (∃ isZero, ZeroSpec isZero) ∧
    Parsable [.text ⟨"3/(2 - x)".toList, ⟨1 / 2, 1, true, false⟩⟩] := by
  refine ⟨Rational.rootsSpec_satisfiable, Rational.solveSpec_satisfiable.2, ?_⟩
  intro h hh s
  obtain rfl := List.mem_singleton.mp hh
  exact text_parsable ⟨_, LitZD.readLF_reads (g := ⟨3, -1, 2⟩) (by decide +kernel)⟩ s

/-- **C103 (the Lindelöf hypothesis).** The bound that is drawn is never larger than the density hypothesis `A(σ) ≤ 2`, and at most the best bound
of the table. -/
theorem C103_lindelof (s : ℚ) (b : ℝ) (hb : Best s b) : (lindelof s : ℝ) ≤ b := by
  have hrows : ∀ r ∈ rows, (Formula.leOn ⟨0, 0, 1⟩ r.1 r.2.1 r.2.2.1 = true) ∧ (r.2.1 ≤ 3 / 4 → Formula.leOn ⟨2, 0, 1⟩ r.1 r.2.1 (min r.2.2.1 (3 / 4)) = true) := by
    decide +kernel
  rw [lindelof]
  cases hb with
  | row r hr b1 b2 =>
    split_ifs with h
    · have := (Formula.leOn_pos ((hrows r hr).2 (b1.trans h)) (t := (s : ℝ)) (by exact_mod_cast b1) (by exact_mod_cast le_min b2.le h)).2.2
      refine le_trans (le_of_eq ?_) this
      simp [LF.val]
    · have := (Formula.leOn_pos (hrows r hr).1 (t := (s : ℝ)) (by exact_mod_cast b1) (by exact_mod_cast b2.le)).2.2
      refine le_trans (le_of_eq ?_) this
      simp [LF.val]
  | pintz n hn b1 b2 =>
    have := (pintz_bounds hn b1 b2).1
    rw [if_neg (by linarith)]
    push_cast
    exact div_nonneg (by norm_num) (pintz_small hn b1 b2).1.le

/-- At 3/4 the two bounds are 2 and 20/9. -/
example : lindelof (3 / 4) = 2 ∧ Best (3 / 4) ((⟨15, 5, 3⟩ : LF).val (3 / 4 : ℚ)) := by
  refine ⟨by norm_num [lindelof], Best.row (⟨15, 5, 3⟩, 7 / 10, 19 / 25, true) (by decide +kernel) (by norm_num) (by norm_num)⟩

end DensityPlot
end Expdb
