import Verif.Props.Lookup
import Verif.Props.LiteraturePairs
import Verif.Props.LiteratureMu

/-!
# C92: data and references of the hypotheses of the literature

The exponent pairs, transforms and bounds on mu as members of the set `literature`: their data, references and types.
-/

namespace Expdb
namespace Lookup
open Printing (Str)
open LitMu (yr)

/-- **C92** (equality of data) The operator `==` holds between the data of two hypotheses only if both are bounds on mu with the same two
numbers, or both are exponent pairs with the same two numbers. -/
theorem C92_data (d d' : Data) : dataEq d d' = true ↔ (∃ s m, d = .mu s m ∧ d' = .mu s m) ∨ ∃ k l, d = .pair k l ∧ d' = .pair k l := by
  constructor
  · intro h
    unfold dataEq at h
    split at h
    · obtain ⟨h1, h2⟩ := Bool.and_eq_true _ _ ▸ h
      exact Or.inl ⟨_, _, rfl, by rw [of_decide_eq_true h1, of_decide_eq_true h2]⟩
    · obtain ⟨h1, h2⟩ := Bool.and_eq_true _ _ ▸ h
      exact Or.inr ⟨_, _, rfl, by rw [of_decide_eq_true h1, of_decide_eq_true h2]⟩
    · cases h
  · rintro (⟨s, m, rfl, rfl⟩ | ⟨k, l, rfl, rfl⟩) <;> simp [dataEq]

example : dataEq (.pair (1 / 6) (2 / 3)) (.pair (1 / 6) (2 / 3)) = true ∧ dataEq (.pair (1 / 6) (2 / 3)) (.pair (1 / 6) (1 / 2)) = false ∧
    dataEq (.mu (1 / 2) (1 / 6)) (.pair (1 / 2) (1 / 6)) = false := by
  decide +kernel

/-- The last four digits in a label, a letter after them omitted; `none` if the label does not end like this. -/
def labelYear (l : String) : Option ℤ :=
  let r := l.toList.reverse
  let r := match r with | c :: cs => if c.isAlpha then cs else r | [] => r
  match r with
  | a :: b :: c :: d :: '_' :: _ =>
    if [a, b, c, d].all (fun x => x.isDigit) then
      some ((d.toNat - 48) * 1000 + (c.toNat - 48) * 100 + (b.toNat - 48) * 10 + (a.toNat - 48) : ℤ)
    else none
  | _ => none

/-- **C92** (years of references) The labels of `references.bib` which `literature.py` uses are different, and the year of an entry is
the one in its label if there is one. The entries without a year in the label are these six. -/
theorem C92_labels : (bib.map (·.label)).Nodup ∧ (∀ e ∈ bib, ∀ y ∈ labelYear e.label, e.year = y) ∧
    bib.filterMap (fun e => if labelYear e.label = none then some (e.label, e.year) else none) =
      [("FordZeta", 2002), ("Huxley", 1972), ("guth-maynard", 2024), ("heath_brown_consecutive_II", 1979), ("ivic", 2003),
        ("trudgian-yang", 2023)] := by
  decide +kernel

theorem source_ok {l : String} (h : (bib.find? (fun e => e.label = l)).isSome) : ∃ a y, source (.bib l) = .ok (a, ⟨l, yr y⟩) := by
  obtain ⟨e, he⟩ := Option.isSome_iff_exists.mp h
  exact ⟨_, e.year, by simp only [source, he]; rfl⟩

/-- What a hypothesis is, its name aside. -/
def Node.core (n : Node Data) : Data × String × String := (n.data, n.htype, n.ref.label)

theorem named_core {s : Src} {text : Str} {htype : String} {d : Data} {a : Str} {r : Reference} (h : source s = .ok (a, r)) :
    ∃ n, named s text htype d = .ok n ∧ Node.core n = (d, htype, r.label) ∧ n.ref = r ∧ n.name = a ++ text := by
  unfold named
  simp only [h, bind, Except.bind, pure, Except.pure]
  exact ⟨_, rfl, rfl, rfl, rfl⟩

theorem mapM_core {α β γ : Type} {f : α → Py β} {g : β → γ} {c : α → γ} : ∀ {l : List α}, (∀ a ∈ l, ∃ b, f a = .ok b ∧ g b = c a) →
    ∃ bs, l.mapM f = .ok bs ∧ bs.map g = l.map c
  | [], _ => ⟨[], rfl, rfl⟩
  | a :: l, h => by
    obtain ⟨b, h1, h2⟩ := h a (by simp)
    obtain ⟨bs, h3, h4⟩ := mapM_core (l := l) (fun x hx => h x (by simp [hx]))
    refine ⟨b :: bs, ?_, by simp [h2, h4]⟩
    rw [List.mapM_cons, h1, h3]
    rfl

theorem pairNode_core {l : String} (h : (bib.find? (fun e => e.label = l)).isSome) (p : ℚ × ℚ) :
    ∃ n, pairNode l p = .ok n ∧ Node.core n = (.pair p.1 p.2, "Exponent pair", l) := by
  obtain ⟨a, y, hs⟩ := source_ok h
  obtain ⟨n, h1, h2, -⟩ := named_core (text := " exponent pair".toList) (htype := "Exponent pair") (d := .pair p.1 p.2) hs
  exact ⟨n, h1, h2⟩

/-- **C92** (exponent pairs) For every truncation: the exponent pairs of the set `literature` are those listed, with their references,
then Huxley's family with a reference to the book of 1996, then Heath-Brown's with one to the article of 2017, the first number of each
pair first. -/
theorem C92_pairs (M : ℕ) : ∃ nodes, pairNodes M = .ok nodes ∧ nodes.map Node.core =
    LitPairs.literaturePairs.map (fun e => (.pair e.k e.l, "Exponent pair", String.ofList e.ref)) ++
    (LitPairs.natRange 1 M).map (fun m => (.pair (LitPairs.huxley m).1 (LitPairs.huxley m).2, "Exponent pair", "huxley_area_1996")) ++
    (LitPairs.natRange 3 M).map (fun m => (.pair (LitPairs.hb m).1 (LitPairs.hb m).2, "Exponent pair", "heathbrown_new_2017")) := by
  have hl : ∀ e ∈ LitPairs.literaturePairs, (bib.find? (fun b => b.label = String.ofList e.ref)).isSome := by decide +kernel
  obtain ⟨n1, a1, b1⟩ := mapM_core (f := fun e : LitPairs.Entry => pairNode (String.ofList e.ref) (e.k, e.l)) (g := Node.core)
    (c := fun e => (.pair e.k e.l, "Exponent pair", String.ofList e.ref)) (fun e he => pairNode_core (hl e he) (e.k, e.l))
  obtain ⟨n2, a2, b2⟩ := mapM_core (f := pairNode "huxley_area_1996") (g := Node.core) (l := (LitPairs.natRange 1 M).map LitPairs.huxley)
    (c := fun p => (.pair p.1 p.2, "Exponent pair", "huxley_area_1996")) (fun p _ => pairNode_core (by decide +kernel) p)
  obtain ⟨n3, a3, b3⟩ := mapM_core (f := pairNode "heathbrown_new_2017") (g := Node.core) (l := (LitPairs.natRange 3 M).map LitPairs.hb)
    (c := fun p => (.pair p.1 p.2, "Exponent pair", "heathbrown_new_2017")) (fun p _ => pairNode_core (by decide +kernel) p)
  refine ⟨n1 ++ n2 ++ n3, ?_, by rw [List.map_append, List.map_append, b1, b2, b3, List.map_map, List.map_map]; rfl⟩
  unfold pairNodes
  rw [a1, LitPairs.huxleyPairs_ok, LitPairs.heathBrownPairs_ok]
  simp only [bind, Except.bind, pure, Except.pure, a2, a3]

/-- With the truncation of the code the set has Bourgain's pair with its reference. -/
example : (LitPairs.literaturePairs.map (fun e => (e.k, e.l, String.ofList e.ref))).contains (13 / 84, 55 / 84, "bourgain_decoupling_2017") := by
  decide +kernel

/-- **C92** (transforms) The names, types and references of the transforms: the one that makes a bound on beta has a type of its own. -/
theorem C92_transforms : ∃ nodes, transformNodes = .ok nodes ∧ nodes.map (fun n => (n.htype, n.ref.year)) =
    [("Exponent pair transform", yr 1920), ("Exponent pair transform", yr 1920), ("Exponent pair transform", yr 2003),
      ("Exponent pair to beta bound transform", yr 1995)] ∧ ∀ n ∈ nodes, n.data = .transform n.name := by
  cases h : transformNodes with
  | error e =>
    have h1 : transformNodes.toBool = true := by decide +kernel
    rw [h] at h1
    cases h1
  | ok nodes =>
    have h1 : transformNodes.map (fun ns => ns.map (fun n => (n.htype, n.ref.year))) = .ok
      [("Exponent pair transform", yr 1920), ("Exponent pair transform", yr 1920), ("Exponent pair transform", yr 2003),
      ("Exponent pair to beta bound transform", yr 1995)] := by decide +kernel
    have h2 : transformNodes.map (fun ns => ns.all (fun n => decide (n.data = .transform n.name))) = .ok true := by decide +kernel
    rw [h] at h1 h2
    simp only [Except.map, Except.ok.injEq] at h1 h2
    exact ⟨nodes, rfl, h1, fun n hn => by simpa using List.all_eq_true.mp h2 n hn⟩

theorem muNode_core {s : Src} {a : Str} {r : Reference} (h : source s = .ok (a, r)) (x m : ℚ) :
    ∃ n, muNode s x m = .ok n ∧ (n.data, n.htype, n.ref.year) = (.mu x m, "Upper bound on mu", r.year) := by
  obtain ⟨n, h1, h2, h3, -⟩ := named_core (text := " bound on \\mu(".toList ++ (ratChars x ++ [')'])) (htype := "Upper bound on mu")
    (d := .mu x m) h
  refine ⟨n, h1, ?_⟩
  simp only [Node.core, Prod.mk.injEq] at h2
  rw [h2.1, h2.2.1, h3]

/-- **C92** (bounds on mu) For every truncation: the bounds on mu of the set `literature`, with the years of their references, are those
listed, those of van der Corput's sequence (1920) and those of Hardy and Littlewood's (without a year). -/
theorem C92_mu (N : ℕ) : ∃ nodes, muNodes N = .ok nodes ∧ nodes.map (fun n => (n.data, n.htype, n.ref.year)) =
    LitMu.listed.map (fun e => (.mu e.sigma e.mu, "Upper bound on mu", e.year)) ++
    (LitMu.natRange 4 N).map (fun n => (.mu (1 - n / (2 ^ n - 2)) (1 / (2 ^ n - 2)), "Upper bound on mu", yr 1920)) ++
    (LitMu.natRange 4 N).map (fun n => (.mu (1 - 1 / 2 ^ (n - 1)) (1 / ((n + 1) * 2 ^ (n - 1))), "Upper bound on mu", none)) := by
  obtain ⟨hlen, hy⟩ := C84_years
  obtain ⟨n1, a1, b1⟩ := mapM_core (f := fun p : Src × LitMu.Entry => muNode p.1 p.2.sigma p.2.mu)
    (g := fun n => (n.data, n.htype, n.ref.year)) (l := muSrcs.zip LitMu.listed)
    (c := fun p => (.mu p.2.sigma p.2.mu, "Upper bound on mu", p.2.year)) (by
      intro p hp
      obtain ⟨a, r, h1, h2⟩ := hy p hp
      obtain ⟨n, h3, h4⟩ := muNode_core h1 p.2.sigma p.2.mu
      exact ⟨n, h3, by rw [h4, h2]⟩)
  have hz : (muSrcs.zip LitMu.listed).map (fun p => ((.mu p.2.sigma p.2.mu, "Upper bound on mu", p.2.year) : Data × String × Year)) =
      LitMu.listed.map (fun e => (.mu e.sigma e.mu, "Upper bound on mu", e.year)) := by
    conv_rhs => rw [← List.map_snd_zip (l₁ := muSrcs) (l₂ := LitMu.listed) (by omega), List.map_map]
    rfl
  have hr : ∀ n ∈ LitMu.natRange 4 N, 4 ≤ n := by
    intro n hn
    obtain ⟨i, -, rfl⟩ := List.mem_map.mp hn
    omega
  obtain ⟨v, av, bv⟩ := mapM_core (f := LitMu.vdcEntry) (g := id) (l := LitMu.natRange 4 N)
    (c := fun n => ⟨1 - n / (2 ^ n - 2), 1 / (2 ^ n - 2), yr 1920⟩) (fun n hn => ⟨_, LitMu.vdcEntry_ok n (by have := hr n hn; omega), rfl⟩)
  obtain ⟨w, aw, bw⟩ := mapM_core (f := LitMu.hlEntry) (g := id) (l := LitMu.natRange 4 N)
    (c := fun n => ⟨1 - 1 / 2 ^ (n - 1), 1 / ((n + 1) * 2 ^ (n - 1)), none⟩) (fun n hn => ⟨_, LitMu.hlEntry_ok n, rfl⟩)
  rw [List.map_id] at bv bw
  obtain ⟨n2, a2, b2⟩ := mapM_core (f := fun e : LitMu.Entry => muNode (.made "van der Corput".toList (yr 1920)) e.sigma e.mu)
    (g := fun n => (n.data, n.htype, n.ref.year)) (l := v) (c := fun e => (.mu e.sigma e.mu, "Upper bound on mu", yr 1920))
    (fun e _ => muNode_core (s := .made "van der Corput".toList (yr 1920)) rfl e.sigma e.mu)
  obtain ⟨n3, a3, b3⟩ := mapM_core (f := fun e : LitMu.Entry => muNode (.made "Hardy--Littlewood".toList none) e.sigma e.mu)
    (g := fun n => (n.data, n.htype, n.ref.year)) (l := w) (c := fun e => (.mu e.sigma e.mu, "Upper bound on mu", none))
    (fun e _ => muNode_core (s := .made "Hardy--Littlewood".toList none) rfl e.sigma e.mu)
  refine ⟨n1 ++ n2 ++ n3, ?_, ?_⟩
  · unfold muNodes
    simp only [bind, Except.bind, pure, Except.pure, a1, a2, a3, av, aw]
  · rw [List.map_append, List.map_append, b1, hz, b2, b3, bv, bw, List.map_map, List.map_map]
    rfl

/-- With the truncation of the code, Bourgain's bound and the fourth bounds of the two sequences. -/
example : (LitMu.listed.map (fun e => (e.sigma, e.mu))).contains (1 / 2, 13 / 84) ∧ 4 ∈ LitMu.natRange 4 20 ∧
    (1 - 4 / (2 ^ 4 - 2) : ℚ) = 5 / 7 ∧ (1 / ((4 + 1) * 2 ^ (4 - 1)) : ℚ) = 1 / 40 := by
  refine ⟨by decide +kernel, by decide +kernel, by norm_num, by norm_num⟩

theorem mapM_forall₂ {β γ : Type} {g : β → γ} {l : List (Py β)} {cs : List γ} (h : List.Forall₂ (fun a c => ∃ b, a = .ok b ∧ g b = c) l cs) :
    ∃ bs, l.mapM id = .ok bs ∧ bs.map g = cs := by
  induction h with
  | nil => exact ⟨[], rfl, rfl⟩
  | cons h1 _ ih =>
    obtain ⟨b, h1, h2⟩ := h1
    obtain ⟨bs, h3, h4⟩ := ih
    refine ⟨b :: bs, ?_, by simp [h2, h4]⟩
    rw [List.mapM_cons, h1, h3]
    rfl

theorem lvNode_core {l : String} (h : (bib.find? (fun e => e.label = l)).isSome) (b : List (List ℚ)) (t : Str) :
    ∃ n, lvNode l b t = .ok n ∧ Node.core n = (.lv b, "Large value estimate", l) := by
  obtain ⟨a, y, hs⟩ := source_ok h
  obtain ⟨n, h1, h2, -⟩ := named_core (text := " large value estimate".toList ++ t) (htype := "Large value estimate") (d := .lv b) hs
  exact ⟨n, h1, h2⟩

/-- **C92** (large value estimates) For every truncation `K`: the large value estimates of the set `literature` are Huxley's, Heath-Brown's, those
of Jutila with `k` from 1 to `K - 1`, Bourgain's region and that of Guth and Maynard, with their references. -/
theorem C92_large_values (K : ℕ) : ∃ nodes, lvNodes K = .ok nodes ∧ nodes.map Node.core =
    [(.lv Literature.huxley, "Large value estimate", "Huxley"), (.lv Literature.heathBrown, "Large value estimate", "heathbrown_zero_1979")] ++
    (List.range (K - 1)).map (fun i => (.lv (Literature.jutila (1 + i)), "Large value estimate", "jutila_zero_density_1977")) ++
    [(.region .bourgain, "Large value estimate", "bourgain_large_2000"), (.lv Literature.guthMaynard, "Large value estimate", "guth-maynard")] := by
  unfold lvNodes
  refine mapM_forall₂ (List.rel_append (List.rel_append ?_ ?_) ?_)
  · exact .cons (lvNode_core (by decide +kernel) _ _) (.cons (lvNode_core (by decide +kernel) _ _) .nil)
  · rw [List.range'_eq_map_range, List.map_map, List.forall₂_map_left_iff, List.forall₂_map_right_iff, List.forall₂_same]
    intro i _
    exact lvNode_core (by decide +kernel) _ _
  · refine .cons ?_ (.cons (lvNode_core (by decide +kernel) _ _) .nil)
    obtain ⟨a, y, hs⟩ := source_ok (l := "bourgain_large_2000") (by decide +kernel)
    obtain ⟨n, h1, h2, -⟩ := named_core (text := " optimized large value estimate".toList) (htype := "Large value estimate")
      (d := .region .bourgain) hs
    exact ⟨n, h1, h2⟩

/-- With the truncation of the code there are nineteen estimates of Jutila. -/
example : (List.range (20 - 1)).length = 19 := rfl

theorem ok_of_map {α β : Type} {x : Py α} {f : α → β} {b : β} (h : x.map f = .ok b) : ∃ a, x = .ok a ∧ f a = b := by
  cases x with
  | error e => cases h
  | ok a => exact ⟨a, rfl, by simpa [Except.map] using h⟩

/-- **C92** (energy regions) The large value energy regions of the set `literature` with their references: the third relation of Heath-Brown for
`k = 1, …, 4` and the first one of Guth and Maynard for `k = 1, 2, 3`. -/
theorem C92_regions : ∃ nodes, regionNodes = .ok nodes ∧ nodes.map Node.core =
    [(.region .hb1, "Large value energy region", "heathbrown_large_1979"), (.region .ivic, "Large value energy region", "ivic"),
     (.region .hb2a, "Large value energy region", "heathbrown_zero_1979"), (.region .hb2b, "Large value energy region", "heathbrown_zero_1979"),
     (.region (.hb3 1), "Large value energy region", "heathbrown_zero_1979"), (.region (.hb3 2), "Large value energy region", "heathbrown_zero_1979"),
     (.region (.hb3 3), "Large value energy region", "heathbrown_zero_1979"), (.region (.hb3 4), "Large value energy region", "heathbrown_zero_1979"),
     (.region (.gm1 1), "Large value energy region", "guth-maynard"), (.region (.gm1 2), "Large value energy region", "guth-maynard"),
     (.region (.gm1 3), "Large value energy region", "guth-maynard"), (.region .gm2, "Large value energy region", "guth-maynard"),
     (.region .gm3, "Large value energy region", "guth-maynard")] :=
  ok_of_map (by decide +kernel)

/-- The text of the formula of an estimate, the label of its reference and the year. -/
def zdCore (n : Node Data) : Option (String × String × Year) :=
  match n.data with
  | .zd e => some (String.ofList e.expr, n.ref.label, n.ref.year)
  | _ => none

/-- The zero density estimates before the loop of `add_zero_density_ivic_1984` with the labels and years of the references that are given for
them: the label of a reference made by `Reference.make` is "temp_". -/
def sourcesBefore : List (String × String × Year) :=
    [("4*x", "carlson_uber_1921", yr 1921), ("3/(2 - x)", "ingham_estimation_1940", yr 1940), ("1600 * (1 - x) ** (1/2)", "temp_", yr 1971),
     ("3/(3 * x - 1)", "Huxley", yr 1972), ("39/(115 * x - 75)", "huxley_large_1973", yr 1973), ("2", "huxley_large_1973", yr 1973),
     ("48/(37 * (2 * x - 1))", "huxley_large_1973", yr 1973), ("3/(2 * x)", "huxley_large_1975a", yr 1975),
     ("48/(37 * (2 * x - 1))", "huxley_large_1975a", yr 1975), ("2", "huxley_large_1975a", yr 1975), ("2", "huxley_large_1975b", yr 1975),
     ("4/(4 * x - 1)", "heathbrown_zero_1979", yr 1979), ("3/(10 * x - 7)", "heathbrown_zero_1979", yr 1979),
     ("9/(7 * x - 1)", "heathbrown_zero_1979", yr 1979), ("6/(5 * x - 1)", "ivic_note_1979", yr 1979),
     ("3/(34 * x - 25)", "ivic_note_1979", yr 1979), ("9/(7 * x - 1)", "ivic_note_1979", yr 1979), ("3/(2 * x)", "ivic_note_1979", yr 1979),
     ("68/(98 * x - 47)", "ivic_note_1979", yr 1979), ("3/(2 * x)", "temp_", yr 1980), ("2", "temp_", yr 1980),
     ("9/(7 * x - 1)", "temp_", yr 1980), ("6/(5 * x - 1)", "temp_", yr 1980), ("4/(2 * x + 1)", "temp_", yr 1980),
     ("24/(30 * x - 11)", "temp_", yr 1980), ("(3/2 - x) / (1 - x)", "jutila_zeroes_1983", yr 1983),
     ("3/(7 * x - 4)", "ivic_zero_1984", yr 1984), ("9/(8 * x - 2)", "ivic_zero_1984", yr 1984), ("15/(22 * x - 10)", "temp_", yr 1984)]

/-- Those between the two loops. -/
def sourcesMiddle : List (String × String × Year) :=
    [("(1 + (1 - 2 * x) * 4/7) / (1 - x)", "conrey_at_1989", yr 1989), ("4 / (30 * x - 25)", "bourgain_remarks_1995", yr 1995),
     ("2 / (7 * x - 5)", "bourgain_remarks_1995", yr 1995), ("2", "bourgain_large_2000", yr 2000),
     ("58.05 * (1 - x) ** (1/2)", "FordZeta", yr 2002), ("3/(2 * x)", "temp_", yr 2002),
     ("6.42 * (1 - x) ** (1/2)", "heathbrown_new_2017", yr 2017), ("3/(24 * x - 20)", "pintz_density_2023", yr 2023),
     ("2/(15 * x - 12)", "pintz_density_2023", yr 2023), ("3/(40 * x - 35)", "pintz_density_2023", yr 2023)]

/-- Those after the loops. -/
def sourcesAfter : List (String × String × Year) :=
    [("24 / (30 * x - 11)", "chen_debruyne_vindas_density_2024", yr 2024), ("15 / (3 + 5 * x)", "guth-maynard", yr 2024)]

/-- **C92** (zero density estimates) Every hypothesis made from the calls of `add_zero_density` has the type of a zero density estimate, and they
come in chronological order, except for those of the first loop, whose reference is the reprint of 2003 (see the counterexample). Outside
the two loops, each formula has the label and the year of the lists above. -/
theorem C92_zero_density : ∃ nodes, zdNodes = .ok nodes ∧ (∀ n ∈ nodes, n.htype = "Zero density estimate") ∧
    (nodes.filter (fun n => decide (n.ref.label ≠ "ivic"))).Pairwise (fun n n' => n.ref.year.getD 0 ≤ n'.ref.year.getD 0) ∧
    (nodes.take 29).map zdCore = sourcesBefore.map some ∧
    (∀ n ∈ (nodes.drop 29).take 97, n.ref.label = "ivic" ∧ n.ref.year = yr 2003) ∧
    ((nodes.drop 126).take 10).map zdCore = sourcesMiddle.map some ∧
    (∀ n ∈ (nodes.drop 136).take 17, n.ref.label = "pintz_density_2023" ∧ n.ref.year = yr 2023) ∧
    (nodes.drop 153).map zdCore = sourcesAfter.map some ∧
    (nodes.filter (fun n => decide (n.ref.label = "temp_"))).map (fun n => String.ofList n.name) =
      ["Montgomery (1971) zero density estimate", "Ivic (1980) zero density estimate", "Ivic (1980) zero density estimate",
       "Ivic (1980) zero density estimate", "Ivic (1980) zero density estimate", "Ivic (1980) zero density estimate",
       "Ivic (1980) zero density estimate", "Ivic (1984) zero density estimate", "Bourgain (2002) zero density estimate"] := by
  have h : zdNodes.map (fun nodes : List (Node Data) =>
    decide ((∀ n ∈ nodes, n.htype = "Zero density estimate")) &&
    decide ((nodes.filter (fun n => decide (n.ref.label ≠ "ivic"))).Pairwise (fun n n' => n.ref.year.getD 0 ≤ n'.ref.year.getD 0)) &&
    decide ((nodes.take 29).map zdCore = sourcesBefore.map some) &&
    decide ((∀ n ∈ (nodes.drop 29).take 97, n.ref.label = "ivic" ∧ n.ref.year = yr 2003)) &&
    decide (((nodes.drop 126).take 10).map zdCore = sourcesMiddle.map some) &&
    decide ((∀ n ∈ (nodes.drop 136).take 17, n.ref.label = "pintz_density_2023" ∧ n.ref.year = yr 2023)) &&
    decide ((nodes.drop 153).map zdCore = sourcesAfter.map some) &&
    decide ((nodes.filter (fun n => decide (n.ref.label = "temp_"))).map (fun n => String.ofList n.name) =
      ["Montgomery (1971) zero density estimate", "Ivic (1980) zero density estimate", "Ivic (1980) zero density estimate",
       "Ivic (1980) zero density estimate", "Ivic (1980) zero density estimate", "Ivic (1980) zero density estimate",
       "Ivic (1980) zero density estimate", "Ivic (1984) zero density estimate", "Bourgain (2002) zero density estimate"])) = .ok true := by
    decide +kernel
  obtain ⟨nodes, h1, h2⟩ := ok_of_map h
  simp only [Bool.and_eq_true, decide_eq_true_eq, and_assoc] at h2
  exact ⟨nodes, h1, h2⟩

/-- **C92** (energy estimates) The three zero density energy estimates, which have a type of their own. -/
theorem C92_energy_estimates : ∃ nodes, zdeNodes = .ok nodes ∧ (∀ n ∈ nodes, n.htype = "Zero density energy estimate") ∧
    nodes.map zdCore = [some ("(10 - 11 * x) / ((2 - x) * (1 - x))", "heath_brown_consecutive_II", yr 1979),
      some ("(18 - 19 * x) / ((4 - 2 * x) * (1 - x))", "heath_brown_consecutive_II", yr 1979),
      some ("12 / (4 * x - 1)", "heath_brown_consecutive_II", yr 1979)] := by
  have h : zdeNodes.map (fun nodes : List (Node Data) => decide (∀ n ∈ nodes, n.htype = "Zero density energy estimate") &&
    decide (nodes.map zdCore = [some ("(10 - 11 * x) / ((2 - x) * (1 - x))", "heath_brown_consecutive_II", yr 1979),
      some ("(18 - 19 * x) / ((4 - 2 * x) * (1 - x))", "heath_brown_consecutive_II", yr 1979),
      some ("12 / (4 * x - 1)", "heath_brown_consecutive_II", yr 1979)])) = .ok true := by decide +kernel
  obtain ⟨nodes, h1, h2⟩ := ok_of_map h
  simp only [Bool.and_eq_true, decide_eq_true_eq] at h2
  exact ⟨nodes, h1, h2⟩

end Lookup
end Expdb
