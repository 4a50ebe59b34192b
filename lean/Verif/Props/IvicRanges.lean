import Verif.Model.IvicRanges
import Verif.Props.PairZD
import Verif.Props.LiteraturePairs

/-!
# C104: the ranges that `prove_zero_density_ivic_1984` prints
-/

namespace Expdb
namespace IvicRanges
open LitZD (gzdLimit ivicLower)
open PairZD (Adm vOf ivicEpToZd C79_range gzdLimit_eq vDen_pos)
open LitPairs (Known vertex mirror hb)

/-- The first limit of the published lemma. -/
def plain (m : ℚ) : ℚ := (6 * m ^ 2 - 5 * m + 2) / (8 * m ^ 2 - 7 * m + 2)

theorem den_pos {m : ℚ} (_ : 1 ≤ m) : 0 < 8 * m ^ 2 - 7 * m + 2 := by nlinarith

/-- The fraction minimised by the code is at least `c` on a half plane. -/
theorem le_vOf {m : ℚ} (hm : 1 ≤ m) {p : ℚ × ℚ} (hp : Adm p) (c : ℚ) :
    c ≤ vOf m p ↔ 0 ≤ (3 * m ^ 2 - c * (4 * m ^ 2)) + (6 * m ^ 2 - 4 * m + 2 - c * (8 * m ^ 2 - 6 * m + 2)) * p.1 +
      (6 * m ^ 2 - 2 * m + 2 - c * (8 * m ^ 2 - 4 * m + 2)) * p.2 := by
  rw [vOf, le_div_iff₀ (vDen_pos hm hp), ← sub_nonneg]
  exact iff_of_eq (congrArg _ (by ring))

/-- For `m ≥ 3` the fraction is never below the first limit. -/
theorem plain_le_vOf {m : ℚ} (hm : 3 ≤ m) {p : ℚ × ℚ} (hp : Adm p) : plain m ≤ vOf m p := by
  have hd := den_pos (by linarith : 1 ≤ m)
  obtain ⟨h1, h2, h3, h4⟩ := hp
  rw [le_vOf (by linarith) ⟨h1, h2, h3, h4⟩]
  have e : (3 * m ^ 2 - plain m * (4 * m ^ 2)) + (6 * m ^ 2 - 4 * m + 2 - plain m * (8 * m ^ 2 - 6 * m + 2)) * p.1 +
      (6 * m ^ 2 - 2 * m + 2 - plain m * (8 * m ^ 2 - 4 * m + 2)) * p.2 =
      m ^ 2 * ((2 * m - 2) * p.1 + (6 * m - 6) * p.2 - (m + 2)) / (8 * m ^ 2 - 7 * m + 2) := by
    have hd' := hd.ne'
    rw [plain, eq_div_iff hd']
    have e' : (6 * m ^ 2 - 5 * m + 2) = plain m * (8 * m ^ 2 - 7 * m + 2) := by rw [plain, div_mul_cancel₀ _ hd']
    rw [← plain]
    linear_combination (4 * m ^ 2 + (8 * m ^ 2 - 6 * m + 2) * p.1 + (8 * m ^ 2 - 4 * m + 2) * p.2) * e'
  rw [e]
  refine div_nonneg (mul_nonneg (by positivity) ?_) hd.le
  have a := mul_nonneg (by linarith : (0 : ℚ) ≤ 2 * m - 2) h1
  have b := mul_le_mul_of_nonneg_left h3 (by linarith : (0 : ℚ) ≤ 6 * m - 6)
  linarith

/-- For `m ≥ 3` every exponent pair gives the same limit. -/
theorem limit_eq {m : ℕ} (hm : 3 ≤ m) {p : ℚ × ℚ} (hp : Adm p) : gzdLimit m p.1 p.2 = ivicLower m ∧ ivicLower m = plain m := by
  have hm' : (3 : ℚ) ≤ m := by exact_mod_cast hm
  have h1 : gzdLimit m p.1 p.2 = plain m := by
    rw [gzdLimit]
    exact min_eq_left ((plain_le_vOf hm' hp).trans (le_max_right _ _))
  refine ⟨?_, ?_⟩
  · rcases Nat.lt_or_ge m 4 with h | h
    · obtain rfl : m = 3 := by omega
      rw [h1, plain, ivicLower]; norm_num
    · exact (LitZD.C76_ivic_range m hm p.1 p.2).2 h
  · rcases Nat.lt_or_ge m 4 with h | h
    · obtain rfl : m = 3 := by omega
      rw [plain, ivicLower]; norm_num
    · rw [← (LitZD.C76_ivic_range m hm p.1 p.2).2 h, h1]

theorem forM_ok {α β : Type} {f : α → Py β} : ∀ (l : List α), (∀ a ∈ l, ∃ b, f a = .ok b) →
    ∃ bs, l.mapM f = .ok bs ∧ List.Forall₂ (fun a b => f a = .ok b) l bs
  | [], _ => ⟨[], rfl, .nil⟩
  | a :: l, h => by
    obtain ⟨b, hb⟩ := h a (by simp)
    obtain ⟨bs, h1, h2⟩ := forM_ok l (fun x hx => h x (by simp [hx]))
    refine ⟨b :: bs, ?_, .cons hb h2⟩
    rw [List.mapM_cons, hb, h1]
    rfl

/-- **C104 (the estimates printed).** For every list of exponent pairs that is not empty the loop runs to its end and prints 18 estimates. From the
second one on, the ranges are those of the entries of the literature, whatever the exponent pairs: they start at `(6m² - 5m + 2)/(8m² - 7m + 2)`, so that neither
better nor worse exponent pairs change them. The first one starts at 4/5 or below, and at or above 15/19. -/
theorem C104_ranges (pairs : List (ℚ × ℚ)) (hne : pairs ≠ []) (hadm : ∀ p ∈ pairs, Adm p) :
    ∃ rs, proveIvic1984 pairs = .ok rs ∧ rs.length = 18 ∧
      (∃ r rest, rs = r :: rest ∧ ∃ s, r.1.dom = ⟨s, 1, true, false⟩ ∧ 15 / 19 ≤ s ∧ s ≤ 4 / 5) ∧
      ∀ i (h : i < rs.length), 1 ≤ i → (rs[i]).1.dom = ⟨(6 * ((i : ℚ) + 2) ^ 2 - 5 * (i + 2) + 2) / (8 * ((i : ℚ) + 2) ^ 2 - 7 * (i + 2) + 2), 1, true, false⟩ ∧
        (rs[i]).1.dom = (LitZD.ivicEntry (i + 2)).dom := by
  have hok : ∀ m ∈ List.range' 2 18, ∃ b, ivicEpToZd pairs m = .ok b := by
    intro m hm
    rw [List.mem_range'_1] at hm
    obtain ⟨e, d, h, _⟩ := C79_range pairs hne hadm m (by omega)
    exact ⟨_, h⟩
  obtain ⟨rs, h1, h2⟩ := forM_ok _ hok
  have hlen : rs.length = 18 := by rw [← h2.length_eq]; rfl
  refine ⟨rs, h1, hlen, ?_, ?_⟩
  · cases h2 with
    | cons ha ht =>
      rename_i b bs
      refine ⟨b, bs, rfl, ?_⟩
      obtain ⟨e, d, h, hd, hdom, _⟩ := C79_range pairs hne hadm 2 (by omega)
      rw [h] at ha
      cases ha
      refine ⟨_, hdom, ?_, ?_⟩
      · rw [gzdLimit]
        refine le_min (by norm_num) (le_trans (by norm_num) (le_max_left _ _))
      · rw [gzdLimit]
        refine (min_le_left _ _).trans (by norm_num)
  · intro i h hi
    have hi' : i < (List.range' 2 18).length := by simp only [List.length_range']; omega
    have ha := List.forall₂_iff_get.mp h2 |>.2 i hi' h
    simp only [List.get_eq_getElem, List.getElem_range'] at ha
    rw [show 2 + 1 * i = i + 2 by ring] at ha
    obtain ⟨e, d, hr, hd, hdom, _⟩ := C79_range pairs hne hadm (i + 2) (by omega)
    rw [hr] at ha
    have ha' : rs[i] = (e, d) := (Except.ok.inj ha).symm
    obtain ⟨l1, l2⟩ := limit_eq (m := i + 2) (by omega) (hadm d hd)
    rw [ha']
    refine ⟨?_, ?_⟩
    · simp only [hdom, l1, l2, plain]
      push_cast
      rfl
    · simp only [hdom, l1]
      rfl

example : ∃ rs, proveIvic1984 [(0, 1), (1 / 6, 2 / 3)] = .ok rs ∧ rs.length = 18 := by
  obtain ⟨rs, h1, h2, _⟩ := C104_ranges [(0, 1), (1 / 6, 2 / 3)] (by simp) (by simp [Adm]; norm_num)
  exact ⟨rs, h1, h2⟩

/-- The half planes on which the limit is at least `c` are convex. -/
theorem limit_hull {m : ℕ} (hm : 1 ≤ m) {pairs : List (ℚ × ℚ)} (hadm : ∀ p ∈ pairs, Adm p) {c : ℚ}
    (h : ∀ p ∈ pairs, c ≤ vOf m p) {q : ℚ × ℚ} (hq : q ∈ _root_.convexHull ℚ {p | p ∈ pairs}) : Adm q ∧ c ≤ vOf m q := by
  have hm' : (1 : ℚ) ≤ m := by exact_mod_cast hm
  have hconv : Convex ℚ {p : ℚ × ℚ | Adm p ∧ 0 ≤ (3 * (m : ℚ) ^ 2 - c * (4 * (m : ℚ) ^ 2)) + (6 * (m : ℚ) ^ 2 - 4 * m + 2 - c * (8 * (m : ℚ) ^ 2 - 6 * m + 2)) * p.1 +
      (6 * (m : ℚ) ^ 2 - 2 * m + 2 - c * (8 * (m : ℚ) ^ 2 - 4 * m + 2)) * p.2} := by
    generalize 3 * (m : ℚ) ^ 2 - c * (4 * (m : ℚ) ^ 2) = A
    generalize 6 * (m : ℚ) ^ 2 - 4 * m + 2 - c * (8 * (m : ℚ) ^ 2 - 6 * m + 2) = B
    generalize 6 * (m : ℚ) ^ 2 - 2 * m + 2 - c * (8 * (m : ℚ) ^ 2 - 4 * m + 2) = C
    rintro ⟨x1, x2⟩ hx ⟨y1, y2⟩ hy a b ha hb' hab
    simp only [Set.mem_ofPred_eq, Adm, Prod.smul_mk, Prod.mk_add_mk, smul_eq_mul] at hx hy ⊢
    obtain ⟨⟨u1, u2, u3, u4⟩, u5⟩ := hx
    obtain ⟨⟨w1, w2, w3, w4⟩, w5⟩ := hy
    obtain rfl : b = 1 - a := by linarith
    refine ⟨⟨?_, ?_, ?_, ?_⟩, ?_⟩
    · nlinarith [mul_nonneg ha u1, mul_nonneg hb' w1]
    · nlinarith [mul_le_mul_of_nonneg_left u2 ha, mul_le_mul_of_nonneg_left w2 hb']
    · nlinarith [mul_le_mul_of_nonneg_left u3 ha, mul_le_mul_of_nonneg_left w3 hb']
    · nlinarith [mul_le_mul_of_nonneg_left u4 ha, mul_le_mul_of_nonneg_left w4 hb']
    · have e : A + B * (a * x1 + (1 - a) * y1) + C * (a * x2 + (1 - a) * y2) = a * (A + B * x1 + C * x2) + (1 - a) * (A + B * y1 + C * y2) := by ring
      rw [e]
      exact add_nonneg (mul_nonneg ha u5) (mul_nonneg hb' w5)
  have hsub : {p | p ∈ pairs} ⊆ _ := fun p hp => show _ ∈ {p : ℚ × ℚ | Adm p ∧ 0 ≤ (3 * (m : ℚ) ^ 2 - c * (4 * (m : ℚ) ^ 2)) +
      (6 * (m : ℚ) ^ 2 - 4 * m + 2 - c * (8 * (m : ℚ) ^ 2 - 6 * m + 2)) * p.1 + (6 * (m : ℚ) ^ 2 - 2 * m + 2 - c * (8 * (m : ℚ) ^ 2 - 4 * m + 2)) * p.2} from
    ⟨hadm p hp, (le_vOf hm' (hadm p hp) c).mp (h p hp)⟩
  have := convexHull_min hsub hconv hq
  exact ⟨this.1, (le_vOf hm' this.1 c).mpr this.2⟩

/-- **C104 (vertices suffice).** The range found from a list of exponent pairs contains the range of the published lemma for every exponent pair in the convex hull of
the list: it is enough to try the vertices. -/
theorem C104_hull (pairs : List (ℚ × ℚ)) (hne : pairs ≠ []) (hadm : ∀ p ∈ pairs, Adm p) (m : ℕ) (hm : 1 ≤ m) :
    ∃ e d s, ivicEpToZd pairs m = .ok (e, d) ∧ e.dom = ⟨s, 1, true, false⟩ ∧
      ∀ q ∈ _root_.convexHull ℚ {p | p ∈ pairs}, s ≤ gzdLimit m q.1 q.2 := by
  obtain ⟨e, d, h1, h2, h3, h4⟩ := C79_range pairs hne hadm m hm
  refine ⟨e, d, _, h1, h3, fun q hq => ?_⟩
  have hm' : (1 : ℚ) ≤ m := by exact_mod_cast hm
  obtain ⟨d', hd', hmin⟩ : ∃ d' ∈ pairs, ∀ p ∈ pairs, vOf m d' ≤ vOf m p := by
    obtain ⟨d', hd', hmin⟩ := Finset.exists_min_image pairs.toFinset (vOf m) ⟨d, by simpa using h2⟩
    exact ⟨d', by simpa using hd', fun p hp => hmin p (by simpa using hp)⟩
  have hv := (limit_hull hm hadm hmin hq).2
  refine (h4 d' hd').trans ?_
  rw [gzdLimit_eq m d', gzdLimit_eq m q]
  exact min_le_min (max_le_max hv le_rfl) le_rfl

/-- **C104 (the first range of the docstring).** As soon as the pair (97/251, 132/251) lies in the hull of the list, the first estimate holds on the range [3831/4791, 1)
claimed in the docstring. -/
theorem C104_first (pairs : List (ℚ × ℚ)) (hne : pairs ≠ []) (hadm : ∀ p ∈ pairs, Adm p)
    (h : ((97 / 251, 132 / 251) : ℚ × ℚ) ∈ _root_.convexHull ℚ {p | p ∈ pairs}) :
    ∃ e d s, ivicEpToZd pairs 2 = .ok (e, d) ∧ e.dom = ⟨s, 1, true, false⟩ ∧ s ≤ 3831 / 4791 := by
  obtain ⟨e, d, s, h1, h2, h3⟩ := C104_hull pairs hne hadm 2 (by omega)
  refine ⟨e, d, s, h1, h2, (h3 _ h).trans (le_of_eq ?_)⟩
  norm_num [gzdLimit]

example : ((97 / 251, 132 / 251) : ℚ × ℚ) ∈ _root_.convexHull ℚ {p | p ∈ [((97 / 251, 132 / 251) : ℚ × ℚ), (0, 1)]} :=
  subset_convexHull _ _ (by simp)

/-! ## The best first range -/

theorem adm_known {p : ℚ × ℚ} (h : p ∈ Known) : Adm p := by
  obtain ⟨h1, h2, h3⟩ := LitPairs.known_triangle h
  exact ⟨h1, by linarith, h2, by linarith⟩

theorem hb_high (m : ℕ) (hm : 9 ≤ m) : 0 ≤ (hb m).1 ∧ 96 / 100 ≤ (hb m).2 := by
  have hx : (9 : ℚ) ≤ m := by exact_mod_cast hm
  unfold hb
  simp only
  generalize (m : ℚ) = x at *
  obtain ⟨y, rfl⟩ : ∃ y, x = y + 9 := ⟨x - 9, by ring⟩
  have hy : 0 ≤ y := by linarith
  rw [show y + 9 - 1 = y + 8 by ring, show y + 9 + 2 = y + 11 by ring]
  refine ⟨by positivity, ?_⟩
  have : (3 * (y + 9) - 2) / ((y + 9) * (y + 8) * (y + 11)) ≤ 4 / 100 := by
    rw [div_le_iff₀ (by positivity)]
    nlinarith [pow_nonneg hy 2, pow_nonneg hy 3]
  linarith

theorem vertex_bound (n : ℕ) : (65596 / 100214 : ℚ) ≤ 33890 / 100214 * (vertex n).1 + (vertex n).2 ∧
    (65596 / 100214 : ℚ) ≤ 33890 / 100214 * (mirror (vertex n)).1 + (mirror (vertex n)).2 := by
  rcases Nat.lt_or_ge n 13 with h | h
  · have : ∀ n < 13, (65596 / 100214 : ℚ) ≤ 33890 / 100214 * (vertex n).1 + (vertex n).2 ∧
      (65596 / 100214 : ℚ) ≤ 33890 / 100214 * (mirror (vertex n)).1 + (mirror (vertex n)).2 := by decide +kernel
    exact this n h
  · obtain ⟨k, rfl⟩ : ∃ k, n = k + 10 := ⟨n - 10, by omega⟩
    obtain ⟨h1, h2⟩ := hb_high (k + 6) (by omega)
    simp only [vertex, mirror]
    constructor <;> linarith

theorem known_line {p : ℚ × ℚ} (h : p ∈ Known) : (65596 / 100214 : ℚ) ≤ 33890 / 100214 * p.1 + p.2 :=
  LitPairs.half_plane _ _ vertex (by norm_num) (by norm_num) (fun n => (vertex_bound n).1) (fun n => (vertex_bound n).2) h

/-- **C104 (the best first range).** "We could do slightly better with better choice of exponent pair", says the docstring of the first range, [3831/4791, 1). With the known
exponent pairs no list gives a start below 66142/82723 (smaller than 3831/4791 by less than 0.0001), and every list whose hull contains the known pair (3316/8695, 914/1739) gives this start. -/
theorem C104_best (pairs : List (ℚ × ℚ)) (hne : pairs ≠ []) (hk : ∀ p ∈ pairs, p ∈ Known) :
    ∃ e d s, ivicEpToZd pairs 2 = .ok (e, d) ∧ e.dom = ⟨s, 1, true, false⟩ ∧ 66142 / 82723 ≤ s ∧
      (((3316 / 8695, 914 / 1739) : ℚ × ℚ) ∈ _root_.convexHull ℚ {p | p ∈ pairs} → s = 66142 / 82723) := by
  have hadm : ∀ p ∈ pairs, Adm p := fun p hp => adm_known (hk p hp)
  obtain ⟨e, d, s, h1, h2, h3⟩ := C104_hull pairs hne hadm 2 (by omega)
  obtain ⟨e', d', h1', hd, h2', h3'⟩ := C79_range pairs hne hadm 2 (by omega)
  rw [h1] at h1'
  obtain ⟨rfl, rfl⟩ : e = e' ∧ d = d' := by simpa using h1'
  have hs : s = gzdLimit ((2 : ℕ) : ℚ) d.1 d.2 := by
    have := h2.symm.trans h2'
    simpa using this
  have hlow : 66142 / 82723 ≤ s := by
    rw [hs, gzdLimit]
    refine le_min (by norm_num) (le_trans ?_ (le_max_right _ _))
    refine (le_vOf (m := ((2 : ℕ) : ℚ)) (by norm_num) (hadm d hd) _).mpr ?_
    have := known_line (hk d hd)
    push_cast
    linarith
  refine ⟨e, d, s, h1, h2, hlow, fun hq => le_antisymm ((h3 _ hq).trans (le_of_eq ?_)) hlow⟩
  norm_num [gzdLimit]

/-- Non-vacuity: the pair is known and gives the best start. -/
theorem best_known : ((3316 / 8695, 914 / 1739) : ℚ × ℚ) ∈ Known := by
  have h := LitPairs.hw 9
  have e : mirror (vertex 9) = (3316 / 8695, 914 / 1739) := by decide +kernel
  rwa [e] at h

example : (∀ p ∈ [((3316 / 8695, 914 / 1739) : ℚ × ℚ)], p ∈ Known) ∧
    ((3316 / 8695, 914 / 1739) : ℚ × ℚ) ∈ _root_.convexHull ℚ {p | p ∈ [((3316 / 8695, 914 / 1739) : ℚ × ℚ)]} ∧ (66142 / 82723 : ℚ) < 3831 / 4791 :=
  ⟨by simpa using best_known, subset_convexHull _ _ (by simp), by norm_num⟩

end IvicRanges
end Expdb
