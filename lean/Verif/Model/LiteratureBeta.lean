import Verif.Model.Affine
import Verif.Model.Beta

/-!
# Model of the bounds on beta in `literature.py` (lines 28–352)

Each hypothesis is represented by its `Affine` object; names and references are left out. The interval strings are written as
intervals (`Interval.parse` is modelled in `Model/Interval`).
-/

namespace Expdb
namespace LitBeta

/-- An affine function with its domain, as written in the file. -/
abbrev Bd := Affine (Option ℕ)

/-- `Interval("[x0, x1]")`. -/
def cc (x0 x1 : ℚ) : Interval := ⟨x0, x1, true, true⟩

/-- `Interval("[x0, x1)")`. -/
def co (x0 x1 : ℚ) : Interval := ⟨x0, x1, true, false⟩

/-- `Affine(m, c, domain)` (functions.py:141-145). -/
def af (m c : ℚ) (I : Interval) : Bd := ⟨m, c, I, none⟩

/-- `Affine(m, c, I).max_with([Affine(m', c', I), …])`, the form of the entries that are maxima (for example literature.py:47-52). -/
def fam (I : Interval) (m c : ℚ) (rest : List (ℚ × ℚ)) : Py (List Bd) := do
  let r ← Affine.maxWith (af m c I) (rest.map (fun g => af g.1 g.2 I)) none
  return r.2

/-- `add_beta_bound_watt_1989` (literature.py:33-38). -/
def watt : List Bd := [af (1 / 2) (89 / 560) (cc (3 / 7) (1 / 2))]

/-- `add_beta_bound_huxley_kolesnik_1991` (literature.py:45-55). -/
def hk1991 : Py (List Bd) := fam (cc (2 / 5) (1 / 2)) (8 / 22) (1 / 22) [(112 / 158, 11 / 158), (17 / 22, 1 / 22)]

/-- The first part of `add_beta_bound_huxley_1993` (literature.py:63-69). -/
def huxley1993a : Py (List Bd) := fam (cc 0 (49 / 144)) (7 / 20) (13 / 60) [(13 / 20, 11 / 120)]

/-- The second part of `add_beta_bound_huxley_1993` (literature.py:70-74). -/
def huxley1993b : List Bd := [af (1 / 2) (89 / 570) (cc (49 / 144) (1 / 2))]

/-- `add_beta_bound_huxley_1993_3` (literature.py:81-92). -/
def huxley1993c : List Bd :=
  [af (94 / 146) (13 / 146) (cc 0 (87 / 275)), af (191 / 244) (11 / 244) (cc (87 / 275) (423 / 1295)),
    af (908 / 1282) (89 / 1282) (cc (423 / 1295) (227 / 601)), af (173 / 280) (29 / 280) (cc (227 / 601) (12 / 31)),
    af (103 / 128) (4 / 128) (cc (12 / 31) 1)]

/-- `add_beta_bound_huxley_1996` (literature.py:99-121), Table 17.1. -/
def table17 : List Bd :=
  [af (253 / 318) (13 / 318) (co (2848 / 12173) (161 / 646)), af (428 / 492) (11 / 492) (co (161 / 646) (19 / 74)),
    af (2243 / 2706) (89 / 2706) (co (19 / 74) (199 / 716)), af (464 / 600) (29 / 600) (co (199 / 716) (967 / 3428)),
    af (1351 / 1614) (49 / 1614) (co (967 / 3428) (120 / 419)), af (235 / 264) (4 / 264) (co (120 / 419) (1424 / 4747)),
    af (94 / 146) (13 / 146) (co (1424 / 4747) (87 / 275)), af (191 / 244) (11 / 244) (co (87 / 275) (423 / 1295)),
    af (908 / 1282) (89 / 1282) (co (423 / 1295) (227 / 601)), af (173 / 280) (29 / 280) (co (227 / 601) (12 / 31)),
    af (103 / 128) (4 / 128) (co (12 / 31) (356 / 873)), af (21 / 60) (13 / 60) (co (356 / 873) (5 / 12)),
    af (78 / 120) (11 / 120) (co (5 / 12) (49 / 114)), af (285 / 570) (89 / 570) (co (49 / 114) (65 / 114)),
    af (42 / 120) (29 / 120) (co (65 / 114) (7 / 12)), af (39 / 60) (4 / 60) (cc (7 / 12) (517 / 873))]

/-- The first part of `add_beta_bound_sargos_1995` (literature.py:129-137). -/
def sargos1995a : Py (List Bd) :=
  fam (cc 0 1) (1 - 3 * (4 / 40)) (3 / 40) [(7 / 8, 0), (1 / 3 + 4 / 6, -(1 / 6)), (0, 0)]

/-- The second part of `add_beta_bound_sargos_1995` (literature.py:138-146). -/
def sargos1995b : Py (List Bd) :=
  fam (cc 0 1) (1 - 4 / 14) (1 / 14) [(5 / 6, 0), (1 / 3 + 4 / 6, -(1 / 6)), (0, 0)]

/-- `add_beta_bound_huxley_1996_2` (literature.py:153-191), Table 19.2. -/
def table19 : List Bd :=
  [af (103 / 128) (4 / 128) (co (12 / 31) (68682 / 171139)), af (2484 / 6410) (1273 / 6410) (co (68682 / 171139) (307 / 761)),
    af (1053 / 2800) (569 / 2800) (co (307 / 761) (143 / 349)), af (3624 / 5530) (491 / 5530) (co (143 / 349) (263 / 638)),
    af (897 / 1345) (113 / 1345) (co (263 / 638) (156527 / 370694)),
    af (88442 / 134680) (11897 / 134680) (co (156527 / 370694) (699371 / 1647930)),
    af (19177 / 29855) (2819 / 29855) (co (699371 / 1647930) (675 / 1574)),
    af (17972 / 27290) (2387 / 27290) (co (675 / 1574) (106822 / 246639)),
    af (285 / 570) (89 / 570) (cc (106822 / 246639) (139817 / 246639))]

/-- `add_beta_bound_huxley_kolesnik_2001` (literature.py:198-208). -/
def hk2001 : Py (List Bd) := fam (cc (2 / 5) (1 / 2)) (79 / 120) (7 / 80) [(103 / 160, 3 / 32), (13 / 40, 9 / 40)]

/-- `add_beta_bound_robert_sargos_2002` (literature.py:216-223). -/
def rs2002 : Py (List Bd) := fam (cc 0 1) (9 / 13) (1 / 13) [(28 / 13, -7 / 13)]

/-- The first part of `add_beta_bound_sargos_2003` (literature.py:230-237). -/
def sargos2003a : Py (List Bd) := fam (cc 0 1) ((204 - 8) / 204) (1 / 204) [(95 * 8 / 204, -95 / 204)]

/-- The second part of `add_beta_bound_sargos_2003` (literature.py:239-245). -/
def sargos2003b : Py (List Bd) := fam (cc 0 1) ((2640 - 7 * 9) / 2640) (7 / 2640) [(1001 * 9 / 2640, -1001 / 2640)]

/-- `add_beta_bound_huxley_2005` (literature.py:252-259). -/
def huxley2005 : Py (List Bd) := fam (cc (1 / 3) (1 / 2)) (59 / 170) (37 / 170) [(449 / 690, 21 / 230)]

/-- `add_beta_bound_robert_2016` (literature.py:266-273). -/
def robert2016 : Py (List Bd) := fam (cc 0 (3 / 7)) (2 / 3) (1 / 12) [(11 / 12, 0)]

/-- `add_beta_bound_robert_2016_2` for one `k ≥ 4` (literature.py:282-295). -/
def robert2 (k : ℚ) : Py (List Bd) :=
  fam (cc 0 ((k - 1) / (k * (k - 1) - (2 * k - 3)))) (1 - k / (2 * (k - 1) * (k - 2))) (1 / (2 * (k - 1) * (k - 2)))
    [(1 - 1 / (2 * (k - 1) * (k - 2)), 0)]

/-- `add_beta_bound_heath_brown_2017` for one `k ≥ 3` (literature.py:305-315). -/
def hb2017 (k : ℚ) : Py (List Bd) :=
  fam (cc 0 1) ((k - 2) / (k - 1)) (1 / (k * (k - 1))) [(1 - 1 / (k * (k - 1)), 0), (1, -2 / (k * k * (k - 1)))]

/-- `add_beta_bound_bourgain_2017` (literature.py:322-331). -/
def bourgain2017 : List Bd :=
  [af (1 / 3) (2 / 9) (co (1 / 3) (5 / 12)), af (2 / 3) (1 / 12) (co (5 / 12) (3 / 7)), af (1 / 2) (13 / 84) (cc (3 / 7) (1 / 2))]

/-- `add_beta_bound_trudgian_yang_2024` (literature.py:338-349). -/
def ty2024 : List Bd :=
  [af (359 / 414) (13 / 414) (co 0 (2848 / 12173)), af (139 / 194) (13 / 194) (co (1328 / 4447) (104 / 343)),
    af (521 / 796) (18 / 199) (cc (1508 / 3825) (62831 / 155153))]

/-- The effect of several calls of `add_beta_bound` (bound_beta.py:39-51): the pieces in the order in which they are added. -/
def collect : List (Py (List Bd)) → Py (List Bd)
  | [] => .ok []
  | e :: es => do
    let a ← e
    let b ← collect es
    return a ++ b

/-- All bounds on beta of the file in the order in which they are added (literature.py:28-352); `K` is `Constants.BETA_TRUNCATION`. -/
def all (K : ℕ) : Py (List Bd) :=
  collect ([.ok watt, hk1991, huxley1993a, .ok huxley1993b, .ok huxley1993c, .ok table17, sargos1995a, sargos1995b, .ok table19,
      hk2001, rs2002, sargos2003a, sargos2003b, huxley2005, robert2016] ++
    (List.range' 4 (K - 4)).map (fun k : ℕ => robert2 k) ++ (List.range' 3 (K - 3)).map (fun k : ℕ => hb2017 k) ++
    [.ok bourgain2017, .ok ty2024])

/-- `trivial_beta_bound_1` (bound_beta.py:78). -/
def trivial1 : Bd := af 1 0 (cc 0 1)

end LitBeta
end Expdb
