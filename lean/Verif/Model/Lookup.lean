import Verif.Model.Hypotheses
import Verif.Model.Bib
import Verif.Model.Literature
import Verif.Model.LiteratureBeta
import Verif.Model.LiteraturePairs
import Verif.Model.LiteratureMu
import Verif.Model.LiteratureZD

/-!
# Model of the set `literature` with the names of its hypotheses

The objects that `literature.py` adds to the set `literature` (lines 21-1392): name, type, data and reference of each. The data of large
value estimates is the list of bounds it is made of, the data of an energy region is a tag for the region (the regions themselves are in
`Model/Literature.lean`). The entries of `references.bib` are given by the text of the fields `author` and `year`; the authors are
computed from the text as `Reference_Manager` does. The order in which python iterates over the set is arbitrary: it is a parameter in
the statements.
-/

namespace Expdb
namespace Lookup
open Printing (Str)
open LitMu (yr)

/-- The energy regions of `literature.py` and Bourgain's region (literature.py:744-1094). -/
inductive RegionId where
  | hb1 | ivic | hb2a | hb2b
  | hb3 (k : ℕ)
  | gm1 (k : ℕ)
  | gm2 | gm3 | bourgain
  deriving DecidableEq

/-- The attribute `data` of a hypothesis (hypotheses.py:50). -/
inductive Data where
  /-- `Bound_mu(sigma, mu)` (bound_mu.py:20-33) -/
  | mu (sigma mu : ℚ)
  /-- `Exp_pair(k, l)` (exponent_pair.py:14-25) -/
  | pair (k l : ℚ)
  /-- `Transform(name, …)` (transform.py) -/
  | transform (name : Str)
  /-- `Bound_beta(bound)` (bound_beta.py:19-24), the pieces of literature.py:28-352 -/
  | beta (b : LitBeta.Bd)
  /-- `Large_Value_Estimate` made of a maximum of affine functions (large_values.py:59-80) -/
  | lv (bounds : List (List ℚ))
  /-- a region that is not such a maximum -/
  | region (r : RegionId)
  /-- `Zero_Density_Estimate(expr, interval)` (zero_density_estimate.py:65-69) or the energy version -/
  | zd (e : LitZD.Entry)
  deriving DecidableEq

/-- The operator `==` between the data of two different objects: `Bound_mu.__eq__` (bound_mu.py:30-33) and `Exp_pair.__eq__`
(exponent_pair.py:22-25) compare the numbers and are false or `NotImplemented` for other types; the other classes define no `__eq__`, so
python compares identities. -/
def dataEq : Data → Data → Bool
  | .mu s m, .mu s' m' => s = s' && m = m'
  | .pair k l, .pair k' l' => k = k' && l = l'
  | _, _ => false

/-- An entry of `references.bib`: label, text of the field `author`, year. -/
structure BibEntry where
  label : String
  author : Str
  year : ℤ

/-- The entries of `references.bib` that `literature.py` uses; the comments are the lines of `references.bib`. -/
def bib : List BibEntry :=
  [
   ⟨"FordZeta", "Ford, K.".toList, 2002⟩, /- 579 -/
   ⟨"Huxley", "Huxley, M. N.".toList, 1972⟩, /- 1405 -/
   ⟨"Lelechenko_linear_2014", "Andrew V. Lelechenko".toList, 2014⟩, /- 2082 -/
   ⟨"Robert_Sargos_2001", "Robert, Olivier and Sargos, Patrick".toList, 2001⟩, /- 2891 -/
   ⟨"bombieri_order_1986", "Bombieri, E. and Iwaniec, H.".toList, 1986⟩, /- 196 -/
   ⟨"bourgain_decoupling_2017", "Bourgain, J.".toList, 2017⟩, /- 278 -/
   ⟨"bourgain_large_2000", "Bourgain, Jean".toList, 2000⟩, /- 235 -/
   ⟨"bourgain_remarks_1995", "Bourgain, Jean".toList, 1995⟩, /- 224 -/
   ⟨"carlson_uber_1921", "Carlson, F.".toList, 1921⟩, /- 289 -/
   ⟨"chen_debruyne_vindas_density_2024", "Chen, Bin and Debruyne, Gregory and Vindas, Jasson".toList, 2024⟩, /- 309 -/
   ⟨"conrey_at_1989", "J. B. Conrey".toList, 1989⟩, /- 370 -/
   ⟨"demeter_small_2020", "Demeter, Ciprian and Guth, Larry and Wang, Hong".toList, 2020⟩, /- 434 -/
   ⟨"guth-maynard", "Larry Guth and James Maynard".toList, 2024⟩, /- 925 -/
   ⟨"haneke_verscharfung_1963", "Haneke, W.".toList, 1963⟩, /- 971 -/
   ⟨"hardy_littlewood_1923", "Hardy, G. H. and Littlewood, J. E.".toList, 1923⟩, /- 998 -/
   ⟨"heath_brown_consecutive_II", "Heath-Brown, D. R.".toList, 1979⟩, /- 1117 -/
   ⟨"heathbrown_large_1979", "Heath-Brown, D. R.".toList, 1979⟩, /- 1177 -/
   ⟨"heathbrown_new_2017", "Heath-Brown, D. R.".toList, 2017⟩, /- 1284 -/
   ⟨"heathbrown_twelfth_1978", "Heath-Brown, D. R.".toList, 1978⟩, /- 1151 -/
   ⟨"heathbrown_zero_1979", "Heath-Brown, D. R.".toList, 1979⟩, /- 1163 -/
   ⟨"huxley_area_1996", "Huxley, M. N.".toList, 1996⟩, /- 1536 -/
   ⟨"huxley_exponential_1988", "Huxley, M. N. and Watt, N.".toList, 1988⟩, /- 1473 -/
   ⟨"huxley_exponential_1991", "Huxley, M. N. and Kolesnik, G.".toList, 1991⟩, /- 1500 -/
   ⟨"huxley_exponential_1993", "Huxley, M. N.".toList, 1993⟩, /- 1525 -/
   ⟨"huxley_exponential_2001", "Huxley, Martin N. and Kolesnik, Grigori".toList, 2001⟩, /- 1547 -/
   ⟨"huxley_exponential_2005", "Huxley, M. N.".toList, 2005⟩, /- 1589 -/
   ⟨"huxley_large_1973", "Huxley, Martin".toList, 1973⟩, /- 1421 -/
   ⟨"huxley_large_1975a", "Huxley, Martin".toList, 1975⟩, /- 1433 -/
   ⟨"huxley_large_1975b", "Huxley, Martin".toList, 1975⟩, /- 1444 -/
   ⟨"huxley_watt_exponential_1990", "Huxley, M. N. and Watt, N.".toList, 1990⟩, /- 1485 -/
   ⟨"ingham_estimation_1940", "Ingham, A. E.".toList, 1940⟩, /- 1612 -/
   ⟨"ivic", "Ivi\\'{c}, Aleksandar".toList, 2003⟩, /- 1696 -/
   ⟨"ivic_note_1979", "Ivić, Aleksandar".toList, 1979⟩, /- 1624 -/
   ⟨"ivic_zero_1984", "Ivi{\\'c}, A.".toList, 1984⟩, /- 1718 -/
   ⟨"jutila_zero_density_1977", "Jutila, Matti".toList, 1977⟩, /- 1894 -/
   ⟨"jutila_zeroes_1983", "Jutila, M.".toList, 1983⟩, /- 1906 -/
   ⟨"kolesnik_order_1982", "G. Kolesnik".toList, 1982⟩, /- 2012 -/
   ⟨"min_on_1949", "Szu-Hoa Min".toList, 1949⟩, /- 2610 -/
   ⟨"phillips_zeta_1933", "Phillips, Eric".toList, 1933⟩, /- 2807 -/
   ⟨"pintz_density_2023", "Pintz, János".toList, 2023⟩, /- 2780 -/
   ⟨"robert_2002", "Robert, O.".toList, 2002⟩, /- 2919 -/
   ⟨"robert_2002b", "Robert, Olivier".toList, 2002⟩, /- 2937 -/
   ⟨"robert_2016", "Robert, Olivier".toList, 2016⟩, /- 2953 -/
   ⟨"robert_fourth_2002", "Robert, O. and Sargos, P.".toList, 2002⟩, /- 2909 -/
   ⟨"robert_fourth_2016", "Robert, Olivier".toList, 2016⟩, /- 2898 -/
   ⟨"sargos_analog_2003", "Sargos, Patrick".toList, 2003⟩, /- 3000 -/
   ⟨"sargos_points_1995", "Sargos, Patrick".toList, 1995⟩, /- 2989 -/
   ⟨"titchmarsh_order_1942", "Titchmarsh, E. C.".toList, 1942⟩, /- 3403 -/
   ⟨"titchmarsh_van_1931", "Titchmarsh, E. C.".toList, 1931⟩, /- 3392 -/
   ⟨"trudgian-yang", "Timothy S. Trudgian and Andrew Yang".toList, 2023⟩, /- 3421 -/
   ⟨"walfisz_1924", "Robert, Olivier".toList, 1924⟩, /- 3511 -/
   ⟨"watt_exponential_1989", "Watt, N.".toList, 1989⟩ /- 3574 -/]

/-- How a reference is given: `rm.get(label)` or `rm.refs[label]` (reference.py:98-101), or `Reference.make(author, year)`
(reference.py:38-42). -/
inductive Src where
  | bib (label : String)
  | made (author : Str) (year : Year)

/-- `ref.author()` and the reference (reference.py:14-15, 38-42, 98-101). The label of `Reference.make` contains the year as it is
printed; it is only compared with the labels "Classical", "Derived", "Conjectured", so the author alone is used. -/
def source : Src → Py (Str × Reference)
  | .bib l =>
    match bib.find? (fun e => e.label = l) with
    | some e => .ok (Bib.parseAuthors e.author, ⟨l, yr e.year⟩)
    | none => .error .valueError
  | .made a y => .ok (a, ⟨"temp_", y⟩)

/-- `str(ref.year())` (reference.py:17-18): a number, or the text "Unknown date". -/
def yearStr : Year → Str
  | some (some y) => intChars y
  | some none => "inf".toList
  | none => "Unknown date".toList

/-- A hypothesis of the literature whose name is the author followed by `text` (large_values.py:115-122, exponent_pair.py:31-38,
bound_mu.py:48-55, additive_energy.py:84-92, literature.py:822-828). -/
def named (s : Src) (text : Str) (htype : String) (d : Data) : Py (Node Data) := do
  let (a, r) ← source s
  return ⟨a ++ text, htype, d, r, []⟩

/-- A hypothesis of the literature whose name is the author, the year in parentheses and `text` (bound_beta.py:39-51,
zeta_large_values.py:37-45, zero_density_estimate.py:136-144, zero_density_energy_estimate.py:108-114). -/
def dated (s : Src) (text : Str) (htype : String) (d : Data) : Py (Node Data) := do
  let (a, r) ← source s
  return ⟨a ++ (" (".toList ++ (yearStr r.year ++ (')' :: text))), htype, d, r, []⟩

/-- `add_beta_bound` for one piece (bound_beta.py:39-51). -/
def betaNode (l : String) (b : LitBeta.Bd) : Py (Node Data) :=
  dated (.bib l) (" bound on \\beta on ".toList ++ Interval.repr b.dom) "Upper bound on beta" (.beta b)

/-- The calls of `add_beta_bound` (literature.py:28-352) with the labels of their references; `K` is `Constants.BETA_TRUNCATION`. -/
def betaCalls (K : ℕ) : List (String × Py (List LitBeta.Bd)) :=
  [("watt_exponential_1989", .ok LitBeta.watt), ("huxley_exponential_1991", LitBeta.hk1991),
   ("huxley_exponential_1993", LitBeta.huxley1993a), ("huxley_exponential_1993", .ok LitBeta.huxley1993b),
   ("huxley_exponential_1993", .ok LitBeta.huxley1993c), ("huxley_area_1996", .ok LitBeta.table17),
   ("sargos_points_1995", LitBeta.sargos1995a), ("sargos_points_1995", LitBeta.sargos1995b),
   ("huxley_area_1996", .ok LitBeta.table19), ("huxley_exponential_2001", LitBeta.hk2001), ("robert_fourth_2002", LitBeta.rs2002),
   ("sargos_analog_2003", LitBeta.sargos2003a), ("sargos_analog_2003", LitBeta.sargos2003b),
   ("huxley_exponential_2005", LitBeta.huxley2005), ("robert_fourth_2016", LitBeta.robert2016)] ++
  (List.range' 4 (K - 4)).map (fun k : ℕ => ("robert_2016", LitBeta.robert2 k)) ++
  (List.range' 3 (K - 3)).map (fun k : ℕ => ("heathbrown_new_2017", LitBeta.hb2017 k)) ++
  [("bourgain_decoupling_2017", .ok LitBeta.bourgain2017), ("trudgian-yang", .ok LitBeta.ty2024)]

/-- The hypotheses added by a list of calls of `add_beta_bound` (bound_beta.py:39-51). -/
def betaNodes : List (String × Py (List LitBeta.Bd)) → Py (List (Node Data))
  | [] => .ok []
  | c :: cs => do
    let bs ← c.2
    let ns ← bs.mapM (betaNode c.1)
    let rest ← betaNodes cs
    return ns ++ rest

/-- `literature_exp_pair(k, l, ref)` (exponent_pair.py:31-38). -/
def pairNode (l : String) (p : ℚ × ℚ) : Py (Node Data) :=
  named (.bib l) " exponent pair".toList "Exponent pair" (.pair p.1 p.2)

/-- The exponent pairs (literature.py:359-489), the two families truncated at `M`. -/
def pairNodes (M : ℕ) : Py (List (Node Data)) := do
  let listed ← LitPairs.literaturePairs.mapM (fun e => pairNode (String.ofList e.ref) (e.k, e.l))
  let hux ← LitPairs.huxleyPairs M
  let hux ← hux.mapM (pairNode "huxley_area_1996")
  let hb ← LitPairs.heathBrownPairs M
  let hb ← hb.mapM (pairNode "heathbrown_new_2017")
  return listed ++ hux ++ hb

/-- A transform (literature.py:515-521, 532-538, 548-554, 579-585). -/
def transformNode (name : Str) (htype : String) (s : Src) : Py (Node Data) := do
  let (_, r) ← source s
  return ⟨name, htype, .transform name, r, []⟩

/-- The four transforms (literature.py:515-591). -/
def transformNodes : Py (List (Node Data)) :=
  [transformNode "van der Corput A transform".toList "Exponent pair transform" (.made "Weyl--van der Corput".toList (yr 1920)),
   transformNode "van der Corput B transform".toList "Exponent pair transform" (.made "van der Corput".toList (yr 1920)),
   transformNode "Sargos C transform".toList "Exponent pair transform" (.bib "sargos_analog_2003"),
   transformNode "Sargos D transform".toList "Exponent pair to beta bound transform" (.bib "sargos_points_1995")].mapM id

/-- The references of `add_literature_bounds_mu` (literature.py:601-667), in order. -/
def muSrcs : List Src :=
  [.bib "hardy_littlewood_1923", .bib "walfisz_1924", .bib "titchmarsh_van_1931", .bib "phillips_zeta_1933",
   .bib "titchmarsh_order_1942", .bib "min_on_1949", .bib "haneke_verscharfung_1963", .made "Kolesnik".toList (yr 1973),
   .bib "kolesnik_order_1982", .made "Kolesnik".toList (yr 1985), .bib "bombieri_order_1986", .bib "watt_exponential_1989",
   .bib "huxley_exponential_1991", .bib "huxley_exponential_1993", .bib "huxley_exponential_2005",
   .bib "bourgain_decoupling_2017", .bib "huxley_area_1996", .bib "sargos_analog_2003", .bib "sargos_analog_2003",
   .bib "Lelechenko_linear_2014", .bib "Lelechenko_linear_2014", .bib "demeter_small_2020"]

/-- `literature_bound_mu(sigma, mu, ref)` (bound_mu.py:48-55). -/
def muNode (s : Src) (sigma mu : ℚ) : Py (Node Data) :=
  named s (" bound on \\mu(".toList ++ (ratChars sigma ++ [')'])) "Upper bound on mu" (.mu sigma mu)

/-- The bounds on mu (literature.py:598-690), the two sequences truncated at `N`. -/
def muNodes (N : ℕ) : Py (List (Node Data)) := do
  let listed ← (muSrcs.zip LitMu.listed).mapM (fun p => muNode p.1 p.2.sigma p.2.mu)
  let vdc ← (LitMu.natRange 4 N).mapM LitMu.vdcEntry
  let vdc ← vdc.mapM (fun e => muNode (.made "van der Corput".toList (yr 1920)) e.sigma e.mu)
  let hl ← (LitMu.natRange 4 N).mapM LitMu.hlEntry
  let hl ← hl.mapM (fun e => muNode (.made "Hardy--Littlewood".toList none) e.sigma e.mu)
  return listed ++ vdc ++ hl

/-- `literature_bound_LV_max(bounds, ref, params)` (large_values.py:115-122). -/
def lvNode (l : String) (bounds : List (List ℚ)) (params : Str) : Py (Node Data) :=
  named (.bib l) (" large value estimate".toList ++ params) "Large value estimate" (.lv bounds)

/-- The text `f" with k = {k}"` (literature.py:739, 983, 1034). -/
def withK (k : ℕ) : Str := " with k = ".toList ++ natChars k

/-- The large value estimates (literature.py:717-843); `K` is `Constants.LARGE_VALUES_TRUNCATION`. -/
def lvNodes (K : ℕ) : Py (List (Node Data)) :=
  ([lvNode "Huxley" Literature.huxley [], lvNode "heathbrown_zero_1979" Literature.heathBrown []] ++
   (List.range' 1 (K - 1)).map (fun k => lvNode "jutila_zero_density_1977" (Literature.jutila k) (withK k)) ++
   [named (.bib "bourgain_large_2000") " optimized large value estimate".toList "Large value estimate" (.region .bourgain),
    lvNode "guth-maynard" Literature.guthMaynard []]).mapM id

/-- The zeta large value estimate (literature.py:847-849, zeta_large_values.py:37-45). -/
def zlvNodes : Py (List (Node Data)) :=
  [dated (.bib "heathbrown_twelfth_1978") " zeta large value estimate".toList "Zeta large value estimate"
    (.lv Literature.heathBrownTwelfth)].mapM id

/-- `literature_large_value_energy_region(region, ref, params)` (additive_energy.py:84-92). -/
def regionNode (l : String) (r : RegionId) (params : Str) : Py (Node Data) :=
  named (.bib l) (" large value energy region".toList ++ params) "Large value energy region" (.region r)

/-- The energy regions (literature.py:855-1094): `add_lver_heath_brown_1979c(5)` and `add_lver_guth_maynard_2024a(4)` add four and three. -/
def regionNodes : Py (List (Node Data)) :=
  ([regionNode "heathbrown_large_1979" .hb1 " 1".toList, regionNode "ivic" .ivic [],
    regionNode "heathbrown_zero_1979" .hb2a " 2a".toList, regionNode "heathbrown_zero_1979" .hb2b " 2b".toList] ++
   (List.range' 1 4).map (fun k => regionNode "heathbrown_zero_1979" (.hb3 k) (" 3".toList ++ withK k)) ++
   (List.range' 1 3).map (fun k => regionNode "guth-maynard" (.gm1 k) (" 1".toList ++ withK k)) ++
   [regionNode "guth-maynard" .gm2 " 2".toList, regionNode "guth-maynard" .gm3 " 3".toList]).mapM id

/-- `add_zero_density(literature, estimate, interval, ref)` (zero_density_estimate.py:114-144). -/
def zdNode (s : Src) (e : Py LitZD.Entry) : Py (Node Data) := do
  let e ← e
  dated s " zero density estimate".toList "Zero density estimate" (.zd e)

/-- The references of the entries before the loop of `add_zero_density_ivic_1984` (literature.py:1101-1245). -/
def beforeSrcs : List Src :=
  [.bib "carlson_uber_1921", .bib "ingham_estimation_1940", .made "Montgomery".toList (yr 1971), .bib "Huxley",
   .bib "huxley_large_1973", .bib "huxley_large_1973", .bib "huxley_large_1973", .bib "huxley_large_1975a",
   .bib "huxley_large_1975a", .bib "huxley_large_1975a", .bib "huxley_large_1975b", .bib "heathbrown_zero_1979",
   .bib "heathbrown_zero_1979", .bib "heathbrown_zero_1979", .bib "ivic_note_1979", .bib "ivic_note_1979",
   .bib "ivic_note_1979", .bib "ivic_note_1979", .bib "ivic_note_1979", .made "Ivic".toList (yr 1980),
   .made "Ivic".toList (yr 1980), .made "Ivic".toList (yr 1980), .made "Ivic".toList (yr 1980),
   .made "Ivic".toList (yr 1980), .made "Ivic".toList (yr 1980), .bib "jutila_zeroes_1983", .bib "ivic_zero_1984",
   .bib "ivic_zero_1984", .made "Ivic".toList (yr 1984)]

/-- The references of the entries between the two loops (literature.py:1271-1336). -/
def middleSrcs : List Src :=
  [.bib "conrey_at_1989", .bib "bourgain_remarks_1995", .bib "bourgain_remarks_1995", .bib "bourgain_large_2000",
   .bib "FordZeta", .made "Bourgain".toList (yr 2002), .bib "heathbrown_new_2017", .bib "pintz_density_2023",
   .bib "pintz_density_2023", .bib "pintz_density_2023"]

/-- The references of the entries after the loops (literature.py:1350-1364). -/
def afterSrcs : List Src := [.bib "chen_debruyne_vindas_density_2024", .bib "guth-maynard"]

/-- The zero density estimates (literature.py:1101-1364). -/
def zdCalls : List (Src × Py LitZD.Entry) :=
  beforeSrcs.zip LitZD.before ++ LitZD.ivic1984.map (fun e => (.bib "ivic", e)) ++ middleSrcs.zip LitZD.middle ++
    LitZD.pintz2023.map (fun e => (.bib "pintz_density_2023", e)) ++ afterSrcs.zip LitZD.after

/-- The zero density estimates as hypotheses (literature.py:1101-1364). -/
def zdNodes : Py (List (Node Data)) := zdCalls.mapM (fun p => zdNode p.1 p.2)

/-- The zero density energy estimates (literature.py:1369-1392, zero_density_energy_estimate.py:108-114). -/
def zdeNodes : Py (List (Node Data)) := do
  let es ← LitZD.energy
  es.mapM (fun e => dated (.bib "heath_brown_consecutive_II") " zero density energy estimate".toList "Zero density energy estimate" (.zd e))

/-- The members of the set `literature` in the order in which they are added (literature.py:21-1392). The truncations are those of
constants.py:7-14: all of them are 20. -/
def literature : Py (List (Node Data)) := do
  let beta ← betaNodes (betaCalls 20)
  let pairs ← pairNodes 20
  let tr ← transformNodes
  let mu ← muNodes 20
  let lv ← lvNodes 20
  let zlv ← zlvNodes
  let rg ← regionNodes
  let zd ← zdNodes
  let zde ← zdeNodes
  return beta ++ pairs ++ tr ++ mu ++ lv ++ zlv ++ rg ++ zd ++ zde

/-- The arguments of a call of `find_hypothesis` without a year (hypotheses.py:197-199); `none` is `"Any"`. -/
structure Query where
  htype : Option String
  data : Option Data
  keywords : Option Str

/-- `literature.find_hypothesis(…)` (hypotheses.py:197-213) where the set iterates in the order `S`. -/
def find (H : Heap Data) (S : List ℕ) (q : Query) : Option ℕ := Hyp.findHypothesis dataEq H S q.htype q.data q.keywords none

end Lookup
end Expdb
