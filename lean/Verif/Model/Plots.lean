import Verif.Model.LiteraturePairs

/-!
# Model of the functions of `visualizations.py` which are plotted

`van_der_corput`, `optimized_van_der_corput`, `conjectured_bound` and the vertices drawn by
`exp_pair_plot`. In the code the arguments are floats (made by `numpy.linspace`) and `2 ** (2 - k)` and the
quotients of the table are floats; here they are exact rational numbers. The calls of matplotlib are left
out.
-/

namespace Expdb
namespace Plots

/-- `van_der_corput(k, alpha)` (visualizations.py:9-13). -/
def vanDerCorput (k : ℕ) (alpha : ℚ) : ℚ :=
  max (alpha + (1 - k * alpha) / (2 ^ k - 2)) ((1 - (2 : ℚ) ^ (2 - (k : ℤ))) * alpha - (1 - k * alpha) / (2 ^ k - 2))

/-- `optimized_van_der_corput(alpha)` (visualizations.py:16-20). -/
def optimized (alpha : ℚ) : ℚ :=
  (LitPairs.natRange 2 30).foldl (fun bound k => min bound (vanDerCorput k alpha)) 1

/-- `conjectured_bound(alpha)` (visualizations.py:23-27). -/
def conjectured (alpha : ℚ) : ℚ := if alpha ≤ 1 then alpha / 2 else alpha - 1

/-- The list `exp_pairs` at the start of `exp_pair_plot` (visualizations.py:145-180). -/
def expPairs : List (ℚ × ℚ) :=
  [(0, 1), (1 / 980688, 3105401 / 3105512), (1 / 490512, 9319081 / 9319728), (1 / 326808, 1552181 / 1552338),
   (1 / 163416, 1034765 / 1034968), (1 / 81720, 155209 / 155268), (1 / 40872, 775997 / 776568), (1 / 27230, 258409 / 258685),
   (1 / 13614, 258133 / 258666), (1 / 6806, 64400 / 64657), (1 / 3402, 7127 / 7182), (1 / 2890, 1517 / 1530),
   (1 / 2432, 5119 / 5168), (1 / 2025, 2137 / 2160), (1 / 1666, 3527 / 3570), (1 / 1352, 359 / 364),
   (1 / 1080, 2303 / 2340), (1 / 847, 907 / 924), (1 / 650, 1399 / 1430), (1 / 486, 263 / 270),
   (1 / 352, 767 / 792), (1 / 245, 269 / 280), (1 / 162, 359 / 378), (1 / 100, 14 / 15),
   (89 / 3478, 15327 / 17390), (10769 / 351096, 609317 / 702192), (9 / 217, 1461 / 1736), (2371 / 43205, 280013 / 345640),
   (652397 / 9713986, 7599781 / 9713986), (89 / 1282, 997 / 1282), (2779 / 38033, 58699 / 76066), (18 / 199, 593 / 796),
   (4742 / 38463, 35731 / 51284), (13 / 84, 55 / 84)]

/-- The polygon drawn by `exp_pair_plot` (visualizations.py:181-188): the list is extended by the dual pairs in the
opposite order. -/
def polygon : List (ℚ × ℚ) := expPairs ++ expPairs.reverse.map (fun p => (p.2 - 1 / 2, p.1 + 1 / 2))

end Plots
end Expdb
