import Verif.Model.BourgainZD

/-!
# The zero density estimates of Ivić (derived.py)
-/

namespace Expdb
namespace IvicRanges

/-- The loop of `prove_zero_density_ivic_1984` (derived.py:527-530): the estimates for `k = 2, …, 19` in the order printed, each with the
exponent pair named in its proof. The list `pairs` stands for the data of `ephs`, computed before the loop (derived.py:516-525); the printing
itself is left out. -/
def proveIvic1984 (pairs : List (ℚ × ℚ)) : Py (List (LitZD.Entry × (ℚ × ℚ))) :=
  (List.range' 2 18).mapM (PairZD.ivicEpToZd pairs)

end IvicRanges
end Expdb
