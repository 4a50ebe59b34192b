import Verif.Model.DerivedBeta
import Verif.Model.DerivedMu
import Verif.Model.LiteratureBeta
import Verif.Model.LiteratureMu
import Verif.Model.Literature

/-!
# Model of `zeta_large_values_examples` (examples.py:244-261)

The estimates printed are represented by their regions. The sets are listed in the orders `orderB`, `orderM`, `orderL`.
-/

namespace Expdb
namespace ZetaExamples

open LargeValues

/-- The large value estimates of the literature: Huxley (literature.py:717-721), Heath-Brown (literature.py:723-728), Jutila
(literature.py:730-741), Bourgain (literature.py:743-828) and Guth and Maynard (literature.py:830-839); `T` is
`Constants.LARGE_VALUES_TRUNCATION`. -/
def literatureLV (canon : Mat → Mat) (T : ℕ) : Py (List (Region ℕ)) := do
  let h ← convertBounds canon Literature.huxley
  let hb ← convertBounds canon Literature.heathBrown
  let js ← (List.range' 1 (T - 1)).mapM (fun k => convertBounds canon (Literature.jutila k))
  let b ← Literature.bourgainRegion
  let gm ← convertBounds canon Literature.guthMaynard
  return [h, hb] ++ js ++ [b, gm]

/-- `zeta_large_values_examples()` (examples.py:244-261); `K` and `N` are the truncations of the bounds on beta and mu. The set has no large
value estimate transforms. -/
def zetaLargeValuesExamples (canon : Mat → Mat) (K N T : ℕ) (orderB : List LitBeta.Bd → List LitBeta.Bd) (orderM : List EP.Mu → List EP.Mu)
    (orderL : List (Region ℕ) → List (Region ℕ)) : Py (List (Region ℕ)) := do
  let betas ← LitBeta.all K
  let mus ← LitMu.allMu N
  let lvs ← literatureLV canon T
  let a ← betaToZlv ((orderB betas).zipIdx.map (fun e => ⟨e.2, e.1⟩))
  let b ← muToZlv ((orderM mus).map (fun m => (m.sigma, m.mu)))
  let c ← lvToZlv (orderL lvs) []
  return a ++ b ++ c

end ZetaExamples
end Expdb
