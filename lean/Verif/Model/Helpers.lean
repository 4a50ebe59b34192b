import Verif.Model.Hypotheses
import Verif.Model.Affine2
import Verif.Model.Affine
import Verif.Model.Region
import Verif.Model.LargeValues
import Verif.Model.Printing

/-!
# Model of small helpers: listing of proofs, kinds of references, merging of pieces, Pintz's optimisation, trivial zeta large values

(hypotheses.py:81-90, reference.py:20-33, zero_density_estimate.py:730-753 and 826-858, zeta_large_values.py:17-34.)
-/

namespace Expdb
namespace Helpers

open Printing

/-! ### The listing of a proof -/

/-- A line printed by `recursively_list_proofs`: the indentation, the hypothesis and whether the line ends with `Dependencies:`
(hypotheses.py:83-90). -/
structure Line where
  indent : ℕ
  hyp : ℕ
  more : Bool
  deriving DecidableEq, Repr

/-- The text of a line (hypotheses.py:83-86, 90). `name`, `data` and `proof` are `str(self)`, `str(self.data)` and `self.proof`. -/
def Line.text (name data proof : ℕ → Str) (l : Line) : Str :=
  List.replicate l.indent '\t' ++ "- [".toList ++ name l.hyp ++ "]  i.e. ".toList ++ data l.hyp ++ ". ".toList ++ proof l.hyp ++
    (if l.more then ". Dependencies:".toList else ".".toList)

mutual
/-- `recursively_list_proofs(indentation)` (hypotheses.py:81-90): the lines printed, in order. `none` means that the depth of the
recursion exceeds the fuel. -/
def listProofs {D : Type} (H : Heap D) (fuel : ℕ) (i h : ℕ) : Option (List Line) :=
  match fuel with
  | 0 => none
  | n + 1 =>
    if (H h).deps.length > 0 then do return ⟨i, h, true⟩ :: (← listProofsList H n (i + 1) (H h).deps)
    else some [⟨i, h, false⟩]

/-- The loop over the dependencies (hypotheses.py:87-88). -/
def listProofsList {D : Type} (H : Heap D) (fuel : ℕ) (i : ℕ) (ds : List ℕ) : Option (List Line) :=
  match ds with
  | [] => some []
  | d :: ds => do
    let a ← listProofs H fuel i d
    let b ← listProofsList H fuel i ds
    return a ++ b
end

/-! ### Kinds of references -/

/-- `is_classical()` (reference.py:20-21). -/
def isClassical (r : Reference) : Bool := r.label == "Classical"
/-- `is_derived()` (reference.py:23-24). -/
def isDerived (r : Reference) : Bool := r.label == "Derived"
/-- `is_conjectured()` (reference.py:26-27). -/
def isConjectured (r : Reference) : Bool := r.label == "Conjectured"
/-- `is_trivial()` (reference.py:29-30). -/
def isTrivial (r : Reference) : Bool := r.label == "Trivial"
/-- `is_literature()` (reference.py:32-33). -/
def isLiterature (r : Reference) : Bool := !(isClassical r || isDerived r || isConjectured r)

/-! ### Merging of pieces -/

/-- The loops of `simplify(pieces)` (zero_density_estimate.py:737-752) after `pieces[i]` with the function `f` was taken: `left` and `right`
are the ends of the current interval, the list holds the pieces from `j` on. `eqF` is the `==` of functions. The interval is made with the
default flags. -/
def simplifyGo {F : Type} (eqF : F → F → Bool) (f : F) (left right : ℚ) : List (F × Interval) → Py (List (F × Interval))
  | [] => do return [(f, ← Interval.make left right true false)]
  | (g, J) :: rest =>
    if !(eqF f g && decide (right = J.x0)) then do
      let I ← Interval.make left right true false
      let out ← simplifyGo eqF g J.x0 J.x1 rest
      return (f, I) :: out
    else simplifyGo eqF f left J.x1 rest

/-- `simplify(pieces)` (zero_density_estimate.py:733-753). -/
def simplifyPieces {F : Type} (eqF : F → F → Bool) : List (F × Interval) → Py (List (F × Interval))
  | [] => .ok []
  | (f, I) :: rest => simplifyGo eqF f I.x0 I.x1 rest

/-! ### Pintz's optimisation -/

/-- What the body of the loop of `optimize_pintz_zero_density` does with a bound (zero_density_estimate.py:836-858). -/
inductive Pintz where
  | skipped
  | constant
  | tau0 (f : Affine Unit)
  deriving DecidableEq

/-- The body of the loop (zero_density_estimate.py:836-858) for a bound on beta. -/
def pintzStep {L : Type} (b : Affine L) : Py Pintz :=
  if b.c > 0 then
    if b.dom.x0 = 0 then .ok .skipped
    else if b.dom.x1 = 0 then .error .zeroDivision
    else do
      let I ← Interval.make (b.m + b.c / b.dom.x1) (b.m + b.c / b.dom.x0) b.dom.incU b.dom.incL
      return .tau0 ⟨b.m / b.c, -1 / b.c, I, ()⟩
  else if b.c = 0 then .ok .constant
  else .error .notImplemented

/-! ### The trivial zeta large value estimate -/

/-- The arguments with which `Large_Value_Estimate` is called. -/
inductive LVArg (L : Type) where
  | region (r : Region L)
  | piecewise (ps : List Affine2)

/-- The constructor of `Large_Value_Estimate` (large_values.py:28-45). -/
def largeValueEstimate {L : Type} : LVArg L → Py (Region L)
  | .region r => .ok r
  | .piecewise _ => .error .valueError

/-- `get_trivial_zlv()` (zeta_large_values.py:17-34). -/
def getTrivialZlv {L : Type} : Py (Region L) := do
  let domain ← Mat.ofConstraints
    [⟨false, -1 / 2, [1, 0]⟩, ⟨false, 1, [-1, 0]⟩, ⟨false, -2, [0, 1]⟩, ⟨false, LargeValues.tauLimit, [0, -1]⟩]
  largeValueEstimate (.piecewise [⟨0, [0, 1], domain, none⟩])

end Helpers
end Expdb
