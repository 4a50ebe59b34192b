import Mathlib.Algebra.Order.Field.Rat

/-!
# Common conventions

Python exceptions are values of `PyErr`; a python function that may raise returns `Py α`.
-/

namespace Expdb

/-- The python exception classes that the modelled code can raise.
(Not a class of /repo: these are the builtin exceptions named in the cited lines.) -/
inductive PyErr
  | valueError
  | typeError
  | attributeError
  | indexError
  | keyError
  | notImplemented
  | zeroDivision
  | stopIteration
  /-- Marker (not a python exception) for a `while` loop that does not make progress; it is proved
  where it occurs that it is never returned. -/
  | diverged
  deriving DecidableEq, Repr

/-- Result of a python call: a value or a raised exception. -/
abbrev Py (α : Type) := Except PyErr α

end Expdb
