/-
Exceptions as values.  Python exceptions raised by the modelled code, and the
result type of every modelled function that may raise.
-/

namespace PyKrige

/-- The Python exceptions the modelled code can raise.  `linAlgError` is
`numpy.linalg.LinAlgError` (raised by `scipy.linalg.inv`/`solve` on a singular matrix),
`castingError` is numpy's `UFuncTypeError` (a `TypeError`), `notFitted` is sklearn's
`NotFittedError`/the wrapper's plain `Exception` for predicting before fitting. -/
inductive PyErr
  | valueError
  | typeError
  | keyError
  | indexError
  | ioError
  | attributeError
  | linAlgError
  | castingError
  | notImplementedError
  | importError
  | runtimeError
  | notFitted
  | gstoolsException
  | zeroDivisionError
  deriving DecidableEq, Repr

/-- Result of a Python function that may raise. -/
abbrev Py (α : Type _) := Except PyErr α

/-- Python's `m[i]` on a list: `IndexError` past the end. -/
def pyGet {α : Type _} (l : List α) (i : Nat) : Py α :=
  match l[i]? with
  | some v => .ok v
  | none => .error .indexError

end PyKrige
