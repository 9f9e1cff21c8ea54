/-!
# Shared conventions of the model

Exceptions raised by the Python code are values of `Except Err α`.
-/

namespace Reliability

/-- The Python exception classes the modelled code can raise.  `valueError` is an explicit
`raise ValueError(...)` (e.g. /repo/reliability/Convert_data.py:606-615); the others stand for the
implicit run-time errors named by Python. -/
inductive Err where
  | valueError
  | zeroDivision
  | indexError
  | nameError
  | attributeError
  | keyError
  | typeError
  | runtimeError
  deriving DecidableEq, Repr

/-- `raise ValueError` -/
abbrev valueErr {α : Type _} : Except Err α := Except.error Err.valueError

end Reliability
