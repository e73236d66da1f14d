/-!
# Python building blocks shared by the models

Exceptions are values. `PyErr` names the Python exception classes that the modelled code raises.
Messages are not modelled.
-/

namespace ASAPy

/-- The exception classes raised by the modelled code (messages dropped). `exception` is a bare
`raise Exception(...)`. -/
inductive PyErr where
  | exception
  | indexError
  | keyError
  | valueError
  | typeError
  | assertionError
  | runtimeError
  | unboundLocal
  | linAlgError
  | attributeError
  | zeroDivision
deriving DecidableEq, Repr

/-- A pandas Series with integer labels: label/value pairs in order. -/
abbrev Series (α : Type _) := List (Int × α)

/-- `series[label]` for one label; a missing label has no value. -/
def Series.get {α : Type _} (s : Series α) (g : Int) : Option α := s.lookup g

end ASAPy
