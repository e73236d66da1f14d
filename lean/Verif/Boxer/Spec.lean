import Verif.Dec
import Mathlib.Algebra.Order.Field.Rat

/-!
# Specification for C47 and C48: what boxer2mat writes

Format `1P8E10.3` (boxer2mat.f 163): fields of 10 characters, `d.dddE±dd` with a minus sign or a blank in front; the fields
follow each other without separators.
-/

namespace ASAPy.Boxer
open ASAPy.Dec

/-- A number with four significant digits and a two-digit exponent: `(-1)^neg * mant/1000 * 10^(±exp)`. -/
structure Fld where
  neg : Bool
  mant : Fin 10000
  negExp : Bool
  exp : Fin 100

/-- Its value. -/
def Fld.value (f : Fld) : ℚ :=
  (if f.neg then -1 else 1) * ((f.mant : ℕ) : ℚ) / 1000 *
    (if f.negExp then 1 / (10 : ℚ) ^ (f.exp : ℕ) else (10 : ℚ) ^ (f.exp : ℕ))

/-- Its text. -/
def Fld.text (f : Fld) : List Char :=
  [if f.neg then '-' else ' ', digitChar (f.mant / 1000), '.', digitChar (f.mant / 100), digitChar (f.mant / 10),
    digitChar f.mant, 'E', if f.negExp then '-' else '+', digitChar (f.exp / 10), digitChar f.exp]

/-- A line of fields. -/
def lineOf (fs : List Fld) : List Char := fs.flatMap Fld.text ++ ['\n']

end ASAPy.Boxer
