import Verif.Groups.Model
import Verif.Boxer.Spec

/-! # Specification: numbers printed with four digits -/

namespace ASAPy.Groups
open ASAPy.Boxer

/-- One unit in the last of the four digits of a printed number. -/
def ulp (f : Fld) : ℚ := 1 / 1000 * (if f.negExp then 1 / (10 : ℚ) ^ (f.exp : ℕ) else (10 : ℚ) ^ (f.exp : ℕ))

/-- The number, not negative and with a first digit other than zero, is printed correctly rounded (ties either way). -/
def Rounds (q : ℚ) (f : Fld) : Prop := f.neg = false ∧ 1000 ≤ (f.mant : ℕ) ∧ |q - f.value| ≤ ulp f / 2

end ASAPy.Groups
