import Mathlib.Algebra.Order.Field.Basic
import Mathlib.Tactic.NormNum

/-!
# numpy numbers with NaN and infinities

Only what the code's divisions can produce: a finite number divided by zero. The sign of zero is not modelled (0 is
`+0.0`).
-/

namespace ASAPy

/-- A float: finite (exact), NaN, `+inf` or `-inf`. -/
inductive Flt (K : Type*) where
  | fin (x : K)
  | nan
  | pinf
  | ninf
deriving DecidableEq, Repr

namespace Flt
variable {K : Type*} [Field K] [LinearOrder K]

/-- numpy's `a / b` for finite `a` and `b`. -/
def div (a b : K) : Flt K :=
  if b ≠ 0 then .fin (a / b) else if a = 0 then .nan else if 0 < a then .pinf else .ninf

/-- `x < 0` (false for NaN). -/
def isNeg : Flt K → Bool
  | .fin x => decide (x < 0)
  | .ninf => true
  | _ => false

/-- `isnan(x)`. -/
def isNan : Flt K → Bool
  | .nan => true
  | _ => false

/-- `a + b`. -/
def add : Flt K → Flt K → Flt K
  | .fin a, .fin b => .fin (a + b)
  | .nan, _ => .nan
  | _, .nan => .nan
  | .pinf, .ninf => .nan
  | .ninf, .pinf => .nan
  | .pinf, _ => .pinf
  | _, .pinf => .pinf
  | .ninf, _ => .ninf
  | _, .ninf => .ninf

/-- `-a`. -/
def neg : Flt K → Flt K
  | .fin a => .fin (-a)
  | .nan => .nan
  | .pinf => .ninf
  | .ninf => .pinf

/-- `a < b` (false with NaN). -/
def lt : Flt K → Flt K → Bool
  | .fin a, .fin b => decide (a < b)
  | .fin _, .pinf => true
  | .ninf, .fin _ => true
  | .ninf, .pinf => true
  | _, _ => false

@[simp] theorem add_zero (x : Flt K) : add x (.fin 0) = x := by cases x <;> simp [add]
@[simp] theorem zero_add (x : Flt K) : add (.fin 0) x = x := by cases x <;> simp [add]

@[simp] theorem div_one (a : K) : div a 1 = .fin a := by simp [div]

theorem div_of_ne {a b : K} (h : b ≠ 0) : div a b = .fin (a / b) := by simp [div, h]

theorem isNan_div {a b : K} : isNan (div a b) = true ↔ b = 0 ∧ a = 0 := by
  unfold div
  by_cases hb : b = 0
  · by_cases ha : a = 0
    · simp [hb, ha, isNan]
    · by_cases h0 : 0 < a <;> simp [hb, ha, h0, isNan]
  · simp [hb, isNan]

end Flt
end ASAPy
