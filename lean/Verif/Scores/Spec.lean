import Mathlib.Data.Real.Sqrt
import Mathlib.Algebra.BigOperators.Fin

/-! # The correlation coefficient of two samples -/

namespace ASAPy.Scores

variable {n : Nat}

/-- The mean of `n` numbers. -/
noncomputable def average (x : Fin n → ℝ) : ℝ := (∑ i, x i) / n

/-- Pearson's correlation coefficient. -/
noncomputable def pearson (x y : Fin n → ℝ) : ℝ :=
  (∑ i, (x i - average x) * (y i - average y)) / (Real.sqrt (∑ i, (x i - average x) ^ 2) * Real.sqrt (∑ i, (y i - average y) ^ 2))

end ASAPy.Scores
