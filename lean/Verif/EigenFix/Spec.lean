import Mathlib.Data.Matrix.Mul
import Mathlib.Data.Real.Basic
import Mathlib.Data.Matrix.Basic
import Mathlib.LinearAlgebra.Matrix.Symmetric

/-! # Specification for C36 and C37: positive definiteness by the quadratic form -/

namespace ASAPy.EigenFix

/-- Symmetric, and the quadratic form is positive on non-zero vectors. -/
def IsPosDef {ι : Type*} [Fintype ι] (F : Matrix ι ι ℝ) : Prop :=
  F.IsSymm ∧ ∀ x : ι → ℝ, x ≠ 0 → 0 < ∑ i, ∑ j, x i * F i j * x j

/-- All eigenvalues of a symmetric matrix exceed `c`: `x·Ax > c x·x` for all non-zero `x`. -/
def EigsAbove {ι : Type*} [Fintype ι] (c : ℝ) (A : Matrix ι ι ℝ) : Prop :=
  ∀ x : ι → ℝ, x ≠ 0 → c * ∑ i, x i ^ 2 < ∑ i, ∑ j, x i * A i j * x j

/-- All eigenvalues of a symmetric matrix are at least `c`. -/
def EigsAtLeast {ι : Type*} [Fintype ι] (c : ℝ) (A : Matrix ι ι ℝ) : Prop :=
  ∀ x : ι → ℝ, c * ∑ i, x i ^ 2 ≤ ∑ i, ∑ j, x i * A i j * x j

end ASAPy.EigenFix
