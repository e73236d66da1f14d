import Verif.Gmw.Model
import Mathlib.LinearAlgebra.Matrix.NonsingularInverse
import Mathlib.Data.Real.Sqrt

/-!
# Model of the scores of `sample_with_corr` (ASAPy/CovManipulation.py 20-30, 361-379)

Exact real arithmetic. The quantiles `sp.stats.norm.ppf(x/(n+1))` and the random permutations are parameters.
-/

namespace ASAPy.Scores
open Matrix

variable {n d : Nat}

/-- `p.mean()`. -/
noncomputable def mean (p : Fin n → ℝ) : ℝ := (∑ i, p i) / n

/-- `p.std()`. -/
noncomputable def std (p : Fin n → ℝ) : ℝ := Real.sqrt ((∑ i, (p i - mean p) ^ 2) / n)

/-- CovManipulation.py 26. -/
noncomputable def standard (p : Fin n → ℝ) : Fin n → ℝ := fun i => (p i - mean p) / std p

/-- CovManipulation.py 20-30, `col_independent_matrix`: every column is a permutation of the same numbers. -/
noncomputable def columns (p : Fin n → ℝ) (perms : Fin d → Equiv.Perm (Fin n)) : Matrix (Fin n) (Fin d) ℝ := Matrix.of fun i j => standard p (perms j i)

/-- CovManipulation.py 370: `D`. -/
noncomputable def gram (M : Matrix (Fin n) (Fin d) ℝ) : Matrix (Fin d) (Fin d) ℝ := (1 / (n : ℝ)) • (Mᵀ * M)

/-- CovManipulation.py 361-378: `N`, the scores whose ranks order the samples. `np.linalg.inv` raises an error for a singular factor; the factors are never singular where the theorems apply. -/
noncomputable def scores (chol : Matrix (Fin d) (Fin d) ℝ → Option (Matrix (Fin d) (Fin d) ℝ)) (p : Fin n → ℝ) (perms : Fin d → Equiv.Perm (Fin n)) (corr : Matrix (Fin d) (Fin d) ℝ) :
    Matrix (Fin n) (Fin d) ℝ :=
  columns p perms * (Gmw.factor chol (gram (columns p perms)))⁻¹ * Gmw.factor chol corr

end ASAPy.Scores
