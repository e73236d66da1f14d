import Verif.Py
import Mathlib.LinearAlgebra.Matrix.NonsingularInverse
import Mathlib.Data.Real.Basic
import Mathlib.Data.Finset.Lattice.Fold

/-!
# Model of the eigenvalue repair of correlation matrices (ASAPy/XsecSampler.py 52-57 and 202-238)

Exact real arithmetic. `scipy.linalg.eigh` is a parameter; its documented contract is `IsEigh`. `scipy.linalg.inv` is the
matrix inverse.
-/

namespace ASAPy.EigenFix
open Matrix

/-- The contract of `scipy.linalg.eigh` on a symmetric matrix: the columns of `P` are an orthonormal basis of
eigenvectors. -/
structure IsEigh {ι : Type*} [Fintype ι] [DecidableEq ι] (A : Matrix ι ι ℝ) (eigs : ι → ℝ) (P : Matrix ι ι ℝ) : Prop where
  orth : Pᵀ * P = 1
  dec : A = P * diagonal eigs * Pᵀ

/-- `diag_non_zero`, line 221. -/
abbrev Sel {n : Nat} (A : Matrix (Fin n) (Fin n) ℝ) := {i : Fin n // 0 < A i i}

/-- `corr_matrix[diag_non_zero, :][:, diag_non_zero]`, line 222. -/
def sub {n : Nat} (A : Matrix (Fin n) (Fin n) ℝ) : Matrix (Sel A) (Sel A) ℝ := fun i j => A i j

/-- Line 231: the eigenvalues with the bad ones replaced. -/
noncomputable def newEigs {ι : Type*} [Fintype ι] [Nonempty ι] (eigs : ι → ℝ) : ι → ℝ := fun i =>
  if eigs i ≤ 1e-8 then min (1e-8 * Finset.univ.sup' Finset.univ_nonempty eigs) 1e-8 else eigs i

/-- Lines 225-236, for the selected rows and columns. -/
noncomputable def fixSub {ι : Type*} [Fintype ι] [DecidableEq ι] [Nonempty ι] (A : Matrix ι ι ℝ) (eigs : ι → ℝ) (P : Matrix ι ι ℝ) :
    Matrix ι ι ℝ :=
  if Finset.univ.inf' Finset.univ_nonempty eigs ≤ 1e-8 then P * diagonal (newEigs eigs) * P⁻¹ else A

/-- What an `eigh` function looks like. -/
abbrev EighFn := ∀ (ι : Type) [Fintype ι] [DecidableEq ι], Matrix ι ι ℝ → (ι → ℝ) × Matrix ι ι ℝ

open Classical in
/-- The assignment `self.corr_df.loc[idx, idx] = adjusted_corr`, line 57. -/
noncomputable def place {n : Nat} (A : Matrix (Fin n) (Fin n) ℝ) (F : Matrix (Sel A) (Sel A) ℝ) : Matrix (Fin n) (Fin n) ℝ :=
  fun i j => if hij : 0 < A i i ∧ 0 < A j j then F ⟨i, hij.1⟩ ⟨j, hij.2⟩ else A i j

open Classical in
/-- The whole repair, lines 52-57 and 202-238. With no positive diagonal entry `min(eigs)` of an empty array raises. -/
noncomputable def repair {n : Nat} (eigh : EighFn) (A : Matrix (Fin n) (Fin n) ℝ) :
    Except PyErr (Matrix (Fin n) (Fin n) ℝ) :=
  if h : Nonempty (Sel A) then
    .ok (place A (fixSub (sub A) (eigh (Sel A) (sub A)).1 (eigh (Sel A) (sub A)).2))
  else .error .valueError

end ASAPy.EigenFix
