import Verif.Scores.Model
import Verif.Scores.Spec
import Verif.Gmw.Props
import Mathlib.LinearAlgebra.Dimension.Constructions
import Mathlib.LinearAlgebra.FiniteDimensional.Lemmas
import Mathlib.LinearAlgebra.Matrix.ToLin

/-! # The correlation of the scores (C105) -/

set_option linter.unusedSectionVars false

namespace ASAPy.Scores
open Matrix

variable {n d : Nat}

theorem standard_sum (p : Fin n → ℝ) : ∑ i, standard p i = 0 := by
  unfold standard
  rw [← Finset.sum_div, Finset.sum_sub_distrib]
  rcases Nat.eq_zero_or_pos n with h | h
  · subst h; simp
  · have : (n : ℝ) ≠ 0 := by positivity
    have hm : ∑ _i : Fin n, mean p = ∑ i, p i := by
      simp only [Finset.sum_const, Finset.card_univ, Fintype.card_fin, nsmul_eq_mul, mean]
      field_simp
    rw [hm]
    simp

/-- The columns of the scores sum to zero, whatever the factors. -/
theorem columns_sum (p : Fin n → ℝ) (perms : Fin d → Equiv.Perm (Fin n)) (j : Fin d) : ∑ i, columns p perms i j = 0 := by
  have : ∑ i, columns p perms i j = ∑ i, standard p (perms j i) := rfl
  rw [this, Equiv.sum_comp (perms j) (standard p), standard_sum]

theorem mul_sum_zero (M : Matrix (Fin n) (Fin d) ℝ) (h : ∀ j, ∑ i, M i j = 0) (B : Matrix (Fin d) (Fin d) ℝ) (j : Fin d) : ∑ i, (M * B) i j = 0 := by
  simp only [Matrix.mul_apply]
  rw [Finset.sum_comm]
  simp only [← Finset.sum_mul, h, zero_mul, Finset.sum_const_zero]

theorem scores_sum (chol : Matrix (Fin d) (Fin d) ℝ → Option (Matrix (Fin d) (Fin d) ℝ)) (p : Fin n → ℝ) (perms : Fin d → Equiv.Perm (Fin n)) (A : Matrix (Fin d) (Fin d) ℝ) (j : Fin d) :
    ∑ i, scores chol p perms A i j = 0 :=
  mul_sum_zero _ (mul_sum_zero _ (columns_sum p perms) _) _ j

/-- For columns with sum zero the correlation coefficients are those of the products. -/
theorem pearson_zero (N : Matrix (Fin n) (Fin d) ℝ) (h : ∀ j, ∑ i, N i j = 0) (j k : Fin d) :
    pearson (fun i => N i j) (fun i => N i k) = (Nᵀ * N) j k / (Real.sqrt ((Nᵀ * N) j j) * Real.sqrt ((Nᵀ * N) k k)) := by
  have ha : ∀ j, average (fun i => N i j) = 0 := fun j => by simp [average, h j]
  simp only [pearson, ha, sub_zero, Matrix.mul_apply, Matrix.transpose_apply, sq]

/-- **C105 (partial).** If the correlation matrix and the matrix of the products of the scores have a Cholesky factor and the latter is not singular, then the scores that order the samples have
exactly the correlation coefficients asked for. Missing: the other cases, in which it is false (`C105_few_samples_refuted`; `C41_pivoting_refuted` for matrices that are not positive definite). -/
theorem C105_scores_partial {chol : Matrix (Fin d) (Fin d) ℝ → Option (Matrix (Fin d) (Fin d) ℝ)} (hc : Gmw.Contract chol) (hn : 0 < n) (p : Fin n → ℝ) (perms : Fin d → Equiv.Perm (Fin n))
    {A : Matrix (Fin d) (Fin d) ℝ} (h1 : ∀ i, A i i = 1) (hA : chol A ≠ none) (hD : chol (gram (columns p perms)) ≠ none) (hdet : (gram (columns p perms)).det ≠ 0) (j k : Fin d) :
    pearson (fun i => scores chol p perms A i j) (fun i => scores chol p perms A i k) = A j k := by
  have hn' : (n : ℝ) ≠ 0 := by positivity
  set M := columns p perms with hM
  obtain ⟨E, hE⟩ := Option.ne_none_iff_exists'.mp hD
  obtain ⟨C, hC⟩ := Option.ne_none_iff_exists'.mp hA
  have hEE := hc _ _ hE
  have hCC := hc _ _ hC
  have hN : scores chol p perms A = M * E⁻¹ * C := by simp only [scores, Gmw.factor, ← hM, hE, hC]
  have hEdet : E.det ≠ 0 := by
    intro h0
    apply hdet
    rw [← hEE, Matrix.det_mul, h0, mul_zero]
  have hEu : IsUnit E.det := isUnit_iff_ne_zero.mpr hEdet
  have hMM : Mᵀ * M = (n : ℝ) • (Eᵀ * E) := by
    rw [hEE, gram, smul_smul]
    simp [hn']
  have hprod : (scores chol p perms A)ᵀ * scores chol p perms A = (n : ℝ) • A := by
    rw [hN]
    calc (M * E⁻¹ * C)ᵀ * (M * E⁻¹ * C) = Cᵀ * (E⁻¹)ᵀ * (Mᵀ * M) * E⁻¹ * C := by
          simp only [Matrix.transpose_mul, Matrix.mul_assoc]
      _ = (n : ℝ) • (Cᵀ * ((E⁻¹)ᵀ * Eᵀ) * (E * E⁻¹) * C) := by
          rw [hMM]
          simp only [Matrix.mul_smul, Matrix.smul_mul, Matrix.mul_assoc]
      _ = (n : ℝ) • A := by
          rw [← Matrix.transpose_mul, Matrix.mul_nonsing_inv _ hEu]
          simp [hCC]
  rw [pearson_zero _ (scores_sum chol p perms A), hprod]
  simp only [Matrix.smul_apply, smul_eq_mul, h1, mul_one]
  rw [Real.mul_self_sqrt (by positivity)]
  field_simp

/-- **C105 is false** with at most as many samples as variables: whatever the factorisations do, the scores do not have the correlation coefficients of a positive definite matrix. -/
theorem C105_few_samples_refuted (chol : Matrix (Fin d) (Fin d) ℝ → Option (Matrix (Fin d) (Fin d) ℝ)) (hn : 0 < n) (hnd : n ≤ d) (p : Fin n → ℝ) (perms : Fin d → Equiv.Perm (Fin n))
    {A : Matrix (Fin d) (Fin d) ℝ} (hpd : ∀ x : Fin d → ℝ, x ≠ 0 → 0 < ∑ j, ∑ k, x j * A j k * x k) :
    ¬ ∀ j k, pearson (fun i => scores chol p perms A i j) (fun i => scores chol p perms A i k) = A j k := by
  intro hcon
  set N := scores chol p perms A with hN
  have hsum : ∀ j, ∑ i, N i j = 0 := scores_sum chol p perms A
  obtain ⟨m, rfl⟩ : ∃ m, n = m + 1 := ⟨n - 1, by omega⟩
  -- the columns, divided by their lengths, without the last row
  let s : Fin d → ℝ := fun j => Real.sqrt ((Nᵀ * N) j j)
  let T : Matrix (Fin m) (Fin d) ℝ := Matrix.of fun i j => N i.castSucc j / s j
  obtain ⟨x, hx0, hTx⟩ : ∃ x : Fin d → ℝ, x ≠ 0 ∧ T *ᵥ x = 0 := by
    have : LinearMap.ker (Matrix.mulVecLin T) ≠ ⊥ := by
      apply LinearMap.ker_ne_bot_of_finrank_lt
      simp only [Module.finrank_fintype_fun_eq_card, Fintype.card_fin]
      omega
    obtain ⟨x, hx, h0⟩ := (Submodule.ne_bot_iff _).mp this
    exact ⟨x, h0, by simpa using hx⟩
  have hrow : ∀ i, ∑ j, N i j / s j * x j = 0 := by
    have h1 : ∀ i : Fin m, ∑ j, N i.castSucc j / s j * x j = 0 := fun i => congrFun hTx i
    have h2 : ∑ i, ∑ j, N i j / s j * x j = 0 := by
      rw [Finset.sum_comm]
      apply Finset.sum_eq_zero
      intro j _
      rw [← Finset.sum_mul, ← Finset.sum_div, hsum]
      simp
    rw [Fin.sum_univ_castSucc] at h2
    simp only [h1, Finset.sum_const_zero, zero_add] at h2
    intro i
    refine Fin.lastCases ?_ (fun i => ?_) i
    · exact h2
    · exact h1 i
  have hpos := hpd x hx0
  have hzero : ∑ j, ∑ k, x j * A j k * x k = 0 := by
    have hA : ∀ j k, A j k = ∑ i, (N i j / s j) * (N i k / s k) := by
      intro j k
      rw [← hcon j k, pearson_zero N hsum, Matrix.mul_apply, Finset.sum_div]
      apply Finset.sum_congr rfl
      intro i _
      rw [Matrix.transpose_apply, div_mul_div_comm]
    calc ∑ j, ∑ k, x j * A j k * x k = ∑ j, ∑ k, ∑ i, (N i j / s j * x j) * (N i k / s k * x k) := by
          apply Finset.sum_congr rfl; intro j _
          apply Finset.sum_congr rfl; intro k _
          rw [hA, Finset.mul_sum, Finset.sum_mul]
          apply Finset.sum_congr rfl; intro i _
          ring
      _ = ∑ i, (∑ j, N i j / s j * x j) * (∑ k, N i k / s k * x k) := by
          simp only [Finset.sum_mul_sum]
          rw [Finset.sum_comm]
          refine (Finset.sum_congr rfl fun k _ => Finset.sum_comm).trans ?_
          rw [Finset.sum_comm]
          exact Finset.sum_congr rfl fun i _ => Finset.sum_comm
      _ = 0 := by simp [hrow]
  exact absurd hzero (ne_of_gt hpos)

namespace Example

open Classical in
/-- Some factorisation that succeeds whenever there is a factor. -/
noncomputable def chol (A : Matrix (Fin 2) (Fin 2) ℝ) : Option (Matrix (Fin 2) (Fin 2) ℝ) := if h : ∃ U : Matrix (Fin 2) (Fin 2) ℝ, Uᵀ * U = A then some h.choose else none

theorem chol_contract : Gmw.Contract chol := by
  intro A U h
  unfold chol at h
  split at h
  · rename_i hex
    simp only [Option.some.injEq] at h
    rw [← h]
    exact hex.choose_spec
  · cases h

noncomputable def half : Matrix (Fin 2) (Fin 2) ℝ := !![1, 1 / 2; 1 / 2, 1]

theorem half_chol : chol half ≠ none := by
  have : ∃ U : Matrix (Fin 2) (Fin 2) ℝ, Uᵀ * U = half := by
    refine ⟨!![1, 1 / 2; 0, Real.sqrt (3 / 4)], ?_⟩
    have h := Real.mul_self_sqrt (show (0 : ℝ) ≤ 3 / 4 by norm_num)
    ext i j
    fin_cases i <;> fin_cases j <;> simp [Matrix.mul_apply, Fin.sum_univ_two, half]
    norm_num at h ⊢
    linarith
  unfold chol
  rw [dif_pos this]
  simp

noncomputable def p : Fin 3 → ℝ := ![-1, 0, 1]
def perms : Fin 2 → Equiv.Perm (Fin 3) := ![1, Equiv.swap 1 2]

theorem gram_half : gram (columns p perms) = half := by
  have hmean : mean p = 0 := by simp [mean, p, Fin.sum_univ_three]
  have hstd : std p ^ 2 = 2 / 3 := by
    rw [std, Real.sq_sqrt (by positivity), hmean]
    simp [p, Fin.sum_univ_three]
    norm_num
  have h0 : std p ≠ 0 := by intro h; rw [h] at hstd; norm_num at hstd
  have v0 : standard p 0 = -1 / std p := by simp [standard, hmean]; simp [p]
  have v1 : standard p 1 = 0 := by simp [standard, hmean]; simp [p]
  have v2 : standard p 2 = 1 / std p := by simp [standard, hmean]; simp [p]
  have hsw1 : (Equiv.swap (1 : Fin 3) 2) 0 = 0 := by decide
  ext i j
  fin_cases i <;> fin_cases j <;>
    simp [gram, columns, Matrix.mul_apply, Fin.sum_univ_three, perms, half, hsw1, v0, v1, v2] <;> field_simp <;> rw [hstd] <;> norm_num

/-- Three samples of two variables with the correlation 1/2: the hypotheses of `C105_scores_partial` are met. -/
example (j k : Fin 2) : pearson (fun i => scores chol p perms half i j) (fun i => scores chol p perms half i k) = half j k := by
  refine C105_scores_partial chol_contract (by decide) p perms ?_ half_chol ?_ ?_ j k
  · intro i; fin_cases i <;> simp [half]
  · rw [gram_half]; exact half_chol
  · rw [gram_half]; simp [half, Matrix.det_fin_two]; norm_num

/-- Two samples are too few for this matrix. -/
example (chol : Matrix (Fin 2) (Fin 2) ℝ → Option (Matrix (Fin 2) (Fin 2) ℝ)) (p : Fin 2 → ℝ) (perms : Fin 2 → Equiv.Perm (Fin 2)) :
    ¬ ∀ j k, pearson (fun i => scores chol p perms half i j) (fun i => scores chol p perms half i k) = half j k := by
  refine C105_few_samples_refuted chol (by decide) le_rfl p perms ?_
  intro x hx
  have hx' : x 0 ≠ 0 ∨ x 1 ≠ 0 := by
    by_contra h
    push Not at h
    apply hx
    funext i
    fin_cases i
    · exact h.1
    · exact h.2
  simp only [Fin.sum_univ_two, half]
  simp
  rcases hx' with h | h
  · have := sq_pos_of_ne_zero h
    nlinarith [sq_nonneg (x 0 / 2 + x 1)]
  · have := sq_pos_of_ne_zero h
    nlinarith [sq_nonneg (x 0 + x 1 / 2)]

end Example

end ASAPy.Scores
