import Verif.SampleCorr.Model
import Mathlib.Probability.Distributions.Gaussian.Real
import Mathlib.MeasureTheory.Integral.Prod
import Mathlib.Analysis.Matrix.Order
import Mathlib.Analysis.SpecialFunctions.Exponential
import Mathlib.Tactic.NormNum
import Mathlib.Tactic.FieldSimp
import Mathlib.Tactic.Linarith

/-!
# C45 and C46: the distributions sampled

`value q d m s p` is the value for the uniform number `p`, with `q` the normal quantile function; for uniform `p`, `q p` is
standard normal, so the mean of a function `f` of the normal or lognormal samples is the integral of `f (value id d m s z)`
over the standard normal distribution of `z`.
-/

open MeasureTheory ProbabilityTheory

namespace ASAPy.SampleCorr

theorem gauss_exp (a c : ℝ) : ∫ z, Real.exp (c + a * z) ∂gaussianReal 0 1 = Real.exp (c + a ^ 2 / 2) := by
  have h := congrFun (mgf_id_gaussianReal (μ := 0) (v := 1)) a
  simp only [mgf, id_eq] at h
  simp only [Real.exp_add]
  rw [integral_const_mul, h]
  congr 2
  simp

theorem gauss_exp_integrable (a c : ℝ) : Integrable (fun z => Real.exp (c + a * z)) (gaussianReal 0 1) := by
  simp only [Real.exp_add]
  exact (integrable_exp_mul_gaussianReal a).const_mul _

theorem one_lt_ratio {m s : ℝ} (hm : 0 < m) (hs : 0 < s) : 1 < 1 + s ^ 2 / m ^ 2 := by
  have : 0 < s ^ 2 / m ^ 2 := by positivity
  linarith

theorem logSigma_sq {m s : ℝ} (hm : 0 < m) (hs : 0 < s) : logSigma m s ^ 2 = Real.log (1 + s ^ 2 / m ^ 2) :=
  Real.sq_sqrt (Real.log_nonneg (one_lt_ratio hm hs).le)

theorem exp_logMean {m s : ℝ} (hm : 0 < m) (hs : 0 < s) : Real.exp (logMean m s) = m / Real.sqrt (1 + s ^ 2 / m ^ 2) := by
  have := one_lt_ratio hm hs
  exact Real.exp_log (div_pos hm (Real.sqrt_pos.mpr (by linarith)))

theorem exp_half_log {a : ℝ} (ha : 0 < a) : Real.exp (Real.log a / 2) = Real.sqrt a := by
  rw [← Real.log_sqrt ha.le, Real.exp_log (Real.sqrt_pos.mpr ha)]

theorem log_first {m s : ℝ} (hm : 0 < m) (hs : 0 < s) : Real.exp (logMean m s + logSigma m s ^ 2 / 2) = m := by
  have h1 := one_lt_ratio hm hs
  have h0 : (0 : ℝ) < 1 + s ^ 2 / m ^ 2 := by linarith
  rw [Real.exp_add, exp_logMean hm hs, logSigma_sq hm hs, exp_half_log h0, div_mul_cancel₀]
  exact (Real.sqrt_pos.mpr h0).ne'

/-- **C45.** The mean of the lognormal samples is the mean asked for. -/
theorem C45_mean {m s : ℝ} (hm : 0 < m) (hs : 0 < s) : ∫ z, value id .lognormal m s z ∂gaussianReal 0 1 = m := by
  simp only [value, id]
  rw [gauss_exp, log_first hm hs]

/-- **C45.** Their variance is the square of the deviation asked for. -/
theorem C45_variance {m s : ℝ} (hm : 0 < m) (hs : 0 < s) :
    ∫ z, (value id .lognormal m s z - m) ^ 2 ∂gaussianReal 0 1 = s ^ 2 := by
  have h1 := one_lt_ratio hm hs
  have h0 : (0 : ℝ) < 1 + s ^ 2 / m ^ 2 := by linarith
  have e : ∀ z : ℝ, (value id .lognormal m s z - m) ^ 2 =
      Real.exp (2 * logMean m s + 2 * logSigma m s * z) - 2 * m * Real.exp (logMean m s + logSigma m s * z) + m ^ 2 := by
    intro z
    simp only [value, id]
    have : Real.exp (2 * logMean m s + 2 * logSigma m s * z) = Real.exp (logMean m s + logSigma m s * z) ^ 2 := by
      rw [← Real.exp_nat_mul]; congr 1; push_cast; ring
    rw [this]; ring
  simp only [e]
  rw [integral_add, integral_sub, integral_const_mul, gauss_exp, gauss_exp, log_first hm hs, integral_const]
  · have h2 : Real.exp (2 * logMean m s + (2 * logSigma m s) ^ 2 / 2) = m ^ 2 + s ^ 2 := by
      have e1 : 2 * logMean m s + (2 * logSigma m s) ^ 2 / 2 =
          (logMean m s + logSigma m s ^ 2 / 2) + (logMean m s + logSigma m s ^ 2 / 2) + logSigma m s ^ 2 := by ring
      rw [e1, Real.exp_add, Real.exp_add, log_first hm hs, logSigma_sq hm hs, Real.exp_log h0]
      field_simp
    rw [h2]
    simp
    ring
  · exact gauss_exp_integrable _ _
  · exact (gauss_exp_integrable _ _).const_mul _
  · exact (gauss_exp_integrable _ _).sub ((gauss_exp_integrable _ _).const_mul _)
  · exact integrable_const _

/-- **C45.** Every sample is positive, whatever the quantile function, mean and deviation. -/
theorem C45_positive (q : ℝ → ℝ) (m s p : ℝ) : 0 < value q .lognormal m s p := Real.exp_pos _

/-- For comparison: the normal samples have the mean and variance asked for. -/
theorem C45_normal {m s : ℝ} : ∫ z, value id .normal m s z ∂gaussianReal 0 1 = m ∧
    ∫ z, (value id .normal m s z - m) ^ 2 ∂gaussianReal 0 1 = s ^ 2 := by
  have hi : Integrable (fun z : ℝ => z) (gaussianReal 0 1) := by
    exact (memLp_id_gaussianReal (μ := 0) (v := 1) 1).integrable (by norm_num)
  constructor
  · simp only [value, id]
    rw [integral_add (integrable_const _) (hi.const_mul _), integral_const_mul, integral_id_gaussianReal]
    simp
  · have h := variance_id_gaussianReal (μ := 0) (v := 1)
    rw [variance_eq_integral (by fun_prop)] at h
    simp only [id, integral_id_gaussianReal, sub_zero] at h
    have e : ∀ z : ℝ, (value id .normal m s z - m) ^ 2 = s ^ 2 * z ^ 2 := by
      intro z; simp only [value, id]; ring
    simp only [e]
    rw [integral_const_mul, h]
    simp

section corr
variable {n : Nat} {mean std : Fin n → ℝ} {corr : Fin n → Fin n → ℝ}

theorem sqrt_logs {m s m' s' : ℝ} (hm : 0 < m) (hs : 0 < s) :
    Real.sqrt (Real.log (s ^ 2 / m ^ 2 + 1) * Real.log (s' ^ 2 / m' ^ 2 + 1)) = logSigma m s * logSigma m' s' := by
  rw [Real.sqrt_mul (Real.log_nonneg (by have := one_lt_ratio hm hs; linarith)), logSigma, logSigma, add_comm 1, add_comm 1]

theorem logCorr_eq (hm : ∀ i, 0 < mean i) (hs : ∀ i, 0 < std i) (i j : Fin n) :
    logCorr mean std corr i j = mean i * mean j / (std i * std j) *
      (Real.exp (logSigma (mean i) (std i) * corr i j * logSigma (mean j) (std j)) - 1) := by
  unfold logCorr
  rw [sqrt_logs (hm i) (hs i)]
  ring_nf

/-- **C45.** The transformed correlation matrix is symmetric with unit diagonal. -/
theorem C45_log_corr (hm : ∀ i, 0 < mean i) (hs : ∀ i, 0 < std i) (hsym : ∀ i j, corr i j = corr j i) (h1 : ∀ i, corr i i = 1) :
    (∀ i j, logCorr mean std corr i j = logCorr mean std corr j i) ∧ ∀ i, logCorr mean std corr i i = 1 := by
  refine ⟨fun i j => ?_, fun i => ?_⟩
  · rw [logCorr_eq hm hs, logCorr_eq hm hs, hsym i j]
    ring_nf
  · rw [logCorr_eq hm hs, h1 i]
    have h0 := one_lt_ratio (hm i) (hs i)
    have : logSigma (mean i) (std i) * 1 * logSigma (mean i) (std i) = logSigma (mean i) (std i) ^ 2 := by ring
    rw [this, logSigma_sq (hm i) (hs i), Real.exp_log (by linarith)]
    have := (hm i).ne'
    have := (hs i).ne'
    field_simp
    ring

/-- **C45, meaning of the transformed matrix.** If two standard normal variables have correlation `ρ = corr i j`
(`z.1` and `ρ z.1 + sqrt (1 - ρ²) z.2` for independent `z.1`, `z.2`), then `logCorr` is the correlation of the lognormal
variables of means `mean i`, `mean j` and deviations `std i`, `std j` made from them. -/
theorem C45_log_corr_meaning (hm : ∀ i, 0 < mean i) (hs : ∀ i, 0 < std i) (i j : Fin n) (hρ : |corr i j| ≤ 1) :
    logCorr mean std corr i j =
      ((∫ z : ℝ × ℝ, value id .lognormal (mean i) (std i) z.1 *
          value id .lognormal (mean j) (std j) (corr i j * z.1 + Real.sqrt (1 - corr i j ^ 2) * z.2)
          ∂((gaussianReal 0 1).prod (gaussianReal 0 1))) - mean i * mean j) / (std i * std j) := by
  obtain ⟨ρ, hρ'⟩ : ∃ ρ, corr i j = ρ := ⟨_, rfl⟩
  have hlc := logCorr_eq (corr := corr) hm hs i j
  rw [hρ'] at hρ hlc ⊢
  rw [hlc]
  have hmi := log_first (hm i) (hs i)
  have hmj := log_first (hm j) (hs j)
  obtain ⟨a, ha⟩ : ∃ a, logSigma (mean i) (std i) = a := ⟨_, rfl⟩
  obtain ⟨b, hb⟩ : ∃ b, logSigma (mean j) (std j) = b := ⟨_, rfl⟩
  obtain ⟨c, hc⟩ : ∃ c, logMean (mean i) (std i) = c := ⟨_, rfl⟩
  obtain ⟨d, hd⟩ : ∃ d, logMean (mean j) (std j) = d := ⟨_, rfl⟩
  obtain ⟨t, ht⟩ : ∃ t, Real.sqrt (1 - ρ ^ 2) = t := ⟨_, rfl⟩
  have ht2 : t ^ 2 = 1 - ρ ^ 2 := by
    rw [← ht]
    apply Real.sq_sqrt
    have := abs_le.mp hρ
    nlinarith
  simp only [value, id, ha, hb, hc, hd, ht] at hmi hmj ⊢
  have e : ∀ z : ℝ × ℝ, Real.exp (c + a * z.1) * Real.exp (d + b * (ρ * z.1 + t * z.2)) =
      Real.exp ((c + d) + (a + b * ρ) * z.1) * Real.exp (0 + b * t * z.2) := by
    intro z
    rw [← Real.exp_add, ← Real.exp_add]
    congr 1
    ring
  simp only [e]
  rw [integral_prod_mul (fun x => Real.exp ((c + d) + (a + b * ρ) * x)) (fun y => Real.exp (0 + b * t * y)),
    gauss_exp, gauss_exp]
  have : Real.exp (c + d + (a + b * ρ) ^ 2 / 2) * Real.exp (0 + (b * t) ^ 2 / 2) = mean i * mean j * Real.exp (a * ρ * b) := by
    rw [← hmi, ← hmj, ← Real.exp_add, ← Real.exp_add, ← Real.exp_add]
    congr 1
    have : (b * t) ^ 2 = b ^ 2 * (1 - ρ ^ 2) := by rw [mul_pow, ht2]
    rw [this]
    ring
  rw [this]
  ring

/-- Entrywise powers of a positive semidefinite matrix. -/
theorem posSemidef_entry_pow {G : Matrix (Fin n) (Fin n) ℝ} (hG : G.PosSemidef) (k : Nat) :
    (Matrix.of fun i j => G i j ^ (k + 1)).PosSemidef := by
  induction k with
  | zero =>
    have e : (Matrix.of fun i j => G i j ^ (0 + 1)) = G := by ext i j; simp
    rw [e]; exact hG
  | succ k ih =>
    have := ih.hadamard hG
    have e : (Matrix.of fun i j => G i j ^ (k + 1 + 1)) = Matrix.hadamard (Matrix.of fun i j => G i j ^ (k + 1)) G := by
      ext i j
      simp [Matrix.hadamard, pow_succ]
    rw [e]
    exact this

/-- The entrywise exponential minus one. -/
theorem posSemidef_entry_exp {G : Matrix (Fin n) (Fin n) ℝ} (hG : G.PosSemidef) (x : Fin n → ℝ) :
    0 ≤ ∑ i, ∑ j, x i * x j * (Real.exp (G i j) - 1) := by
  have hsum : ∀ g : ℝ, HasSum (fun k : Nat => g ^ (k + 1) / (k + 1).factorial) (Real.exp g - 1) := by
    intro g
    have h := NormedSpace.exp_series_hasSum_exp' (𝕂 := ℝ) g
    have h2 := (hasSum_nat_add_iff' 1).mpr h
    rw [← Real.exp_eq_exp_ℝ] at h2
    simp only [Finset.range_one, Finset.sum_singleton, Nat.factorial_zero, Nat.cast_one, inv_one, pow_zero, one_smul,
      smul_eq_mul] at h2
    rw [mul_one] at h2
    simpa only [div_eq_inv_mul] using h2
  have hS : HasSum (fun k : Nat => ∑ i, ∑ j, x i * x j * (G i j ^ (k + 1) / (k + 1).factorial))
      (∑ i, ∑ j, x i * x j * (Real.exp (G i j) - 1)) := by
    apply hasSum_sum
    intro i _
    apply hasSum_sum
    intro j _
    exact (hsum (G i j)).mul_left _
  refine hS.nonneg fun k => ?_
  have hp := (posSemidef_entry_pow hG k).dotProduct_mulVec_nonneg x
  have e : (∑ i, ∑ j, x i * x j * (G i j ^ (k + 1) / (k + 1).factorial)) =
      (star x ⬝ᵥ (Matrix.of fun i j => G i j ^ (k + 1)).mulVec x) / (k + 1).factorial := by
    simp only [dotProduct, Matrix.mulVec, Matrix.of_apply, Finset.mul_sum, Finset.sum_div, star_trivial]
    refine Finset.sum_congr rfl fun i _ => Finset.sum_congr rfl fun j _ => ?_
    ring
  rw [e]
  positivity

/-- **C45, extension.** For a positive semidefinite correlation the transformed one is positive semidefinite. -/
theorem C45_log_corr_posSemidef (hm : ∀ i, 0 < mean i) (hs : ∀ i, 0 < std i) (hsym : ∀ i j, corr i j = corr j i)
    (hpsd : ∀ x : Fin n → ℝ, 0 ≤ ∑ i, ∑ j, x i * x j * corr i j) (x : Fin n → ℝ) :
    0 ≤ ∑ i, ∑ j, x i * x j * logCorr mean std corr i j := by
  obtain ⟨G, hGd⟩ : ∃ G : Matrix (Fin n) (Fin n) ℝ, G = Matrix.of fun i j =>
      logSigma (mean i) (std i) * corr i j * logSigma (mean j) (std j) := ⟨_, rfl⟩
  have hG : G.PosSemidef := by
    refine Matrix.PosSemidef.of_dotProduct_mulVec_nonneg ?_ fun y => ?_
    · ext i j
      simp only [hGd, Matrix.conjTranspose_apply, Matrix.of_apply, star_trivial, hsym j i]
      ring
    · have := hpsd fun i => y i * logSigma (mean i) (std i)
      simp only [dotProduct, Matrix.mulVec, hGd, Matrix.of_apply, Finset.mul_sum, star_trivial]
      refine this.trans_eq (Finset.sum_congr rfl fun i _ => Finset.sum_congr rfl fun j _ => ?_)
      ring
  refine (posSemidef_entry_exp hG fun i => x i * (mean i / std i)).trans_eq
    (Finset.sum_congr rfl fun i _ => Finset.sum_congr rfl fun j _ => ?_)
  rw [logCorr_eq hm hs, hGd]
  simp only [Matrix.of_apply]
  have := (hs i).ne'
  have := (hs j).ne'
  field_simp

/-- **C45, extension.** So all its entries lie between -1 and 1. -/
theorem C45_log_corr_bounded (hm : ∀ i, 0 < mean i) (hs : ∀ i, 0 < std i) (hsym : ∀ i j, corr i j = corr j i)
    (h1 : ∀ i, corr i i = 1) (hpsd : ∀ x : Fin n → ℝ, 0 ≤ ∑ i, ∑ j, x i * x j * corr i j) (i j : Fin n) :
    |logCorr mean std corr i j| ≤ 1 := by
  obtain ⟨hsy, hone⟩ := C45_log_corr hm hs hsym h1
  by_cases hij : i = j
  · rw [hij, hone]; simp
  have key : ∀ ε : ℝ, ∑ k, ∑ l, (Pi.single i 1 + Pi.single j ε : Fin n → ℝ) k * (Pi.single i 1 + Pi.single j ε : Fin n → ℝ) l *
      logCorr mean std corr k l = logCorr mean std corr i i + 2 * ε * logCorr mean std corr i j +
        ε ^ 2 * logCorr mean std corr j j := by
    intro ε
    have e : ∀ f : Fin n → ℝ, ∑ l, (Pi.single i 1 + Pi.single j ε : Fin n → ℝ) l * f l = f i + ε * f j := by
      intro f
      simp [Pi.single_apply, add_mul, Finset.sum_add_distrib]
    have e2 : ∀ k, ∑ l, (Pi.single i 1 + Pi.single j ε : Fin n → ℝ) k * (Pi.single i 1 + Pi.single j ε : Fin n → ℝ) l *
      logCorr mean std corr k l = (Pi.single i 1 + Pi.single j ε : Fin n → ℝ) k *
        (logCorr mean std corr k i + ε * logCorr mean std corr k j) := by
      intro k
      rw [← e (fun l => logCorr mean std corr k l), Finset.mul_sum]
      exact Finset.sum_congr rfl fun l _ => by ring
    simp only [e2]
    rw [e fun k => logCorr mean std corr k i + ε * logCorr mean std corr k j, hsy j i]
    ring
  have p1 := C45_log_corr_posSemidef hm hs hsym hpsd (Pi.single i 1 + Pi.single j 1)
  have p2 := C45_log_corr_posSemidef hm hs hsym hpsd (Pi.single i 1 + Pi.single j (-1))
  rw [key, hone, hone] at p1 p2
  rw [abs_le]
  constructor <;> linarith

end corr

/-- A case in which the hypotheses hold: two correlated variables. -/
example : let mean : Fin 2 → ℝ := ![1, 2]; let std : Fin 2 → ℝ := ![1 / 10, 1 / 2]
    let corr : Fin 2 → Fin 2 → ℝ := ![![1, 1 / 2], ![1 / 2, 1]]
    (∀ i, 0 < mean i) ∧ (∀ i, 0 < std i) ∧ (∀ i j, corr i j = corr j i) ∧ (∀ i, corr i i = 1) ∧
      ∀ x : Fin 2 → ℝ, 0 ≤ ∑ i, ∑ j, x i * x j * corr i j := by
  refine ⟨?_, ?_, ?_, ?_, ?_⟩
  · intro i; fin_cases i <;> norm_num
  · intro i; fin_cases i <;> norm_num
  · intro i j; fin_cases i <;> fin_cases j <;> norm_num
  · intro i; fin_cases i <;> norm_num
  · intro x
    simp [Fin.sum_univ_two]
    nlinarith [sq_nonneg (x 0 + x 1), sq_nonneg (x 0), sq_nonneg (x 1)]

/-! ### C46 -/

/-- **C46, what holds.** Uniform samples lie in the interval of length `s` that starts at the mean. -/
theorem C46_uniform_partial (q : ℝ → ℝ) {m s p : ℝ} (hs : 0 ≤ s) (h0 : 0 ≤ p) (h1 : p ≤ 1) :
    m ≤ value q .uniform m s p ∧ value q .uniform m s p ≤ m + s := by
  simp only [value]
  constructor
  · nlinarith
  · nlinarith

/-- **C46 fails.** No sample is ever below the mean, and the mean of the samples is half a deviation above it; a distribution
of variance `s²` it is not either (the variance is `s²/12`). -/
theorem C46_centred_refuted (q : ℝ → ℝ) {m s : ℝ} (hs : 0 < s) :
    (∀ p, 0 ≤ p → p ≤ 1 → m ≤ value q .uniform m s p) ∧
    ∫ p in (0 : ℝ)..1, value q .uniform m s p = m + s / 2 ∧
    ∫ p in (0 : ℝ)..1, (value q .uniform m s p - (m + s / 2)) ^ 2 = s ^ 2 / 12 := by
  refine ⟨fun p h0 h1 => (C46_uniform_partial q hs.le h0 h1).1, ?_, ?_⟩
  · simp only [value]
    rw [intervalIntegral.integral_add (by simp) (Continuous.intervalIntegrable (by fun_prop) _ _),
      intervalIntegral.integral_const_mul, integral_id]
    simp
    ring
  · have e : ∀ p : ℝ, (value q .uniform m s p - (m + s / 2)) ^ 2 = s ^ 2 * (p ^ 2 - p + 1 / 4) := by
      intro p; simp only [value]; ring
    simp only [e]
    rw [intervalIntegral.integral_const_mul, intervalIntegral.integral_add (Continuous.intervalIntegrable (by fun_prop) _ _) (by simp),
      intervalIntegral.integral_sub (Continuous.intervalIntegrable (by fun_prop) _ _)
        (Continuous.intervalIntegrable (by fun_prop) _ _), integral_pow, integral_id]
    simp
    ring

end ASAPy.SampleCorr
