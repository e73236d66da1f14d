import Mathlib.MeasureTheory.Integral.IntegralEqImproper
import Verif.Multipole.Model
import Verif.Multipole.Spec

/-! # Moments of the Maxwell distribution -/

namespace ASAPy.Multipole
open MeasureTheory Set

theorem maxwell_pos {d : ℝ} (hd : 0 < d) (x : ℝ) : 0 < maxwell d x :=
  mul_pos (div_pos hd (Real.sqrt_pos.2 Real.pi_pos)) (Real.exp_pos _)

theorem maxwell_neg (d x : ℝ) : maxwell d (-x) = maxwell d x := by
  unfold maxwell; congr 3; ring

theorem pow_int {d : ℝ} (hd : 0 < d) (j : ℕ) : Integrable fun x : ℝ => x ^ j * maxwell d x := by
  have h := (integrable_rpow_mul_exp_neg_mul_sq (b := d ^ 2) (by positivity) (s := (j : ℝ)) (by have : (0 : ℝ) ≤ j := by positivity
                                                                                                linarith)).const_mul (d / Real.sqrt Real.pi)
  refine h.congr (Filter.Eventually.of_forall fun x => ?_)
  simp only [Real.rpow_natCast, maxwell]
  have : -(d * x) ^ 2 = -d ^ 2 * x ^ 2 := by ring
  rw [this]; ring

theorem shift_int {d : ℝ} (hd : 0 < d) (v : ℝ) (k : ℕ) : ∀ j : ℕ, Integrable fun x : ℝ => (x + v) ^ k * x ^ j * maxwell d x := by
  induction k with
  | zero => intro j; simpa using pow_int hd j
  | succ k ih =>
    intro j
    refine ((ih (j + 1)).add ((ih j).const_mul v)).congr (Filter.Eventually.of_forall fun x => ?_)
    simp only [Pi.add_apply]; ring

/-- Powers are integrable. -/
theorem moment_int {d : ℝ} (hd : 0 < d) (v : ℝ) (k : ℕ) : Integrable fun u : ℝ => u ^ k * maxwell d (u - v) := by
  have h := (shift_int hd v k 0).comp_sub_right v
  refine h.congr (Filter.Eventually.of_forall fun x => ?_)
  simp

theorem moment_deriv {d : ℝ} (v : ℝ) (k : ℕ) (u : ℝ) :
    HasDerivAt (fun u : ℝ => u ^ k * maxwell d (u - v))
      ((k : ℝ) * u ^ (k - 1) * maxwell d (u - v) - 2 * d ^ 2 * (u ^ (k + 1) * maxwell d (u - v) - v * (u ^ k * maxwell d (u - v)))) u := by
  have h1 : HasDerivAt (fun u : ℝ => maxwell d (u - v)) (d / Real.sqrt Real.pi * (Real.exp (-(d * (u - v)) ^ 2) * (-(2 * (d * (u - v)) * d)))) u := by
    unfold maxwell
    refine HasDerivAt.const_mul _ (HasDerivAt.exp ?_)
    have : HasDerivAt (fun u : ℝ => d * (u - v)) d u := by
      simpa using ((hasDerivAt_id u).sub_const v).const_mul d
    have h := (this.pow 2).neg
    refine h.congr_deriv ?_
    norm_num
  refine ((hasDerivAt_pow k u).mul h1).congr_deriv ?_
  unfold maxwell; ring

/-- The moments over the half line. -/
noncomputable def half (d v : ℝ) (k : ℕ) : ℝ := ∫ u in Ioi (0 : ℝ), u ^ k * maxwell d (u - v)

/-- The moments over the line. -/
noncomputable def moment (d v : ℝ) (k : ℕ) : ℝ := ∫ u : ℝ, u ^ k * maxwell d (u - v)

theorem deriv_int {d : ℝ} (hd : 0 < d) (v : ℝ) (k : ℕ) :
    Integrable fun u : ℝ => (k : ℝ) * u ^ (k - 1) * maxwell d (u - v) - 2 * d ^ 2 * (u ^ (k + 1) * maxwell d (u - v) - v * (u ^ k * maxwell d (u - v))) := by
  refine Integrable.sub ?_ (((moment_int hd v (k + 1)).sub ((moment_int hd v k).const_mul v)).const_mul _)
  refine ((moment_int hd v (k - 1)).const_mul (k : ℝ)).congr (Filter.Eventually.of_forall fun x => ?_)
  simp only; ring

theorem integral_deriv {d : ℝ} (hd : 0 < d) (v : ℝ) (k : ℕ) (μ : Measure ℝ) (hμ : μ ≤ volume) :
    ∫ u, ((k : ℝ) * u ^ (k - 1) * maxwell d (u - v) - 2 * d ^ 2 * (u ^ (k + 1) * maxwell d (u - v) - v * (u ^ k * maxwell d (u - v)))) ∂μ
      = k * (∫ u, u ^ (k - 1) * maxwell d (u - v) ∂μ) - 2 * d ^ 2 * ((∫ u, u ^ (k + 1) * maxwell d (u - v) ∂μ) - v * ∫ u, u ^ k * maxwell d (u - v) ∂μ) := by
  have i (j : ℕ) : Integrable (fun u : ℝ => u ^ j * maxwell d (u - v)) μ := (moment_int hd v j).mono_measure hμ
  have e : ∀ u : ℝ, (k : ℝ) * u ^ (k - 1) * maxwell d (u - v) = k * (u ^ (k - 1) * maxwell d (u - v)) := fun u => by ring
  simp only [e]
  have a := integral_sub ((i (k - 1)).const_mul (k : ℝ)) ((((i (k + 1)).sub ((i k).const_mul v))).const_mul (2 * d ^ 2))
  simp only [Pi.sub_apply] at a
  rw [a, integral_const_mul, integral_const_mul, integral_sub (i _) ((i _).const_mul v), integral_const_mul]

theorem half_step {d : ℝ} (hd : 0 < d) (v : ℝ) (k : ℕ) :
    half d v (k + 1) = v * half d v k + 0.5 / d ^ 2 * (k * half d v (k - 1)) + 0.5 / d ^ 2 * (0 ^ k * maxwell d v) := by
  have hlim := tendsto_zero_of_hasDerivAt_of_integrableOn_Ioi (a := (0 : ℝ)) (fun x _ => moment_deriv (d := d) v k x)
    (deriv_int hd v k).integrableOn (moment_int hd v k).integrableOn
  have h := integral_Ioi_of_hasDerivAt_of_tendsto' (a := (0 : ℝ)) (fun x _ => moment_deriv (d := d) v k x) (deriv_int hd v k).integrableOn hlim
  rw [integral_deriv hd v k _ Measure.restrict_le_self] at h
  have e : maxwell d (0 - v) = maxwell d v := by rw [zero_sub, maxwell_neg]
  rw [e] at h
  change (k : ℝ) * half d v (k - 1) - 2 * d ^ 2 * (half d v (k + 1) - v * half d v k) = _ at h
  have hd2 : d ≠ 0 := hd.ne'
  field_simp
  linarith

theorem moment_step {d : ℝ} (hd : 0 < d) (v : ℝ) (k : ℕ) :
    moment d v (k + 1) = v * moment d v k + 0.5 / d ^ 2 * (k * moment d v (k - 1)) := by
  have h := integral_eq_zero_of_hasDerivAt_of_integrable (fun x => moment_deriv (d := d) v k x) (deriv_int hd v k) (moment_int hd v k)
  rw [integral_deriv hd v k _ le_rfl] at h
  change (k : ℝ) * moment d v (k - 1) - 2 * d ^ 2 * (moment d v (k + 1) - v * moment d v k) = 0 at h
  have hd2 : d ≠ 0 := hd.ne'
  field_simp
  linarith

theorem moment_zero {d : ℝ} (hd : 0 < d) (v : ℝ) : moment d v 0 = 1 := by
  unfold moment
  simp only [pow_zero, one_mul]
  rw [integral_sub_right_eq_self (fun u => maxwell d u) v]
  unfold maxwell
  rw [integral_const_mul]
  have e : ∀ x : ℝ, -(d * x) ^ 2 = -(d ^ 2) * x ^ 2 := fun x => by ring
  simp only [e]
  rw [integral_gaussian, Real.sqrt_div Real.pi_pos.le, Real.sqrt_sq hd.le]
  have : Real.sqrt Real.pi ≠ 0 := (Real.sqrt_pos.2 Real.pi_pos).ne'
  field_simp

theorem shift_Ioi (f : ℝ → ℝ) (v : ℝ) : ∫ u in Ioi (0 : ℝ), f (u - v) = ∫ u in Ioi (-v), f u := by
  have h := (measurePreserving_sub_right (volume : Measure ℝ) v).setIntegral_preimage_emb (MeasurableEquiv.subRight v).measurableEmbedding f (Ioi (-v))
  rw [← h]
  congr 2
  ext x
  simp

theorem erf_eq {d : ℝ} (v : ℝ) (hd : 0 < d) : ∫ u in (-v)..v, maxwell d u = erf (d * v) := by
  unfold maxwell erf
  rw [intervalIntegral.integral_const_mul]
  have h1 := intervalIntegral.integral_comp_mul_left (a := -v) (b := v) (fun t => Real.exp (-t ^ 2)) hd.ne'
  rw [h1]
  have h2 := intervalIntegral.integral_comp_neg (a := 0) (b := d * v) (fun t => Real.exp (-t ^ 2))
  simp only [neg_sq, neg_zero] at h2
  have c : Continuous fun t : ℝ => Real.exp (-t ^ 2) := by fun_prop
  have h3 := intervalIntegral.integral_add_adjacent_intervals (c.intervalIntegrable (μ := volume) (-(d * v)) 0) (c.intervalIntegrable (μ := volume) 0 (d * v))
  have e : d * -v = -(d * v) := by ring
  rw [e, ← h3, ← h2, smul_eq_mul]
  have : d ≠ 0 := hd.ne'
  field_simp
  ring

theorem half_zero {d : ℝ} (hd : 0 < d) (v : ℝ) : half d v 0 - half d (-v) 0 = erf (d * v) := by
  have i0 : Integrable fun u : ℝ => maxwell d u := by simpa using moment_int hd 0 0
  have a (v : ℝ) : half d v 0 = ∫ u in Ioi (-v), maxwell d u := by
    unfold half
    simp only [pow_zero, one_mul]
    exact shift_Ioi (maxwell d) v
  rw [a, a, neg_neg, intervalIntegral.integral_Ioi_sub_Ioi' i0.integrableOn i0.integrableOn]
  exact erf_eq v hd

/-- Free gas broadening of a power. -/
theorem freeGas_pow {d : ℝ} (hd : 0 < d) (v : ℝ) (k : ℕ) : freeGas d v (fun u => u ^ k) = half d v k - half d (-v) k := by
  unfold freeGas half
  rw [← integral_sub (moment_int hd v k).integrableOn (moment_int hd (-v) k).integrableOn]
  congr 1
  ext u
  rw [sub_neg_eq_add]; ring

theorem freeGas_zero {d : ℝ} (hd : 0 < d) (v : ℝ) : freeGas d v (fun u => u ^ 0) = erf (d * v) := by
  rw [freeGas_pow hd, half_zero hd]

theorem freeGas_one {d : ℝ} (hd : 0 < d) (v : ℝ) : freeGas d v (fun u => u ^ 1) = v := by
  have m := moment_zero hd v
  have a := half_step hd v 0
  have b := half_step hd (-v) 0
  rw [freeGas_pow hd, a, b, maxwell_neg]
  have s : half d v 0 + half d (-v) 0 = 1 := by
    rw [← m]
    unfold half moment
    simp only [pow_zero, one_mul]
    rw [shift_Ioi (maxwell d) v, shift_Ioi (maxwell d) (-v), integral_sub_right_eq_self (fun u => maxwell d u) v]
    have i0 : Integrable fun u : ℝ => maxwell d u := by simpa using moment_int hd 0 0
    have r := integral_comp_neg_Iic (-v) (maxwell d)
    simp only [maxwell_neg] at r
    rw [← r, add_comm]
    exact intervalIntegral.integral_Iic_add_Ioi i0.integrableOn i0.integrableOn
  simp only [Nat.cast_zero, zero_mul, mul_zero, add_zero]
  linear_combination v * s

theorem freeGas_two {d : ℝ} (hd : 0 < d) (v : ℝ) :
    freeGas d v (fun u => u ^ 2) = (v ^ 2 + 0.5 / d ^ 2) * freeGas d v (fun u => u ^ 0) + v / d ^ 2 * maxwell d v := by
  rw [freeGas_pow hd, freeGas_pow hd]
  have a := half_step hd v 1
  have b := half_step hd (-v) 1
  have a0 := half_step hd v 0
  have b0 := half_step hd (-v) 0
  rw [maxwell_neg] at b b0
  norm_num at a b a0 b0
  rw [a, b, a0, b0]
  ring

theorem freeGas_three {d : ℝ} (hd : 0 < d) (v : ℝ) :
    freeGas d v (fun u => u ^ 3) = (v ^ 2 + 3 * (0.5 / d ^ 2)) * freeGas d v (fun u => u ^ 1) := by
  rw [freeGas_pow hd, freeGas_pow hd]
  have a2 := half_step hd v 2
  have b2 := half_step hd (-v) 2
  have a := half_step hd v 1
  have b := half_step hd (-v) 1
  have a0 := half_step hd v 0
  have b0 := half_step hd (-v) 0
  rw [maxwell_neg] at b b0 b2
  norm_num at a b a0 b0 a2 b2
  rw [a2, b2, a, b, a0, b0]
  ring

/-- The recursion over two steps. -/
theorem freeGas_step {d : ℝ} (hd : 0 < d) (v : ℝ) (k : ℕ) :
    freeGas d v (fun u => u ^ (k + 4)) = (v ^ 2 + (2 * (k + 2) + 1) * (0.5 / d ^ 2)) * freeGas d v (fun u => u ^ (k + 2))
      - (k + 2) * (k + 1) * (0.5 / d ^ 2) ^ 2 * freeGas d v (fun u => u ^ k) := by
  simp only [freeGas_pow hd]
  have a4 := half_step hd v (k + 3)
  have b4 := half_step hd (-v) (k + 3)
  have a3 := half_step hd v (k + 2)
  have b3 := half_step hd (-v) (k + 2)
  have a2 := half_step hd v (k + 1)
  have b2 := half_step hd (-v) (k + 1)
  simp only [Nat.add_sub_cancel, ne_eq, Nat.add_eq_zero_iff, OfNat.ofNat_ne_zero, one_ne_zero, and_false, not_false_eq_true, zero_pow, zero_mul, mul_zero, add_zero,
    show k + 3 - 1 = k + 2 from rfl, show k + 2 - 1 = k + 1 from rfl, show k + 3 + 1 = k + 4 from rfl, show k + 2 + 1 = k + 3 from rfl, show k + 1 + 1 = k + 2 from rfl] at a4 b4 a3 b3 a2 b2
  push_cast at a4 b4 a3 b3 a2 b2
  rw [a4, b4, a3, b3]
  generalize (0.5 / d ^ 2 : ℝ) = h at *
  linear_combination (-(h * ((k : ℝ) + 2))) * a2 + (h * ((k : ℝ) + 2)) * b2

theorem moment_one {d : ℝ} (hd : 0 < d) (v : ℝ) : moment d v 1 = v := by
  have a := moment_step hd v 0
  simpa [moment_zero hd] using a

theorem moment_two {d : ℝ} (hd : 0 < d) (v : ℝ) : moment d v 2 = v ^ 2 + 0.5 / d ^ 2 := by
  have a := moment_step hd v 1
  rw [a]
  norm_num [moment_zero hd, moment_one hd]
  ring

theorem moment_three {d : ℝ} (hd : 0 < d) (v : ℝ) : moment d v 3 = (v ^ 2 + 3 * (0.5 / d ^ 2)) * v := by
  have a := moment_step hd v 2
  rw [a]
  norm_num [moment_two hd, moment_one hd]
  ring

theorem moment_two_step {d : ℝ} (hd : 0 < d) (v : ℝ) (k : ℕ) :
    moment d v (k + 4) = (v ^ 2 + (2 * (k + 2) + 1) * (0.5 / d ^ 2)) * moment d v (k + 2) - (k + 2) * (k + 1) * (0.5 / d ^ 2) ^ 2 * moment d v k := by
  have a4 := moment_step hd v (k + 3)
  have a3 := moment_step hd v (k + 2)
  have a2 := moment_step hd v (k + 1)
  simp only [Nat.add_sub_cancel, 
    show k + 3 - 1 = k + 2 from rfl, show k + 2 - 1 = k + 1 from rfl, show k + 3 + 1 = k + 4 from rfl, show k + 2 + 1 = k + 3 from rfl, show k + 1 + 1 = k + 2 from rfl] at a4 a3 a2
  push_cast at a4 a3 a2
  rw [a4, a3]
  generalize (0.5 / d ^ 2 : ℝ) = h at *
  linear_combination (-(h * ((k : ℝ) + 2))) * a2

end ASAPy.Multipole
