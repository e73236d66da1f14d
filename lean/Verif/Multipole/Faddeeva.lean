import Mathlib.Analysis.SpecialFunctions.Gaussian.FourierTransform
import Mathlib.Analysis.SpecialFunctions.ImproperIntegrals
import Mathlib.MeasureTheory.Integral.Prod
import Verif.Multipole.Doppler

/-! # The Faddeeva function -/

namespace ASAPy.Multipole
open MeasureTheory Set Complex

theorem wofz_eq (z : ℂ) : wofz z = 2 / (Real.sqrt Real.pi : ℂ) * ∫ x in Ioi (0 : ℝ), cexp (-(x : ℂ) ^ 2 + 2 * I * z * x) := by
  unfold wofz erfc
  rw [mul_left_comm, ← integral_const_mul]
  congr 2
  ext x
  rw [← Complex.exp_add]
  congr 1
  linear_combination (-z ^ 2) * I_sq

theorem im_ne {z : ℂ} (hz : z.im ≠ 0) (t : ℝ) : z - t ≠ 0 := by
  intro h
  apply hz
  have := congrArg Complex.im h
  simpa using this

theorem inner_eq {z : ℂ} (hz : 0 < z.im) (t : ℝ) : ∫ x in Ioi (0 : ℝ), cexp (2 * I * (z - t) * x) = I / (2 * (z - t)) := by
  rw [integral_exp_mul_complex_Ioi (by simp; exact hz)]
  have := im_ne hz.ne' t
  simp only [ofReal_zero, mul_zero, Complex.exp_zero]
  field_simp
  rw [I_sq]

theorem pair_int {z : ℂ} (hz : 0 < z.im) :
    Integrable (Function.uncurry fun (t x : ℝ) => cexp (-(t : ℂ) ^ 2 + 2 * I * (z - t) * x)) (volume.prod (volume.restrict (Ioi (0 : ℝ)))) := by
  have a : Integrable fun t : ℝ => cexp (-(t : ℂ) ^ 2) := by
    have := integrable_cexp_quadratic (b := 1) (by simp) 0 0
    simpa using this
  have b : Integrable (fun x : ℝ => cexp (2 * I * z * x)) (volume.restrict (Ioi (0 : ℝ))) :=
    integrableOn_exp_mul_complex_Ioi (by simp; exact hz) 0
  refine (a.mul_prod b).mono ?_ (Filter.Eventually.of_forall fun q => ?_)
  · exact Continuous.aestronglyMeasurable (by unfold Function.uncurry; fun_prop)
  · refine le_of_eq ?_
    obtain ⟨t, x⟩ := q
    simp only [Function.uncurry]
    rw [← Complex.exp_add, norm_exp, norm_exp]
    congr 1
    simp

theorem outer_eq (z : ℂ) (x : ℝ) : ∫ t : ℝ, cexp (-(t : ℂ) ^ 2 + 2 * I * (z - t) * x) = (Real.sqrt Real.pi : ℂ) * cexp (-(x : ℂ) ^ 2 + 2 * I * z * x) := by
  have h := integral_cexp_quadratic (b := -1) (by simp) (-(2 * I * x)) (2 * I * z * x)
  have e : ∀ t : ℝ, -(t : ℂ) ^ 2 + 2 * I * (z - t) * x = -1 * (t : ℂ) ^ 2 + -(2 * I * x) * t + 2 * I * z * x := fun t => by ring
  simp only [e]
  rw [h]
  congr 1
  · rw [neg_neg, div_one, Real.sqrt_eq_rpow, ofReal_cpow Real.pi_pos.le]
    norm_num
  · congr 1
    linear_combination (x : ℂ) ^ 2 * I_sq

/-- In the upper half plane the function is the integral. -/
theorem wofz_integral {z : ℂ} (hz : 0 < z.im) : wofz z = faddeevaIntegral z := by
  rw [wofz_eq]
  unfold faddeevaIntegral
  have e : ∀ t : ℝ, cexp (-(t : ℂ) ^ 2) / (z - t) = -(2 * I) * ∫ x in Ioi (0 : ℝ), cexp (-(t : ℂ) ^ 2 + 2 * I * (z - t) * x) := by
    intro t
    simp only [Complex.exp_add]
    rw [integral_const_mul, inner_eq hz]
    have := im_ne hz.ne' t
    field_simp
    rw [I_sq]; ring
  simp only [e]
  rw [integral_const_mul, integral_integral_swap (pair_int hz)]
  simp only [outer_eq]
  rw [integral_const_mul]
  have p : (Real.sqrt Real.pi : ℂ) ≠ 0 := by
    exact_mod_cast (Real.sqrt_pos.2 Real.pi_pos).ne'
  have q : (Real.pi : ℂ) = (Real.sqrt Real.pi : ℂ) ^ 2 := by
    rw [← ofReal_pow, Real.sq_sqrt Real.pi_pos.le]
  rw [q]
  field_simp
  rw [I_sq]; ring

theorem faddeevaIntegral_conj (z : ℂ) : (starRingEnd ℂ) (faddeevaIntegral ((starRingEnd ℂ) z)) = -faddeevaIntegral z := by
  unfold faddeevaIntegral
  rw [map_mul, ← integral_conj]
  simp only [map_div₀, map_sub, Complex.conj_conj, conj_ofReal, conj_I, ← Complex.exp_conj, map_neg, map_pow]
  ring

/-- Off the real axis `_faddeeva` is the integral of its documentation. -/
theorem faddeeva_integral {z : ℂ} (hz : z.im ≠ 0) : faddeeva z = faddeevaIntegral z := by
  unfold faddeeva
  rcases lt_or_gt_of_ne hz with h | h
  · have : z.arg < 0 := arg_neg_iff.2 h
    rw [if_neg (not_lt.2 this.le), wofz_integral (by simpa using h), faddeevaIntegral_conj, neg_neg]
  · have a : 0 ≤ z.arg := arg_nonneg_iff.2 h.le
    have b : z.arg ≠ 0 := fun e => by
      have := (arg_eq_zero_iff.1 e).2
      linarith
    rw [if_pos (lt_of_le_of_ne a b.symm), wofz_integral h]

theorem pole_int {p : ℂ} (hp : p.im ≠ 0) (r : ℂ) {d : ℝ} (hd : 0 < d) (v : ℝ) : Integrable fun u : ℝ => I * r / ((u : ℂ) - p) * (maxwell d (u - v) : ℂ) := by
  have m : Integrable fun u : ℝ => (maxwell d (u - v) : ℂ) := by
    have := moment_int hd v 0
    simpa using this.ofReal (𝕜 := ℂ)
  have ne (u : ℝ) : (u : ℂ) - p ≠ 0 := fun h => by
    apply hp
    have := congrArg Complex.im h
    simpa using this
  refine m.bdd_mul (c := ‖r‖ / |p.im|) ?_ (Filter.Eventually.of_forall fun u => ?_)
  · refine Continuous.aestronglyMeasurable ?_
    exact Continuous.div (by fun_prop) (by fun_prop) ne
  · rw [norm_div, norm_mul, norm_I, one_mul]
    refine div_le_div_of_nonneg_left (norm_nonneg _) (abs_pos.2 hp) ?_
    have := abs_im_le_norm ((u : ℂ) - p)
    simpa using this

/-- The Faddeeva function is the mean of a pole over the Maxwell distribution. -/
theorem smeared_resonance {p : ℂ} (hp : p.im ≠ 0) (r : ℂ) {d : ℝ} (hd : 0 < d) (v : ℝ) :
    smeared d v (resonance p r) = (r * (faddeeva (((v : ℂ) - p) * (d : ℂ)) * (d : ℂ) * (Real.sqrt Real.pi : ℂ))).re := by
  have hz : (((v : ℂ) - p) * (d : ℂ)).im ≠ 0 := by
    simp [hp, hd.ne']
  rw [faddeeva_integral hz]
  unfold smeared resonance
  have i := pole_int hp r hd v
  have e1 : ∀ u : ℝ, (I * r / ((u : ℂ) - p)).re * maxwell d (u - v) = (I * r / ((u : ℂ) - p) * (maxwell d (u - v) : ℂ)).re := fun u => by
    rw [re_mul_ofReal]
  simp only [e1]
  have e2 := reCLM.integral_comp_comm i
  simp only [reCLM_apply] at e2
  rw [e2]
  congr 1
  unfold faddeevaIntegral
  set G : ℝ → ℂ := fun u => I * r / ((u : ℂ) - p) * (maxwell d (u - v) : ℂ) with hG
  have s1 : ∫ t : ℝ, G (v - t / d) = (d : ℂ) * ∫ u, G u := by
    have a := Measure.integral_comp_div (fun t => G (v - t)) d
    rw [a, integral_sub_left_eq_self G volume v, abs_of_pos hd, real_smul]
  have hd' : (d : ℂ) ≠ 0 := by exact_mod_cast hd.ne'
  have p0 : (Real.sqrt Real.pi : ℂ) ≠ 0 := by
    exact_mod_cast (Real.sqrt_pos.2 Real.pi_pos).ne'
  have q : (Real.pi : ℂ) = (Real.sqrt Real.pi : ℂ) ^ 2 := by
    rw [← ofReal_pow, Real.sq_sqrt Real.pi_pos.le]
  have s2 : ∀ t : ℝ, G (v - t / d) = I * r * (d : ℂ) ^ 2 / (Real.sqrt Real.pi : ℂ) * (cexp (-(t : ℂ) ^ 2) / (((v : ℂ) - p) * d - t)) := by
    intro t
    have n := im_ne hz t
    have n2 : ((v - t / d : ℝ) : ℂ) - p = (((v : ℂ) - p) * d - t) / d := by
      push_cast; field_simp; ring
    simp only [hG, n2]
    have m : (maxwell d (v - t / d - v) : ℂ) = (d : ℂ) / (Real.sqrt Real.pi : ℂ) * cexp (-(t : ℂ) ^ 2) := by
      unfold maxwell
      have : -(d * (v - t / d - v)) ^ 2 = -t ^ 2 := by
        have := hd.ne'
        field_simp; ring
      rw [this]
      push_cast; rfl
    rw [m]
    field_simp
  have s3 : (d : ℂ) * ∫ u, G u = I * r * (d : ℂ) ^ 2 / (Real.sqrt Real.pi : ℂ) * ∫ t : ℝ, cexp (-(t : ℂ) ^ 2) / (((v : ℂ) - p) * d - t) := by
    rw [← s1, ← integral_const_mul]
    congr 1
    ext t
    exact s2 t
  have s4 : ∫ u, G u = I * r * (d : ℂ) / (Real.sqrt Real.pi : ℂ) * ∫ t : ℝ, cexp (-(t : ℂ) ^ 2) / (((v : ℂ) - p) * d - t) := by
    apply mul_left_cancel₀ hd'
    rw [s3]; ring
  rw [s4, q]
  field_simp

end ASAPy.Multipole
