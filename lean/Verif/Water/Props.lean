import Verif.Water.Gamma

/-!
# The density of water: C171
-/

namespace ASAPy.Water

theorem beta_pow {p : ℝ} (hp : 0 ≤ p) : 0 ≤ p ^ (0.25 : ℝ) ∧ (p ^ (0.25 : ℝ)) ^ 4 = p := by
  refine ⟨Real.rpow_nonneg hp _, ?_⟩
  rw [← Real.rpow_natCast, ← Real.rpow_mul hp]
  norm_num

theorem beta_ge {p : ℝ} (hp : 0.0006 ≤ p) : 0.15 ≤ p ^ (0.25 : ℝ) := by
  obtain ⟨h0, h4⟩ := beta_pow (by linarith : 0 ≤ p)
  by_contra h
  rw [not_le] at h
  have : (p ^ (0.25 : ℝ)) ^ 4 ≤ 0.15 ^ 4 := pow_le_pow_left₀ h0 h.le 4
  rw [h4] at this
  norm_num at this hp
  linarith

theorem disc_nonneg {b : ℝ} (hb : 0.15 ≤ b) :
    0 ≤ (1167.0521452767 * b ^ 2 + 12020.824702470 * b + (-4823.2657361591)) ^ 2 -
      4 * (b ^ 2 + (-17.073846940092) * b + 14.915108613530) * ((-724213.16703206) * b ^ 2 + (-3232555.0322333) * b + 405113.40542057) := by
  have hq : 0 ≤ 4258863 * b ^ 2 + 14125000 * b - 960000 := by
    norm_num at hb
    nlinarith
  have h2 := mul_nonneg (sq_nonneg (b - 2.653)) hq
  norm_num at hb h2 ⊢
  nlinarith

theorem denom_neg {b s : ℝ} (hb : 0.15 ≤ b) (hs0 : 0 ≤ s)
    (hs : s ^ 2 = (1167.0521452767 * b ^ 2 + 12020.824702470 * b + (-4823.2657361591)) ^ 2 -
      4 * (b ^ 2 + (-17.073846940092) * b + 14.915108613530) * ((-724213.16703206) * b ^ 2 + (-3232555.0322333) * b + 405113.40542057)) :
    -(1167.0521452767 * b ^ 2 + 12020.824702470 * b + (-4823.2657361591)) - s < 0 := by
  by_contra h
  rw [not_lt] at h
  have hb' : b < 0.4 := by
    by_contra hb'
    rw [not_lt] at hb'
    norm_num at hb' h
    nlinarith
  have he : 0 < b ^ 2 + (-17.073846940092) * b + 14.915108613530 := by
    norm_num at hb hb' ⊢
    nlinarith
  have hg : (-724213.16703206) * b ^ 2 + (-3232555.0322333) * b + 405113.40542057 < 0 := by
    norm_num at hb hb' ⊢
    nlinarith
  have hm := mul_neg_of_pos_of_neg he hg
  nlinarith

theorem root_eq {e f g s : ℝ} (hs : s ^ 2 = f ^ 2 - 4 * e * g) (hn : -f - s ≠ 0) :
    e * (2 * g / (-f - s)) ^ 2 + f * (2 * g / (-f - s)) + g = 0 := by
  have h1 : (2 * g / (-f - s)) * (-f - s) = 2 * g := div_mul_cancel₀ _ hn
  generalize 2 * g / (-f - s) = d at h1
  have h2 : (e * d ^ 2 + f * d + g) * (-f - s) ^ 2 = 0 := by
    have : (e * d ^ 2 + f * d + g) * (-f - s) ^ 2 = e * (d * (-f - s)) ^ 2 + f * (d * (-f - s)) * (-f - s) + g * (-f - s) ^ 2 := by ring
    rw [this, h1]
    have : e * (2 * g) ^ 2 + f * (2 * g) * (-f - s) + g * (-f - s) ^ 2 = g * (4 * e * g - f ^ 2 + s ^ 2) := by ring
    rw [this, hs]
    ring
  rcases mul_eq_zero.mp h2 with h | h
  · exact h
  · exact absurd (pow_eq_zero_iff (by norm_num) |>.mp h) hn

theorem theta_eq {n9 n10 d r : ℝ} (h9 : n9 < 0) (hr : r ^ 2 = (n10 + d) ^ 2 - 4 * (n9 + n10 * d)) :
    0.5 * (n10 + d - r) ≠ n10 ∧ d = 0.5 * (n10 + d - r) + n9 / (0.5 * (n10 + d - r) - n10) := by
  have h1 : (0.5 * (n10 + d - r) - n10) * (0.5 * (n10 + d - r)) - d * (0.5 * (n10 + d - r) - n10) + n9 = 0 := by
    have : (0.5 * (n10 + d - r) - n10) * (0.5 * (n10 + d - r)) - d * (0.5 * (n10 + d - r) - n10) + n9 =
      0.25 * (r ^ 2 - ((n10 + d) ^ 2 - 4 * (n9 + n10 * d))) := by ring
    rw [this, hr, sub_self, mul_zero]
  generalize 0.5 * (n10 + d - r) = t at h1
  have hn : t - n10 ≠ 0 := by
    intro h
    rw [h] at h1
    linarith
  refine ⟨fun h => hn (by rw [h, sub_self]), ?_⟩
  field_simp
  linarith

/-- What the saturation temperature is. -/
theorem tSat_ok {p : ℝ} (hp : 0.0006 ≤ p) : ∃ ts, tSat p = .ok ts ∧ Saturated p ts := by
  have hp0 : 0 ≤ p := le_trans (by norm_num) hp
  obtain ⟨h0, h4⟩ := beta_pow hp0
  have hb := beta_ge hp
  have hd := disc_nonneg hb
  unfold tSat
  rw [if_neg (not_lt.mpr hp0)]
  generalize p ^ (0.25 : ℝ) = b at h0 h4 hb hd
  have hs := Real.sq_sqrt hd
  have hden := denom_neg hb (Real.sqrt_nonneg _) hs
  have hroot := root_eq hs hden.ne
  simp only [sqrt, div, if_neg (not_lt.mpr hd), if_neg hden.ne, bind, Except.bind]
  generalize Real.sqrt _ = s at *
  generalize hdd : 2 * ((-724213.16703206) * b ^ 2 + (-3232555.0322333) * b + 405113.40542057) /
    (-(1167.0521452767 * b ^ 2 + 12020.824702470 * b + (-4823.2657361591)) - s) = d at *
  have hd2 : 0 ≤ (650.17534844798 + d) ^ 2 - 4 * ((-0.23855557567849) + 650.17534844798 * d) := by
    have : (650.17534844798 + d) ^ 2 - 4 * ((-0.23855557567849) + 650.17534844798 * d) = (650.17534844798 - d) ^ 2 + 4 * 0.23855557567849 := by ring
    rw [this]
    positivity
  rw [if_neg (not_lt.mpr hd2)]
  obtain ⟨k1, k2⟩ := theta_eq (n9 := -0.23855557567849) (n10 := 650.17534844798) (by norm_num) (Real.sq_sqrt hd2)
  refine ⟨_, rfl, b, d, h0, h4, k1, k2, ?_⟩
  rw [← hroot]
  ring

/-- C171, density: for liquid water from 0.0006 MPa to 100 MPa and from 273 K to 623.15 K a density is returned. It is positive and the one of the
formulation: `p / (R T π ∂γ/∂π)`, with the derivative of the dimensionless Gibbs free energy at the reduced pressure. -/
theorem C171_density_partial (t p : ℝ) (hp : 0.0006 ≤ p) (hp1 : p ≤ 100) (ht : 273 ≤ t) (ht1 : t ≤ 623.15) :
    ∃ rho slope, (waterDensity t p).2 = .ok rho ∧ 0 < rho ∧ HasDerivAt (gibbs (1386 / t)) slope (p / 16.53) ∧ 0 < slope ∧
      rho * (0.461526 * t * (p / 16.53) * slope) = p := by
  obtain ⟨ts, hts, _⟩ := tSat_ok hp
  have hp0 : 0 < p := lt_of_lt_of_le (by norm_num) hp
  have ht0 : 0 < t := by linarith
  have hpi : p / 16.53 ≤ 6.05 := by
    rw [div_le_iff₀ (by norm_num)]
    norm_num
    linarith
  have hpi0 : 0 < p / 16.53 := by positivity
  have hx : 0 < 7.1 - p / 16.53 := by norm_num at hpi ⊢; linarith
  have hy : 1 ≤ 1386 / t - 1.222 := by
    have : 2.222 ≤ 1386 / t := by
      rw [le_div_iff₀ ht0]
      norm_num at ht1 ⊢
      linarith
    linarith
  have hy1 : 1386 / t - 1.222 ≤ 3.86 := by
    have : 1386 / t ≤ 5.082 := by
      rw [div_le_iff₀ ht0]
      linarith
    linarith
  have hg := gsum_pos hx.le (by linarith) hy hy1
  have hd := gibbs_deriv (1386 / t) (p / 16.53) hx.ne'
  have hl := gammaLoop_ok (pi := p / 16.53) (tau := 1386 / t) hx.ne' (by linarith) coeffs 0
  rw [zero_add] at hl
  generalize gsum _ _ coeffs = g at *
  refine ⟨p / 0.461526 / t / (p / 16.53) / g, g, ?_, by positivity, hd, hg, ?_⟩
  · unfold waterDensity
    rw [hts]
    simp only [div, if_neg ht0.ne', if_neg hpi0.ne', if_neg hg.ne', bind, Except.bind, hl]
  · field_simp

/-- C171, warnings: from 0.0006 MPa on, the warnings given are those of the limits passed, and the last one means: hotter by more than 0.2 K than
a temperature that solves the saturation equation. -/
theorem C171_warnings (t p : ℝ) (hp : 0.0006 ≤ p) : ∃ ts, Saturated p ts ∧ ∀ w, w ∈ (waterDensity t p).1 ↔
    (w = .highPressure ∧ 100 < p) ∨ (w = .cold ∧ t < 273) ∨ (w = .hot ∧ 623.15 < t) ∨ (w = .boiling ∧ ts + 0.2 < t) := by
  obtain ⟨ts, hts, hsat⟩ := tSat_ok hp
  refine ⟨ts, hsat, fun w => ?_⟩
  have hp0 : ¬ p < 0 := not_lt.mpr (le_trans (by norm_num) hp)
  unfold waterDensity
  rw [hts]
  simp only [warnings, if_neg hp0, List.mem_append]
  by_cases h1 : 100 < p <;> by_cases h2 : t < 273 <;> by_cases h3 : 623.15 < t <;> by_cases h4 : ts + 0.2 < t <;>
    cases w <;> simp [h1, h2, h3, h4]

/-- C171 is false of negative pressures, for which only a warning is announced: the warning is given, but no density is returned. -/
theorem C171_negative_refuted (t p : ℝ) (hp : p < 0) : Warn.negativePressure ∈ (waterDensity t p).1 ∧ (waterDensity t p).2 = .error .typeError := by
  have : tSat p = .error .typeError := by unfold tSat; rw [if_pos hp]
  unfold waterDensity
  rw [this]
  exact ⟨by simp [warnings, hp], rfl⟩

/-- C171 is false near vacuum: without any warning a `ValueError` is raised, at every temperature of the region. -/
theorem C171_vacuum_refuted (t p : ℝ) (hp : 0 ≤ p) (hp1 : p ≤ 6e-10) (ht : 273 ≤ t) (ht1 : t ≤ 623.15) :
    waterDensity t p = ([], .error .valueError) := by
  obtain ⟨h0, h4⟩ := beta_pow hp
  have hb : p ^ (0.25 : ℝ) ≤ 0.005 := by
    by_contra h
    rw [not_le] at h
    have : (0.005 : ℝ) ^ 4 ≤ (p ^ (0.25 : ℝ)) ^ 4 := pow_le_pow_left₀ (by norm_num) h.le 4
    rw [h4] at this
    norm_num at this hp1
    linarith
  have : tSat p = .error .valueError := by
    unfold tSat
    rw [if_neg (not_lt.mpr hp)]
    generalize p ^ (0.25 : ℝ) = b at h0 h4 hb
    have hd : (1167.0521452767 * b ^ 2 + 12020.824702470 * b + (-4823.2657361591)) ^ 2 -
        4 * (b ^ 2 + (-17.073846940092) * b + 14.915108613530) * ((-724213.16703206) * b ^ 2 + (-3232555.0322333) * b + 405113.40542057) < 0 := by
      have h2 : b ^ 2 ≤ 0.005 * b := by nlinarith
      have h3 : 0 ≤ b ^ 3 := by positivity
      have h4 : b ^ 4 ≤ 0.000025 := by
        have := pow_le_pow_left₀ h0 hb 4
        norm_num at this ⊢
        linarith
      norm_num at hb h2 h4 ⊢
      nlinarith
    simp only [sqrt, if_pos hd, bind, Except.bind]
  have hp100 : ¬ 100 < p := by norm_num at hp1 ⊢; linarith
  unfold waterDensity
  rw [this]
  simp [warnings, hp100, not_lt.mpr hp, not_lt.mpr ht, not_lt.mpr ht1]

example : ∃ rho slope, (waterDensity 293.6 0.1013).2 = .ok rho ∧ 0 < rho ∧ HasDerivAt (gibbs (1386 / 293.6)) slope (0.1013 / 16.53) ∧ 0 < slope ∧
    rho * (0.461526 * 293.6 * (0.1013 / 16.53) * slope) = 0.1013 :=
  C171_density_partial 293.6 0.1013 (by norm_num) (by norm_num) (by norm_num) (by norm_num)

example : waterDensity 300 0 = ([], .error .valueError) := C171_vacuum_refuted 300 0 le_rfl (by norm_num) (by norm_num) (by norm_num)

example : (waterDensity 300 (-1)).2 = .error .typeError := (C171_negative_refuted 300 (-1) (by norm_num)).2

end ASAPy.Water
