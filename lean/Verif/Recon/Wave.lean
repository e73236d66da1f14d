import Verif.Recon.MlFormula
import Verif.Recon.RmFormula

/-!
# The wave number
-/

namespace ASAPy.Recon
open Spec

noncomputable section

/-- C205. The wave number is that of ENDF-102 (D.1.1), `2.196771e-3 A/(A + 1) √|E|`, within two parts in 100000, for energies of either sign; it is positive except at zero. -/
theorem C205_wave_number {A : ℝ} (hA : 0 < A) (E : ℝ) :
    abs (waveNumber A E - 2.196771e-3 * (A / (A + 1)) * √|E|) ≤ 2e-5 * (2.196771e-3 * (A / (A + 1)) * √|E|) ∧ (E ≠ 0 → 0 < waveNumber A E) := by
  have hf : 0 < A / (A + 1) := by positivity
  have e : waveNumber A E = √(2 * neutronMass) / hbarC * (A / (A + 1)) * √|E| := by
    unfold waveNumber
    rw [Real.sqrt_mul (by norm_num [neutronMass])]
    ring
  have lo : (2.196771e-3 : ℝ) ≤ √(2 * neutronMass) / hbarC := by
    rw [le_div_iff₀ (by norm_num [hbarC])]
    apply Real.le_sqrt_of_sq_le
    norm_num [neutronMass, hbarC]
  have hi : √(2 * neutronMass) / hbarC ≤ 2.196771e-3 * (1 + 2e-5) := by
    rw [div_le_iff₀ (by norm_num [hbarC])]
    apply Real.sqrt_le_iff.mpr
    constructor
    · norm_num [hbarC]
    · norm_num [neutronMass, hbarC]
  have hg : 0 ≤ A / (A + 1) * √|E| := by positivity
  constructor
  · rw [e, show √(2 * neutronMass) / hbarC * (A / (A + 1)) * √|E| - 2.196771e-3 * (A / (A + 1)) * √|E| = (√(2 * neutronMass) / hbarC - 2.196771e-3) * (A / (A + 1) * √|E|) by ring,
      abs_mul, abs_of_nonneg hg, abs_of_nonneg (by linarith)]
    have := mul_le_mul_of_nonneg_right (by linarith : √(2 * neutronMass) / hbarC - 2.196771e-3 ≤ 2e-5 * 2.196771e-3) hg
    linarith
  · intro hE
    have h1 : 0 < √|E| := Real.sqrt_pos.mpr (abs_pos.mpr hE)
    have h2 : (0 : ℝ) < √(2 * neutronMass) / hbarC := lt_of_lt_of_le (by norm_num) lo
    rw [e]
    positivity

/-- C205: a wave number that is not zero. -/
example : 0 < waveNumber 235 (-1) := (C205_wave_number (by norm_num) (-1)).2 (by norm_num)

end
end ASAPy.Recon
