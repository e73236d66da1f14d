import Mathlib.Analysis.SpecialFunctions.Gaussian.GaussianIntegral

/-!
# Specification of Doppler broadening

A target gas at temperature `T` with atomic weight ratio `A`; `d = √(A/kT)`. Let `v` be the square root of the energy. The velocities of the target in the direction of flight are distributed
with the density `maxwell d`.
-/

namespace ASAPy.Multipole

/-- The density of the Maxwell distribution, in units of the square root of the energy. -/
noncomputable def maxwell (d x : ℝ) : ℝ := d / Real.sqrt Real.pi * Real.exp (-(d * x) ^ 2)

/-- Doppler broadening by a free gas (the kernel of Solbrig, as in SIGMA1): if `F u = u² σ(u²)` at 0 K then `v² σ(v²)` at temperature is this integral. -/
noncomputable def freeGas (d v : ℝ) (F : ℝ → ℝ) : ℝ :=
  ∫ u in Set.Ioi (0 : ℝ), F u * (maxwell d (u - v) - maxwell d (u + v))

/-- The same without the neutrons that fly backwards: a mean over the Maxwell distribution. -/
noncomputable def smeared (d v : ℝ) (F : ℝ → ℝ) : ℝ := ∫ u : ℝ, F u * maxwell d (u - v)

/-- The Faddeeva function as an integral, multipole.py 33-35. -/
noncomputable def faddeevaIntegral (z : ℂ) : ℂ := Complex.I / Real.pi * ∫ t : ℝ, Complex.exp (-(t : ℂ) ^ 2) / (z - t)

/-- What a pole `p` with the residue `r` contributes to `u² σ(u²)` at 0 K. -/
noncomputable def resonance (p r : ℂ) (u : ℝ) : ℝ := (Complex.I * r / ((u : ℂ) - p)).re

end ASAPy.Multipole
