import Verif.Water.Model

/-!
# The density of water after IAPWS-IF97

Region 1: the specific Gibbs free energy of liquid water is `R T γ(π, τ)`, with `π = p / 16.53 MPa`, `τ = 1386 K / T` and
`γ = ∑ n (7.1 - π)^I (τ - 1.222)^J`; the density is `p / (R T π ∂γ/∂π)`. Region 4: the saturation temperature solves the saturation equation.
-/

namespace ASAPy.Water

/-- The dimensionless Gibbs free energy. -/
noncomputable def gibbs (tau pi : ℝ) : ℝ := (coeffs.map fun k => k.1 * (7.1 - pi) ^ k.2.1 * (tau - 1.222) ^ k.2.2).sum

/-- The saturation equation, equation 29 of the release with `ϑ = T + n₉ / (T - n₁₀)` and `β = p^(1/4)`. -/
def Saturated (p t : ℝ) : Prop := ∃ beta theta, 0 ≤ beta ∧ beta ^ 4 = p ∧ t ≠ 650.17534844798 ∧
  theta = t + (-0.23855557567849) / (t - 650.17534844798) ∧
  beta ^ 2 * theta ^ 2 + 1167.0521452767 * beta ^ 2 * theta + (-724213.16703206) * beta ^ 2 + (-17.073846940092) * beta * theta ^ 2 +
    12020.824702470 * beta * theta + (-3232555.0322333) * beta + 14.915108613530 * theta ^ 2 + (-4823.2657361591) * theta +
    405113.40542057 = 0

end ASAPy.Water
