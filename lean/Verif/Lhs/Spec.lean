import Verif.SampleCorr.Model

/-! # Stratified samples and distribution functions -/

namespace ASAPy.Lhs
open SampleCorr (Distro)

/-- SALib's `latin.sample` for one variable on `[0, 1]`: one number from each of `n` intervals of equal length, in some order. (A number drawn exactly on the lower end of its interval, which
has probability zero, is left out.) -/
def Latin (n : Nat) (l : List ℝ) : Prop := ∃ u : Nat → ℝ, (∀ j, 0 < u j ∧ u j < 1) ∧ l.Perm ((List.range n).map fun j : Nat => ((j : ℝ) + u j) / n)

/-- `F` is the distribution function of the distribution with the mean `m` and the deviation `s`; `Φ` is that of the standard normal distribution. For the uniform distribution it is the one on
the interval from `m` to `m + s` (see C46). -/
def IsCdf (Φ : ℝ → ℝ) (d : Distro) (m s : ℝ) (F : ℝ → ℝ) : Prop :=
  match d with
  | .normal => ∀ x, F x = Φ ((x - m) / s)
  | .lognormal => ∃ μ σ, 0 < σ ∧ Real.exp (μ + σ ^ 2 / 2) = m ∧ (Real.exp (σ ^ 2) - 1) * Real.exp (2 * μ + σ ^ 2) = s ^ 2 ∧ ∀ x, 0 < x → F x = Φ ((Real.log x - μ) / σ)
  | .uniform => ∀ x, m ≤ x → x ≤ m + s → F x = (x - m) / s
  | .other => True

open Classical in
/-- Exactly one of the values in each of the `n` intervals of equal probability. -/
def Stratified (n : Nat) (F : ℝ → ℝ) (l : List ℝ) : Prop := ∀ j < n, (l.filter fun v => decide ((j : ℝ) / n ≤ F v ∧ F v < ((j : ℝ) + 1) / n)).length = 1

/-- `c` is the identity matrix of size `n`. -/
def IsIdentity (n : Nat) (c : List (List ℝ)) : Prop :=
  c.length = n ∧ (∀ r ∈ c, r.length = n) ∧ ∀ (i j : Nat) (r : List ℝ) (v : ℝ), c[i]? = some r → r[j]? = some v → (i = j → v = 1) ∧ (i ≠ j → v = 0)

end ASAPy.Lhs
