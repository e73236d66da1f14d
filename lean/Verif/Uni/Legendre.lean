import Mathlib.MeasureTheory.Integral.IntervalIntegral.FundThmCalculus
import Mathlib.Analysis.Calculus.Deriv.Polynomial
import Mathlib.Topology.Algebra.Polynomial
import Mathlib.Tactic.LinearCombination
import Mathlib.Tactic.FieldSimp
import Mathlib.Tactic.Ring
import Mathlib.Tactic.Linarith

/-! # Legendre polynomials: recurrences, orthogonality and norms -/

namespace ASAPy.Uni
open Polynomial

/-- The Legendre polynomials by Bonnet's recurrence: P₀ = 1, P₁ = x, (n+2) Pₙ₊₂ = (2n+3) x Pₙ₊₁ - (n+1) Pₙ. -/
noncomputable def P : Nat → ℝ[X]
  | 0 => 1
  | 1 => X
  | n + 2 => C (1 / (n + 2 : ℝ)) * (C (2 * n + 3 : ℝ) * X * P (n + 1) - C (n + 1 : ℝ) * P n)

theorem bonnet (n : Nat) : C (n + 2 : ℝ) * P (n + 2) = C (2 * n + 3 : ℝ) * X * P (n + 1) - C (n + 1 : ℝ) * P n := by
  rw [P, ← mul_assoc, ← C_mul, mul_one_div_cancel (by positivity), C_1, one_mul]

theorem P_one (n : Nat) : (P n).eval 1 = 1 ∧ (P (n + 1)).eval 1 = 1 := by
  induction n with
  | zero => simp [P]
  | succ n ih =>
    refine ⟨ih.2, ?_⟩
    have h := congrArg (eval 1) (bonnet n)
    simp only [eval_mul, eval_C, eval_sub, eval_X, ih.1, ih.2, mul_one] at h
    have hn : (n + 2 : ℝ) ≠ 0 := by positivity
    apply mul_left_cancel₀ hn
    rw [h]; ring

theorem P_neg_one (n : Nat) : (P n).eval (-1) = (-1) ^ n ∧ (P (n + 1)).eval (-1) = (-1) ^ (n + 1) := by
  induction n with
  | zero => simp [P]
  | succ n ih =>
    refine ⟨ih.2, ?_⟩
    have h := congrArg (eval (-1)) (bonnet n)
    simp only [eval_mul, eval_C, eval_sub, eval_X, ih.1, ih.2] at h
    have hn : (n + 2 : ℝ) ≠ 0 := by positivity
    apply mul_left_cancel₀ hn
    rw [h]; ring

theorem bonnet_derivative (n : Nat) : C (n + 2 : ℝ) * derivative (P (n + 2)) =
    C (2 * n + 3 : ℝ) * (P (n + 1) + X * derivative (P (n + 1))) - C (n + 1 : ℝ) * derivative (P n) := by
  have h := congrArg derivative (bonnet n)
  simp only [derivative_mul, derivative_C, derivative_sub, derivative_X, zero_mul, zero_add, mul_one] at h
  rw [h]; ring

theorem cancel {a : ℝ} (ha : a ≠ 0) {p q : ℝ[X]} (h : C a * p = C a * q) : p = q :=
  mul_left_cancel₀ (by simpa using ha) h

/-- Pₙ₊₁' = x Pₙ' + (n+1) Pₙ and x Pₙ₊₁' = Pₙ' + (n+1) Pₙ₊₁. -/
theorem derivs (n : Nat) : derivative (P (n + 1)) = X * derivative (P n) + C (n + 1 : ℝ) * P n ∧
    X * derivative (P (n + 1)) = derivative (P n) + C (n + 1 : ℝ) * P (n + 1) := by
  induction n with
  | zero => simp [P]
  | succ n ih =>
    obtain ⟨hA, hB⟩ := ih
    have hC1 : C (((n + 1 : ℕ) : ℝ) + 1) = C (n : ℝ) + 2 := by
      rw [show (2 : ℝ[X]) = C 2 from rfl, ← C_add]; congr 1; push_cast; ring
    have e1 : C (n + 2 : ℝ) = C (n : ℝ) + 2 := by rw [C_add]; rfl
    have e2 : C (2 * n + 3 : ℝ) = 2 * C (n : ℝ) + 3 := by rw [C_add, C_mul]; rfl
    have e3 : C (n + 1 : ℝ) = C (n : ℝ) + 1 := by rw [C_add]; rfl
    have hb := bonnet n
    have hd := bonnet_derivative n
    rw [e3] at hA hB
    rw [e1, e2, e3] at hb hd
    have A' : derivative (P (n + 1 + 1)) = X * derivative (P (n + 1)) + C (((n + 1 : ℕ) : ℝ) + 1) * P (n + 1) := by
      apply cancel (a := (n + 2 : ℝ)) (by positivity)
      rw [e1, hC1]
      linear_combination hd + (C (n : ℝ) + 1) * hB
    refine ⟨A', ?_⟩
    rw [A', hC1]
    rw [show n + 1 + 1 = n + 2 from rfl]
    linear_combination X * hB - hA - hb

/-- (1 - x²) Pₙ₊₁' = (n+1) (Pₙ - x Pₙ₊₁). -/
theorem weighted (n : Nat) : (1 - X ^ 2) * derivative (P (n + 1)) = C (n + 1 : ℝ) * (P n - X * P (n + 1)) := by
  obtain ⟨hA, hB⟩ := derivs n
  linear_combination hA - X * hB

/-- Legendre's equation: ((1 - x²) Pₙ')' = - n (n+1) Pₙ. -/
theorem ode (n : Nat) : derivative ((1 - X ^ 2) * derivative (P n)) = -(C (n * (n + 1) : ℝ) * P n) := by
  cases n with
  | zero => simp [P]
  | succ n =>
    obtain ⟨hA, hB⟩ := derivs n
    rw [weighted]
    simp only [derivative_mul, derivative_C, derivative_sub, derivative_X, zero_mul, zero_add, one_mul]
    have e : C (((n + 1 : ℕ) : ℝ) * (((n + 1 : ℕ) : ℝ) + 1)) = C (n + 1 : ℝ) * (C (n + 1 : ℝ) + 1) := by
      rw [← C_1, ← C_add, ← C_mul]; congr 1; push_cast; ring
    rw [e]
    linear_combination -C (n + 1 : ℝ) * hB

/-- The integral over [-1, 1]. -/
noncomputable def I (p : ℝ[X]) : ℝ := ∫ x in (-1 : ℝ)..1, p.eval x

theorem I_derivative (p : ℝ[X]) : I (derivative p) = p.eval 1 - p.eval (-1) :=
  intervalIntegral.integral_eq_sub_of_hasDerivAt (fun x _ => p.hasDerivAt x) ((derivative p).continuous.intervalIntegrable _ _)

theorem I_add (p q : ℝ[X]) : I (p + q) = I p + I q := by
  unfold I
  simp only [eval_add]
  exact intervalIntegral.integral_add (p.continuous.intervalIntegrable _ _) (q.continuous.intervalIntegrable _ _)

theorem I_C_mul (a : ℝ) (p : ℝ[X]) : I (C a * p) = a * I p := by
  unfold I
  simp only [eval_mul, eval_C]
  exact intervalIntegral.integral_const_mul ..

theorem I_zero : I 0 = 0 := by simp [I]

/-- Legendre polynomials are orthogonal. -/
theorem orthogonal {m n : Nat} (h : m ≠ n) : I (P m * P n) = 0 := by
  have hd : derivative ((1 - X ^ 2) * derivative (P m) * P n - (1 - X ^ 2) * derivative (P n) * P m) = C ((n * (n + 1) - m * (m + 1) : ℝ)) * (P m * P n) := by
    rw [derivative_sub, derivative_mul (g := P n), derivative_mul (g := P m), ode, ode, C_sub]
    ring
  have h1 := I_derivative ((1 - X ^ 2) * derivative (P m) * P n - (1 - X ^ 2) * derivative (P n) * P m)
  rw [hd, I_C_mul] at h1
  simp only [eval_sub, eval_mul, eval_one, eval_pow, eval_X, one_pow, sub_self, zero_mul, neg_one_sq] at h1
  refine (mul_eq_zero.1 h1).resolve_left fun e => h ?_
  have hf : ((n : ℝ) - m) * (n + m + 1) = 0 := by linear_combination e
  rcases mul_eq_zero.1 hf with e | e
  · exact_mod_cast (sub_eq_zero.1 e).symm
  · have : (0 : ℝ) < n + m + 1 := by positivity
    linarith

/-- Pₘ is orthogonal to the derivative of Pₙ for n < m. -/
theorem orthogonal_derivative {m : Nat} : ∀ n, n < m → I (P m * derivative (P n)) = 0
  | 0, _ => by simp [P, I_zero]
  | 1, h => by
    rw [P, derivative_X, show (1 : ℝ[X]) = P 0 from rfl]
    exact orthogonal (by omega)
  | n + 2, h => by
    have e : P m * derivative (P (n + 2)) = P m * derivative (P n) + C (2 * n + 3 : ℝ) * (P m * P (n + 1)) := by
      have h1 := (derivs (n + 1)).1
      have h2 := (derivs n).2
      have hc : C (((n + 1 : ℕ) : ℝ) + 1) + C (n + 1 : ℝ) = C (2 * n + 3 : ℝ) := by rw [← C_add]; congr 1; push_cast; ring
      rw [show n + 2 = n + 1 + 1 from rfl, h1, ← hc]
      linear_combination P m * h2
    rw [e, I_add, I_C_mul, orthogonal_derivative n (by omega), orthogonal (by omega), mul_zero, zero_add]

/-- Their norms. -/
theorem norm_sq (n : Nat) : I (P n * P n) = 2 / (2 * n + 1) := by
  have h1 := I_derivative (X * (P n * P n))
  have hsq : (P n).eval (-1) * (P n).eval (-1) = 1 := by rw [(P_neg_one n).1, ← pow_add, Even.neg_one_pow ⟨n, rfl⟩]
  simp only [eval_mul, eval_X, (P_one n).1, mul_one, hsq] at h1
  have e : derivative (X * (P n * P n)) = P n * P n + C 2 * (P n * (X * derivative (P n))) := by
    rw [derivative_mul, derivative_mul, derivative_X, show C (2 : ℝ) = 2 from rfl]; ring
  rw [e, I_add, I_C_mul] at h1
  have h2 : I (P n * (X * derivative (P n))) = n * I (P n * P n) := by
    cases n with
    | zero => simp [P, I_zero]
    | succ n =>
      rw [(derivs n).2, mul_add, I_add, orthogonal_derivative n (by omega), zero_add,
        show P (n + 1) * (C (n + 1 : ℝ) * P (n + 1)) = C (n + 1 : ℝ) * (P (n + 1) * P (n + 1)) by ring, I_C_mul]
      push_cast; ring
  rw [h2] at h1
  have hp : (0 : ℝ) < 2 * n + 1 := by positivity
  rw [eq_div_iff hp.ne']
  linear_combination h1

/-- A sum of Legendre polynomials. -/
noncomputable def series : Nat → List ℝ → ℝ[X]
  | _, [] => 0
  | l, b :: bs => C b * P l + series (l + 1) bs

/-- The moments of a sum. -/
theorem moments (k : Nat) : ∀ (bs : List ℝ) (l : Nat), I (series l bs * P k) = if l ≤ k then (bs[k - l]?).getD 0 * (2 / (2 * k + 1)) else 0
  | [], l => by simp [series, I_zero]
  | b :: bs, l => by
    rw [series, add_mul, I_add, mul_assoc, I_C_mul, moments k bs (l + 1)]
    by_cases h : l = k
    · subst h
      rw [norm_sq, if_neg (by omega), if_pos le_rfl]
      simp
    · rw [orthogonal h, mul_zero, zero_add]
      by_cases h' : l ≤ k
      · rw [if_pos (by omega), if_pos h', show k - l = (k - (l + 1)) + 1 by omega]
        simp
      · rw [if_neg (by omega), if_neg h']

end ASAPy.Uni
