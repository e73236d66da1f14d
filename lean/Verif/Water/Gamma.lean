import Verif.Water.Spec
import Mathlib.Analysis.Calculus.Deriv.Pow
import Mathlib.Analysis.Calculus.Deriv.Add
import Mathlib.Analysis.Calculus.Deriv.Mul
import Mathlib.Tactic.Linarith
import Mathlib.Tactic.NormNum
import Mathlib.Tactic.Positivity
import Mathlib.Tactic.FieldSimp

namespace ASAPy.Water

/-- The sum the loop makes. -/
noncomputable def gsum (x y : ℝ) (l : List (ℝ × ℕ × ℤ)) : ℝ := (l.map fun k => -(k.1 * k.2.1 * x ^ ((k.2.1 : ℤ) - 1) * y ^ k.2.2)).sum

theorem gammaLoop_ok {pi tau : ℝ} (hx : 7.1 - pi ≠ 0) (hy : tau - 1.222 ≠ 0) : ∀ (l : List (ℝ × ℕ × ℤ)) (g : ℝ),
    gammaLoop pi tau l g = .ok (g + gsum (7.1 - pi) (tau - 1.222) l)
  | [], g => by simp [gammaLoop, gsum]
  | (n, i, j) :: l, g => by
    unfold gammaLoop pow
    rw [if_neg (fun h => hx h.1), if_neg (fun h => hy h.1)]
    show gammaLoop pi tau l _ = _
    rw [gammaLoop_ok hx hy l]
    simp only [gsum, List.map_cons, List.sum_cons]
    congr 1
    ring

theorem gibbs_deriv_list (tau pi : ℝ) (hx : 7.1 - pi ≠ 0) : ∀ l : List (ℝ × ℕ × ℤ),
    HasDerivAt (fun q => (l.map fun k => k.1 * (7.1 - q) ^ k.2.1 * (tau - 1.222) ^ k.2.2).sum) (gsum (7.1 - pi) (tau - 1.222) l) pi
  | [] => by simpa [gsum] using hasDerivAt_const pi (0 : ℝ)
  | (n, i, j) :: l => by
    have h1 : HasDerivAt (fun q : ℝ => 7.1 - q) (-1) pi := by
      simpa using (hasDerivAt_id pi).const_sub 7.1
    have h2 := ((h1.pow i).const_mul n).mul_const ((tau - 1.222) ^ j)
    have h3 := h2.add (gibbs_deriv_list tau pi hx l)
    refine (h3.congr_deriv ?_).congr_of_eventuallyEq (Filter.Eventually.of_forall fun q => ?_)
    · simp only [gsum, List.map_cons, List.sum_cons]
      congr 1
      rcases Nat.eq_zero_or_pos i with rfl | hi
      · simp
      · have : (7.1 - pi) ^ ((i : ℤ) - 1) = (7.1 - pi) ^ (i - 1) := by
          rw [← zpow_natCast]
          congr 1
          omega
        rw [this]
        ring
    · simp

theorem gibbs_deriv (tau pi : ℝ) (hx : 7.1 - pi ≠ 0) : HasDerivAt (gibbs tau) (gsum (7.1 - pi) (tau - 1.222) coeffs) pi :=
  gibbs_deriv_list tau pi hx coeffs

/-! ### The derivative is positive in region 1 -/

/-- The cubic polynomial in the last four terms. -/
noncomputable def cub (u : ℝ) : ℝ :=
  -(29 * 0.26335781662795e-22) + 30 * 0.11947622640071e-22 * u - 31 * 0.18228094581404e-23 * u ^ 2 + 32 * 0.93537087292458e-25 * u ^ 3

noncomputable def quad (u : ℝ) : ℝ := 21 * 0.68762131295531e-18 - 23 * 0.14478307828521e-19 * u ^ 2

theorem cub_mono {a u : ℝ} (h : a ≤ u) : cub a ≤ cub u := by
  have e : cub u - cub a = (u - a) * (30 * 0.11947622640071e-22 - 31 * 0.18228094581404e-23 * (u + a) +
      32 * 0.93537087292458e-25 * (u ^ 2 + u * a + a ^ 2)) := by
    unfold cub; ring
  have hq : 0 ≤ 30 * 0.11947622640071e-22 - 31 * 0.18228094581404e-23 * (u + a) +
      32 * 0.93537087292458e-25 * (u ^ 2 + u * a + a ^ 2) := by
    norm_num
    nlinarith [sq_nonneg (u - a), sq_nonneg (u + a - 12.586)]
  have := mul_nonneg (sub_nonneg.mpr h) hq
  linarith

/-- The last six terms are not far below zero. -/
theorem high_terms {u v : ℝ} (hu : 0 ≤ u) (hv : 0 < v) (hv1 : v ≤ 1) (huv : u ≤ 7.1 * v) :
    -0.07 ≤ v ^ 9 * (u ^ 20 * quad u) + v ^ 10 * (u ^ 28 * cub u) := by
  have h9 : 0 < v ^ 9 := by positivity
  have h9' : v ^ 9 ≤ 1 := pow_le_one₀ hv.le hv1
  have h10 : 0 < v ^ 10 := by positivity
  have h10' : v ^ 10 ≤ 1 := pow_le_one₀ hv.le hv1
  have h71 : u ≤ 7.1 := by nlinarith
  -- a lower bound of the two products
  have lowq : ∀ m : ℝ, 0 ≤ m → -m ≤ u ^ 20 * quad u → -m ≤ v ^ 9 * (u ^ 20 * quad u) := by
    intro m hm h
    nlinarith
  have lowc : ∀ m : ℝ, 0 ≤ m → -m ≤ u ^ 28 * cub u → -m ≤ v ^ 10 * (u ^ 28 * cub u) := by
    intro m hm h
    nlinarith
  -- on an interval
  have cubI : ∀ a b m : ℝ, 0 ≤ a → a ≤ u → u ≤ b → 0 ≤ m → -m ≤ b ^ 28 * cub a → -m ≤ u ^ 28 * cub u := by
    intro a b m ha h1 h2 hm h
    have hc := cub_mono h1
    have hp : u ^ 28 ≤ b ^ 28 := pow_le_pow_left₀ hu h2 28
    have hp0 : 0 ≤ u ^ 28 := by positivity
    rcases le_or_gt 0 (cub a) with h0 | h0
    · have : 0 ≤ u ^ 28 * cub u := mul_nonneg hp0 (h0.trans hc)
      linarith
    · have h3 : u ^ 28 * cub a ≤ u ^ 28 * cub u := mul_le_mul_of_nonneg_left hc hp0
      have h4 : b ^ 28 * cub a ≤ u ^ 28 * cub a := by nlinarith
      linarith
  have quad0 : u ≤ 6.58 → 0 ≤ u ^ 20 * quad u := by
    intro h
    refine mul_nonneg (by positivity) ?_
    unfold quad
    norm_num
    nlinarith
  rcases le_or_gt u 5 with h | h
  · have h1 := lowq 0 le_rfl (by simpa using quad0 (by linarith))
    have h2 := lowc 0.03 (by norm_num) (cubI 0 5 0.03 le_rfl hu h (by norm_num) (by unfold cub; norm_num))
    linarith
  rcases le_or_gt u 5.7 with h' | h'
  · have h1 := lowq 0 le_rfl (by simpa using quad0 (by linarith))
    have h2 := lowc 0.03 (by norm_num) (cubI 5 5.7 0.03 (by norm_num) h.le h' (by norm_num) (by unfold cub; norm_num))
    linarith
  rcases le_or_gt u 6.2 with h'' | h''
  · have h1 := lowq 0 le_rfl (by simpa using quad0 (by linarith))
    have h2 := lowc 0.04 (by norm_num) (cubI 5.7 6.2 0.04 (by norm_num) h'.le h'' (by norm_num) (by unfold cub; norm_num))
    linarith
  rcases le_or_gt u 6.3 with h3 | h3
  · have h1 := lowq 0 le_rfl (by simpa using quad0 (by linarith))
    have h2 := lowc 0.04 (by norm_num) (cubI 6.2 6.3 0.04 (by norm_num) h''.le h3 (by norm_num) (by unfold cub; norm_num))
    linarith
  rcases le_or_gt u 6.75 with h4 | h4
  · have hp : u ^ 20 ≤ 6.75 ^ 20 := pow_le_pow_left₀ hu h4 20
    have hp0 : 0 ≤ u ^ 20 := by positivity
    have hq : -0.8e-18 ≤ quad u := by
      unfold quad
      norm_num
      nlinarith
    have h1 := lowq 0.04 (by norm_num) (by
      have : u ^ 20 * (-0.8e-18) ≤ u ^ 20 * quad u := mul_le_mul_of_nonneg_left hq hp0
      norm_num at this hp ⊢
      linarith)
    have h2 := lowc 0 le_rfl (by simpa using cubI 6.3 6.75 0 (by norm_num) h3.le h4 le_rfl (by unfold cub; norm_num))
    linarith
  · -- here the cubic is positive, and `v` near 1
    have hv2 : 0.95 ≤ v := by nlinarith
    have hc : cub 6.75 ≤ cub u := cub_mono h4.le
    have hc' : (1.55e-24 : ℝ) ≤ cub 6.75 := by unfold cub; norm_num
    have hq : -2.4e-18 ≤ quad u := by
      unfold quad
      norm_num
      nlinarith
    have hp0 : 0 ≤ u ^ 20 := by positivity
    have hp : (6.75 : ℝ) ^ 8 ≤ u ^ 8 := pow_le_pow_left₀ (by norm_num) h4.le 8
    have hp2 : u ^ 20 ≤ 7.1 ^ 20 := pow_le_pow_left₀ hu h71 20
    have e : v ^ 9 * (u ^ 20 * quad u) + v ^ 10 * (u ^ 28 * cub u) = v ^ 9 * u ^ 20 * (quad u + v * (u ^ 8 * cub u)) := by ring
    have h8 : (6.75 : ℝ) ^ 8 * 1.55e-24 ≤ u ^ 8 * cub u := mul_le_mul hp (hc'.trans hc) (by norm_num) (by positivity)
    have h8' : (0.95 : ℝ) * (6.75 ^ 8 * 1.55e-24) ≤ v * (u ^ 8 * cub u) := mul_le_mul hv2 h8 (by positivity) hv.le
    have hin : (-0.5e-18 : ℝ) ≤ quad u + v * (u ^ 8 * cub u) := by
      norm_num at h8' hq ⊢
      linarith
    have hw : 0 ≤ v ^ 9 * u ^ 20 := by positivity
    have hw' : v ^ 9 * u ^ 20 ≤ 7.1 ^ 20 := by
      calc v ^ 9 * u ^ 20 ≤ 1 * u ^ 20 := mul_le_mul_of_nonneg_right h9' hp0
        _ ≤ 7.1 ^ 20 := by rw [one_mul]; exact hp2
    rw [e]
    have : v ^ 9 * u ^ 20 * (-0.5e-18) ≤ v ^ 9 * u ^ 20 * (quad u + v * (u ^ 8 * cub u)) := mul_le_mul_of_nonneg_left hin hw
    norm_num at this hw' ⊢
    linarith

/-- The terms in full. -/
theorem gsum_eq (x y : ℝ) (hy : 0 < y) : gsum x y coeffs =
    (0.32529748770505e-1 + 0.18990068218419e-1 * y⁻¹ + 0.21841717175414e-1 * y + 0.52838357969930e-4 * y ^ 3) +
    (0.60706301565874e-3 * y⁻¹ ^ 7 - 0.28319080123804e-3 * y⁻¹ ^ 9) +
    2 * x * (0.47184321073267e-3 * y⁻¹ ^ 3 + 0.30001780793026e-3 - 0.47661393906987e-4 * y + 0.44141845330846e-5 * y ^ 3 +
      0.72694996297594e-15 * y ^ 17) +
    3 * x ^ 2 * (0.31679644845054e-4 * y⁻¹ ^ 4 + 0.28270797985312e-5 + 0.85205128120103e-9 * y ^ 6) +
    4 * x ^ 3 * (0.22425281908000e-5 * y⁻¹ ^ 5 + 0.65171222895601e-6 * y⁻¹ ^ 2 + 0.14341729937924e-12 * y ^ 10) +
    5 * x ^ 4 * (0.40516996860117e-6 * y⁻¹ ^ 8) + 8 * x ^ 7 * (0.12734301741641e-8 * y⁻¹ ^ 11 + 0.17424871230634e-9 * y⁻¹ ^ 6) +
    (y⁻¹ ^ 9 * ((x * y⁻¹) ^ 20 * quad (x * y⁻¹)) + y⁻¹ ^ 10 * ((x * y⁻¹) ^ 28 * cub (x * y⁻¹))) := by
  have key : ∀ n : ℕ, y ^ (-(n : ℤ)) = y⁻¹ ^ n := fun n => by rw [zpow_neg, zpow_natCast, inv_pow]
  have kx : ∀ n : ℕ, x ^ (((n + 1 : ℕ) : ℤ) - 1) = x ^ n := fun n => by
    rw [← zpow_natCast]; congr 1; push_cast; ring
  have k2 := key 2; have k1 := key 1; have k9 := key 9; have k7 := key 7; have k3 := key 3; have k4 := key 4; have k5 := key 5
  have k8 := key 8; have k11 := key 11; have k6 := key 6; have k29 := key 29; have k31 := key 31; have k38 := key 38; have k39 := key 39
  have k40 := key 40; have k41 := key 41
  have x1 := kx 0; have x2 := kx 1; have x3 := kx 2; have x4 := kx 3; have x5 := kx 4; have x8 := kx 7; have x21 := kx 20; have x23 := kx 22
  have x29 := kx 28; have x30 := kx 29; have x31 := kx 30; have x32 := kx 31
  have y3 : y ^ (3 : ℤ) = y ^ 3 := zpow_natCast y 3
  have y17 : y ^ (17 : ℤ) = y ^ 17 := zpow_natCast y 17
  have y6 : y ^ (6 : ℤ) = y ^ 6 := zpow_natCast y 6
  have y10 : y ^ (10 : ℤ) = y ^ 10 := zpow_natCast y 10
  simp only [Nat.cast_ofNat, Nat.reduceAdd, zero_add] at *
  simp only [gsum, coeffs, List.map_cons, List.map_nil, List.sum_cons, List.sum_nil, Nat.cast_zero, Nat.cast_one, Nat.cast_ofNat, mul_zero,
    zero_mul, neg_zero, zero_add, zpow_zero, zpow_one, sub_self, mul_one] at *
  unfold quad cub
  simp only [k1, k2, k3, k4, k5, k6, k7, k8, k9, k11, k29, k31, k38, k39, k40, k41, x2, x3, x4, x5, x8, x21, x23, x29, x30, x31, x32, y3, y6, y10, y17]
  ring

theorem gsum_pos {x y : ℝ} (hx : 0 ≤ x) (hx1 : x ≤ 7.1) (hy : 1 ≤ y) (hy1 : y ≤ 3.86) : 0 < gsum x y coeffs := by
  have hy0 : 0 < y := by linarith
  rw [gsum_eq x y hy0]
  have hv : 0 < y⁻¹ := by positivity
  have hv1 : y⁻¹ ≤ 1 := inv_le_one_of_one_le₀ hy
  have h1 := high_terms (u := x * y⁻¹) (v := y⁻¹) (by positivity) hv hv1 (mul_le_mul_of_nonneg_right hx1 hv.le)
  have h2 : 0.0724 ≤ 0.32529748770505e-1 + 0.18990068218419e-1 * y⁻¹ + 0.21841717175414e-1 * y := by
    have hyv : y * y⁻¹ = 1 := mul_inv_cancel₀ hy0.ne'
    have : 0 ≤ (0.18990068218419e-1 + 0.21841717175414e-1 * y ^ 2 - 0.0399702 * y) * y⁻¹ := by
      refine mul_nonneg ?_ hv.le
      norm_num
      nlinarith [sq_nonneg (y - 0.915)]
    have e : (0.18990068218419e-1 + 0.21841717175414e-1 * y ^ 2 - 0.0399702 * y) * y⁻¹ =
        0.18990068218419e-1 * y⁻¹ + 0.21841717175414e-1 * y - 0.0399702 := by
      field_simp
    rw [e] at this
    norm_num at this ⊢
    linarith
  have h3 : 0 ≤ 0.60706301565874e-3 * y⁻¹ ^ 7 - 0.28319080123804e-3 * y⁻¹ ^ 9 := by
    have e : 0.60706301565874e-3 * y⁻¹ ^ 7 - 0.28319080123804e-3 * y⁻¹ ^ 9 =
      y⁻¹ ^ 7 * (0.60706301565874e-3 - 0.28319080123804e-3 * y⁻¹ ^ 2) := by ring
    rw [e]
    refine mul_nonneg (by positivity) ?_
    have : y⁻¹ ^ 2 ≤ 1 := pow_le_one₀ hv.le hv1
    norm_num at this ⊢
    linarith
  have h4 : 0 ≤ 0.47184321073267e-3 * y⁻¹ ^ 3 + 0.30001780793026e-3 - 0.47661393906987e-4 * y + 0.44141845330846e-5 * y ^ 3 +
      0.72694996297594e-15 * y ^ 17 := by
    have a1 : 0 ≤ 0.47184321073267e-3 * y⁻¹ ^ 3 := by positivity
    have a2 : 0 ≤ 0.44141845330846e-5 * y ^ 3 := by positivity
    have a3 : 0 ≤ 0.72694996297594e-15 * y ^ 17 := by positivity
    have a4 : 0 ≤ 0.30001780793026e-3 - 0.47661393906987e-4 * y := by norm_num at hy1 ⊢; linarith
    linarith
  have h5 := mul_nonneg (mul_nonneg (by norm_num : (0 : ℝ) ≤ 2) hx) h4
  have h6 : 0 ≤ 3 * x ^ 2 * (0.31679644845054e-4 * y⁻¹ ^ 4 + 0.28270797985312e-5 + 0.85205128120103e-9 * y ^ 6) := by positivity
  have h7 : 0 ≤ 4 * x ^ 3 * (0.22425281908000e-5 * y⁻¹ ^ 5 + 0.65171222895601e-6 * y⁻¹ ^ 2 + 0.14341729937924e-12 * y ^ 10) := by positivity
  have h8 : 0 ≤ 5 * x ^ 4 * (0.40516996860117e-6 * y⁻¹ ^ 8) := by positivity
  have h9 : 0 ≤ 8 * x ^ 7 * (0.12734301741641e-8 * y⁻¹ ^ 11 + 0.17424871230634e-9 * y⁻¹ ^ 6) := by positivity
  have h10 : 0 ≤ 0.52838357969930e-4 * y ^ 3 := by positivity
  linarith

end ASAPy.Water
