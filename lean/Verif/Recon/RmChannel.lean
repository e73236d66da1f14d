import Verif.Recon.Bw
import Mathlib.LinearAlgebra.Matrix.ToLinearEquiv
import Mathlib.Analysis.SpecialFunctions.Trigonometric.Bounds
import Mathlib.Analysis.Complex.Trigonometric

/-!
# A channel of Reich-Moore: no more comes out than goes in
-/

namespace ASAPy.Recon
open Spec Complex

noncomputable section

/-- The quadratic form of the matrix K. -/
def form (t : KState) (y0 y1 y2 : ℂ) : ℂ :=
  (starRingEnd ℂ) y0 * (t.k00 * y0 + t.k01 * y1 + t.k02 * y2) + (starRingEnd ℂ) y1 * (t.k01 * y0 + t.k11 * y1 + t.k12 * y2) +
    (starRingEnd ℂ) y2 * (t.k02 * y0 + t.k12 * y1 + t.k22 * y2)

/-- The real part of K is not positive. -/
def Dissipative (t : KState) : Prop := ∀ y0 y1 y2, (form t y0 y1 y2).re ≤ 0

theorem dissipative_zero : Dissipative ⟨0, 0, 0, 0, 0, 0, false⟩ := by
  intro y0 y1 y2
  simp [form]

theorem factor_re {D g : ℝ} (hg : 0 ≤ g) : ((0.5 * I / ((D : ℂ) - 0.5 * I * g)) : ℂ).re ≤ 0 := by
  rw [div_re]
  have e1 : ((0.5 : ℂ) * I).re = 0 := by norm_num
  have e2 : ((0.5 : ℂ) * I).im = 1 / 2 := by norm_num
  have e3 : ((D : ℂ) - 0.5 * I * g).im = -(g / 2) := by
    simp only [sub_im, mul_im, mul_re, ofReal_im, ofReal_re, e1, e2]; ring
  rw [e1, e2, e3]
  have : 0 ≤ normSq ((D : ℂ) - 0.5 * I * g) := normSq_nonneg _
  have h : (1 / 2 * -(g / 2)) / normSq ((D : ℂ) - 0.5 * I * g) ≤ 0 := div_nonpos_of_nonpos_of_nonneg (by linarith) this
  rw [zero_mul, zero_div, zero_add]
  exact h

theorem form_add (t : KState) (c : ℂ) (v0 v1 v2 : ℝ) (fis : Bool) (y0 y1 y2 : ℂ) :
    form ⟨t.k00 + v0 * v0 * c, t.k01 + v0 * v1 * c, t.k02 + v0 * v2 * c, t.k11 + v1 * v1 * c, t.k12 + v1 * v2 * c, t.k22 + v2 * v2 * c, fis⟩ y0 y1 y2 =
      form t y0 y1 y2 + c * ((normSq (v0 * y0 + v1 * y1 + v2 * y2) : ℝ) : ℂ) := by
  rw [normSq_eq_conj_mul_self]
  simp only [form, map_add, map_mul, conj_ofReal]
  ring

theorem dissipative_add {t : KState} (h : Dissipative t) {c : ℂ} (hc : c.re ≤ 0) (v0 v1 v2 : ℝ) (fis : Bool) :
    Dissipative ⟨t.k00 + v0 * v0 * c, t.k01 + v0 * v1 * c, t.k02 + v0 * v2 * c, t.k11 + v1 * v1 * c, t.k12 + v1 * v2 * c, t.k22 + v2 * v2 * c, fis⟩ := by
  intro y0 y1 y2
  rw [form_add, add_re, re_mul_ofReal]
  have := h y0 y1 y2
  have := mul_nonpos_of_nonpos_of_nonneg hc (normSq_nonneg (v0 * y0 + v1 * y1 + v2 * y2))
  linarith

theorem rmRow_eq (E P a b s : ℝ) (l : ℤ) (t : KState) (q : RmPrep) :
    rmRow E P a b s l t q = if 0 < l ∧ ((q.j < 0 ∧ s ≠ a) ∨ (0 < q.j ∧ s ≠ b)) then t else
      ⟨t.k00 + (√(P * q.gn / q.p) : ℝ) * (√(P * q.gn / q.p) : ℝ) * (0.5 * I / ((q.energy : ℂ) - E - 0.5 * I * q.gg)),
        t.k01 + (√(P * q.gn / q.p) : ℝ) * (signedRoot q.gfa : ℝ) * (0.5 * I / ((q.energy : ℂ) - E - 0.5 * I * q.gg)),
        t.k02 + (√(P * q.gn / q.p) : ℝ) * (signedRoot q.gfb : ℝ) * (0.5 * I / ((q.energy : ℂ) - E - 0.5 * I * q.gg)),
        t.k11 + (signedRoot q.gfa : ℝ) * (signedRoot q.gfa : ℝ) * (0.5 * I / ((q.energy : ℂ) - E - 0.5 * I * q.gg)),
        t.k12 + (signedRoot q.gfa : ℝ) * (signedRoot q.gfb : ℝ) * (0.5 * I / ((q.energy : ℂ) - E - 0.5 * I * q.gg)),
        t.k22 + (signedRoot q.gfb : ℝ) * (signedRoot q.gfb : ℝ) * (0.5 * I / ((q.energy : ℂ) - E - 0.5 * I * q.gg)),
        decide (q.gfa ≠ 0 ∨ q.gfb ≠ 0) || t.fission⟩ := by
  unfold rmRow
  split
  · rfl
  · simp only []
    split
    · rename_i h
      simp [h]
    · rename_i h
      rw [not_or, not_not, not_not] at h
      have z : signedRoot 0 = 0 := by simp [signedRoot]
      simp [h.1, h.2, z]

theorem dissipative_row {E P a b s : ℝ} {l : ℤ} {t : KState} (h : Dissipative t) {q : RmPrep} (hg : 0 ≤ q.gg) : Dissipative (rmRow E P a b s l t q) := by
  rw [rmRow_eq]
  split
  · exact h
  · have hc := factor_re (D := q.energy - E) hg
    rw [ofReal_sub] at hc
    generalize (0.5 * I / ((q.energy : ℂ) - E - 0.5 * I * q.gg)) = c at hc ⊢
    exact dissipative_add h hc (√(P * q.gn / q.p)) (signedRoot q.gfa) (signedRoot q.gfb) _

theorem dissipative_rows {E P a b s : ℝ} {l : ℤ} (rows : List RmPrep) : ∀ (t : KState), Dissipative t → (∀ q ∈ rows, 0 ≤ q.gg) →
    Dissipative (rows.foldl (rmRow E P a b s l) t) := by
  induction rows with
  | nil => intro t h _; exact h
  | cons q rows ih =>
    intro t h hq
    exact ih _ (dissipative_row h (hq q List.mem_cons_self)) fun r hr => hq r (List.mem_cons_of_mem _ hr)

/-! ### With fission -/

theorem form_mulVec (t : KState) (y : Fin 3 → ℂ) : form t (y 0) (y 1) (y 2) =
    (starRingEnd ℂ) (y 0) * (t.matrix.mulVec y) 0 + (starRingEnd ℂ) (y 1) * (t.matrix.mulVec y) 1 + (starRingEnd ℂ) (y 2) * (t.matrix.mulVec y) 2 := by
  simp [form, KState.matrix, Matrix.mulVec, dotProduct, Fin.sum_univ_three]

theorem det_ne {t : KState} (h : Dissipative t) : (1 - t.matrix).det ≠ 0 := by
  intro h0
  obtain ⟨y, hy, e⟩ := Matrix.exists_mulVec_eq_zero_iff.mpr h0
  rw [Matrix.sub_mulVec, Matrix.one_mulVec, sub_eq_zero] at e
  have hf := h (y 0) (y 1) (y 2)
  rw [form_mulVec, ← e] at hf
  simp only [add_re, ← normSq_eq_conj_mul_self, ofReal_re] at hf
  have n0 := normSq_nonneg (y 0)
  have n1 := normSq_nonneg (y 1)
  have n2 := normSq_nonneg (y 2)
  apply hy
  funext i
  have z0 : y 0 = 0 := normSq_eq_zero.mp (by linarith)
  have z1 : y 1 = 0 := normSq_eq_zero.mp (by linarith)
  have z2 : y 2 = 0 := normSq_eq_zero.mp (by linarith)
  fin_cases i
  · exact z0
  · exact z1
  · exact z2

/-- The first column of the inverse. -/
theorem column {t : KState} (h : Dissipative t) : normSq ((1 - t.matrix)⁻¹ 0 0) + normSq ((1 - t.matrix)⁻¹ 1 0) + normSq ((1 - t.matrix)⁻¹ 2 0) ≤ ((1 - t.matrix)⁻¹ 0 0).re := by
  have hu : IsUnit (1 - t.matrix).det := isUnit_iff_ne_zero.mpr (det_ne h)
  have e : (1 - t.matrix).mulVec (fun i => (1 - t.matrix)⁻¹ i 0) = fun i => (1 : Matrix (Fin 3) (Fin 3) ℂ) i 0 := by
    have := Matrix.mul_nonsing_inv _ hu
    funext i
    exact congrFun (congrFun this i) 0
  rw [Matrix.sub_mulVec, Matrix.one_mulVec, sub_eq_iff_eq_add] at e
  set y : Fin 3 → ℂ := fun i => (1 - t.matrix)⁻¹ i 0 with hy
  have e0 := congrFun e 0
  have e1 := congrFun e 1
  have e2 := congrFun e 2
  simp only [Pi.add_apply] at e0 e1 e2
  have o0 : (1 : Matrix (Fin 3) (Fin 3) ℂ) 0 0 = 1 := rfl
  have o1 : (1 : Matrix (Fin 3) (Fin 3) ℂ) 1 0 = 0 := by simp
  have o2 : (1 : Matrix (Fin 3) (Fin 3) ℂ) 2 0 = 0 := by simp
  rw [o0] at e0
  rw [o1, zero_add] at e1
  rw [o2, zero_add] at e2
  have hf := h (y 0) (y 1) (y 2)
  rw [form_mulVec, ← e1, ← e2, show t.matrix.mulVec y 0 = y 0 - 1 from by rw [e0]; ring, mul_sub, mul_one] at hf
  simp only [add_re, sub_re, ← normSq_eq_conj_mul_self, ofReal_re, conj_re] at hf
  show normSq (y 0) + normSq (y 1) + normSq (y 2) ≤ (y 0).re
  linarith

theorem norm_ubar (φ : ℝ) : ‖exp (-2 * I * φ)‖ = 1 := by
  have : -2 * I * (φ : ℂ) = ((-2 * φ : ℝ) : ℂ) * I := by push_cast; ring
  rw [this, norm_exp_ofReal_mul_I]

theorem normSq_ubar_mul (φ : ℝ) (w : ℂ) : normSq (exp (-2 * I * φ) * w) = normSq w := by
  rw [normSq_mul, normSq_eq_norm_sq, norm_ubar]
  simp

theorem normSq_one_sub (u : ℂ) : ‖1 - u‖ ^ 2 = 1 - 2 * u.re + normSq u := by
  rw [← normSq_eq_norm_sq, normSq_apply, normSq_apply]
  simp
  ring

/-- What is left for capture in a channel, and the limits of unitarity. -/
theorem channel_fission {t : KState} (h : Dissipative t) (hf : t.fission = true) (Isp φ J : ℝ) (hg : 0 ≤ (2 * J + 1) / (4 * Isp + 2)) :
    ∃ d, rmChannel Isp φ J t = .ok d ∧ 0 ≤ d.elastic ∧ 0 ≤ d.fission ∧ 0 ≤ d.total - d.elastic - d.fission ∧
      d.elastic ≤ 4 * ((2 * J + 1) / (4 * Isp + 2)) ∧ d.total - d.elastic ≤ (2 * J + 1) / (4 * Isp + 2) := by
  unfold rmChannel
  rw [hf]
  simp only [if_true]
  rw [if_neg (det_ne h)]
  have hc := column h
  set im := (1 - t.matrix)⁻¹
  set g := (2 * J + 1) / (4 * Isp + 2)
  set u := exp (-2 * I * φ) * (2 * im 0 0 - 1) with hu
  have nu : normSq u = 4 * normSq (im 0 0) - 4 * (im 0 0).re + 1 := by
    rw [hu, normSq_ubar_mul, normSq_apply, normSq_apply]
    simp
    ring
  have n1 := normSq_nonneg (im 1 0)
  have n2 := normSq_nonneg (im 2 0)
  have n0 := normSq_nonneg u
  have hre : |u.re| ≤ 1 := by
    have : u.re ^ 2 ≤ 1 := by
      have := normSq_apply u
      nlinarith [sq_nonneg u.im]
    exact abs_le_one_iff_mul_self_le_one.mpr (by nlinarith)
  have hre' := abs_le.mp hre
  refine ⟨_, rfl, mul_nonneg hg (by positivity), by positivity, ?_, ?_, ?_⟩
  · simp only []
    rw [normSq_one_sub, ← normSq_eq_norm_sq, ← normSq_eq_norm_sq, nu]
    have : 2 * g * (1 - u.re) - g * (1 - 2 * u.re + (4 * normSq (im 0 0) - 4 * (im 0 0).re + 1)) - 4 * g * (normSq (im 1 0) + normSq (im 2 0)) =
        g * (4 * ((im 0 0).re - (normSq (im 0 0) + normSq (im 1 0) + normSq (im 2 0)))) := by ring
    rw [this]
    exact mul_nonneg hg (by linarith)
  · simp only []
    rw [normSq_one_sub, mul_comm 4 g]
    exact mul_le_mul_of_nonneg_left (by nlinarith) hg
  · simp only []
    rw [normSq_one_sub]
    nlinarith

/-! ### Without fission -/

theorem k00_re {t : KState} (h : Dissipative t) : t.k00.re ≤ 0 := by
  have := h 1 0 0
  simpa [form] using this

/-- `(1 + K)/(1 - K)`, real and imaginary parts. -/
theorem w_parts {K : ℂ} (h : K.re ≤ 0) : ((2 / (1 - K) - 1 : ℂ)).re = (1 - normSq K) / ((1 - K.re) * (1 - K.re) + K.im * K.im) ∧
    ((2 / (1 - K) - 1 : ℂ)).im = 2 * K.im / ((1 - K.re) * (1 - K.re) + K.im * K.im) ∧ 0 < (1 - K.re) * (1 - K.re) + K.im * K.im := by
  have hD : 0 < (1 - K.re) * (1 - K.re) + K.im * K.im := by nlinarith [mul_self_nonneg K.im, mul_self_nonneg K.re]
  have e : normSq (1 - K) = (1 - K.re) * (1 - K.re) + K.im * K.im := by rw [normSq_apply]; simp
  refine ⟨?_, ?_, hD⟩
  · rw [sub_re, div_re, e, one_re]
    simp only [sub_re, sub_im, one_re, one_im]
    rw [normSq_apply]
    have h2 : (2 : ℂ).re = 2 := rfl
    have h3 : (2 : ℂ).im = 0 := rfl
    rw [h2, h3, ← add_div, div_sub' hD.ne', zero_mul, add_zero]
    congr 1
    ring
  · rw [sub_im, div_im, e, one_im]
    simp only [sub_re, sub_im, one_re, one_im]
    have h2 : (2 : ℂ).re = 2 := rfl
    have h3 : (2 : ℂ).im = 0 := rfl
    rw [h2, h3, ← sub_div, zero_mul, zero_sub, sub_zero]
    congr 1
    ring

theorem normSq_w {K : ℂ} (h : K.re ≤ 0) : normSq (2 / (1 - K) - 1) ≤ 1 := by
  obtain ⟨e1, e2, hD⟩ := w_parts h
  rw [normSq_apply, e1, e2, normSq_apply]
  rw [div_mul_div_comm, div_mul_div_comm, ← add_div, div_le_one (by positivity)]
  nlinarith [mul_self_nonneg K.im, mul_self_nonneg K.re, mul_self_nonneg (K.re * K.im)]

theorem ubar_mul (φ : ℝ) (w : ℂ) : (exp (-2 * I * φ) * w).re = Real.cos (2 * φ) * w.re + Real.sin (2 * φ) * w.im := by
  have : -2 * I * (φ : ℂ) = ((-(2 * φ) : ℝ) : ℂ) * I := by push_cast; ring
  rw [this, mul_re, exp_ofReal_mul_I_re, exp_ofReal_mul_I_im, Real.cos_neg, Real.sin_neg]
  ring

/-- `x` of the series and `1 - Re U`. -/
theorem series_eq {K : ℂ} (h : K.re ≤ 0) (φ : ℝ) :
    2 * (-K.re + (K.re * K.re + K.im * K.im) * (1 - φ * φ) + φ * φ - Real.sin (2 * φ) * K.im) / ((1 - K.re) * (1 - K.re) + K.im * K.im) -
      (1 - (exp (-2 * I * φ) * (2 / (1 - K) - 1)).re) =
      (Real.cos (2 * φ) - (1 - (2 * φ) ^ 2 / 2)) * ((1 - (K.re * K.re + K.im * K.im)) / ((1 - K.re) * (1 - K.re) + K.im * K.im)) := by
  obtain ⟨e1, e2, hD⟩ := w_parts h
  rw [ubar_mul, e1, e2, normSq_apply]
  set D := (1 - K.re) * (1 - K.re) + K.im * K.im with hDd
  field_simp
  rw [hDd]
  ring

/-- In the range of the series, `x` is close to `1 - Re U`. -/
theorem series_close {K : ℂ} (h : K.re ≤ 0) {φ : ℝ} (hφ : |φ| < 3e-4) :
    |2 * (-K.re + (K.re * K.re + K.im * K.im) * (1 - φ * φ) + φ * φ - Real.sin (2 * φ) * K.im) / ((1 - K.re) * (1 - K.re) + K.im * K.im) -
      (1 - (exp (-2 * I * φ) * (2 / (1 - K) - 1)).re)| ≤ φ ^ 4 := by
  rw [series_eq h]
  obtain ⟨-, -, hD⟩ := w_parts h
  have hy : |2 * φ| ≤ 1 := by rw [abs_mul, abs_two]; linarith
  have hb := Real.cos_bound hy
  set D := (1 - K.re) * (1 - K.re) + K.im * K.im with hDd
  rw [abs_mul]
  have hr : |(1 - (K.re * K.re + K.im * K.im)) / D| ≤ 1 := by
    rw [abs_div, abs_of_pos hD, div_le_one hD, abs_le]
    constructor <;> rw [hDd] <;> nlinarith [mul_self_nonneg K.re, mul_self_nonneg K.im]
  have h4 : |2 * φ| ^ 4 = 16 * φ ^ 4 := by
    rw [abs_mul, mul_pow, abs_two]
    have : |φ| ^ 4 = φ ^ 4 := by
      rw [show (4 : ℕ) = 2 * 2 from rfl, pow_mul, pow_mul, sq_abs]
    rw [this]; norm_num
  calc _ ≤ |2 * φ| ^ 4 * (5 / 96) * 1 := mul_le_mul hb hr (abs_nonneg _) (by positivity)
    _ ≤ φ ^ 4 := by rw [h4]; nlinarith [sq_nonneg (φ ^ 2)]

theorem normSq_u {K : ℂ} (h : K.re ≤ 0) (φ : ℝ) : normSq (exp (-2 * I * φ) * (2 / (1 - K) - 1)) ≤ 1 := by
  rw [normSq_ubar_mul]
  exact normSq_w h

theorem re_bounds {u : ℂ} (h : normSq u ≤ 1) : -1 ≤ u.re ∧ u.re ≤ 1 := by
  have h2 := normSq_apply u
  constructor <;> nlinarith [mul_self_nonneg u.im]

/-- Without fission: capture is not negative, up to the error of the series. -/
theorem channel_plain {t : KState} (h : Dissipative t) (hf : t.fission = false) (Isp φ J : ℝ) (hg : 0 ≤ (2 * J + 1) / (4 * Isp + 2)) :
    ∃ d, rmChannel Isp φ J t = .ok d ∧ 0 ≤ d.elastic ∧ d.fission = 0 ∧ -(25e-15 * ((2 * J + 1) / (4 * Isp + 2))) ≤ d.total - d.elastic ∧
      (3e-4 ≤ |φ| → 0 ≤ d.total - d.elastic ∧ d.elastic ≤ 4 * ((2 * J + 1) / (4 * Isp + 2)) ∧ d.total - d.elastic ≤ (2 * J + 1) / (4 * Isp + 2)) := by
  unfold rmChannel
  rw [hf]
  simp only [Bool.false_eq_true, if_false]
  have hk := k00_re h
  have hu := normSq_u hk φ
  have hc := fun h' => series_close hk (φ := φ) h'
  set g := (2 * J + 1) / (4 * Isp + 2)
  set u := exp (-2 * I * φ) * (2 / (1 - t.k00) - 1)
  have hre := re_bounds hu
  have hn := normSq_apply u
  split
  · rename_i hs
    specialize hc hs.2
    set x := 2 * (-t.k00.re + (t.k00.re * t.k00.re + t.k00.im * t.k00.im) * (1 - φ * φ) + φ * φ - Real.sin (2 * φ) * t.k00.im) /
      ((1 - t.k00.re) * (1 - t.k00.re) + t.k00.im * t.k00.im)
    refine ⟨_, rfl, mul_nonneg hg (by nlinarith [mul_self_nonneg x, sq_nonneg u.im]), rfl, ?_, fun h' => absurd hs.2 (not_lt.mpr h')⟩
    have hφ4 : φ ^ 4 ≤ 81e-16 := by
      have h2 : φ ^ 2 ≤ 9e-8 := by
        rw [← sq_abs]
        nlinarith [abs_nonneg φ, hs.2]
      have : φ ^ 4 = φ ^ 2 * φ ^ 2 := by ring
      rw [this]
      nlinarith [sq_nonneg φ]
    obtain ⟨c1, c2⟩ := abs_le.mp hc
    have key : -25e-15 ≤ 2 * x - x * x - u.im ^ 2 := by
      have : 2 * x - x * x - u.im ^ 2 = (1 - normSq u) + (x - (1 - u.re)) * (2 * u.re - (x - (1 - u.re))) := by rw [hn]; ring
      rw [this]
      set δ := x - (1 - u.re)
      have h1 : |δ * (2 * u.re - δ)| ≤ 81e-16 * 3 := by
        rw [abs_mul]
        apply mul_le_mul (hc.trans hφ4) _ (abs_nonneg _) (by norm_num)
        rw [abs_le]
        constructor <;> nlinarith
      have := (abs_le.mp h1).1
      norm_num at this ⊢
      linarith
    simp only []
    have : 2 * g * x - g * (x * x + u.im ^ 2) = g * (2 * x - x * x - u.im ^ 2) := by ring
    rw [this]
    have := mul_le_mul_of_nonneg_left key hg
    linarith
  · have e1 : 2 * g * (1 - u.re) - g * ‖1 - u‖ ^ 2 = g * (1 - normSq u) := by rw [normSq_one_sub]; ring
    have h0 : 0 ≤ 2 * g * (1 - u.re) - g * ‖1 - u‖ ^ 2 := by rw [e1]; exact mul_nonneg hg (by linarith)
    refine ⟨_, rfl, mul_nonneg hg (by positivity), rfl, ?_, fun _ => ⟨h0, ?_, ?_⟩⟩
    · simp only []
      have : 0 ≤ 25e-15 * g := by positivity
      linarith
    · simp only []
      rw [normSq_one_sub, mul_comm 4 g]
      exact mul_le_mul_of_nonneg_left (by linarith) hg
    · simp only []
      rw [e1]
      nlinarith [normSq_nonneg u]

end
end ASAPy.Recon
