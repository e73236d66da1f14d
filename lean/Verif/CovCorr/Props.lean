import Verif.CovCorr.Model
import Mathlib.Tactic.Ring
import Mathlib.Tactic.Linarith
import Mathlib.Tactic.NormNum
import Mathlib.Tactic.Positivity

/-! # C39 and C49: conversions between correlation and covariance, and the stored correlation -/

namespace ASAPy.CovCorr
variable {n : Nat}

theorem corrToCov_apply (std : Fin n → ℝ) (corr : Fin n → Fin n → ℝ) (i j : Fin n) :
    corrToCov std corr i j = if i = j then std i ^ 2 else corr (min i j) (max i j) * std (min i j) * std (max i j) := by
  unfold corrToCov covUpper
  by_cases h : i = j
  · subst h; simp
  · rcases lt_or_gt_of_ne h with hl | hl
    · simp [h, hl, Ne.symm h, not_lt.mpr hl.le, min_eq_left hl.le, max_eq_right hl.le]
    · simp [h, hl, Ne.symm h, not_lt.mpr hl.le, min_eq_right hl.le, max_eq_left hl.le]

theorem covToCorr_apply (cov : Fin n → Fin n → ℝ) (i j : Fin n) : covToCorr cov i j =
    if i = j then .fin 1 else Flt.div (cov (min i j) (max i j)) (Real.sqrt |cov i i * cov j j|) := by
  unfold covToCorr corrUpper
  by_cases h : i = j
  · subst h
    simp [Flt.add, Flt.neg]
  · have h0 : Flt.neg (.fin (0 : ℝ)) = .fin 0 := by simp [Flt.neg]
    rcases lt_or_gt_of_ne h with hl | hl
    · simp [h, hl, Ne.symm h, not_lt.mpr hl.le, min_eq_left hl.le, max_eq_right hl.le, h0]
    · simp [h, hl, Ne.symm h, not_lt.mpr hl.le, min_eq_right hl.le, max_eq_left hl.le, h0, mul_comm (cov j j)]

/-- **C39.** The covariance is symmetric, with the variances on its diagonal - whatever is passed as correlation. -/
theorem C39_symmetric (std : Fin n → ℝ) (corr : Fin n → Fin n → ℝ) :
    (∀ i j, corrToCov std corr i j = corrToCov std corr j i) ∧ ∀ i, corrToCov std corr i i = std i ^ 2 := by
  constructor
  · intro i j
    simp only [corrToCov_apply]
    by_cases h : i = j
    · subst h; rfl
    · simp only [h, Ne.symm h, if_false, min_comm i j, max_comm i j]
  · intro i
    simp [corrToCov_apply]

/-- **C39.** Off the diagonal the covariance of a symmetric correlation is corr * std * std. -/
theorem C39_entries (std : Fin n → ℝ) {corr : Fin n → Fin n → ℝ} (hs : ∀ i j, corr i j = corr j i) {i j : Fin n} (h : i ≠ j) :
    corrToCov std corr i j = corr i j * std i * std j := by
  rw [corrToCov_apply, if_neg h]
  rcases lt_or_gt_of_ne h with hl | hl
  · simp [min_eq_left hl.le, max_eq_right hl.le]
  · simp only [min_eq_right hl.le, max_eq_left hl.le, hs i j]; ring

/-- **C39.** From correlation to covariance and back: for positive standard deviations and a symmetric correlation with
unit diagonal. -/
theorem C39_corr_round_trip {std : Fin n → ℝ} {corr : Fin n → Fin n → ℝ} (hpos : ∀ i, 0 < std i)
    (hs : ∀ i j, corr i j = corr j i) (hd : ∀ i, corr i i = 1) (i j : Fin n) :
    covToCorr (corrToCov std corr) i j = .fin (corr i j) := by
  rw [covToCorr_apply]
  by_cases h : i = j
  · subst h; simp [hd]
  · have hne : min i j ≠ max i j := by simpa using h
    have hsq : Real.sqrt |corrToCov std corr i i * corrToCov std corr j j| = std i * std j := by
      rw [(C39_symmetric std corr).2, (C39_symmetric std corr).2, abs_of_nonneg (by positivity), ← mul_pow,
        Real.sqrt_sq (mul_nonneg (hpos i).le (hpos j).le)]
    have hp := mul_pos (hpos i) (hpos j)
    rw [if_neg h, hsq, Flt.div_of_ne hp.ne', C39_entries std hs hne]
    congr 1
    rcases lt_or_gt_of_ne h with hl | hl
    · rw [min_eq_left hl.le, max_eq_right hl.le, mul_assoc, mul_div_cancel_right₀ _ hp.ne']
    · rw [min_eq_right hl.le, max_eq_left hl.le, mul_assoc, mul_comm (std j), mul_div_cancel_right₀ _ hp.ne', hs]

/-- **C39.** From covariance to correlation and back, for a symmetric covariance with positive diagonal: all entries of the
correlation are finite numbers `corr`, symmetric with unit diagonal, and give the covariance back with the square roots of its
diagonal. -/
theorem C39_cov_round_trip {cov : Fin n → Fin n → ℝ} (hs : ∀ i j, cov i j = cov j i) (hpos : ∀ i, 0 < cov i i) :
    ∃ corr : Fin n → Fin n → ℝ, (∀ i j, covToCorr cov i j = .fin (corr i j)) ∧ (∀ i j, corr i j = corr j i) ∧
      (∀ i, corr i i = 1) ∧ ∀ i j, corrToCov (fun i => Real.sqrt (cov i i)) corr i j = cov i j := by
  have hsq : ∀ i j, Real.sqrt |cov i i * cov j j| = Real.sqrt (cov i i) * Real.sqrt (cov j j) := by
    intro i j
    rw [abs_of_pos (mul_pos (hpos i) (hpos j)), Real.sqrt_mul (hpos i).le]
  have hsp : ∀ i, 0 < Real.sqrt (cov i i) := fun i => Real.sqrt_pos.mpr (hpos i)
  have hm : ∀ i j, cov (min i j) (max i j) = cov i j := by
    intro i j
    rcases le_total i j with hl | hl
    · rw [min_eq_left hl, max_eq_right hl]
    · rw [min_eq_right hl, max_eq_left hl, hs]
  let corr : Fin n → Fin n → ℝ := fun i j => if i = j then 1 else cov i j / (Real.sqrt (cov i i) * Real.sqrt (cov j j))
  have hcs : ∀ i j, corr i j = corr j i := by
    intro i j
    simp only [corr, eq_comm (a := j) (b := i), hs i j, mul_comm]
  refine ⟨corr, ?_, hcs, fun i => by simp [corr], ?_⟩
  · intro i j
    rw [covToCorr_apply, hsq, hm]
    simp only [corr]
    split_ifs
    · rfl
    · rw [Flt.div_of_ne (mul_pos (hsp i) (hsp j)).ne']
  · intro i j
    by_cases h : i = j
    · subst h
      rw [(C39_symmetric _ _).2, Real.sq_sqrt (hpos i).le]
    · rw [C39_entries _ hcs h]
      simp only [corr, if_neg h]
      rw [mul_assoc, div_mul_cancel₀ _ (mul_pos (hsp i) (hsp j)).ne']

example : ∃ (std : Fin 2 → ℝ) (corr : Fin 2 → Fin 2 → ℝ), (∀ i, 0 < std i) ∧ (∀ i j, corr i j = corr j i) ∧
    (∀ i, corr i i = 1) ∧ corrToCov std corr 0 1 = 3 := by
  refine ⟨![2, 3], fun i j => if i = j then 1 else 1/2, ?_, ?_, ?_, ?_⟩
  · intro i; fin_cases i <;> norm_num
  · intro i j; simp [eq_comm]
  · intro i; simp
  · rw [corrToCov_apply]; simp

/-! ### C49 -/

theorem clip_range (x : Flt ℝ) : x.isNan = true ∨ ∃ y, clip x = .fin y ∧ -1 ≤ y ∧ y ≤ 1 := by
  cases x with
  | nan => left; rfl
  | pinf => right; exact ⟨1, by norm_num [clip, Flt.lt], by norm_num, le_rfl⟩
  | ninf => right; exact ⟨-1, by norm_num [clip, Flt.lt], le_rfl, by norm_num⟩
  | fin x =>
    right
    by_cases h1 : 1 < x
    · exact ⟨1, by norm_num [clip, Flt.lt, h1], by norm_num, le_rfl⟩
    · by_cases h2 : x < -1
      · exact ⟨-1, by simp [clip, Flt.lt, h1, h2], le_rfl, by norm_num⟩
      · exact ⟨x, by simp [clip, Flt.lt, h1, h2], not_lt.mp h2, not_lt.mp h1⟩

theorem covToCorr_symm {cov : Fin n → Fin n → ℝ} (i j : Fin n) :
    covToCorr cov i j = covToCorr cov j i := by
  simp only [covToCorr_apply]
  by_cases h : i = j
  · subst h; rfl
  · simp only [h, Ne.symm h, if_false, min_comm i j, max_comm i j, mul_comm (cov i i)]

/-- **C49.** For every covariance matrix (with zero or negative variances, not even symmetric) the stored correlation
consists of numbers in [-1, 1], is symmetric and has a unit diagonal. -/
theorem C49_stored_is_proper (cov : Fin n → Fin n → ℝ) : ∃ c : Fin n → Fin n → ℝ,
    (∀ i j, storedCorr cov i j = .fin (c i j)) ∧ (∀ i j, -1 ≤ c i j ∧ c i j ≤ 1) ∧ (∀ i j, c i j = c j i) ∧ ∀ i, c i i = 1 := by
  have hex : ∀ i j, ∃ y, storedCorr cov i j = .fin y ∧ -1 ≤ y ∧ y ≤ 1 := by
    intro i j
    unfold storedCorr
    split_ifs with h
    · rcases clip_range (covToCorr cov i j) with hn | ⟨y, hy, h1, h2⟩
      · refine ⟨0, ?_, by norm_num, by norm_num⟩
        cases hc : covToCorr cov i j <;> rw [hc] at hn <;> simp [Flt.isNan] at hn
        norm_num [clip, Flt.lt, fillna, Flt.isNan]
      · exact ⟨y, by rw [hy]; simp [fillna, Flt.isNan], h1, h2⟩
    · push Not at h
      obtain ⟨h1, h2⟩ := h i j
      cases hc : covToCorr cov i j with
      | nan => exact ⟨0, by simp [fillna, Flt.isNan], by norm_num, by norm_num⟩
      | pinf => rw [hc] at h1; simp [Flt.lt] at h1
      | ninf => rw [hc] at h2; simp [Flt.lt] at h2
      | fin x =>
        rw [hc] at h1 h2
        simp [Flt.lt] at h1 h2
        exact ⟨x, by simp [fillna, Flt.isNan], h2, h1⟩
  choose c hc using hex
  refine ⟨c, fun i j => (hc i j).1, fun i j => (hc i j).2, ?_, ?_⟩
  · intro i j
    have h1 := (hc i j).1
    have h2 := (hc j i).1
    unfold storedCorr at h1 h2
    rw [covToCorr_symm i j] at h1
    rw [h1] at h2
    exact Flt.fin.inj h2
  · intro i
    have h := (hc i i).1
    have : covToCorr cov i i = .fin 1 := by simp [covToCorr_apply]
    unfold storedCorr at h
    rw [this] at h
    have h1 : fillna (clip (.fin (1 : ℝ))) = .fin 1 := by norm_num [clip, Flt.lt, fillna, Flt.isNan]
    have h2 : fillna (.fin (1 : ℝ)) = .fin 1 := by simp [fillna, Flt.isNan]
    rw [h1, h2, ite_self] at h
    exact (Flt.fin.inj h).symm

/-- The covariance is positive semidefinite on each pair of groups: `cov_ij² ≤ cov_ii cov_jj`. -/
def PairwisePSD (cov : Fin n → Fin n → ℝ) : Prop := ∀ i j, cov i j ^ 2 ≤ cov i i * cov j j

/-- **C49.** Nothing is lost for a proper covariance: with positive variances and `cov_ij² ≤ cov_ii cov_jj` the stored
correlation gives the covariance back. -/
theorem C49_nothing_lost {cov : Fin n → Fin n → ℝ} (hs : ∀ i j, cov i j = cov j i) (hpos : ∀ i, 0 < cov i i)
    (hpsd : PairwisePSD cov) : ∃ c : Fin n → Fin n → ℝ, (∀ i j, storedCorr cov i j = .fin (c i j)) ∧
      ∀ i j, corrToCov (fun i => Real.sqrt (cov i i)) c i j = cov i j := by
  obtain ⟨corr, h1, h2, h3, h4⟩ := C39_cov_round_trip hs hpos
  refine ⟨corr, ?_, h4⟩
  have hle : ∀ i j, |corr i j| ≤ 1 := by
    intro i j
    by_cases h : i = j
    · subst h; rw [h3]; norm_num
    · have h5 := h4 i j
      rw [C39_entries _ h2 h] at h5
      have h6 := hpsd i j
      have hi := hpos i
      have hj := hpos j
      rw [← h5] at h6
      have h7 : (corr i j * Real.sqrt (cov i i) * Real.sqrt (cov j j)) ^ 2 = corr i j ^ 2 * (cov i i * cov j j) := by
        rw [mul_pow, mul_pow, Real.sq_sqrt hi.le, Real.sq_sqrt hj.le]; ring
      rw [h7] at h6
      have hp := mul_pos hi hj
      have : corr i j ^ 2 ≤ 1 := by
        by_contra hc
        push Not at hc
        nlinarith
      exact (sq_le_one_iff_abs_le_one _).mp this
  intro i j
  unfold storedCorr
  have hno : ¬ ∃ i j, Flt.lt (.fin 1) (covToCorr cov i j) ∨ Flt.lt (covToCorr cov i j) (.fin (-1)) := by
    rintro ⟨i, j, h⟩
    rw [h1] at h
    have := abs_le.mp (hle i j)
    simp [Flt.lt] at h
    rcases h with h | h <;> linarith
  rw [if_neg hno, h1]
  simp [fillna, Flt.isNan]

example : ∃ cov : Fin 2 → Fin 2 → ℝ, (∀ i j, cov i j = cov j i) ∧ (∀ i, 0 < cov i i) ∧ PairwisePSD cov ∧ cov 0 1 = 1 := by
  refine ⟨fun i j => if i = j then 4 else 1, fun i j => by simp [eq_comm], fun i => by norm_num, ?_, by simp⟩
  intro i j
  by_cases h : i = j <;> simp [h] <;> norm_num

end ASAPy.CovCorr
