import Verif.Recon.Spec
import Mathlib.Tactic.FieldSimp
import Mathlib.Tactic.Positivity
import Mathlib.Tactic.IntervalCases
import Mathlib.Tactic.LinearCombination

/-!
# The functions of the code are those of the recursion, for l up to 4
-/

namespace ASAPy.Recon
open Spec

theorem outer_one (ρ : ℝ) : outer 1 ρ = (ρ ^ 3 / (1 + ρ ^ 2), -1 / (1 + ρ ^ 2)) := by
  have h : (1 + ρ ^ 2 : ℝ) ≠ 0 := by positivity
  have e : ((0:ℕ) + 1 - 0 : ℝ) ^ 2 + ρ ^ 2 = 1 + ρ ^ 2 := by norm_num
  simp only [outer]
  rw [e]
  refine Prod.ext ?_ ?_ <;> simp only [] <;> field_simp <;> push_cast <;> ring

theorem outer_succ {l : ℕ} {ρ n d m : ℝ} (h : outer l ρ = (n / d, -m / d)) (hd : d ≠ 0) :
    outer (l + 1) ρ = (ρ ^ 2 * (n * d) / (((l + 1) * d + m) ^ 2 + n ^ 2), ρ ^ 2 * (((l + 1) * d + m) * d) / (((l + 1) * d + m) ^ 2 + n ^ 2) - (l + 1)) := by
  simp only [outer, h]
  have e : ((l + 1 - -m / d) ^ 2 + (n / d) ^ 2 : ℝ) = (((l + 1) * d + m) ^ 2 + n ^ 2) / d ^ 2 := by field_simp; ring
  rw [e]
  refine Prod.ext ?_ ?_ <;> simp only []
  · by_cases h0 : (((l + 1) * d + m) ^ 2 + n ^ 2 : ℝ) = 0
    · simp [h0]
    · field_simp
  · by_cases h0 : (((l + 1) * d + m) ^ 2 + n ^ 2 : ℝ) = 0
    · simp [h0]
    · field_simp; ring

theorem outer_two (ρ : ℝ) : outer 2 ρ = (ρ ^ 5 / (9 + 3 * ρ ^ 2 + ρ ^ 4), -(18 + 3 * ρ ^ 2) / (9 + 3 * ρ ^ 2 + ρ ^ 4)) := by
  have h : (1 + ρ ^ 2 : ℝ) ≠ 0 := by positivity
  have h9 : (9 + 3 * ρ ^ 2 + ρ ^ 4 : ℝ) ≠ 0 := by positivity
  rw [outer_succ (outer_one ρ) h]
  have e : ((((1:ℕ) : ℝ) + 1) * (1 + ρ ^ 2) + 1) ^ 2 + (ρ ^ 3) ^ 2 = (9 + 3 * ρ ^ 2 + ρ ^ 4) * (1 + ρ ^ 2) := by push_cast; ring
  rw [e]
  refine Prod.ext ?_ ?_ <;> simp only [] <;> field_simp <;> push_cast <;> ring

theorem outer_three (ρ : ℝ) : outer 3 ρ = (ρ ^ 7 / (225 + 45 * ρ ^ 2 + 6 * ρ ^ 4 + ρ ^ 6), -(675 + 90 * ρ ^ 2 + 6 * ρ ^ 4) / (225 + 45 * ρ ^ 2 + 6 * ρ ^ 4 + ρ ^ 6)) := by
  have h : (9 + 3 * ρ ^ 2 + ρ ^ 4 : ℝ) ≠ 0 := by positivity
  have h9 : (225 + 45 * ρ ^ 2 + 6 * ρ ^ 4 + ρ ^ 6 : ℝ) ≠ 0 := by positivity
  rw [outer_succ (outer_two ρ) h]
  have e : ((((2:ℕ) : ℝ) + 1) * (9 + 3 * ρ ^ 2 + ρ ^ 4) + (18 + 3 * ρ ^ 2)) ^ 2 + (ρ ^ 5) ^ 2 =
      (225 + 45 * ρ ^ 2 + 6 * ρ ^ 4 + ρ ^ 6) * (9 + 3 * ρ ^ 2 + ρ ^ 4) := by push_cast; ring
  rw [e]
  refine Prod.ext ?_ ?_ <;> simp only [] <;> field_simp <;> push_cast <;> ring

theorem outer_four (ρ : ℝ) : outer 4 ρ = (ρ ^ 9 / (11025 + 1575 * ρ ^ 2 + 135 * ρ ^ 4 + 10 * ρ ^ 6 + ρ ^ 8),
    -(44100 + 4725 * ρ ^ 2 + 270 * ρ ^ 4 + 10 * ρ ^ 6) / (11025 + 1575 * ρ ^ 2 + 135 * ρ ^ 4 + 10 * ρ ^ 6 + ρ ^ 8)) := by
  have h : (225 + 45 * ρ ^ 2 + 6 * ρ ^ 4 + ρ ^ 6 : ℝ) ≠ 0 := by positivity
  have h9 : (11025 + 1575 * ρ ^ 2 + 135 * ρ ^ 4 + 10 * ρ ^ 6 + ρ ^ 8 : ℝ) ≠ 0 := by positivity
  rw [outer_succ (outer_three ρ) h]
  have e : ((((3:ℕ) : ℝ) + 1) * (225 + 45 * ρ ^ 2 + 6 * ρ ^ 4 + ρ ^ 6) + (675 + 90 * ρ ^ 2 + 6 * ρ ^ 4)) ^ 2 + (ρ ^ 7) ^ 2 =
      (11025 + 1575 * ρ ^ 2 + 135 * ρ ^ 4 + 10 * ρ ^ 6 + ρ ^ 8) * (225 + 45 * ρ ^ 2 + 6 * ρ ^ 4 + ρ ^ 6) := by push_cast; ring
  rw [e]
  refine Prod.ext ?_ ?_ <;> simp only [] <;> field_simp <;> push_cast <;> ring

theorem penetration_eq {l : ℤ} (h0 : 0 ≤ l) (h4 : l ≤ 4) (ρ : ℝ) : penetrationShift l ρ = some (outer l.toNat ρ) := by
  interval_cases l
  · simp [penetrationShift, outer]
  · simp [penetrationShift, outer_one]
  · simp [penetrationShift, outer_two]
  · simp [penetrationShift, outer_three]
  · simp [penetrationShift, outer_four]

theorem penetration_none {l : ℤ} (h : l < 0 ∨ 4 < l) (ρ : ℝ) : penetrationShift l ρ = none := by
  unfold penetrationShift
  rw [if_neg (by omega), if_neg (by omega), if_neg (by omega), if_neg (by omega), if_neg (by omega)]

theorem outer_pos : ∀ (l : ℕ) {ρ : ℝ}, 0 < ρ → 0 < (outer l ρ).1
  | 0, _, h => h
  | l + 1, ρ, h => by
    have a := outer_pos l h
    show 0 < ρ ^ 2 * (outer l ρ).1 / ((l + 1 - (outer l ρ).2) ^ 2 + (outer l ρ).1 ^ 2)
    positivity

/-! ### Phase shifts -/

theorem cos_two_arctan (n : ℝ) {d : ℝ} (hd : d ≠ 0) : Real.cos (2 * Real.arctan (n / d)) = (d ^ 2 - n ^ 2) / (d ^ 2 + n ^ 2) := by
  have q : d ^ 2 + n ^ 2 ≠ 0 := by positivity
  have q' : (1 + (n / d) ^ 2 : ℝ) ≠ 0 := by positivity
  rw [Real.cos_two_mul, Real.cos_sq_arctan]
  field_simp
  ring

theorem sin_two_arctan (n : ℝ) {d : ℝ} (hd : d ≠ 0) : Real.sin (2 * Real.arctan (n / d)) = 2 * n * d / (d ^ 2 + n ^ 2) := by
  have q : d ^ 2 + n ^ 2 ≠ 0 := by positivity
  have q' : (1 + (n / d) ^ 2 : ℝ) ≠ 0 := by positivity
  have h : Real.sin (Real.arctan (n / d)) = n / d * Real.cos (Real.arctan (n / d)) := by
    rw [← Real.tan_mul_cos (Real.cos_arctan_pos _).ne', Real.tan_arctan]
  rw [Real.sin_two_mul, h]
  have : 2 * (n / d * Real.cos (Real.arctan (n / d))) * Real.cos (Real.arctan (n / d)) = 2 * (n / d) * Real.cos (Real.arctan (n / d)) ^ 2 := by ring
  rw [this, Real.cos_sq_arctan]
  field_simp

theorem cos_atanDiv (n d : ℝ) (h : d ^ 2 + n ^ 2 ≠ 0) : Real.cos (2 * atanDiv n d) = (d ^ 2 - n ^ 2) / (d ^ 2 + n ^ 2) := by
  unfold atanDiv
  split
  · rename_i h0
    subst h0
    have hn : n ≠ 0 := by rintro rfl; simp at h
    have e : (0 ^ 2 - n ^ 2) / (0 ^ 2 + n ^ 2) = -1 := by field_simp; ring
    rw [e]
    split
    · rw [mul_div_cancel₀ _ two_ne_zero, Real.cos_pi]
    · rw [if_pos (lt_of_le_of_ne (not_lt.mp ‹_›) hn)]
      rw [mul_neg, mul_div_cancel₀ _ two_ne_zero, Real.cos_neg, Real.cos_pi]
  · exact cos_two_arctan n ‹_›

theorem sin_atanDiv (n d : ℝ) (h : d ^ 2 + n ^ 2 ≠ 0) : Real.sin (2 * atanDiv n d) = 2 * n * d / (d ^ 2 + n ^ 2) := by
  unfold atanDiv
  split
  · rename_i h0
    subst h0
    have hn : n ≠ 0 := by rintro rfl; simp at h
    rw [mul_zero, zero_div]
    split
    · rw [mul_div_cancel₀ _ two_ne_zero, Real.sin_pi]
    · rw [if_pos (lt_of_le_of_ne (not_lt.mp ‹_›) hn)]
      rw [mul_neg, mul_div_cancel₀ _ two_ne_zero, Real.sin_neg, Real.sin_pi, neg_zero]
  · exact sin_two_arctan n ‹_›

/-- Double the phase shift is `2ρ` less an angle with the direction of `(d, n)` squared. -/
def Twice (φ ρ d n : ℝ) : Prop := ∃ a, 2 * φ = 2 * ρ - a ∧ Real.cos a = (d ^ 2 - n ^ 2) / (d ^ 2 + n ^ 2) ∧ Real.sin a = 2 * n * d / (d ^ 2 + n ^ 2)

theorem twice_code {φ ρ n d : ℝ} (h : φ = ρ - atanDiv n d) (q : d ^ 2 + n ^ 2 ≠ 0) : Twice φ ρ d n :=
  ⟨2 * atanDiv n d, by rw [h]; ring, cos_atanDiv n d q, sin_atanDiv n d q⟩

theorem twice_succ {φ φ' ρ d n p q d' n' c : ℝ} (h : Twice φ ρ d n) (e : φ' = φ - Real.arctan (p / q)) (hq : q ≠ 0) (hd : d ^ 2 + n ^ 2 ≠ 0)
    (hc : c ≠ 0) (h1 : d * q - n * p = c * d') (h2 : d * p + n * q = c * n') (hd' : d' ^ 2 + n' ^ 2 ≠ 0) : Twice φ' ρ d' n' := by
  obtain ⟨a, ea, ca, sa⟩ := h
  have qq : q ^ 2 + p ^ 2 ≠ 0 := by positivity
  have key : (d ^ 2 + n ^ 2) * (q ^ 2 + p ^ 2) = c ^ 2 * (d' ^ 2 + n' ^ 2) := by
    linear_combination (d * q - n * p + c * d') * h1 + (d * p + n * q + c * n') * h2
  refine ⟨a + 2 * Real.arctan (p / q), by rw [e]; linear_combination ea, ?_, ?_⟩
  · rw [Real.cos_add, ca, sa, cos_two_arctan p hq, sin_two_arctan p hq, div_mul_div_comm, div_mul_div_comm, ← sub_div, key,
      div_eq_div_iff (mul_ne_zero (pow_ne_zero 2 hc) hd') hd']
    linear_combination ((d * q - n * p) + c * d') * (d' ^ 2 + n' ^ 2) * h1 - ((d * p + n * q) + c * n') * (d' ^ 2 + n' ^ 2) * h2
  · rw [Real.sin_add, ca, sa, cos_two_arctan p hq, sin_two_arctan p hq, div_mul_div_comm, div_mul_div_comm, ← add_div, key,
      div_eq_div_iff (mul_ne_zero (pow_ne_zero 2 hc) hd') hd']
    linear_combination 2 * (d' ^ 2 + n' ^ 2) * (d * p + n * q) * h1 + 2 * (d' ^ 2 + n' ^ 2) * c * d' * h2

theorem Twice.same {φ φ' ρ d n : ℝ} (h : Twice φ ρ d n) (h' : Twice φ' ρ d n) :
    Real.cos (2 * φ) = Real.cos (2 * φ') ∧ Real.sin (2 * φ) = Real.sin (2 * φ') := by
  obtain ⟨a, ea, ca, sa⟩ := h
  obtain ⟨b, eb, cb, sb⟩ := h'
  rw [ea, eb, Real.cos_sub, Real.cos_sub, Real.sin_sub, Real.sin_sub, ca, sa, cb, sb]
  exact ⟨rfl, rfl⟩

theorem den1 (ρ : ℝ) : (1:ℝ) ^ 2 + ρ ^ 2 ≠ 0 := by positivity
theorem den2 (ρ : ℝ) : (3 - ρ ^ 2) ^ 2 + (3 * ρ) ^ 2 ≠ 0 := by
  have : (3 - ρ ^ 2) ^ 2 + (3 * ρ) ^ 2 = 9 + 3 * ρ ^ 2 + ρ ^ 4 := by ring
  rw [this]; positivity
theorem den3 (ρ : ℝ) : (15 - 6 * ρ ^ 2) ^ 2 + (15 * ρ - ρ ^ 3) ^ 2 ≠ 0 := by
  have : (15 - 6 * ρ ^ 2) ^ 2 + (15 * ρ - ρ ^ 3) ^ 2 = 225 + 45 * ρ ^ 2 + 6 * ρ ^ 4 + ρ ^ 6 := by ring
  rw [this]; positivity
theorem den4 (ρ : ℝ) : (105 - 45 * ρ ^ 2 + ρ ^ 4) ^ 2 + (105 * ρ - 10 * ρ ^ 3) ^ 2 ≠ 0 := by
  have : (105 - 45 * ρ ^ 2 + ρ ^ 4) ^ 2 + (105 * ρ - 10 * ρ ^ 3) ^ 2 = 11025 + 1575 * ρ ^ 2 + 135 * ρ ^ 4 + 10 * ρ ^ 6 + ρ ^ 8 := by ring
  rw [this]; positivity

theorem phase_one (ρ : ℝ) : Twice (phase 1 ρ) ρ 1 ρ := by
  refine ⟨2 * Real.arctan (ρ / 1), ?_, cos_two_arctan ρ one_ne_zero, ?_⟩
  · simp [phase, outer]; ring
  · simpa using sin_two_arctan ρ one_ne_zero

theorem phase_two (ρ : ℝ) : Twice (phase 2 ρ) ρ (3 - ρ ^ 2) (3 * ρ) := by
  have h : (1 + ρ ^ 2 : ℝ) ≠ 0 := by positivity
  have h3 : (3 + 2 * ρ ^ 2 : ℝ) ≠ 0 := by positivity
  refine twice_succ (p := ρ ^ 3) (q := 3 + 2 * ρ ^ 2) (c := 1 + ρ ^ 2) (phase_one ρ) ?_ h3 (den1 ρ) h (by ring) (by ring) (den2 ρ)
  rw [phase, outer_one]
  congr 2
  have e : (((1:ℕ) : ℝ) + 1 - -1 / (1 + ρ ^ 2)) = (3 + 2 * ρ ^ 2) / (1 + ρ ^ 2) := by field_simp; push_cast; ring
  simp only []
  rw [e, div_div_div_cancel_right₀ h]

theorem phase_three (ρ : ℝ) : Twice (phase 3 ρ) ρ (15 - 6 * ρ ^ 2) (15 * ρ - ρ ^ 3) := by
  have h : (9 + 3 * ρ ^ 2 + ρ ^ 4 : ℝ) ≠ 0 := by positivity
  have h3 : (45 + 12 * ρ ^ 2 + 3 * ρ ^ 4 : ℝ) ≠ 0 := by positivity
  refine twice_succ (p := ρ ^ 5) (q := 45 + 12 * ρ ^ 2 + 3 * ρ ^ 4) (c := 9 + 3 * ρ ^ 2 + ρ ^ 4) (phase_two ρ) ?_ h3 (den2 ρ) h (by ring) (by ring) (den3 ρ)
  rw [phase, outer_two]
  congr 2
  have e : (((2:ℕ) : ℝ) + 1 - -(18 + 3 * ρ ^ 2) / (9 + 3 * ρ ^ 2 + ρ ^ 4)) = (45 + 12 * ρ ^ 2 + 3 * ρ ^ 4) / (9 + 3 * ρ ^ 2 + ρ ^ 4) := by
    field_simp; push_cast; ring
  simp only []
  rw [e, div_div_div_cancel_right₀ h]

theorem phase_four (ρ : ℝ) : Twice (phase 4 ρ) ρ (105 - 45 * ρ ^ 2 + ρ ^ 4) (105 * ρ - 10 * ρ ^ 3) := by
  have h : (225 + 45 * ρ ^ 2 + 6 * ρ ^ 4 + ρ ^ 6 : ℝ) ≠ 0 := by positivity
  have h3 : (1575 + 270 * ρ ^ 2 + 30 * ρ ^ 4 + 4 * ρ ^ 6 : ℝ) ≠ 0 := by positivity
  refine twice_succ (p := ρ ^ 7) (q := 1575 + 270 * ρ ^ 2 + 30 * ρ ^ 4 + 4 * ρ ^ 6) (c := 225 + 45 * ρ ^ 2 + 6 * ρ ^ 4 + ρ ^ 6) (phase_three ρ) ?_ h3 (den3 ρ) h
    (by ring) (by ring) (den4 ρ)
  rw [phase, outer_three]
  congr 2
  have e : (((3:ℕ) : ℝ) + 1 - -(675 + 90 * ρ ^ 2 + 6 * ρ ^ 4) / (225 + 45 * ρ ^ 2 + 6 * ρ ^ 4 + ρ ^ 6)) =
      (1575 + 270 * ρ ^ 2 + 30 * ρ ^ 4 + 4 * ρ ^ 6) / (225 + 45 * ρ ^ 2 + 6 * ρ ^ 4 + ρ ^ 6) := by
    field_simp; push_cast; ring
  simp only []
  rw [e, div_div_div_cancel_right₀ h]

theorem phase_same {l : ℤ} (h0 : 0 ≤ l) (h4 : l ≤ 4) (ρ : ℝ) :
    Real.cos (2 * phaseshift l ρ) = Real.cos (2 * phase l.toNat ρ) ∧ Real.sin (2 * phaseshift l ρ) = Real.sin (2 * phase l.toNat ρ) := by
  interval_cases l
  · simp [phaseshift, phase]
  · simp [phaseshift, phase, outer]
  · exact (twice_code (n := 3 * ρ) (d := 3 - ρ ^ 2) (by simp [phaseshift]) (den2 ρ)).same (phase_two ρ)
  · exact (twice_code (n := 15 * ρ - ρ ^ 3) (d := 15 - 6 * ρ ^ 2) (by simp [phaseshift]) (den3 ρ)).same (phase_three ρ)
  · exact (twice_code (n := 105 * ρ - 10 * ρ ^ 3) (d := 105 - 45 * ρ ^ 2 + ρ ^ 4) (by simp [phaseshift]) (den4 ρ)).same (phase_four ρ)

theorem sin_sq_same {φ φ' : ℝ} (h : Real.cos (2 * φ) = Real.cos (2 * φ')) : Real.sin φ ^ 2 = Real.sin φ' ^ 2 := by
  rw [Real.cos_two_mul, Real.cos_two_mul] at h
  rw [Real.sin_sq, Real.sin_sq]
  linarith

end ASAPy.Recon
