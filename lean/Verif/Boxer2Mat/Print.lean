import Verif.Boxer.Spec
import Mathlib.Data.Int.Log
import Mathlib.Algebra.Order.Round
import Mathlib.Data.Rat.Floor
import Mathlib.Tactic

/-! # The numbers that boxer2mat prints (boxer2mat/boxer2mat.f 163: format `1P8E10.3`) -/

namespace ASAPy.Boxr
open ASAPy.Boxer

/-- The digits and the exponent of a positive number: four digits, rounded; 9.9996 becomes 1.000E+01. -/
def mantExp (q : ℚ) : Nat × Int :=
  let e := Int.log 10 q
  let m := (round (q / (10 : ℚ) ^ e * 1000)).toNat
  if 10000 ≤ m then (1000, e + 1) else (m, e)

/-- The field printed. Numbers are rounded to the nearest; exponents have two digits. -/
def printF (q : ℚ) : Fld :=
  if q = 0 then ⟨false, 0, false, 0⟩
  else ⟨decide (q < 0), Fin.ofNat 10000 (mantExp |q|).1, decide ((mantExp |q|).2 < 0), Fin.ofNat 100 (mantExp |q|).2.natAbs⟩

theorem mantExp_spec {q : ℚ} (h : 0 < q) : (mantExp q).1 < 10000 ∧ |((mantExp q).1 : ℚ) / 1000 * (10 : ℚ) ^ (mantExp q).2 - q| ≤ q / 2000 ∧
    ((10 : ℚ) ^ (mantExp q).2 ≤ q ∨ (10 : ℚ) ^ ((mantExp q).2 - 1) ≤ q) ∧ q < (10 : ℚ) ^ ((mantExp q).2 + 1) := by
  have h1 : (10 : ℚ) ^ Int.log 10 q ≤ q := by exact_mod_cast Int.zpow_log_le_self (b := 10) (by norm_num) h
  have h2 : q < (10 : ℚ) ^ (Int.log 10 q + 1) := by exact_mod_cast Int.lt_zpow_succ_log_self (b := 10) (by norm_num) q
  generalize hE : Int.log 10 q = e at h1 h2
  have hp : (0 : ℚ) < (10 : ℚ) ^ e := by positivity
  have h3 : (10 : ℚ) ^ (e + 1) = 10 * (10 : ℚ) ^ e := by rw [zpow_add_one₀ (by norm_num)]; ring
  set y := q / (10 : ℚ) ^ e * 1000 with hy
  have hq : q = y / 1000 * (10 : ℚ) ^ e := by rw [hy]; field_simp
  have y1 : 1000 ≤ y := by
    rw [hy]
    have : 1 ≤ q / (10 : ℚ) ^ e := by rw [le_div_iff₀ hp]; linarith
    linarith
  have y2 : y < 10000 := by
    rw [hy]
    have : q / (10 : ℚ) ^ e < 10 := by rw [div_lt_iff₀ hp, ← h3]; exact h2
    linarith
  have hr := abs_sub_round y
  have hr0 : (0 : Int) ≤ round y := by
    by_contra hc
    have : (round y : ℚ) ≤ -1 := by exact_mod_cast (show round y ≤ -1 by omega)
    rw [abs_le] at hr
    linarith [hr.2]
  have hn : (((round y).toNat : Nat) : ℚ) = (round y : ℚ) := by
    have : ((round y).toNat : Int) = round y := Int.toNat_of_nonneg hr0
    exact_mod_cast this
  have hle : (round y).toNat ≤ 10000 := by
    have : (round y : ℚ) < 10001 := by rw [abs_le] at hr; linarith [hr.1]
    have : round y < 10001 := by exact_mod_cast this
    omega
  have herr : |(round y : ℚ) / 1000 * (10 : ℚ) ^ e - q| ≤ q / 2000 := by
    have e1 : (round y : ℚ) / 1000 * (10 : ℚ) ^ e - q = (round y - y) * ((10 : ℚ) ^ e / 1000) := by
      conv_lhs => rw [hq]
      ring
    rw [e1, abs_mul, abs_of_pos (by positivity : (0 : ℚ) < (10 : ℚ) ^ e / 1000), abs_sub_comm]
    calc |y - round y| * ((10 : ℚ) ^ e / 1000) ≤ 1 / 2 * ((10 : ℚ) ^ e / 1000) := mul_le_mul_of_nonneg_right hr (by positivity)
      _ ≤ q / 2000 := by linarith
  unfold mantExp
  simp only
  rw [hE, ← hy]
  split_ifs with hm
  · have hm' : (round y).toNat = 10000 := by omega
    rw [hm'] at hn
    refine ⟨by norm_num, ?_, Or.inr (by simpa using h1), ?_⟩
    · rw [← hn] at herr
      have : ((1000 : Nat) : ℚ) / 1000 * (10 : ℚ) ^ (e + 1) = ((10000 : Nat) : ℚ) / 1000 * (10 : ℚ) ^ e := by rw [h3]; push_cast; ring
      rw [this]
      exact herr
    · refine h2.trans ?_
      exact zpow_lt_zpow_right₀ (by norm_num) (by omega)
  · refine ⟨by omega, ?_, Or.inl h1, h2⟩
    rw [hn]
    exact herr

/-- A printed number differs from the number by at most one part in 2000. -/
theorem printF_close {q : ℚ} (h : q = 0 ∨ 1 / 10 ^ 98 ≤ |q| ∧ |q| < 10 ^ 98) : |(printF q).value - q| ≤ |q| / 2000 := by
  by_cases h0 : q = 0
  · subst h0
    simp [printF, Fld.value]
  · obtain ⟨hlo, hhi⟩ := h.resolve_left h0
    obtain ⟨m1, m2, m3, m4⟩ := mantExp_spec (abs_pos.2 h0)
    have hexp : (mantExp |q|).2.natAbs < 100 := by
      have a1 : (mantExp |q|).2 < 100 := by
        by_contra hc
        have : (10 : ℚ) ^ (98 : Int) ≤ |q| := by
          rcases m3 with h | h
          · exact (zpow_le_zpow_right₀ (by norm_num) (by omega)).trans h
          · exact (zpow_le_zpow_right₀ (by norm_num) (by omega)).trans h
        have h98 : (10 : ℚ) ^ (98 : Int) = 10 ^ 98 := by norm_cast
        rw [h98] at this
        linarith
      have a2 : -100 < (mantExp |q|).2 := by
        by_contra hc
        have : |q| < (10 : ℚ) ^ (-98 : Int) := m4.trans_le (zpow_le_zpow_right₀ (by norm_num) (by omega))
        have h98 : (10 : ℚ) ^ (-98 : Int) = 1 / 10 ^ 98 := by rw [zpow_neg, one_div]; norm_cast
        rw [h98] at this
        linarith
      omega
    have hval : (printF q).value = (if q < 0 then -1 else 1) * (((mantExp |q|).1 : ℚ) / 1000 * (10 : ℚ) ^ (mantExp |q|).2) := by
      have hz : (10 : ℚ) ^ (mantExp |q|).2 = if (mantExp |q|).2 < 0 then 1 / (10 : ℚ) ^ (mantExp |q|).2.natAbs else (10 : ℚ) ^ (mantExp |q|).2.natAbs := by
        generalize (mantExp |q|).2 = z
        split_ifs with hz
        · obtain ⟨k, rfl⟩ : ∃ k : Nat, z = -(k : Int) := ⟨z.natAbs, by omega⟩
          simp
        · obtain ⟨k, rfl⟩ : ∃ k : Nat, z = (k : Int) := ⟨z.natAbs, by omega⟩
          simp
      unfold printF Fld.value
      rw [if_neg h0, hz]
      simp only [decide_eq_true_eq, Fin.ofNat, Nat.mod_eq_of_lt m1, Nat.mod_eq_of_lt hexp]
      ring
    rw [hval]
    generalize ((mantExp |q|).1 : ℚ) / 1000 * (10 : ℚ) ^ (mantExp |q|).2 = A at m2 ⊢
    by_cases hneg : q < 0
    · rw [abs_of_neg hneg] at m2 ⊢
      rw [if_pos hneg, abs_le]
      rw [abs_le] at m2
      constructor <;> linarith [m2.1, m2.2]
    · rw [abs_of_nonneg (not_lt.1 hneg)] at m2 ⊢
      rw [if_neg hneg, one_mul]
      exact m2

example : (printF 9.9996).value = 10 ∧ (printF (-1 / 3)).value = -3333 / 10000 ∧ (printF 0.00001).value = 0.00001 := by decide +kernel

end ASAPy.Boxr
