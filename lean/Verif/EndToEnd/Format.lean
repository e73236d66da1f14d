import Verif.WriteAce.Props
import Verif.AceData.RepairProps
import Mathlib.Tactic.Linarith
import Mathlib.Tactic.FieldSimp

/-! # The value of a number written with `format(x, '.11E')` (C84) -/

set_option linter.unusedSimpArgs false

namespace ASAPy.EndToEnd
open ASAPy.WriteAce ASAPy.AceData ASAPy.Dec
open ASAPy.Boxer (number)

theorem digit_spec (d : Nat) : isDigit (WriteAce.digitChar d) = true ∧ digitVal (WriteAce.digitChar d) = d % 10 := by
  have h : ∀ d < 10, isDigit (Char.ofNat (48 + d)) = true ∧ digitVal (Char.ofNat (48 + d)) = d := by decide
  exact h (d % 10) (Nat.mod_lt _ (by decide))

theorem digitsN_succ (n m : Nat) : digitsN (n + 1) m = digitsN n (m / 10) ++ [WriteAce.digitChar m] := by
  unfold digitsN
  rw [List.range_succ, List.map_append]
  congr 1
  · apply List.map_congr_left
    intro i hi
    rw [List.mem_range] at hi
    congr 1
    rw [Nat.div_div_eq_div_mul, show n + 1 - 1 - i = (n - 1 - i) + 1 by omega, pow_succ, mul_comm]
  · simp

theorem natVal_digitsN : ∀ n m : Nat, natVal (digitsN n m) = m % 10 ^ n := by
  intro n
  induction n with
  | zero => intro m; simp [digitsN, natVal, Nat.mod_one]
  | succ n ih =>
    intro m
    rw [digitsN_succ]
    unfold natVal
    rw [List.foldl_append]
    have := ih (m / 10)
    unfold natVal at this
    rw [this]
    simp only [List.foldl_cons, List.foldl_nil, (digit_spec m).2]
    rw [pow_succ, mul_comm (10 ^ n) 10, Nat.mod_mul]
    omega

theorem digitsN_digits (n m : Nat) : ∀ c ∈ digitsN n m, isDigit c = true := by
  intro c hc
  unfold digitsN at hc
  obtain ⟨i, _, rfl⟩ := List.mem_map.mp hc
  exact (digit_spec _).1

/-- Rounding is off by at most one half. -/
theorem roundHalfEven_near (q : ℚ) (h : 0 ≤ q) : |(roundHalfEven q : ℚ) - q| ≤ 1 / 2 := by
  unfold roundHalfEven
  have hf : ((⌊q⌋.toNat : ℕ) : ℚ) = (⌊q⌋ : ℚ) := by
    have : ((⌊q⌋.toNat : ℕ) : ℤ) = ⌊q⌋ := Int.toNat_of_nonneg (Int.floor_nonneg.mpr h)
    exact_mod_cast congrArg (Int.cast : ℤ → ℚ) this
  have h1 := Int.floor_le q
  have h2 := Int.lt_floor_add_one q
  simp only
  rw [hf]
  split_ifs with a b c
  · rw [hf, abs_le]; constructor <;> linarith
  · push_cast; rw [hf, abs_le]; constructor <;> linarith
  · rw [hf, abs_le]; constructor <;> linarith
  · push_cast; rw [hf, abs_le]; constructor <;> linarith

/-- Mantissa (12 digits) and exponent of the number written. -/
def mantExp (x : ℚ) : Nat × Int :=
  let e0 : Int := if |x| = 0 then 0 else Int.log 10 |x|
  let m0 := roundHalfEven (|x| / (10:ℚ) ^ (e0 - 11))
  if m0 = 10 ^ 12 then (10 ^ 11, e0 + 1) else (m0, e0)

theorem fmtE_eq (x : ℚ) : fmtE x = (if x < 0 then ['-'] else []) ++ (digitsN 12 (mantExp x).1).take 1 ++ ['.'] ++ (digitsN 12 (mantExp x).1).drop 1 ++
    ['E', if (mantExp x).2 < 0 then '-' else '+'] ++ digitsN (if (mantExp x).2.natAbs < 100 then 2 else 3) (mantExp x).2.natAbs := rfl

/-- The written number is near the given one: a mantissa below 10^12 times a power of ten. -/
theorem mantExp_near (x : ℚ) : (mantExp x).1 < 10 ^ 12 ∧ |((mantExp x).1 : ℚ) * (10:ℚ) ^ ((mantExp x).2 - 11) - (|x|)| ≤ |x| / (2 * 10 ^ 11) := by
  by_cases hx : |x| = 0
  · have h0 : roundHalfEven (0 : ℚ) = 0 := by decide +kernel
    have : mantExp x = (0, 0) := by
      unfold mantExp
      simp [hx, h0]
    rw [this, hx]
    norm_num
  · have hpos : 0 < |x| := lt_of_le_of_ne (abs_nonneg _) (Ne.symm hx)
    set a := |x| with ha
    set e := Int.log 10 a with he
    have hlo : (10:ℚ) ^ e ≤ a := by
      have := Int.zpow_log_le_self (b := 10) (r := a) (by norm_num) hpos
      exact_mod_cast this
    have hhi : a < (10:ℚ) ^ (e + 1) := by
      have := Int.lt_zpow_succ_log_self (b := 10) (by norm_num) a
      exact_mod_cast this
    have hp : (0:ℚ) < (10:ℚ) ^ (e - 11) := zpow_pos (by norm_num) _
    have e11 : (10:ℚ) ^ e = 10 ^ 11 * (10:ℚ) ^ (e - 11) := by
      rw [show e = 11 + (e - 11) by ring, zpow_add₀ (by norm_num)]
      norm_num
    have e12 : (10:ℚ) ^ (e + 1) = 10 ^ 12 * (10:ℚ) ^ (e - 11) := by
      rw [show e + 1 = 12 + (e - 11) by ring, zpow_add₀ (by norm_num)]
      norm_num
    set p := (10:ℚ) ^ (e - 11) with hpd
    have hq1 : (10:ℚ) ^ 11 ≤ a / p := by rw [le_div_iff₀ hp, ← e11]; exact hlo
    have hq2 : a / p < (10:ℚ) ^ 12 := by rw [div_lt_iff₀ hp, ← e12]; exact hhi
    have hnear := roundHalfEven_near (a / p) (div_nonneg hpos.le hp.le)
    set m := roundHalfEven (a / p) with hm
    obtain ⟨n1, n2⟩ := abs_le.mp hnear
    have hmle : m ≤ 10 ^ 12 := by
      have : (m : ℚ) < 10 ^ 12 + 1 := by linarith
      have : m < 10 ^ 12 + 1 := by exact_mod_cast this
      omega
    have herr : |(m : ℚ) * p - a| ≤ a / (2 * 10 ^ 11) := by
      have h1 : (m : ℚ) * p - a = ((m : ℚ) - a / p) * p := by field_simp
      rw [h1, abs_mul, abs_of_pos hp]
      have h2 : |(m : ℚ) - a / p| * p ≤ 1 / 2 * p := mul_le_mul_of_nonneg_right hnear hp.le
      have h3 : 1 / 2 * p ≤ a / (2 * 10 ^ 11) := by
        rw [le_div_iff₀ (by norm_num)]
        rw [e11] at hlo
        linarith
      exact h2.trans h3
    have hdef : mantExp x = if m = 10 ^ 12 then (10 ^ 11, e + 1) else (m, e) := by
      unfold mantExp
      simp only [← ha, if_neg hx]
      rfl
    rw [hdef]
    by_cases h12 : m = 10 ^ 12
    · rw [if_pos h12]
      refine ⟨by norm_num, ?_⟩
      have : ((10 ^ 11 : ℕ) : ℚ) * (10:ℚ) ^ (e + 1 - 11) = (m : ℚ) * p := by
        rw [h12, hpd, show e + 1 - 11 = 1 + (e - 11) by ring, zpow_add₀ (by norm_num)]
        push_cast
        ring
      simp only [this]
      exact herr
    · rw [if_neg h12]
      exact ⟨by omega, herr⟩

/-- The number the text of `x` stands for. -/
def rounded (x : ℚ) : ℚ := (if x < 0 then -1 else 1) * (((mantExp x).1 : ℚ) * (10:ℚ) ^ ((mantExp x).2 - 11))

/-- Zero, or of a size floating-point numbers have (their decimal exponents are between -324 and 308). -/
def Finite (x : ℚ) : Prop := x = 0 ∨ 1 / (10:ℚ) ^ 900 ≤ |x| ∧ |x| < (10:ℚ) ^ 900

theorem exp_small (x : ℚ) (h : Finite x) : (mantExp x).2.natAbs < 1000 := by
  rcases h with rfl | ⟨h1, h2⟩
  · decide +kernel
  · have hpos : 0 < |x| := lt_of_lt_of_le (by positivity) h1
    have hlo : -900 ≤ Int.log 10 |x| := by
      rw [← Int.zpow_le_iff_le_log (by norm_num) hpos]
      have : ((10 : ℕ) : ℚ) ^ (-900 : Int) = 1 / (10:ℚ) ^ 900 := by
        rw [zpow_neg, one_div]
        norm_cast
      rw [this]
      exact h1
    have hhi : Int.log 10 |x| < 900 := by
      rw [← Int.lt_zpow_iff_log_lt (by norm_num) hpos]
      exact_mod_cast h2
    unfold mantExp
    simp only [if_neg hpos.ne']
    split_ifs <;> simp only <;> omega

/-- **C84.** A number written with `format(x, '.11E')` is read again with a relative error of at most 5e-12. -/
theorem C84_written (x : ℚ) (hx : Finite x) :
    number (fmtE x) = some (rounded x, []) ∧ |rounded x - x| ≤ |x| / (2 * 10 ^ 11) := by
  replace hx := exp_small x hx
  obtain ⟨h12, hnear⟩ := mantExp_near x
  constructor
  · obtain ⟨m, e, hme⟩ : ∃ m e, mantExp x = (m, e) := ⟨_, _, rfl⟩
    rw [hme] at hx h12
    simp only at hx h12
    have hlen : (digitsN 12 m).length = 12 := length_digitsN _ _
    let wr : Written := ⟨if x < 0 then some true else none, (digitsN 12 m).take 1, (digitsN 12 m).drop 1, true, decide (e < 0),
      digitsN (if e.natAbs < 100 then 2 else 3) e.natAbs⟩
    have hok : wr.Ok := by
      refine ⟨fun c hc => digitsN_digits 12 m c (List.mem_of_mem_take hc), fun c hc => digitsN_digits 12 m c (List.mem_of_mem_drop hc),
        fun c hc => digitsN_digits _ _ c hc, ?_, ?_⟩
      · intro hcon
        have := congrArg List.length hcon
        simp [wr, hlen] at this
      · intro hcon
        have := congrArg List.length hcon
        simp only [wr, length_digitsN] at this
        split_ifs at this
    have htext : fmtE x = wr.text := by
      rw [fmtE_eq, hme]
      unfold Written.text
      simp only [wr, decide_eq_true_eq]
      by_cases hneg : x < 0 <;> simp [hneg, Endf.signText]
    rw [htext, number_with wr hok rfl]
    have hep : natVal (digitsN (if e.natAbs < 100 then 2 else 3) e.natAbs) = e.natAbs := by
      rw [natVal_digitsN]
      split_ifs with h
      · exact Nat.mod_eq_of_lt (by simpa using h)
      · exact Nat.mod_eq_of_lt (by simpa using hx)
    have hm : natVal ((digitsN 12 m).take 1 ++ (digitsN 12 m).drop 1) = m := by
      rw [List.take_append_drop, natVal_digitsN]
      exact Nat.mod_eq_of_lt h12
    have hfl : ((digitsN 12 m).drop 1).length = 11 := by rw [List.length_drop, hlen]
    congr 2
    unfold Written.value Written.mantissa rounded
    rw [hme]
    simp only [wr, hep, hm, hfl, decide_eq_true_eq]
    have hs : (if (if x < 0 then some true else none) = some true then (-1 : ℚ) else 1) = if x < 0 then -1 else 1 := by
      by_cases hneg : x < 0 <;> simp [hneg]
    rw [hs]
    have hp : (if e < 0 then 1 / (10 : ℚ) ^ e.natAbs else (10 : ℚ) ^ e.natAbs) = (10 : ℚ) ^ e := by
      by_cases hneg : e < 0
      · rw [if_pos hneg]
        obtain ⟨n, hn⟩ := Int.eq_ofNat_of_zero_le (a := -e) (by omega)
        have : e = -(n : Int) := by omega
        subst this
        rw [zpow_neg, zpow_natCast]
        simp
      · rw [if_neg hneg]
        obtain ⟨n, hn⟩ := Int.eq_ofNat_of_zero_le (a := e) (by omega)
        subst hn
        rw [Int.natAbs_natCast, zpow_natCast]
    rw [hp, zpow_sub₀ (by norm_num : (10:ℚ) ≠ 0)]
    rw [show (10:ℚ) ^ (11 : Int) = 10 ^ 11 by norm_num]
    ring
  · unfold rounded
    by_cases hneg : x < 0
    · rw [if_pos hneg]
      have h1 : |x| = -x := abs_of_neg hneg
      rw [h1] at hnear ⊢
      rw [show -1 * (((mantExp x).1 : ℚ) * (10:ℚ) ^ ((mantExp x).2 - 11)) - x = -((((mantExp x).1 : ℚ) * (10:ℚ) ^ ((mantExp x).2 - 11)) - -x) by ring,
        abs_neg]
      exact hnear
    · rw [if_neg hneg, one_mul]
      have h1 : |x| = x := abs_of_nonneg (not_lt.mp hneg)
      rw [h1] at hnear ⊢
      exact hnear

-- 20/3, a number that rounds up to the next power of ten, and a small one.
example : Finite (20 / 3) ∧ rounded (20 / 3) = 666666666667 / 10 ^ 11 := by unfold Finite; decide +kernel
example : rounded (9999999999996 / 10 ^ 13) = 1 := by decide +kernel
example : rounded (-1 / 10 ^ 120) = -1 / 10 ^ 120 := by decide +kernel

end ASAPy.EndToEnd
