import Verif.Str
import Mathlib.Data.Nat.Digits.Defs
import Mathlib.Data.Nat.Digits.Lemmas
import Mathlib.Tactic.IntervalCases

/-! # Decimal numerals: `str(n)` for natural numbers -/

namespace ASAPy.Dec

/-- The character of a decimal digit. -/
def digitChar (d : Nat) : Char := Char.ofNat (48 + d % 10)

/-- The value of a digit character. -/
def digitVal (c : Char) : Nat := c.toNat - 48

/-- A decimal digit. -/
def isDigit (c : Char) : Bool := decide (48 ≤ c.toNat) && decide (c.toNat ≤ 57)

/-- `str(n)`. -/
def natStr (n : Nat) : List Char := if n = 0 then ['0'] else ((Nat.digits 10 n).map digitChar).reverse

/-- `int(s)` for a string of digits. -/
def natVal (s : List Char) : Nat := s.foldl (fun a c => 10 * a + digitVal c) 0

theorem digitChar_spec : ∀ d, d < 10 → isDigit (digitChar d) = true ∧ digitVal (digitChar d) = d := by decide

theorem natStr_digits (n : Nat) : ∀ c ∈ natStr n, isDigit c = true := by
  intro c hc
  unfold natStr at hc
  split_ifs at hc with h
  · simp at hc; subst hc; decide
  · simp only [List.mem_reverse, List.mem_map] at hc
    obtain ⟨d, hd, rfl⟩ := hc
    exact (digitChar_spec d (Nat.digits_lt_base (by norm_num) hd)).1

theorem natStr_ne_nil (n : Nat) : natStr n ≠ [] := by
  unfold natStr
  split_ifs with h
  · simp
  · simp [Nat.digits_ne_nil_iff_ne_zero.mpr h]

theorem natVal_reverse (l : List Nat) (h : ∀ d ∈ l, d < 10) :
    natVal ((l.map digitChar).reverse) = Nat.ofDigits 10 l := by
  unfold natVal
  rw [List.foldl_reverse]
  induction l with
  | nil => rfl
  | cons d l ih =>
    simp only [List.map_cons, List.foldr_cons, Nat.ofDigits_cons]
    rw [ih (fun d hd => h d (List.mem_cons_of_mem _ hd)), (digitChar_spec d (h d (List.mem_cons_self ..))).2]
    omega

theorem natVal_natStr (n : Nat) : natVal (natStr n) = n := by
  unfold natStr
  split_ifs with h
  · subst h; rfl
  · rw [natVal_reverse _ (fun d hd => Nat.digits_lt_base (by norm_num) hd), Nat.ofDigits_digits]

theorem natStr_injective : Function.Injective natStr := fun a b h => by
  rw [← natVal_natStr a, h, natVal_natStr]

theorem isDigit_noSpace {c : Char} (h : isDigit c = true) : Str.isSpace c = false := by
  by_contra hs
  rw [Bool.not_eq_false] at hs
  unfold isDigit at h
  simp only [Bool.and_eq_true, decide_eq_true_eq] at h
  unfold Str.isSpace at hs
  revert hs
  simp only [Bool.or_eq_true, decide_eq_true_eq]
  intro hs
  have : c.toNat < 48 := by
    rcases hs with ((((((((hs | hs) | hs) | hs) | hs) | hs) | hs) | hs) | hs) | hs <;> subst hs <;> decide
  omega

theorem natStr_word (n : Nat) : Str.Word (natStr n) :=
  ⟨natStr_ne_nil n, fun c hc => isDigit_noSpace (natStr_digits n c hc)⟩

end ASAPy.Dec
