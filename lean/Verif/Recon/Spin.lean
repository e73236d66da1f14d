import Verif.Recon.Spec
import Mathlib.Tactic.FieldSimp
import Mathlib.Tactic.Positivity
import Mathlib.Tactic.LinearCombination

/-!
# Angular momenta
-/

namespace ASAPy.Recon
open Spec

theorem trunc_int {x : ℝ} {n : ℤ} (h : x = n) : trunc x = n := by
  subst h
  unfold trunc
  split <;> simp

theorem sum_steps (a : ℝ) : ∀ N : ℕ, ((List.range N).map fun i : ℕ => 2 * (a + i) + 1).sum = N * (2 * a + N)
  | 0 => by simp
  | N + 1 => by
    rw [List.range_succ, List.map_append, List.sum_append, sum_steps a N]
    simp only [List.map_cons, List.map_nil, List.sum_cons, List.sum_nil]
    push_cast
    ring

theorem sum_gJ (I a : ℝ) (N : ℕ) : ((List.range N).map fun i : ℕ => gJ I a i).sum = N * (2 * a + N) / (4 * I + 2) := by
  rw [← sum_steps a N]
  simp only [gJ, div_eq_mul_inv]
  rw [List.sum_map_mul_right]
  simp only [Int.cast_natCast]

/-- Twice `jmin`, in whole numbers. -/
theorem jmin_eq (n : ℕ) (L : ℕ) : jmin ((n : ℝ) / 2) (L : ℤ) = ((|(|(n : ℤ) - 2 * L| - 1)| : ℤ) : ℝ) / 2 := by
  unfold jmin
  push_cast
  have e : (n : ℝ) / 2 - L = (n - 2 * L) / 2 := by ring
  rw [e, abs_div, abs_of_pos (two_pos : (0:ℝ) < 2)]
  have e2 : |(n : ℝ) - 2 * L| / 2 - 0.5 = (|(n : ℝ) - 2 * L| - 1) / 2 := by ring
  rw [e2, abs_div, abs_of_pos (two_pos : (0:ℝ) < 2)]

theorem jmin_cases (n L : ℕ) :
    (2 * L + 1 ≤ n ∧ jmin ((n : ℝ) / 2) (L : ℤ) = ((n : ℝ) - 2 * L - 1) / 2 ∧ nJ ((n : ℝ) / 2) (L : ℤ) = 2 * L + 2) ∨
    (n = 2 * L ∧ jmin ((n : ℝ) / 2) (L : ℤ) = 1 / 2 ∧ nJ ((n : ℝ) / 2) (L : ℤ) = 2 * L + 1) ∨
    (n < 2 * L ∧ jmin ((n : ℝ) / 2) (L : ℤ) = (2 * (L : ℝ) - n - 1) / 2 ∧ nJ ((n : ℝ) / 2) (L : ℤ) = n + 2) := by
  have hj := jmin_eq n L
  rcases lt_trichotomy n (2 * L) with h | h | h
  · right; right
    have e : |(|(n : ℤ) - 2 * L| - 1)| = 2 * L - n - 1 := by
      have e0 : |(n : ℤ) - 2 * L| = -((n : ℤ) - 2 * L) := abs_of_neg (by omega)
      rw [e0, abs_of_nonneg (by omega)]; ring
    rw [e] at hj
    refine ⟨h, by rw [hj]; push_cast; ring, ?_⟩
    unfold nJ
    rw [hj]
    apply trunc_int
    push_cast; ring
  · right; left
    have e : |(|(n : ℤ) - 2 * L| - 1)| = 1 := by
      have : (n : ℤ) - 2 * L = 0 := by omega
      rw [this]; rfl
    rw [e] at hj
    refine ⟨h, by rw [hj]; push_cast; ring, ?_⟩
    unfold nJ
    rw [hj]
    apply trunc_int
    subst h
    push_cast; ring
  · left
    have e : |(|(n : ℤ) - 2 * L| - 1)| = n - 2 * L - 1 := by
      have e0 : |(n : ℤ) - 2 * L| = (n : ℤ) - 2 * L := abs_of_pos (by omega)
      rw [e0, abs_of_nonneg (by omega)]
    rw [e] at hj
    refine ⟨h, by rw [hj]; push_cast; ring, ?_⟩
    unfold nJ
    rw [hj]
    apply trunc_int
    push_cast; ring

theorem jmin_nonneg (I : ℝ) (l : ℤ) : 0 ≤ jmin I l := abs_nonneg _

theorem gJ_nonneg {I a : ℝ} (hI : 0 ≤ I) (ha : 0 ≤ a) (i : ℕ) : 0 ≤ gJ I a i := by
  unfold gJ
  have : (0:ℝ) ≤ ((i : ℤ) : ℝ) := by simp
  positivity

theorem dl_nonneg (n L : ℕ) : 0 ≤ dl ((n : ℝ) / 2) (L : ℤ) := by
  have hn : (0:ℝ) ≤ n := Nat.cast_nonneg n
  have hL : (0:ℝ) ≤ L := Nat.cast_nonneg L
  have q : (4 * ((n : ℝ) / 2) + 2) ≠ 0 := by positivity
  have q1 : ((n : ℝ) + 1) ≠ 0 := by positivity
  unfold dl
  rw [sum_gJ]
  rcases jmin_cases n L with ⟨h, hj, hN⟩ | ⟨h, hj, hN⟩ | ⟨h, hj, hN⟩
  · have e : (nJ ((n : ℝ) / 2) (L : ℤ)).toNat = 2 * L + 2 := by rw [hN]; omega
    rw [e, hj]
    have : ((2 * L + 2 : ℕ) : ℝ) * (2 * (((n : ℝ) - 2 * L - 1) / 2) + (2 * L + 2 : ℕ)) / (4 * ((n : ℝ) / 2) + 2) = L + 1 := by
      push_cast; field_simp; ring
    rw [this]; push_cast; linarith
  · have e : (nJ ((n : ℝ) / 2) (L : ℤ)).toNat = 2 * L + 1 := by rw [hN]; omega
    rw [e, hj]
    have : ((2 * L + 1 : ℕ) : ℝ) * (2 * (1 / 2) + (2 * L + 1 : ℕ)) / (4 * ((n : ℝ) / 2) + 2) = L + 1 := by
      have : (n : ℝ) = 2 * L := by rw [h]; push_cast; ring
      rw [this] at q ⊢
      push_cast; field_simp; ring
    rw [this]; push_cast; linarith
  · have e : (nJ ((n : ℝ) / 2) (L : ℤ)).toNat = n + 2 := by rw [hN]; omega
    rw [e, hj]
    have : 2 * (((L : ℤ)) : ℝ) + 1 - ((n + 2 : ℕ) : ℝ) * (2 * ((2 * (L : ℝ) - n - 1) / 2) + (n + 2 : ℕ)) / (4 * ((n : ℝ) / 2) + 2) =
        (2 * L + 1) * n / (2 * (n + 1)) := by
      push_cast; field_simp; ring
    rw [this]; positivity

/-- A possible J has an index in the range of the code. -/
theorem index_of {n L : ℕ} {J : ℝ} (h : Allowed ((n : ℝ) / 2) (L : ℤ) J) :
    ∃ i : ℕ, J = jmin ((n : ℝ) / 2) (L : ℤ) + i ∧ (i : ℤ) < nJ ((n : ℝ) / 2) (L : ℤ) := by
  obtain ⟨s, hs, m, hJ, hle⟩ := h
  obtain ⟨t, ht, hs2⟩ : ∃ t : ℕ, (t = n + 1 ∨ (t + 1 = n) ∨ (n = 0 ∧ t = 1)) ∧ s = (t : ℝ) / 2 := by
    rcases hs with hs | hs
    · rcases Nat.eq_zero_or_pos n with h0 | h0
      · refine ⟨1, .inr (.inr ⟨h0, rfl⟩), ?_⟩
        rw [hs, h0]; norm_num
      · obtain ⟨t, rfl⟩ : ∃ t, n = t + 1 := ⟨n - 1, by omega⟩
        refine ⟨t, .inr (.inl rfl), ?_⟩
        rw [hs]; push_cast
        have : ((t : ℝ) + 1) / 2 - 1 / 2 = t / 2 := by ring
        rw [this, abs_of_nonneg (by positivity)]
    · exact ⟨n + 1, .inl rfl, by rw [hs]; push_cast; ring⟩
  have e1 : |(((L : ℤ) : ℝ)) - s| = ((|2 * (L : ℤ) - t| : ℤ) : ℝ) / 2 := by
    rw [hs2]; push_cast
    have : (L : ℝ) - t / 2 = (2 * L - t) / 2 := by ring
    rw [this, abs_div, abs_of_pos (two_pos : (0:ℝ) < 2)]
  rw [e1] at hJ
  have hle2 : |2 * (L : ℤ) - t| + 2 * m ≤ 2 * L + t := by
    have : ((|2 * (L : ℤ) - t| + 2 * m : ℤ) : ℝ) ≤ ((2 * L + t : ℤ) : ℝ) := by
      rw [hJ, hs2] at hle
      push_cast at hle ⊢
      linarith
    exact_mod_cast this
  rw [hJ]
  rcases jmin_cases n L with ⟨h, hj, hN⟩ | ⟨h, hj, hN⟩ | ⟨h, hj, hN⟩
  all_goals
    rw [hj, hN]
    rcases le_total (t : ℤ) (2 * L) with hc | hc
    · rw [abs_of_nonneg (by omega)] at hle2 ⊢
      first
      | (obtain ⟨i, hi⟩ : ∃ i : ℕ, (2 * (L : ℤ) - t) + 2 * m = (n - 2 * L - 1) + 2 * i := ⟨((2 * (L : ℤ) - t + 2 * m - (n - 2 * L - 1)) / 2).toNat, by omega⟩
         refine ⟨i, ?_, by omega⟩
         have hi2 : (2 * (L : ℝ) - t) + 2 * m = (n - 2 * L - 1) + 2 * i := by exact_mod_cast hi
         push_cast; linarith)
      | (obtain ⟨i, hi⟩ : ∃ i : ℕ, (2 * (L : ℤ) - t) + 2 * m = 1 + 2 * i := ⟨((2 * (L : ℤ) - t + 2 * m - 1) / 2).toNat, by omega⟩
         refine ⟨i, ?_, by omega⟩
         have hi2 : (2 * (L : ℝ) - t) + 2 * m = 1 + 2 * i := by exact_mod_cast hi
         push_cast; linarith)
      | (obtain ⟨i, hi⟩ : ∃ i : ℕ, (2 * (L : ℤ) - t) + 2 * m = (2 * L - n - 1) + 2 * i := ⟨((2 * (L : ℤ) - t + 2 * m - (2 * L - n - 1)) / 2).toNat, by omega⟩
         refine ⟨i, ?_, by omega⟩
         have hi2 : (2 * (L : ℝ) - t) + 2 * m = (2 * L - n - 1) + 2 * i := by exact_mod_cast hi
         push_cast; linarith)
    · rw [abs_of_nonpos (by omega)] at hle2 ⊢
      first
      | (obtain ⟨i, hi⟩ : ∃ i : ℕ, -(2 * (L : ℤ) - t) + 2 * m = (n - 2 * L - 1) + 2 * i := ⟨((-(2 * (L : ℤ) - t) + 2 * m - (n - 2 * L - 1)) / 2).toNat, by omega⟩
         refine ⟨i, ?_, by omega⟩
         have hi2 : -(2 * (L : ℝ) - t) + 2 * m = (n - 2 * L - 1) + 2 * i := by exact_mod_cast hi
         push_cast; linarith)
      | (obtain ⟨i, hi⟩ : ∃ i : ℕ, -(2 * (L : ℤ) - t) + 2 * m = 1 + 2 * i := ⟨((-(2 * (L : ℤ) - t) + 2 * m - 1) / 2).toNat, by omega⟩
         refine ⟨i, ?_, by omega⟩
         have hi2 : -(2 * (L : ℝ) - t) + 2 * m = 1 + 2 * i := by exact_mod_cast hi
         push_cast; linarith)
      | (obtain ⟨i, hi⟩ : ∃ i : ℕ, -(2 * (L : ℤ) - t) + 2 * m = (2 * L - n - 1) + 2 * i := ⟨((-(2 * (L : ℤ) - t) + 2 * m - (2 * L - n - 1)) / 2).toNat, by omega⟩
         refine ⟨i, ?_, by omega⟩
         have hi2 : -(2 * (L : ℝ) - t) + 2 * m = (2 * L - n - 1) + 2 * i := by exact_mod_cast hi
         push_cast; linarith)

/-! ### Channels of Reich-Moore -/

theorem spins_zero : spins 0 = [1 / 2] := by
  have e : trunc (smax 0 - smin 0 + 1) = 1 := trunc_int (by unfold smax smin; norm_num)
  unfold spins
  rw [e]
  simp [smin]
  norm_num

theorem spins_succ (n : ℕ) : spins (((n + 1 : ℕ) : ℝ) / 2) = [(n : ℝ) / 2, ((n : ℝ) + 2) / 2] := by
  have es : smin (((n + 1 : ℕ) : ℝ) / 2) = (n : ℝ) / 2 := by
    unfold smin
    have : (((n + 1 : ℕ) : ℝ) / 2) - 0.5 = (n : ℝ) / 2 := by push_cast; ring
    rw [this, abs_of_nonneg (by positivity)]
  have e : trunc (smax (((n + 1 : ℕ) : ℝ) / 2) - smin (((n + 1 : ℕ) : ℝ) / 2) + 1) = 2 := trunc_int (by rw [es]; unfold smax; push_cast; ring)
  unfold spins
  rw [e, es]
  simp [List.range_succ]
  ring

theorem momenta_eq (L m : ℕ) : momenta (L : ℤ) ((m : ℝ) / 2) =
    (List.range (min (2 * L) m + 1)).map fun i : ℕ => (i : ℝ) + |(L : ℝ) - (m : ℝ) / 2| := by
  have e : trunc ((((L : ℤ) : ℝ)) + (m : ℝ) / 2 - |(((L : ℤ) : ℝ)) - (m : ℝ) / 2| + 1) = ((min (2 * L) m + 1 : ℕ) : ℤ) := by
    apply trunc_int
    push_cast
    rcases le_total (2 * L) m with h | h
    · have h' : 2 * (L : ℝ) ≤ m := by exact_mod_cast h
      rw [abs_of_nonpos (by linarith), min_eq_left h']; ring
    · have h' : (m : ℝ) ≤ 2 * L := by exact_mod_cast h
      rw [abs_of_nonneg (by linarith), min_eq_right h']; ring
  unfold momenta
  rw [e, Int.toNat_natCast]
  simp only [Int.cast_natCast]

theorem sum_momenta (L m : ℕ) : ((momenta (L : ℤ) ((m : ℝ) / 2)).map fun J : ℝ => 2 * J + 1).sum = (2 * (L : ℝ) + 1) * ((m : ℝ) + 1) := by
  rw [momenta_eq, List.map_map]
  have : ((fun J : ℝ => 2 * J + 1) ∘ fun i : ℕ => (i : ℝ) + |(L : ℝ) - (m : ℝ) / 2|) = fun i : ℕ => 2 * (|(L : ℝ) - (m : ℝ) / 2| + i) + 1 := by
    funext i; simp only [Function.comp]; ring
  rw [this, sum_steps]
  push_cast
  rcases le_total (2 * L) m with h | h
  · have h' : 2 * (L : ℝ) ≤ m := by exact_mod_cast h
    rw [abs_of_nonpos (by linarith), min_eq_left h']; ring
  · have h' : (m : ℝ) ≤ 2 * L := by exact_mod_cast h
    rw [abs_of_nonneg (by linarith), min_eq_right h']; ring

theorem sum_channels_at (c : ℝ) (l : ℤ) : ∀ ss : List ℝ,
    ((ss.flatMap fun s => (momenta l s).map fun J => (s, J)).map fun p : ℝ × ℝ => (2 * p.2 + 1) / c).sum =
      (ss.map fun s => ((momenta l s).map fun J => 2 * J + 1).sum).sum / c
  | [] => by simp
  | s :: ss => by
    rw [List.flatMap_cons, List.map_append, List.sum_append, sum_channels_at c l ss, List.map_cons, List.sum_cons, add_div]
    congr 1
    rw [List.map_map]
    simp only [div_eq_mul_inv, Function.comp_def]
    rw [List.sum_map_mul_right]

/-- The statistical factors of the channels of an l add up to `2l + 1`. -/
theorem sum_channels (n L : ℕ) : ((channels ((n : ℝ) / 2) (L : ℤ)).map fun c => (2 * c.2 + 1) / (4 * ((n : ℝ) / 2) + 2)).sum = 2 * L + 1 := by
  unfold channels
  rw [sum_channels_at]
  rcases Nat.eq_zero_or_pos n with h | h
  · subst h
    have e : ((0 : ℕ) : ℝ) / 2 = 0 := by simp
    rw [e, spins_zero]
    have := sum_momenta L 1
    simp only [Nat.cast_one] at this
    simp only [List.map_cons, List.map_nil, List.sum_cons, List.sum_nil]
    rw [this]; ring
  · obtain ⟨m, rfl⟩ : ∃ m, n = m + 1 := ⟨n - 1, by omega⟩
    rw [spins_succ]
    have h1 := sum_momenta L m
    have h2 := sum_momenta L (m + 2)
    push_cast at h2
    simp only [List.map_cons, List.map_nil, List.sum_cons, List.sum_nil]
    rw [h1, h2]
    push_cast
    have : (4 * (((m : ℝ) + 1) / 2) + 2) ≠ 0 := by positivity
    field_simp
    ring

theorem momenta_nonneg {l : ℤ} {s J : ℝ} (h : J ∈ momenta l s) : 0 ≤ J := by
  unfold momenta at h
  obtain ⟨i, -, rfl⟩ := List.mem_map.mp h
  positivity

theorem channels_nonneg {I : ℝ} {l : ℤ} {c : ℝ × ℝ} (h : c ∈ channels I l) : 0 ≤ c.2 := by
  unfold channels at h
  obtain ⟨s, -, h⟩ := List.mem_flatMap.mp h
  obtain ⟨J, hJ, rfl⟩ := List.mem_map.mp h
  exact momenta_nonneg hJ

end ASAPy.Recon
