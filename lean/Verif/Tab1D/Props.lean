import Verif.Tab1D.Lemmas
import Verif.Tab1D.RealExpLog
import Mathlib.Tactic.NormNum
import Mathlib.Tactic.Positivity
import Mathlib.Tactic.FieldSimp
import Mathlib.Tactic.Ring

/-!
# Properties C15-C17 of tabulated functions
-/

set_option linter.unusedSectionVars false

namespace ASAPy.Tab1D
open ASAPy.Np

theorem eval_inside {K : Type*} [Field K] [LinearOrder K] [ExpLog K] {t : Tab1D K} (hw : WF t)
    {v : K} {i law : Nat} (hi : i + 1 < t.x.length) (h1 : t.x[i] ≤ v) (h2 : v < t.x[i + 1])
    (hl : LawAt t i law) (hfar0 : ¬ isclose v (t.x.head hw.nonempty))
    (hfarN : ¬ isclose v (t.x.getLast hw.nonempty)) :
    eval t v = .ok (interp law 0 v (t.x[i]) (t.x[i + 1])
      (t.y[i]'(by rw [hw.len]; omega)) (t.y[i + 1]'(by rw [hw.len]; omega))) := by
  rw [eval_eq hw v (regions_between hw hi h1 h2 hl)]
  simp [hfar0, hfarN]

theorem isclose_self {K : Type*} [Field K] [LinearOrder K] [IsStrictOrderedRing K] [ExpLog K]
    (a : K) : isclose a a := by
  unfold isclose
  have : (0:K) ≤ |a| := abs_nonneg a
  simp
  positivity

/-- **C15 (partial).** At its own grid points a tabulated function returns the tabulated value, for all
five interpolation laws, provided that a point other than an end point is not within numpy's
`isclose` distance (relative 1e-5) of an end point. Missing: points that are, see
`C15_close_to_endpoint_refuted`. -/
theorem C15_grid_point_value_partial {t : Tab1D ℝ} (hw : WF t) {i : Nat} (hi : i < t.x.length)
    (hlaw : ∀ law ∈ t.interpolation, 1 ≤ law ∧ law ≤ 5)
    (hx : t.x[i] ≠ 0 ∨ ∀ law ∈ t.interpolation, law ≠ 3 ∧ law ≠ 5)
    (hfar0 : i = 0 ∨ ¬ TakenFor t.x[i] (t.x.head hw.nonempty))
    (hfarN : i + 1 = t.x.length ∨ ¬ TakenFor t.x[i] (t.x.getLast hw.nonempty)) :
    eval t t.x[i] = .ok (t.y[i]'(by rw [hw.len]; exact hi)) := by
  have hpw := List.pairwise_iff_getElem.mp hw.increasing
  have hyne : t.y ≠ [] := by
    intro h0; apply hw.nonempty; have := hw.len; rw [h0] at this; simpa using this.symm
  by_cases hlast : i + 1 = t.x.length
  · -- the last point
    have hxl : t.x.getLast hw.nonempty = t.x[i] := by
      rw [List.getLast_eq_getElem]; congr 1; omega
    have hyl : t.y.getLast hyne = t.y[i]'(by rw [hw.len]; exact hi) := by
      rw [List.getLast_eq_getElem]; congr 1; rw [hw.len]; omega
    rw [eval_eq hw _ (regions_outside hw (Or.inr (le_of_eq hxl)))]
    rw [hxl, if_pos (isclose_self _), hyl]
  · have hi1 : i + 1 < t.x.length := by omega
    obtain ⟨law, hl⟩ := lawAt_exists hw hi1
    have hreg := regions_between hw hi1 le_rfl (hpw i (i+1) hi hi1 (by omega)) hl
    have hlmem : law ∈ t.interpolation := by
      obtain ⟨k, hk, _⟩ := hl
      exact List.mem_of_getElem? hk
    have hval : interp law 0 t.x[i] t.x[i] t.x[i+1] (t.y[i]'(by rw [hw.len]; omega))
        (t.y[i + 1]'(by rw [hw.len]; omega)) = t.y[i]'(by rw [hw.len]; omega) := by
      have hle := hlaw law hlmem
      have hcase : law = 1 ∨ law = 2 ∨ law = 3 ∨ law = 4 ∨ law = 5 := by omega
      rcases hcase with rfl | rfl | rfl | rfl | rfl
      · rfl
      · simp [interp]
      · rcases hx with hx | hx
        · simp [interp, div_self hx, realLog]
        · exact absurd rfl (hx 3 hlmem).1
      · simp [interp, realExp]
      · rcases hx with hx | hx
        · simp [interp, div_self hx, realLog, realExp]
        · exact absurd rfl (hx 5 hlmem).2
    rw [hval] at hreg
    have hN : ¬ isclose t.x[i] (t.x.getLast hw.nonempty) := by
      rcases hfarN with h | h
      · exact absurd h hlast
      · exact h
    rw [eval_eq hw _ hreg, if_neg hN]
    rcases hfar0 with h0 | h0
    · subst h0
      have hxl : t.x.head hw.nonempty = t.x[0] := by rw [List.head_eq_getElem]
      have hyl : t.y.head hyne = t.y[0]'(by rw [hw.len]; exact hi) := by rw [List.head_eq_getElem]
      rw [hxl, if_pos (isclose_self _), hyl]
    · rw [if_neg (show ¬ isclose _ _ from h0)]

/-- Every law interpolates between the neighbouring values. -/
theorem interp_between {law : Nat} (hlaw : 1 ≤ law ∧ law ≤ 5) {v xi xi1 yi yi1 : ℝ}
    (h1 : xi ≤ v) (h2 : v < xi1) (hx : law = 3 ∨ law = 5 → 0 < xi)
    (hy : law = 4 ∨ law = 5 → 0 < yi ∧ 0 < yi1) :
    min yi yi1 ≤ interp law 0 v xi xi1 yi yi1 ∧ interp law 0 v xi xi1 yi yi1 ≤ max yi yi1 := by
  have hlin : ∀ s : ℝ, 0 ≤ s → s ≤ 1 →
      min yi yi1 ≤ yi + s * (yi1 - yi) ∧ yi + s * (yi1 - yi) ≤ max yi yi1 := by
    intro s h0 h1
    rcases le_total yi yi1 with h | h
    · rw [min_eq_left h, max_eq_right h]; constructor <;> nlinarith
    · rw [min_eq_right h, max_eq_left h]; constructor <;> nlinarith
  have hexp : 0 < yi → 0 < yi1 → ∀ s : ℝ, 0 ≤ s → s ≤ 1 →
      min yi yi1 ≤ yi * Real.exp (s * Real.log (yi1 / yi)) ∧
        yi * Real.exp (s * Real.log (yi1 / yi)) ≤ max yi yi1 := by
    intro hy0 hy1 s h0 h1
    have hq : 0 < yi1 / yi := by positivity
    have hyi1 : yi1 = yi * Real.exp (Real.log (yi1 / yi)) := by
      rw [Real.exp_log hq]; field_simp
    have hyi : yi = yi * Real.exp 0 := by simp
    rcases le_total yi yi1 with h | h
    · have hlog : 0 ≤ Real.log (yi1 / yi) := Real.log_nonneg (by rw [le_div_iff₀ hy0]; linarith)
      rw [min_eq_left h, max_eq_right h]
      constructor
      · calc yi = yi * Real.exp 0 := hyi
          _ ≤ _ := mul_le_mul_of_nonneg_left (Real.exp_le_exp.mpr (by positivity)) hy0.le
      · calc yi * Real.exp (s * Real.log (yi1 / yi))
            ≤ yi * Real.exp (Real.log (yi1 / yi)) :=
              mul_le_mul_of_nonneg_left (Real.exp_le_exp.mpr (by nlinarith)) hy0.le
          _ = yi1 := hyi1.symm
    · have hlog : Real.log (yi1 / yi) ≤ 0 :=
        Real.log_nonpos hq.le (by rw [div_le_iff₀ hy0]; linarith)
      rw [min_eq_right h, max_eq_left h]
      constructor
      · calc yi1 = yi * Real.exp (Real.log (yi1 / yi)) := hyi1
          _ ≤ _ := mul_le_mul_of_nonneg_left (Real.exp_le_exp.mpr (by nlinarith)) hy0.le
      · calc yi * Real.exp (s * Real.log (yi1 / yi)) ≤ yi * Real.exp 0 :=
              mul_le_mul_of_nonneg_left (Real.exp_le_exp.mpr (by nlinarith)) hy0.le
          _ = yi := hyi.symm
  have hs2 : 0 ≤ (v - xi) / (xi1 - xi) ∧ (v - xi) / (xi1 - xi) ≤ 1 := by
    have hd : 0 < xi1 - xi := by linarith
    exact ⟨div_nonneg (by linarith) hd.le, (div_le_one hd).mpr (by linarith)⟩
  have hs3 : 0 < xi → 0 ≤ Real.log (v / xi) / Real.log (xi1 / xi) ∧
      Real.log (v / xi) / Real.log (xi1 / xi) ≤ 1 := by
    intro hxi
    have hd : 0 < Real.log (xi1 / xi) := Real.log_pos (by rw [lt_div_iff₀ hxi]; linarith)
    have hv : 1 ≤ v / xi := by rw [le_div_iff₀ hxi]; linarith
    refine ⟨div_nonneg (Real.log_nonneg hv) hd.le, (div_le_one hd).mpr ?_⟩
    exact Real.log_le_log (by linarith) (div_le_div_of_nonneg_right h2.le hxi.le)
  have hcase : law = 1 ∨ law = 2 ∨ law = 3 ∨ law = 4 ∨ law = 5 := by omega
  rcases hcase with rfl | rfl | rfl | rfl | rfl
  · exact ⟨min_le_left _ _, le_max_left _ _⟩
  · exact hlin _ hs2.1 hs2.2
  · have := hs3 (hx (Or.inl rfl)); exact hlin _ this.1 this.2
  · have := hy (Or.inl rfl); exact hexp this.1 this.2 _ hs2.1 hs2.2
  · have hp := hs3 (hx (Or.inr rfl)); have := hy (Or.inr rfl); exact hexp this.1 this.2 _ hp.1 hp.2

/-- **C16.** Between two neighbouring grid points (and away from the endpoint tolerance) the value lies
between the two tabulated values, for all five laws; logarithmic laws need the logarithms to exist. -/
theorem C16_between_neighbours {t : Tab1D ℝ} (hw : WF t) {v : ℝ} {i : Nat}
    (hi : i + 1 < t.x.length) (h1 : t.x[i] ≤ v) (h2 : v < t.x[i + 1])
    (hlaw : ∀ law ∈ t.interpolation, 1 ≤ law ∧ law ≤ 5)
    (hpos : (∀ law ∈ t.interpolation, law ≤ 2) ∨ ((∀ x ∈ t.x, 0 < x) ∧ ∀ y ∈ t.y, 0 < y))
    (hfar0 : ¬ TakenFor v (t.x.head hw.nonempty)) (hfarN : ¬ TakenFor v (t.x.getLast hw.nonempty)) :
    ∃ r, eval t v = .ok r ∧
      min (t.y[i]'(by rw [hw.len]; omega)) (t.y[i + 1]'(by rw [hw.len]; omega)) ≤ r ∧
      r ≤ max (t.y[i]'(by rw [hw.len]; omega)) (t.y[i + 1]'(by rw [hw.len]; omega)) := by
  obtain ⟨law, hl⟩ := lawAt_exists hw hi
  have hlmem : law ∈ t.interpolation := by
    obtain ⟨k, hk, _⟩ := hl
    exact List.mem_of_getElem? hk
  refine ⟨_, eval_inside hw hi h1 h2 hl hfar0 hfarN, ?_⟩
  apply interp_between (hlaw law hlmem) h1 h2
  · intro h
    rcases hpos with hp | hp
    · have := hp law hlmem; omega
    · exact hp.1 _ (List.getElem_mem _)
  · intro h
    rcases hpos with hp | hp
    · have := hp law hlmem; omega
    · exact ⟨hp.2 _ (List.getElem_mem _), hp.2 _ (List.getElem_mem _)⟩

/-- **C16.** Outside the table the value is 0, beyond the endpoint tolerance. -/
theorem C16_zero_outside {K : Type*} [Field K] [LinearOrder K] [ExpLog K] {t : Tab1D K} (hw : WF t)
    {v : K} (hout : v < t.x.head hw.nonempty ∨ t.x.getLast hw.nonempty < v)
    (hfar0 : ¬ TakenFor v (t.x.head hw.nonempty)) (hfarN : ¬ TakenFor v (t.x.getLast hw.nonempty)) :
    eval t v = .ok 0 := by
  rw [eval_eq hw v (regions_outside hw (hout.imp id le_of_lt))]
  rw [if_neg (show ¬ isclose _ _ from hfarN), if_neg (show ¬ isclose _ _ from hfar0)]

theorem regions_total {K : Type*} [Field K] [LinearOrder K] [ExpLog K] {t : Tab1D K} (hw : WF t) (v : K) : ∃ r, regions t v = .ok r := by
  by_cases h : v < t.x.head hw.nonempty ∨ t.x.getLast hw.nonempty ≤ v
  · exact ⟨0, regions_outside hw h⟩
  · push Not at h
    have hpos : 0 < t.x.length := List.length_pos_iff.mpr hw.nonempty
    classical
    have hex : ∃ k : Nat, ∃ h : k < t.x.length, v < t.x[k] :=
      ⟨t.x.length - 1, by omega, by
        have := h.2; rw [List.getLast_eq_getElem] at this; exact this⟩
    obtain ⟨hk, hkv⟩ := Nat.find_spec hex
    have hk0 : Nat.find hex ≠ 0 := by
      intro h0
      have := h.1
      rw [List.head_eq_getElem] at this
      simp only [h0] at hkv
      exact absurd (lt_of_lt_of_le hkv this) (lt_irrefl _)
    obtain ⟨i, hi⟩ : ∃ i, Nat.find hex = i + 1 := ⟨Nat.find hex - 1, by omega⟩
    have hi1 : i + 1 < t.x.length := by omega
    have hle : t.x[i] ≤ v := by
      by_contra hcon
      exact Nat.find_min hex (m := i) (by omega) ⟨by omega, not_le.mp hcon⟩
    have hlt : v < t.x[i+1] := by simpa only [hi] using hkv
    obtain ⟨law, hl⟩ := lawAt_exists hw hi1
    exact ⟨_, regions_between hw hi1 hle hlt hl⟩

/-- A well-formed table can be evaluated everywhere, without exception. -/
theorem C16_total {K : Type*} [Field K] [LinearOrder K] [ExpLog K] {t : Tab1D K} (hw : WF t) (v : K) :
    ∃ r, eval t v = .ok r := by
  obtain ⟨r, hr⟩ := regions_total hw v
  exact ⟨_, eval_eq hw v hr⟩

/-- **C17.** Histogram and lin-lin tables on a common grid: evaluating a linear combination of the data
is the linear combination of the evaluations, at every argument (inside, outside, at the ends). -/
theorem C17_linear_in_data {K : Type*} [Field K] [LinearOrder K] [ExpLog K]
    {x y y' : List K} {bp : List Int} {laws : List Nat} (a b : K)
    (hw : WF (⟨x, y, bp, laws⟩ : Tab1D K)) (hw' : WF (⟨x, y', bp, laws⟩ : Tab1D K))
    (hlaw : ∀ law ∈ laws, law = 1 ∨ law = 2) (v : K) :
    ∃ r r', eval ⟨x, y, bp, laws⟩ v = .ok r ∧ eval ⟨x, y', bp, laws⟩ v = .ok r' ∧
      eval ⟨x, List.zipWith (fun p q => a * p + b * q) y y', bp, laws⟩ v = .ok (a * r + b * r') := by
  set yc := List.zipWith (fun p q => a * p + b * q) y y' with hyc
  have hly : y.length = x.length := hw.len
  have hly' : y'.length = x.length := hw'.len
  have hlyc : yc.length = x.length := by simp [hyc, hly, hly']
  have hwc : WF (⟨x, yc, bp, laws⟩ : Tab1D K) :=
    ⟨hw.increasing, hlyc, hw.nonempty, hw.bp_increasing, hw.bp_pos, hw.bp_last, hw.laws⟩
  have hreg : ∃ r r', regions ⟨x, y, bp, laws⟩ v = .ok r ∧ regions ⟨x, y', bp, laws⟩ v = .ok r' ∧
      regions ⟨x, yc, bp, laws⟩ v = .ok (a * r + b * r') := by
    by_cases h : v < x.head hw.nonempty ∨ x.getLast hw.nonempty ≤ v
    · exact ⟨0, 0, regions_outside hw h, regions_outside hw' h, by
        rw [regions_outside hwc h]; simp⟩
    · push Not at h
      have hpos : 0 < x.length := List.length_pos_iff.mpr hw.nonempty
      classical
      have hex : ∃ k : Nat, ∃ h : k < x.length, v < x[k] :=
        ⟨x.length - 1, by omega, by
          have := h.2; rw [List.getLast_eq_getElem] at this; exact this⟩
      obtain ⟨hk, hkv⟩ := Nat.find_spec hex
      have hk0 : Nat.find hex ≠ 0 := by
        intro h0
        have := h.1
        rw [List.head_eq_getElem] at this
        simp only [h0] at hkv
        exact absurd (lt_of_lt_of_le hkv this) (lt_irrefl _)
      obtain ⟨i, hi⟩ : ∃ i, Nat.find hex = i + 1 := ⟨Nat.find hex - 1, by omega⟩
      have hi1 : i + 1 < x.length := by omega
      have hle : x[i] ≤ v := by
        by_contra hcon
        exact Nat.find_min hex (m := i) (by omega) ⟨by omega, not_le.mp hcon⟩
      have hlt : v < x[i+1] := by simpa only [hi] using hkv
      obtain ⟨law, hl⟩ := lawAt_exists hw hi1
      have hl' : LawAt (⟨x, y', bp, laws⟩ : Tab1D K) i law := hl
      have hlc : LawAt (⟨x, yc, bp, laws⟩ : Tab1D K) i law := hl
      refine ⟨_, _, regions_between hw hi1 hle hlt hl, regions_between hw' hi1 hle hlt hl', ?_⟩
      rw [regions_between hwc hi1 hle hlt hlc]
      congr 1
      have hlmem : law ∈ laws := by
        obtain ⟨k, hk, _⟩ := hl
        exact List.mem_of_getElem? hk
      rcases hlaw law hlmem with rfl | rfl
      · simp [interp, hyc]
      · simp only [interp, hyc, List.getElem_zipWith]; ring
  obtain ⟨r, r', h1, h2, h3⟩ := hreg
  refine ⟨_, _, eval_eq hw v h1, eval_eq hw' v h2, ?_⟩
  rw [eval_eq hwc v h3]
  congr 1
  have hyne : y ≠ [] := by intro h0; apply hw.nonempty; rw [h0] at hly; simpa using hly.symm
  have hyne' : y' ≠ [] := by intro h0; apply hw.nonempty; rw [h0] at hly'; simpa using hly'.symm
  have hycne : yc ≠ [] := by intro h0; apply hw.nonempty; rw [h0] at hlyc; simpa using hlyc.symm
  have hlast : yc.getLast hycne = a * y.getLast hyne + b * y'.getLast hyne' := by
    simp only [List.getLast_eq_getElem, hyc, List.getElem_zipWith, List.length_zipWith, hly, hly',
      min_self]
  have hhead : yc.head hycne = a * y.head hyne + b * y'.head hyne' := by
    simp only [List.head_eq_getElem, hyc, List.getElem_zipWith]
  simp only [hlast, hhead]
  split_ifs <;> rfl

/-! ### Concrete cases -/

section Examples

/-- A well-formed two-region table over any ordered field: histogram on `[1,2]`, lin-lin on `[2,4]`. -/
theorem exWF {K : Type*} [Field K] [LinearOrder K] [IsStrictOrderedRing K] :
    WF (⟨[1, 2, 3, 4], [10, 20, 40, 30], [2, 4], [1, 2]⟩ : Tab1D K) where
  increasing := by simp; norm_num
  len := rfl
  nonempty := by simp
  bp_increasing := by simp
  bp_pos := by simp
  bp_last := rfl
  laws := rfl

/-- The hypotheses of C16 are met at `v = 5/2`, `i = 1`. -/
example : (1 : ℕ) + 1 < ([1, 2, 3, 4] : List ℝ).length ∧ ([1, 2, 3, 4] : List ℝ)[1] ≤ (5/2 : ℝ) ∧
    ¬ TakenFor (5/2 : ℝ) 1 ∧ ¬ TakenFor (5/2 : ℝ) 4 := by
  refine ⟨by simp, by norm_num, ?_, ?_⟩
  · unfold TakenFor; norm_num [abs_of_pos]
  · unfold TakenFor
    rw [show (5/2 : ℝ) - 4 = -(3/2) by norm_num, abs_neg]
    norm_num [abs_of_pos]

local instance : ExpLog ℚ := ⟨id, id⟩

example : (⟨[1, 2, 3, 4], [10, 20, 40, 30], [2, 4], [1, 2]⟩ : Tab1D ℚ).evals
    [1/2, 1, 3/2, 2, 5/2, 4, 5] = .ok [0, 10, 10, 20, 30, 30, 0] := by decide +kernel

end Examples

/-- **C15 refuted.** A grid with a second point within a relative distance of 1e-5 of the first one
(as just above a reaction threshold): the table's own second value 7 is not returned there, the
first value 3 is. -/
theorem C15_close_to_endpoint_refuted [ExpLog ℚ] :
    WF (⟨[1000000, 1000001, 2000000], [3, 7, 9], [3], [2]⟩ : Tab1D ℚ) ∧
    eval (⟨[1000000, 1000001, 2000000], [3, 7, 9], [3], [2]⟩ : Tab1D ℚ) 1000001 = .ok 3 := by
  constructor
  · exact ⟨by simp; norm_num, rfl, by simp, by simp, by simp, rfl, rfl⟩
  · have hw : WF (⟨[1000000, 1000001, 2000000], [3, 7, 9], [3], [2]⟩ : Tab1D ℚ) :=
      ⟨by simp; norm_num, rfl, by simp, by simp, by simp, rfl, rfl⟩
    obtain ⟨law, hl⟩ := lawAt_exists hw (i := 1) (by simp)
    rw [eval_eq hw _ (regions_between hw (i := 1) (by simp) (by norm_num) (by norm_num) hl)]
    have h1 : ¬ isclose (1000001 : ℚ) 2000000 := by
      unfold isclose
      rw [show (1000001 : ℚ) - 2000000 = -999999 by norm_num, abs_neg]
      norm_num [abs_of_pos]
    have h2 : isclose (1000001 : ℚ) 1000000 := by
      unfold isclose
      rw [show (1000001 : ℚ) - 1000000 = 1 by norm_num]
      norm_num [abs_of_pos]
    simp [h1, h2]

end ASAPy.Tab1D
