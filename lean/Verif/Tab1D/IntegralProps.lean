import Verif.Tab1D.Integral
import Verif.Tab1D.Props
import Mathlib.Analysis.SpecialFunctions.Integrals.Basic

/-!
# Property C18: `integral()` is the integral of the interpolated function
-/

set_option linter.unusedSectionVars false

namespace ASAPy.Tab1D
open MeasureTheory

/-- The panels on which the formulas of the code are right: everything for the histogram and lin-lin laws;
for lin-log only intervals where the missing width factor does not matter; for log-lin and log-log positive data
and no vanishing denominator. -/
def PanelOK (law : Nat) (x0 x1 y0 y1 : ℝ) : Prop :=
  match law with
  | 1 => True
  | 2 => True
  | 3 => 0 < x0 ∧ y0 * (x1 - x0) = y0
  | 4 => 0 < y0 ∧ 0 < y1 ∧ y0 ≠ y1
  | 5 => 0 < x0 ∧ 0 < y0 ∧ 0 < y1 ∧ x0 * y0 ≠ x1 * y1
  | _ => False

theorem hist_integral {x0 x1 y0 y1 : ℝ} :
    IntervalIntegrable (fun v => interp 1 0 v x0 x1 y0 y1) volume x0 x1 ∧
    (∫ v in x0..x1, interp 1 0 v x0 x1 y0 y1) = y0 * (x1 - x0) := by
  constructor
  · exact intervalIntegrable_const
  · simp [interp, mul_comm]

theorem linlin_integral {x0 x1 y0 y1 : ℝ} (h : x0 < x1) :
    IntervalIntegrable (fun v => interp 2 0 v x0 x1 y0 y1) volume x0 x1 ∧
    (∫ v in x0..x1, interp 2 0 v x0 x1 y0 y1) = (y0 + y1) / 2 * (x1 - x0) := by
  have hc : Continuous (fun v => interp 2 0 v x0 x1 y0 y1) := by
    unfold interp; fun_prop
  refine ⟨hc.intervalIntegrable _ _, ?_⟩
  have hd : x1 - x0 ≠ 0 := by linarith
  rw [intervalIntegral.integral_eq_sub_of_hasDerivAt
    (f := fun v => y0 * v + (v - x0) ^ 2 / 2 / (x1 - x0) * (y1 - y0)) ?_ (hc.intervalIntegrable _ _)]
  · field_simp; ring
  · intro v _
    have h1 : HasDerivAt (fun v : ℝ => y0 * v) (y0 * 1) v := (hasDerivAt_id v).const_mul y0
    have h2 : HasDerivAt (fun v : ℝ => (v - x0) ^ 2 / 2 / (x1 - x0) * (y1 - y0))
        (((2 : ℕ) : ℝ) * (v - x0) ^ (2 - 1) * 1 / 2 / (x1 - x0) * (y1 - y0)) v :=
      (((((hasDerivAt_id v).sub_const x0).pow 2).div_const 2).div_const _).mul_const _
    convert h1.add h2 using 1
    · rfl
    simp only [interp]
    push_cast
    ring

theorem linlog_integral {x0 x1 y0 y1 : ℝ} (h : x0 < x1) (hx : 0 < x0) :
    IntervalIntegrable (fun v => interp 3 0 v x0 x1 y0 y1) volume x0 x1 ∧
    (∫ v in x0..x1, interp 3 0 v x0 x1 y0 y1) =
      y0 * (x1 - x0) + (y1 - y0) / Real.log (x1 / x0) * (x1 * (Real.log (x1 / x0) - 1) + x0) := by
  have hpos : ∀ v ∈ Set.uIcc x0 x1, 0 < v := by
    intro v hv; rw [Set.uIcc_of_le h.le] at hv; exact lt_of_lt_of_le hx hv.1
  have hc : ContinuousOn (fun v => interp 3 0 v x0 x1 y0 y1) (Set.uIcc x0 x1) := by
    simp only [interp, realLog]
    apply ContinuousOn.add continuousOn_const
    apply ContinuousOn.mul _ continuousOn_const
    apply ContinuousOn.div_const
    apply ContinuousOn.log (by fun_prop)
    intro v hv
    have := hpos v hv
    positivity
  refine ⟨hc.intervalIntegrable, ?_⟩
  have hl : 0 < Real.log (x1 / x0) := Real.log_pos (by rw [lt_div_iff₀ hx]; linarith)
  rw [intervalIntegral.integral_eq_sub_of_hasDerivAt
    (f := fun v => y0 * v + (v * Real.log (v / x0) - v) / Real.log (x1 / x0) * (y1 - y0)) ?_
    hc.intervalIntegrable]
  · simp only [div_self hx.ne', Real.log_one]
    field_simp; ring
  · intro v hv
    have hv0 := hpos v hv
    have h1 : HasDerivAt (fun v : ℝ => y0 * v) (y0 * 1) v := (hasDerivAt_id v).const_mul y0
    have hlog : HasDerivAt (fun v : ℝ => Real.log (v / x0)) (1 / x0 / (v / x0)) v :=
      ((hasDerivAt_id v).div_const x0).log (by positivity)
    have h2 := ((((hasDerivAt_id v).mul hlog).sub (hasDerivAt_id v)).div_const
      (Real.log (x1 / x0))).mul_const (y1 - y0)
    convert h1.add h2 using 1
    · rfl
    simp only [interp, realLog, id]
    field_simp
    ring

theorem loglin_integral {x0 x1 y0 y1 : ℝ} (h : x0 < x1) (hy0 : 0 < y0) (hy1 : 0 < y1) (hne : y0 ≠ y1) :
    IntervalIntegrable (fun v => interp 4 0 v x0 x1 y0 y1) volume x0 x1 ∧
    (∫ v in x0..x1, interp 4 0 v x0 x1 y0 y1) =
      y0 / (Real.log (y1 / y0) / (x1 - x0)) *
        (Real.exp (Real.log (y1 / y0) / (x1 - x0) * (x1 - x0)) - 1) := by
  have hd : x1 - x0 ≠ 0 := by linarith
  have hc : Continuous (fun v => interp 4 0 v x0 x1 y0 y1) := by
    simp only [interp, realLog, realExp]; fun_prop
  refine ⟨hc.intervalIntegrable _ _, ?_⟩
  have hlog : Real.log (y1 / y0) ≠ 0 := by
    intro h0
    rcases Real.log_eq_zero.mp h0 with h | h | h
    · rcases div_eq_zero_iff.mp h with h | h <;> linarith
    · rw [div_eq_one_iff_eq hy0.ne'] at h; exact hne h.symm
    · have : 0 < y1 / y0 := by positivity
      linarith
  set m := Real.log (y1 / y0) / (x1 - x0) with hm
  have hm0 : m ≠ 0 := div_ne_zero hlog hd
  have hlm : Real.log (y1 / y0) = m * (x1 - x0) := by rw [hm]; field_simp
  rw [intervalIntegral.integral_eq_sub_of_hasDerivAt
    (f := fun v => y0 / m * Real.exp (m * (v - x0))) ?_ (hc.intervalIntegrable _ _)]
  · simp only [sub_self, mul_zero, Real.exp_zero]; ring
  · intro v _
    have h2 := (((((hasDerivAt_id v).sub_const x0).const_mul m).exp)).const_mul (y0 / m)
    have he : (v - x0) / (x1 - x0) * (m * (x1 - x0)) = m * (v - x0) := by field_simp
    have hv : interp 4 0 v x0 x1 y0 y1 = y0 / m * (Real.exp (m * (id v - x0)) * (m * 1)) := by
      simp only [interp, realLog, realExp, id, hlm]
      rw [he]
      field_simp
    rw [hv]
    exact h2

theorem loglog_exponent {x0 x1 y0 y1 : ℝ} (h : x0 < x1) (hx : 0 < x0) (hy0 : 0 < y0) (hy1 : 0 < y1)
    (hne : x0 * y0 ≠ x1 * y1) : Real.log (y1 / y0) / Real.log (x1 / x0) ≠ -1 := by
  have hl : 0 < Real.log (x1 / x0) := Real.log_pos (by rw [lt_div_iff₀ hx]; linarith)
  have hx1 : 0 < x1 := by linarith
  intro h0
  rw [div_eq_iff hl.ne'] at h0
  apply hne
  have h1 : Real.log (y1 / y0) = Real.log (x1 / x0)⁻¹ := by rw [Real.log_inv]; linarith
  have h2 := Real.log_injOn_pos (Set.mem_Ioi.mpr (by positivity)) (Set.mem_Ioi.mpr (by positivity)) h1
  field_simp at h2
  linarith

theorem loglog_integral {x0 x1 y0 y1 : ℝ} (h : x0 < x1) (hx : 0 < x0) (hy0 : 0 < y0) (hy1 : 0 < y1)
    (hne : x0 * y0 ≠ x1 * y1) :
    IntervalIntegrable (fun v => interp 5 0 v x0 x1 y0 y1) volume x0 x1 ∧
    (∫ v in x0..x1, interp 5 0 v x0 x1 y0 y1) =
      y0 / ((Real.log (y1 / y0) / Real.log (x1 / x0) + 1) *
        x0 ^ (Real.log (y1 / y0) / Real.log (x1 / x0))) *
        (x1 ^ (Real.log (y1 / y0) / Real.log (x1 / x0) + 1) -
          x0 ^ (Real.log (y1 / y0) / Real.log (x1 / x0) + 1)) := by
  have hm1 := loglog_exponent h hx hy0 hy1 hne
  set m := Real.log (y1 / y0) / Real.log (x1 / x0) with hm
  have hpos : ∀ v ∈ Set.uIcc x0 x1, 0 < v := by
    intro v hv; rw [Set.uIcc_of_le h.le] at hv; exact lt_of_lt_of_le hx hv.1
  have heq : Set.EqOn (fun v => interp 5 0 v x0 x1 y0 y1) (fun v => y0 / x0 ^ m * v ^ m)
      (Set.uIcc x0 x1) := by
    intro v hv
    have hv0 := hpos v hv
    simp only [interp, realLog, realExp]
    have : Real.log (v / x0) / Real.log (x1 / x0) * Real.log (y1 / y0) = Real.log (v / x0) * m := by
      rw [hm]; ring
    rw [this, ← Real.rpow_def_of_pos (by positivity), Real.div_rpow hv0.le hx.le]
    ring
  have h0 : (0 : ℝ) ∉ Set.uIcc x0 x1 := fun h => lt_irrefl _ (hpos 0 h)
  have hc : ContinuousOn (fun v => y0 / x0 ^ m * v ^ m) (Set.uIcc x0 x1) := by
    apply ContinuousOn.mul continuousOn_const
    apply ContinuousOn.rpow_const continuousOn_id
    intro v hv; exact Or.inl (hpos v hv).ne'
  refine ⟨(hc.congr heq).intervalIntegrable, ?_⟩
  rw [intervalIntegral.integral_congr heq, intervalIntegral.integral_const_mul,
    integral_rpow (Or.inr ⟨hm1, h0⟩)]
  have : m + 1 ≠ 0 := fun h => hm1 (by linarith)
  have : x0 ^ m ≠ 0 := (Real.rpow_pos_of_pos hx m).ne'
  field_simp

theorem panel_ok {law : Nat} {x0 x1 y0 y1 : ℝ} (h : x0 < x1) (hok : PanelOK law x0 x1 y0 y1) :
    IntervalIntegrable (fun v => interp law 0 v x0 x1 y0 y1) volume x0 x1 ∧
    panel law x0 x1 y0 y1 = some (∫ v in x0..x1, interp law 0 v x0 x1 y0 y1) := by
  have hd : x1 - x0 ≠ 0 := by linarith
  match law, hok with
  | 1, _ => exact ⟨hist_integral.1, by simp only [panel]; rw [hist_integral.2]⟩
  | 2, _ =>
    refine ⟨(linlin_integral h).1, ?_⟩
    simp only [panel, hd, if_false]
    rw [(linlin_integral h).2]
    congr 1
    field_simp
    ring
  | 3, hok =>
    obtain ⟨hx, hw⟩ := hok
    refine ⟨(linlog_integral h hx).1, ?_⟩
    have hl : 0 < Real.log (x1 / x0) := Real.log_pos (by rw [lt_div_iff₀ hx]; linarith)
    have hq : 0 < x1 / x0 := div_pos (by linarith) hx
    simp only [panel, hx.ne', hq.not_ge, hl.ne', or_self, if_false]
    rw [(linlog_integral h hx).2, hw]
  | 4, hok =>
    obtain ⟨hy0, hy1, hne⟩ := hok
    refine ⟨(loglin_integral h hy0 hy1 hne).1, ?_⟩
    have hq : 0 < y1 / y0 := by positivity
    have hlog : Real.log (y1 / y0) ≠ 0 := by
      intro h0
      rcases Real.log_eq_zero.mp h0 with h | h | h
      · linarith
      · rw [div_eq_one_iff_eq hy0.ne'] at h; exact hne h.symm
      · linarith
    simp only [panel, hy0.ne', hq.not_ge, hd, or_self, if_false, div_ne_zero hlog hd]
    rw [(loglin_integral h hy0 hy1 hne).2]
  | 5, hok =>
    obtain ⟨hx, hy0, hy1, hne⟩ := hok
    refine ⟨(loglog_integral h hx hy0 hy1 hne).1, ?_⟩
    have hl : 0 < Real.log (x1 / x0) := Real.log_pos (by rw [lt_div_iff₀ hx]; linarith)
    have hq : 0 < x1 / x0 := div_pos (by linarith) hx
    have hqy : 0 < y1 / y0 := by positivity
    have hm : Real.log (y1 / y0) / Real.log (x1 / x0) + 1 ≠ 0 :=
      fun h0 => loglog_exponent h hx hy0 hy1 hne (by linarith)
    simp only [panel, hx.ne', hq.not_ge, hl.ne', hy0.ne', hqy.not_ge, or_self, if_false, hm,
      (Real.rpow_pos_of_pos hx _).ne']
    rw [(loglog_integral h hx hy0 hy1 hne).2]

theorem cumsumFrom_get (s : ℝ) (l : List ℝ) :
    ∀ (j : Nat) (hj : j < l.length),
      (cumsumFrom (some s) (l.map some))[j]? = some (some (s + (l.take (j + 1)).sum)) := by
  induction l generalizing s with
  | nil => intro j hj; simp at hj
  | cons a l ih =>
    intro j hj
    simp only [List.map_cons, cumsumFrom, Option.bind_some, Option.map_some]
    cases j with
    | zero => simp
    | succ j =>
      simp only [List.getElem?_cons_succ]
      rw [ih (s + a) j (by simpa using hj)]
      simp [add_assoc]

/-- The loop fills every panel with its partial integral. -/
theorem loop_spec {t : Tab1D ℝ} (hw : WF t)
    (g : Nat → Option ℝ)
    (hg : ∀ i (_ : i + 1 < t.x.length) law, LawAt t i law → panelAt t law i = .ok (g i)) :
    ∃ n, (List.range t.breakpoints.length).foldlM (integralRegion t)
        (0, List.replicate (t.x.length - 1) (some (0 : ℝ))) =
      .ok (n, (List.range (t.x.length - 1)).map g) := by
  have hpw := List.pairwise_iff_getElem.mp hw.bp_increasing
  have hble : ∀ k (hk : k < t.breakpoints.length), t.breakpoints[k] ≤ t.x.length := by
    intro k hk
    have hl := hw.bp_last
    rw [List.getLast?_eq_getElem?] at hl
    obtain ⟨h1, h2⟩ := List.getElem?_eq_some_iff.mp hl
    by_cases hkl : k = t.breakpoints.length - 1
    · subst hkl; omega
    · have := hpw k (t.breakpoints.length - 1) hk h1 (by omega)
      omega
  set n := t.x.length - 1 with hn
  let low : Nat → Nat := fun k => if k = 0 then 0 else ((t.breakpoints[k - 1]?.getD 1) - 1).toNat
  let st : Nat → Nat × List (Option ℝ) := fun k =>
    (low k, (List.range (low k)).map g ++ List.replicate (n - low k) (some 0))
  have key : ∀ m, m ≤ t.breakpoints.length →
      (List.range m).foldlM (integralRegion t) (0, List.replicate n (some (0 : ℝ))) = .ok (st m) := by
    intro m
    induction m with
    | zero => intro _; simp [st, low, pure, Except.pure]
    | succ k ih =>
      intro hk
      have hklt : k < t.breakpoints.length := by omega
      rw [List.range_succ, List.foldlM_append, ih (by omega)]
      have hb : t.breakpoints[k]? = some t.breakpoints[k] := List.getElem?_eq_getElem hklt
      have hlaw : t.interpolation[k]? = some (t.interpolation[k]'(by rw [hw.laws]; exact hklt)) :=
        List.getElem?_eq_getElem _
      have hlow1 : low (k + 1) = (t.breakpoints[k] - 1).toNat := by
        simp only [low, Nat.add_sub_cancel, hb, Option.getD_some, Nat.add_eq_zero_iff, one_ne_zero,
          and_false, if_false]
      have hb1 : 1 ≤ t.breakpoints[k] := hw.bp_pos _ (List.getElem_mem _)
      have hhi : (t.breakpoints[k] - 1).toNat ≤ n := by have := hble k hklt; omega
      have hlohi : low k ≤ (t.breakpoints[k] - 1).toNat := by
        by_cases h0 : k = 0
        · simp [low, h0]
        · have hk1 : k - 1 < t.breakpoints.length := by omega
          have := hpw (k - 1) k hk1 hklt (by omega)
          simp only [low, h0, if_false, List.getElem?_eq_getElem hk1, Option.getD_some]
          omega
      have hmap : (List.range' (low k) ((t.breakpoints[k] - 1).toNat - low k)).mapM
          (panelAt t (t.interpolation[k]'(by rw [hw.laws]; exact hklt))) =
          .ok ((List.range' (low k) ((t.breakpoints[k] - 1).toNat - low k)).map g) := by
        rw [mapM_ok_iff]
        rw [List.forall₂_map_right_iff, List.forall₂_same]
        intro i hi
        rw [List.mem_range'_1] at hi
        apply hg i (by omega)
        refine ⟨k, hlaw, ?_, _, hb, by omega⟩
        by_cases h0 : k = 0
        · exact Or.inl h0
        · right
          have hk1 : k - 1 < t.breakpoints.length := by omega
          refine ⟨t.breakpoints[k - 1], List.getElem?_eq_getElem hk1, ?_⟩
          have hlowk : low k = (t.breakpoints[k - 1] - 1).toNat := by
            simp only [low, h0, if_false, List.getElem?_eq_getElem hk1, Option.getD_some]
          omega
      simp only [bind, Except.bind, List.foldlM_cons, List.foldlM_nil]
      unfold integralRegion
      simp only [hb, hlaw, st]
      simp only [bind, Except.bind, hmap, pure, Except.pure]
      rw [hlow1]
      congr 2
      set hi := (t.breakpoints[k] - 1).toNat with hhidef
      rw [List.take_append_of_le_length (by simp), List.take_of_length_le (by simp),
        List.drop_append, List.drop_of_length_le (by simpa using hlohi), List.nil_append,
        List.drop_replicate]
      simp only [List.length_map, List.length_range]
      rw [show n - low k - (hi - low k) = n - hi by omega]
      congr 1
      rw [← List.map_append]
      congr 1
      have := List.range'_append_1 (s := 0) (m := low k) (n := hi - low k)
      rw [Nat.zero_add] at this
      rw [List.range_eq_range', List.range_eq_range', this]
      congr 1
      omega
  refine ⟨low t.breakpoints.length, ?_⟩
  rw [key _ le_rfl]
  have hl := hw.bp_last
  rw [List.getLast?_eq_getElem?] at hl
  have hlen : low t.breakpoints.length = n := by
    have h0 : t.breakpoints.length ≠ 0 := by
      intro h0
      have := (List.getElem?_eq_some_iff.mp hl).1
      omega
    simp only [low, h0, if_false, hl, Option.getD_some]
    omega
  simp [st, hlen]

/-- **C18 (partial).** `integral()` returns at every grid point the integral, from the first grid point to
it, of the interpolated function `f` (`f` is what the region loop of `__call__` computes), whenever every
panel is one for which the code's formula is right (`PanelOK`).
Missing: lin-log panels, log-lin panels with equal values and log-log panels with slope -1, for which the
property is false; see the refutations below. -/
theorem C18_integral_partial {t : Tab1D ℝ} (hw : WF t) (f : ℝ → ℝ)
    (hf : ∀ v, t.x.head hw.nonempty ≤ v → v < t.x.getLast hw.nonempty → regions t v = .ok (f v))
    (hok : ∀ i law, (hi : i + 1 < t.x.length) → LawAt t i law →
      PanelOK law t.x[i] t.x[i + 1] (t.y[i]'(by rw [hw.len]; omega)) (t.y[i + 1]'(by rw [hw.len]; omega))) :
    ∃ l, integral t = .ok l ∧ l.length = t.x.length ∧
      ∀ j (hj : j < t.x.length), l[j]? = some (some (∫ v in (t.x.head hw.nonempty)..t.x[j], f v)) := by
  have hpos : 0 < t.x.length := List.length_pos_iff.mpr hw.nonempty
  have hpw := List.pairwise_iff_getElem.mp hw.increasing
  have hhead : t.x.head hw.nonempty = t.x[0] := by rw [List.head_eq_getElem]
  have hlast : t.x.getLast hw.nonempty = t.x[t.x.length - 1]'(by omega) := by
    rw [List.getLast_eq_getElem]
  have hle : ∀ i j (hi : i < t.x.length) (hj : j < t.x.length), i ≤ j → t.x[i] ≤ t.x[j] := by
    intro i j hi hj hij
    rcases Nat.lt_or_ge i j with h | h
    · exact (hpw i j hi hj h).le
    · have : i = j := by omega
      subst this; exact le_rfl
  let X : Nat → ℝ := fun i => t.x[i]?.getD 0
  have hX : ∀ i (hi : i < t.x.length), X i = t.x[i] := by
    intro i hi; simp [X, List.getElem?_eq_getElem hi]
  -- one panel
  have hpanel : ∀ i (hi : i + 1 < t.x.length), ∀ law, LawAt t i law →
      IntervalIntegrable f volume (X i) (X (i + 1)) ∧
        panelAt t law i = .ok (some (∫ v in (X i)..(X (i+1)), f v)) := by
    intro i hi law hl
    have hlt := hpw i (i + 1) (by omega) hi (by omega)
    obtain ⟨h1, h2⟩ := panel_ok hlt (hok i law hi hl)
    have heq : ∀ v ∈ Set.Ioo t.x[i] t.x[i + 1], interp law 0 v (t.x[i]) (t.x[i + 1])
        (t.y[i]'(by rw [hw.len]; omega)) (t.y[i + 1]'(by rw [hw.len]; omega)) = f v := by
      intro v hv
      have hr := regions_between hw hi hv.1.le hv.2 hl
      rw [hf v ?_ ?_] at hr
      · simpa using hr.symm
      · rw [hhead]; exact le_trans (hle 0 i _ _ (by omega)) hv.1.le
      · rw [hlast]; exact lt_of_lt_of_le hv.2 (hle (i + 1) _ _ _ (by omega))
    rw [hX i (by omega), hX (i + 1) hi]
    constructor
    · apply h1.congr_uIoo
      rw [Set.uIoo_of_le hlt.le]
      exact heq
    · unfold panelAt
      rw [List.getElem?_eq_getElem (show i < t.x.length by omega), List.getElem?_eq_getElem hi,
        List.getElem?_eq_getElem (show i < t.y.length by rw [hw.len]; omega),
        List.getElem?_eq_getElem (show i + 1 < t.y.length by rw [hw.len]; omega)]
      simp only [h2]
      rw [intervalIntegral.integral_congr_Ioo_of_le hlt.le heq]
  have hint : ∀ i, i + 1 < t.x.length → IntervalIntegrable f volume (X i) (X (i + 1)) := by
    intro i hi
    obtain ⟨law, hl⟩ := lawAt_exists hw hi
    exact (hpanel i hi law hl).1
  obtain ⟨n, hn⟩ := loop_spec hw (fun i => some (∫ v in (X i)..(X (i+1)), f v))
    (fun i hi law hl => (hpanel i hi law hl).2)
  have hmap : (List.range (t.x.length - 1)).map (fun i => some (∫ v in (X i)..(X (i+1)), f v)) =
      ((List.range (t.x.length - 1)).map (fun i => ∫ v in (X i)..(X (i+1)), f v)).map some := by
    simp
  have hclen : ∀ (s : Option ℝ) (l : List (Option ℝ)), (cumsumFrom s l).length = l.length := by
    intro s l
    induction l generalizing s with
    | nil => rfl
    | cons a l ih => simp [cumsumFrom, ih]
  refine ⟨_, by unfold integral; simp only [bind, Except.bind, hn]; rfl, ?_, ?_⟩
  · simp [hclen]; omega
  intro j hj
  have hsum : ∀ j, j < t.x.length →
      ((List.range j).map (fun i => ∫ v in (X i)..(X (i+1)), f v)).sum = ∫ v in (X 0)..(X j), f v := by
    intro j hj
    have := intervalIntegral.sum_integral_adjacent_intervals (f := f) (μ := volume) (a := X) (n := j)
      (fun k hk => hint k (by omega))
    rw [← this, Finset.sum_range]
    rw [← List.sum_ofFn]
    congr 1
    apply List.ext_getElem <;> simp
  rw [hhead, ← hX 0 hpos, ← hX j hj]
  cases j with
  | zero => simp
  | succ j =>
    rw [hmap, List.getElem?_cons_succ, cumsumFrom_get _ _ _ (by simp; omega), zero_add]
    rw [← List.map_take, List.take_range, min_eq_left (by omega), hsum _ hj]

/-- **C18, lin-log error.** For the lin-log law the code's panel is off by exactly `y0 * (1 - width)`. -/
theorem C18_linlog_error {x0 x1 y0 y1 : ℝ} (h : x0 < x1) (hx : 0 < x0) :
    panel 3 x0 x1 y0 y1 =
      some ((∫ v in x0..x1, interp 3 0 v x0 x1 y0 y1) + y0 * (1 - (x1 - x0))) := by
  have hl : 0 < Real.log (x1 / x0) := Real.log_pos (by rw [lt_div_iff₀ hx]; linarith)
  have hq : 0 < x1 / x0 := div_pos (by linarith) hx
  simp only [panel, hx.ne', hq.not_ge, hl.ne', or_self, if_false]
  rw [(linlog_integral h hx).2]
  congr 1
  ring

/-- The one-panel table of law `law`. -/
noncomputable def onePanel (law : Nat) (x0 x1 y0 y1 : ℝ) : Tab1D ℝ := ⟨[x0, x1], [y0, y1], [2], [law]⟩

theorem onePanel_wf {law : Nat} {x0 x1 y0 y1 : ℝ} (h : x0 < x1) : WF (onePanel law x0 x1 y0 y1) :=
  ⟨by simpa [onePanel] using h, rfl, by simp [onePanel], by simp [onePanel], by simp [onePanel], rfl, rfl⟩

theorem onePanel_integral {law : Nat} {x0 x1 y0 y1 : ℝ} :
    integral (onePanel law x0 x1 y0 y1) = .ok [some 0, (panel law x0 x1 y0 y1).map (0 + ·)] := by
  simp [integral, onePanel, integralRegion, panelAt, bind, Except.bind, pure, Except.pure, cumsumFrom,
    List.range_succ]

/-- **C18 refuted (lin-log).** For the constant function 5 on `[1, 3]` with the lin-log law `integral()`
returns 5 at the upper end, whereas the integral is 10. -/
theorem C18_linlog_refuted : WF (onePanel 3 1 3 5 5) ∧
    integral (onePanel 3 1 3 5 5) = .ok [some 0, some 5] ∧
    (∫ v in (1:ℝ)..3, interp 3 0 v 1 3 5 5) = 10 := by
  refine ⟨onePanel_wf (by norm_num), ?_, ?_⟩
  · rw [onePanel_integral, C18_linlog_error (by norm_num) (by norm_num),
      (linlog_integral (by norm_num) (by norm_num)).2]
    simp
    norm_num
  · rw [(linlog_integral (by norm_num) (by norm_num)).2]
    norm_num

/-- **C18 refuted (log-lin).** A log-lin panel with equal values gives NaN (0/0). -/
theorem C18_loglin_constant_refuted : WF (onePanel 4 1 3 5 5) ∧
    integral (onePanel 4 1 3 5 5) = .ok [some 0, none] ∧
    (∫ v in (1:ℝ)..3, interp 4 0 v 1 3 5 5) = 10 := by
  refine ⟨onePanel_wf (by norm_num), ?_, ?_⟩
  · rw [onePanel_integral]
    simp [panel]
  · simp [interp, realLog, realExp]
    norm_num

/-- **C18 refuted (log-log).** A log-log panel of `1/x`, e.g. through `(1,1)` and `(2, 1/2)`, gives NaN; this is
the shape of a 1/v flux. -/
theorem C18_loglog_inverse_refuted : WF (onePanel 5 1 2 1 (1/2)) ∧
    integral (onePanel 5 1 2 1 (1/2)) = .ok [some 0, none] := by
  refine ⟨onePanel_wf (by norm_num), ?_⟩
  rw [onePanel_integral]
  have h : Real.log 2 ≠ 0 := (Real.log_pos (by norm_num)).ne'
  have h2 : Real.log ((1:ℝ)/2 / 1) / Real.log ((2:ℝ)/1) + 1 = 0 := by
    rw [div_one, div_one, one_div, Real.log_inv]; field_simp; ring
  simp only [panel, h2]
  simp

/-- Concrete case for `C18_integral_partial`: histogram then lin-lin then log-lin panels. -/
example : ∃ t : Tab1D ℝ, ∃ hw : WF t, t.x.length = 4 ∧
    ∀ i law, (hi : i + 1 < t.x.length) → LawAt t i law →
      PanelOK law t.x[i] t.x[i + 1] (t.y[i]'(by rw [hw.len]; omega)) (t.y[i + 1]'(by rw [hw.len]; omega)) := by
  refine ⟨⟨[1, 2, 3, 4], [10, 20, 40, 30], [2, 3, 4], [1, 2, 4]⟩,
    ⟨by simp; norm_num, rfl, by simp, by simp, by simp, rfl, rfl⟩, rfl, ?_⟩
  intro i law hi hl
  have hi3 : i < 3 := by simp at hi; omega
  obtain ⟨k, hlaw, hprev, b, hb, hib⟩ := hl
  have hk : k < 3 := by
    have := (List.getElem?_eq_some_iff.mp hlaw).1; simpa using this
  interval_cases k <;> interval_cases i <;> simp_all [PanelOK]
  all_goals subst_vars
  all_goals try omega
  all_goals norm_num [PanelOK]

end ASAPy.Tab1D
