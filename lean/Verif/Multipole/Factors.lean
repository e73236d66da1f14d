import Verif.Multipole.Doppler

/-! # The loop of `_broaden_wmp_polynomials` -/

namespace ASAPy.Multipole
open MeasureTheory Set

/-- A sequence that obeys the recursion of the loop. -/
structure Obeys (E h : ℝ) (F : ℕ → ℝ) : Prop where
  three : F 3 = F 1 * (E + 3 * h)
  more : ∀ k : ℕ, F (k + 4) = (E + (2 * (k + 2) + 1) * h) * F (k + 2) - (k + 2) * (k + 1) * h ^ 2 * F k

/-- The array when `j` elements are set. -/
def partly (F : ℕ → ℝ) (n j : ℕ) : List ℝ := (List.range n).map fun k => if k < j then F k else 0

theorem partly_getD (F : ℕ → ℝ) {n j k : ℕ} (h : k < j) (hn : j ≤ n) : (partly F n j).getD k 0 = F k := by
  have : k < n := by omega
  simp [partly, List.getD, this, h]

theorem partly_set (F : ℕ → ℝ) {n j : ℕ} (v : ℝ) (hv : v = F j) : (partly F n j).set j v = partly F n (j + 1) := by
  apply List.ext_getElem (by simp [partly])
  intro k h1 h2
  simp only [partly, List.getElem_set, List.getElem_map, List.getElem_range]
  by_cases hk : j = k
  · subst hk; simp [hv]
  · rw [if_neg hk]
    by_cases hl : k < j
    · rw [if_pos hl, if_pos (by omega)]
    · rw [if_neg hl, if_neg (by omega)]

theorem step_partly {E h : ℝ} {F : ℕ → ℝ} (o : Obeys E h F) {n i : ℕ} (hi : 1 ≤ i) (hn : i + 3 ≤ n) :
    factorStep E h (h ^ 2) (partly F n (i + 2)) i = partly F n (i + 3) := by
  unfold factorStep
  split
  · next h1 =>
    obtain ⟨k, rfl⟩ : ∃ k, i = k + 2 := ⟨i - 2, by omega⟩
    apply partly_set
    rw [partly_getD F (by omega) (by omega), partly_getD F (by omega) (by omega), Nat.add_sub_cancel, show k + 2 + 2 = k + 4 from rfl, o.more]
    push_cast; ring
  · next h1 =>
    have : i = 1 := by omega
    subst this
    apply partly_set
    rw [partly_getD F (by omega) (by omega)]
    have := o.three
    norm_num [this]

theorem loop_partly {E h : ℝ} {F : ℕ → ℝ} (o : Obeys E h F) (n : ℕ) : ∀ c i : ℕ, 1 ≤ i → i + 2 + c ≤ n →
    (List.range' i c).foldl (factorStep E h (h ^ 2)) (partly F n (i + 2)) = partly F n (i + 2 + c)
  | 0, i, _, _ => rfl
  | c + 1, i, hi, hn => by
    rw [List.range'_succ, List.foldl_cons, step_partly o hi (by omega), show i + 3 = i + 1 + 2 by omega, loop_partly o n c (i + 1) (by omega) (by omega)]
    congr 1; omega

/-- What the function returns: the sequence. -/
theorem factorsOf_eq {E d eb xb : ℝ} {F : ℕ → ℝ} (o : Obeys E (0.5 / d ^ 2) F) (h0 : F 0 = eb / E) (h1 : F 1 = 1 / Real.sqrt E)
    (h2 : F 2 = F 0 * (0.5 / d ^ 2 + E) + xb / (Real.sqrt E * d * Real.sqrt Real.pi)) {n : ℕ} (hn : 3 ≤ n) :
    factorsOf E d eb xb n = .ok ((List.range n).map F) := by
  unfold factorsOf
  simp only
  rw [if_neg (by omega)]
  have e : List.replicate n (0 : ℝ) = partly F n 0 := by
    apply List.ext_getElem (by simp [partly])
    intro k h1 h2
    simp [partly]
  rw [e, partly_set F _ h0.symm, partly_set F _ h1.symm, partly_set F _ (by rw [h2, h0]), loop_partly o n (n - 3) 1 le_rfl (by omega)]
  congr 1
  unfold partly
  apply List.map_congr_left
  intro k hk
  rw [if_pos (by have := List.mem_range.1 hk; omega)]

theorem obeys_freeGas {E d : ℝ} (hE : 0 < E) (hd : 0 < d) : Obeys E (0.5 / d ^ 2) fun k => freeGas d (Real.sqrt E) (fun u => u ^ k) / E := by
  have e : Real.sqrt E ^ 2 = E := Real.sq_sqrt hE.le
  constructor
  · rw [freeGas_three hd, e]; ring
  · intro k
    rw [freeGas_step hd, e]; ring

theorem obeys_moment {E d : ℝ} (hE : 0 < E) (hd : 0 < d) : Obeys E (0.5 / d ^ 2) fun k => moment d (Real.sqrt E) k / E := by
  have e : Real.sqrt E ^ 2 = E := Real.sq_sqrt hE.le
  constructor
  · rw [moment_three hd, moment_one hd, e]; ring
  · intro k
    rw [moment_two_step hd, e]; ring

theorem near_eq {E d : ℝ} (hE : 0 < E) (hd : 0 < d) (hb : Real.sqrt E * d ≤ 6) {n : ℕ} (hn : 3 ≤ n) :
    broadenPolynomials E d n = .ok ((List.range n).map fun k => freeGas d (Real.sqrt E) (fun u => u ^ k) / E) := by
  unfold broadenPolynomials
  simp only
  rw [if_neg (not_lt.2 hb)]
  have e : Real.sqrt E ^ 2 = E := Real.sq_sqrt hE.le
  have p : 0 < Real.sqrt E := Real.sqrt_pos.2 hE
  apply factorsOf_eq (obeys_freeGas hE hd) _ _ _ hn
  · rw [freeGas_zero hd, mul_comm]
  · rw [freeGas_one hd, div_eq_div_iff hE.ne' p.ne']; nlinarith
  · rw [freeGas_two hd, e]
    unfold maxwell
    have q : Real.sqrt Real.pi ≠ 0 := (Real.sqrt_pos.2 Real.pi_pos).ne'
    rw [mul_comm d (Real.sqrt E)]
    have : Real.sqrt E ≠ 0 := p.ne'
    have hd' := hd.ne'
    have hE' := hE.ne'
    rw [add_div, mul_comm _ (freeGas _ _ _)]
    congr 1
    · ring
    · field_simp
      rw [e]

theorem far_eq {E d : ℝ} (hE : 0 < E) (hd : 0 < d) (hb : 6 < Real.sqrt E * d) {n : ℕ} (hn : 3 ≤ n) :
    broadenPolynomials E d n = .ok ((List.range n).map fun k => moment d (Real.sqrt E) k / E) := by
  unfold broadenPolynomials
  simp only
  rw [if_pos hb]
  have e : Real.sqrt E ^ 2 = E := Real.sq_sqrt hE.le
  have p : 0 < Real.sqrt E := Real.sqrt_pos.2 hE
  apply factorsOf_eq (obeys_moment hE hd) _ _ _ hn
  · rw [moment_zero hd]
  · rw [moment_one hd, div_eq_div_iff hE.ne' p.ne']; nlinarith
  · rw [moment_two hd, moment_zero hd, e]
    ring

/-- The whole line is the half line and what is mirrored. -/
theorem moment_split {d : ℝ} (hd : 0 < d) (v : ℝ) (k : ℕ) : moment d v k = half d v k + (-1) ^ k * half d (-v) k := by
  have i := moment_int hd v k
  unfold moment half
  rw [← intervalIntegral.integral_Iic_add_Ioi (b := (0 : ℝ)) i.integrableOn i.integrableOn, add_comm, ← integral_const_mul]
  congr 1
  have r := integral_comp_neg_Ioi (0 : ℝ) fun u : ℝ => u ^ k * maxwell d (u - v)
  rw [neg_zero] at r
  rw [← r]
  congr 1
  ext u
  have : -u - v = -(u - -v) := by ring
  rw [this, maxwell_neg, neg_pow]
  ring

theorem moment_sub {d : ℝ} (hd : 0 < d) (v : ℝ) (k : ℕ) :
    moment d v k - freeGas d v (fun u => u ^ k) = (1 + (-1) ^ k) * half d (-v) k := by
  rw [moment_split hd, freeGas_pow hd]; ring

theorem half_nonneg {d : ℝ} (hd : 0 < d) (v : ℝ) (k : ℕ) : 0 ≤ half d v k := by
  unfold half
  refine setIntegral_nonneg measurableSet_Ioi fun u hu => ?_
  have : (0 : ℝ) < u := hu
  have := maxwell_pos hd (u - v)
  positivity

theorem half_back {d v : ℝ} (hd : 0 < d) (hv : 0 ≤ v) (k : ℕ) : half d (-v) k ≤ Real.exp (-(d * v) ^ 2) * half d 0 k := by
  unfold half
  rw [← integral_const_mul]
  refine setIntegral_mono_on (moment_int hd (-v) k).integrableOn (((moment_int hd 0 k).const_mul _).integrableOn) measurableSet_Ioi fun u hu => ?_
  have hu : (0 : ℝ) < u := hu
  have : maxwell d (u - -v) ≤ Real.exp (-(d * v) ^ 2) * maxwell d (u - 0) := by
    unfold maxwell
    rw [mul_left_comm, ← Real.exp_add]
    refine mul_le_mul_of_nonneg_left (Real.exp_le_exp.2 ?_) (by positivity)
    have : 0 ≤ d * d * u * v := by positivity
    nlinarith
  calc u ^ k * maxwell d (u - -v) ≤ u ^ k * (Real.exp (-(d * v) ^ 2) * maxwell d (u - 0)) := mul_le_mul_of_nonneg_left this (by positivity)
    _ = _ := by ring

theorem freeGas_pos {d v : ℝ} (hd : 0 < d) (hv : 0 < v) (k : ℕ) : 0 < freeGas d v fun u => u ^ k := by
  have i : IntegrableOn (fun u : ℝ => u ^ k * (maxwell d (u - v) - maxwell d (u + v))) (Ioi 0) := by
    have h := ((moment_int hd v k).sub (moment_int hd (-v) k)).integrableOn (s := Ioi (0 : ℝ))
    refine h.congr (Filter.Eventually.of_forall fun u => ?_)
    simp only [Pi.sub_apply, sub_neg_eq_add]; ring
  have p : ∀ u ∈ Ioi (0 : ℝ), 0 < u ^ k * (maxwell d (u - v) - maxwell d (u + v)) := by
    intro u hu
    have hu : (0 : ℝ) < u := hu
    refine mul_pos (by positivity) (sub_pos.2 ?_)
    unfold maxwell
    refine mul_lt_mul_of_pos_left (Real.exp_lt_exp.2 ?_) (div_pos hd (Real.sqrt_pos.2 Real.pi_pos))
    have : 0 < d * d * u * v := by positivity
    nlinarith
  unfold freeGas
  rw [setIntegral_pos_iff_support_of_nonneg_ae]
  · refine lt_of_lt_of_le (b := volume (Ioi (0 : ℝ))) (by simp) (measure_mono fun u hu => ⟨(p u hu).ne', hu⟩)
  · exact (ae_restrict_mem measurableSet_Ioi).mono fun u hu => (p u hu).le
  · exact i

/-- As the gas becomes cold the moments become powers. -/
theorem moment_tendsto (v : ℝ) (k : ℕ) : Filter.Tendsto (fun d => moment d v k) Filter.atTop (nhds (v ^ k)) := by
  induction k using Nat.strong_induction_on with
  | _ k ih =>
    match k with
    | 0 =>
      refine tendsto_const_nhds.congr' ?_
      filter_upwards [Filter.eventually_gt_atTop 0] with d hd
      rw [moment_zero hd, pow_zero]
    | k + 1 =>
      have a := (ih k (by omega)).const_mul v
      have h : Filter.Tendsto (fun d : ℝ => 0.5 / d ^ 2) Filter.atTop (nhds 0) :=
        Filter.Tendsto.const_div_atTop (Filter.tendsto_pow_atTop (by norm_num)) _
      have b := h.mul ((ih (k - 1) (by omega)).const_mul (k : ℝ))
      have c := a.add b
      rw [zero_mul, add_zero, ← pow_succ'] at c
      refine c.congr' ?_
      filter_upwards [Filter.eventually_gt_atTop 0] with d hd
      rw [moment_step hd]

end ASAPy.Multipole
