import Verif.Multipole.Props2

/-! # Cross sections as the gas becomes cold -/

namespace ASAPy.Multipole
open MeasureTheory Filter Topology

theorem smeared_unit {d : ℝ} (hd : 0 < d) (v : ℝ) (F : ℝ → ℝ) : smeared d v F = ∫ t : ℝ, F (v + t / d) * maxwell 1 t := by
  unfold smeared
  have a := integral_sub_right_eq_self (μ := volume) (fun u => F (u + v) * maxwell d u) v
  simp only [sub_add_cancel] at a
  rw [a]
  have b := Measure.integral_comp_div (fun u => F (u + v) * maxwell d u) d
  rw [abs_of_pos hd, smul_eq_mul] at b
  have c : ∀ t : ℝ, F (t / d + v) * maxwell d (t / d) = d * (F (v + t / d) * maxwell 1 t) := by
    intro t
    unfold maxwell
    rw [mul_div_cancel₀ _ hd.ne', add_comm, one_mul]
    ring
  simp only [c] at b
  rw [integral_const_mul] at b
  exact (mul_left_cancel₀ hd.ne' b).symm

/-- As the gas becomes cold the mean becomes the value. -/
theorem smeared_tendsto {F : ℝ → ℝ} (hc : Continuous F) {C : ℝ} (hC : ∀ u, |F u| ≤ C) (v : ℝ) : Tendsto (fun d => smeared d v F) atTop (𝓝 (F v)) := by
  have one : ∫ t : ℝ, maxwell 1 t = 1 := by
    have := moment_zero (d := 1) one_pos 0
    simpa [moment] using this
  have int : Integrable fun t : ℝ => maxwell 1 t := by
    simpa using moment_int (d := 1) one_pos 0 0
  have cm : Continuous (maxwell 1) := by unfold maxwell; fun_prop
  have h : Tendsto (fun d : ℝ => ∫ t : ℝ, F (v + t / d) * maxwell 1 t) atTop (𝓝 (∫ t : ℝ, F v * maxwell 1 t)) := by
    refine tendsto_integral_filter_of_dominated_convergence (fun t => C * maxwell 1 t) ?_ ?_ (int.const_mul C) ?_
    · refine Eventually.of_forall fun d => Continuous.aestronglyMeasurable ?_
      exact (hc.comp (by fun_prop)).mul cm
    · refine Eventually.of_forall fun d => Eventually.of_forall fun t => ?_
      rw [Real.norm_eq_abs, abs_mul, abs_of_pos (maxwell_pos one_pos t)]
      exact mul_le_mul_of_nonneg_right (hC _) (maxwell_pos one_pos t).le
    · refine Eventually.of_forall fun t => Tendsto.mul_const _ ?_
      have z : Tendsto (fun d : ℝ => v + t / d) atTop (𝓝 (v + 0)) := tendsto_const_nhds.add (tendsto_id.const_div_atTop t)
      rw [add_zero] at z
      exact (hc.tendsto v).comp z
  rw [integral_const_mul, one, mul_one] at h
  refine h.congr' ?_
  filter_upwards [eventually_gt_atTop 0] with d hd
  exact (smeared_unit hd v F).symm

theorem resonance_ok {p : ℂ} (hp : p.im ≠ 0) (r : ℂ) : Continuous (resonance p r) ∧ ∀ u, |resonance p r u| ≤ ‖r‖ / |p.im| := by
  have ne (u : ℝ) : (u : ℂ) - p ≠ 0 := fun h => by
    apply hp
    have := congrArg Complex.im h
    simpa using this
  constructor
  · unfold resonance
    exact Complex.continuous_re.comp (Continuous.div (by fun_prop) (by fun_prop) ne)
  · intro u
    refine (Complex.abs_re_le_norm _).trans ?_
    rw [norm_div, norm_mul, Complex.norm_I, one_mul]
    refine div_le_div_of_nonneg_left (norm_nonneg _) (abs_pos.2 hp) ?_
    have := Complex.abs_im_le_norm ((u : ℂ) - p)
    simpa using this

theorem resonances_ok {m : Wmp} {i : ℕ} (h : m.OffAxis i) (c : ℕ) : Continuous (m.resonances i c) ∧ ∃ C, ∀ u, |m.resonances i c u| ≤ C := by
  unfold Wmp.resonances
  unfold Wmp.OffAxis at h
  generalize m.poles i = l at *
  induction l with
  | nil => simp only [List.map_nil, List.sum_nil]; exact ⟨continuous_const, 0, fun u => by simp⟩
  | cons r l ih =>
    obtain ⟨a, C, b⟩ := ih fun r hr => h r (by simp [hr])
    obtain ⟨x, y⟩ := resonance_ok (h r (by simp)) (r.getD (c + 1) 0)
    simp only [List.map_cons, List.sum_cons]
    exact ⟨x.add a, _, fun u => (abs_add_le _ _).trans (add_le_add (y u) (b u))⟩

theorem fitAt_tendsto (m : Wmp) (i c : ℕ) {E : ℝ} (hE : 0 < E) : Tendsto (fun d => m.fitAt i c E d) atTop (𝓝 (m.fit i c (Real.sqrt E))) := by
  unfold Wmp.fitAt
  by_cases hb : m.broaden.getD i false = false
  · simp only [if_pos hb]; exact tendsto_const_nhds
  · simp only [if_neg hb]
    have h : Tendsto (fun d => ∑ k ∈ Finset.range m.terms, m.coeff i k c * moment d (Real.sqrt E) k) atTop (𝓝 (∑ k ∈ Finset.range m.terms, m.coeff i k c * Real.sqrt E ^ k)) :=
      tendsto_finset_sum _ fun k _ => (moment_tendsto (Real.sqrt E) k).const_mul _
    refine h.congr' ?_
    have p := Real.sqrt_pos.2 hE
    filter_upwards [eventually_gt_atTop 0, eventually_gt_atTop (6 / Real.sqrt E)] with d hd h6
    rw [div_lt_iff₀ p] at h6
    rw [if_neg (by rw [not_le]; linarith), smeared_fit hd]

theorem width_tendsto {a : ℝ} (ha : 0 < a) : Tendsto (fun T => a / Real.sqrt (boltzmann * T)) (𝓝[>] 0) atTop := by
  refine Tendsto.const_mul_atTop ha (Tendsto.inv_tendsto_nhdsGT_zero ?_) |>.congr fun T => (div_eq_mul_inv _ _).symm
  refine tendsto_nhdsWithin_iff.2 ⟨?_, ?_⟩
  · have : Continuous fun T => Real.sqrt (boltzmann * T) := by fun_prop
    have h := this.tendsto 0
    simp only [mul_zero, Real.sqrt_zero] at h
    exact h.mono_left nhdsWithin_le_nhds
  · filter_upwards [self_mem_nhdsWithin] with T hT
    exact Real.sqrt_pos.2 (mul_pos boltzmann_pos hT)

/-- **C190.** As the temperature goes to zero, the cross sections go to those at 0 K, although these are calculated in another way. -/
theorem C190_limit {m : Wmp} (v : m.Valid) {i : ℕ} (hi : i < m.windows.length) (ha : m.OffAxis i) {E : ℝ} (hE : 0 < E) (hl : m.eMin ≤ E) (hu : E ≤ m.eMax)
    (h : m.InWindow i E) :
    ∃ x0, evaluate m E 0 = .ok (x0, false) ∧ ∃ x : ℝ → Sigma, (∀ T, 0 < T → evaluate m E T = .ok (x T, false)) ∧
      ∀ c < 3, Tendsto (fun T => (x T).get c) (𝓝[>] 0) (𝓝 (x0.get c)) := by
  obtain ⟨x0, e0, p0, f0⟩ := C185_cold v hi hE hl hu h
  have w : ∀ T, ∃ x, 0 < T → evaluate m E T = .ok (x, false) ∧
      (∀ c, m.HasChannel c → E * x.get c = m.fitAt i c E (m.sqrtAWR / Real.sqrt (boltzmann * T)) +
        smeared (m.sqrtAWR / Real.sqrt (boltzmann * T)) (Real.sqrt E) (m.resonances i c)) ∧ (m.fissionable = false → x.f = 0) := by
    intro T
    by_cases hT : 0 < T
    · obtain ⟨x, hx⟩ := C186_warm v hi ha hE hT hl hu h
      exact ⟨x, fun _ => hx⟩
    · exact ⟨⟨0, 0, 0⟩, fun h => absurd h hT⟩
  choose x hx using w
  refine ⟨x0, e0, x, fun T hT => (hx T hT).1, fun c hc => ?_⟩
  by_cases hch : m.HasChannel c
  · obtain ⟨rc, C, rb⟩ := resonances_ok ha c
    have t := ((fitAt_tendsto m i c hE).add (smeared_tendsto rc rb (Real.sqrt E))).comp (width_tendsto v.awr)
    rw [← p0 c hch] at t
    have t2 := t.const_mul E⁻¹
    rw [inv_mul_cancel_left₀ hE.ne'] at t2
    refine t2.congr' ?_
    filter_upwards [self_mem_nhdsWithin] with T hT
    simp only [Function.comp]
    rw [← (hx T hT).2.1 c hch, inv_mul_cancel_left₀ hE.ne']
  · have c2 : c = 2 := by
      unfold Wmp.HasChannel at hch
      omega
    subst c2
    have nf : m.fissionable = false := by
      cases hf : m.fissionable with
      | false => rfl
      | true => exact absurd (Or.inr ⟨rfl, hf⟩) hch
    have z : x0.get 2 = 0 := f0 nf
    rw [z]
    refine tendsto_const_nhds.congr' ?_
    filter_upwards [self_mem_nhdsWithin] with T hT
    exact ((hx T hT).2.2 nf).symm

end ASAPy.Multipole
