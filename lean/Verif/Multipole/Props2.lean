import Verif.Multipole.Props

/-! # Further properties of windowed multipole cross sections -/

namespace ASAPy.Multipole
open ASAPy.FromAce (item)
open MeasureTheory

theorem evaluate_of {m : Wmp} {E T : ℝ} {x : Sigma} (hl : m.eMin ≤ E) (hu : E ≤ m.eMax) (h : within m E T = .ok x) : evaluate m E T = .ok (x, false) := by
  unfold evaluate
  rw [if_neg (not_lt.2 hl), if_neg (not_lt.2 hu), h]
  rfl

/-- Every energy from the lower limit on is in one window. -/
theorem window_exists {m : Wmp} (v : m.Valid) {E : ℝ} (hl : m.eMin ≤ E) : ∃ i, m.InWindow i E := by
  have s := v.spacing
  have p := Real.sqrt_nonneg m.eMin
  have q : Real.sqrt m.eMin ≤ Real.sqrt E := Real.sqrt_le_sqrt hl
  have n : 0 ≤ (Real.sqrt E - Real.sqrt m.eMin) / m.spacing := div_nonneg (by linarith) s.le
  have a := Nat.floor_le n
  have b := Nat.lt_floor_add_one ((Real.sqrt E - Real.sqrt m.eMin) / m.spacing)
  rw [le_div_iff₀ s] at a
  rw [div_lt_iff₀ s] at b
  have e : Real.sqrt E ^ 2 = E := Real.sq_sqrt (v.emin.trans hl)
  have z := Real.sqrt_nonneg E
  refine ⟨⌊(Real.sqrt E - Real.sqrt m.eMin) / m.spacing⌋₊, ?_, ?_⟩
  · refine le_trans (pow_le_pow_left₀ (by positivity) (b := Real.sqrt E) (by linarith) 2) e.le
  · refine lt_of_le_of_lt e.ge (pow_lt_pow_left₀ (by linarith) z (by norm_num))

/-- **C184 (part).** If the windows reach beyond the upper limit, there are cross sections for every positive energy within the limits and every temperature. -/
theorem C184_within_partial {m : Wmp} (v : m.Valid) (hw : m.eMax < (Real.sqrt m.eMin + m.windows.length * m.spacing) ^ 2) {E T : ℝ} (hE : 0 < E) (hT : 0 ≤ T)
    (hl : m.eMin ≤ E) (hu : E ≤ m.eMax) : ∃ i x, i < m.windows.length ∧ m.InWindow i E ∧ evaluate m E T = .ok (x, false) := by
  obtain ⟨i, hi⟩ := window_exists v hl
  have p := Real.sqrt_nonneg m.eMin
  have lt : i < m.windows.length := by
    by_contra hn
    have : (m.windows.length : ℝ) ≤ i := by exact_mod_cast not_lt.1 hn
    have s := v.spacing
    have := pow_le_pow_left₀ (by positivity) (show Real.sqrt m.eMin + m.windows.length * m.spacing ≤ Real.sqrt m.eMin + i * m.spacing by nlinarith) 2
    have := hi.1
    linarith
  refine ⟨i, ?_⟩
  rcases hT.eq_or_lt with rfl | hT
  · obtain ⟨x, hx, _⟩ := C185_cold v lt hE hl hu hi
    exact ⟨x, lt, hi, hx⟩
  · obtain ⟨p, hc, _⟩ := curve_warm v lt hE (Real.sqrt_pos.2 (mul_pos boltzmann_pos hT))
    have e := within_eq v lt hE hT.le hi hc
    exact ⟨_, lt, hi, evaluate_of hl hu e⟩

/-- **C184 (refuted).** If the last window ends at the upper limit, as the width of the windows is made, then the upper limit itself raises an `IndexError`. -/
theorem C184_limit_refuted {m : Wmp} (v : m.Valid) (hw : m.eMax = (Real.sqrt m.eMin + m.windows.length * m.spacing) ^ 2) (hp : 0 < m.eMax) (hl : m.eMin ≤ m.eMax) {T : ℝ}
    (hT : 0 ≤ T) : evaluate m m.eMax T = .error .indexError := by
  have s := v.spacing
  have p := Real.sqrt_nonneg m.eMin
  have h : m.InWindow m.windows.length m.eMax := by
    refine ⟨hw.ge, ?_⟩
    conv_lhs => rw [hw]
    refine pow_lt_pow_left₀ (by nlinarith) (by positivity) (by norm_num)
  unfold evaluate
  rw [if_neg (not_lt.2 hl), if_neg (lt_irrefl _)]
  unfold within
  rw [sqrt_ok (mul_nonneg boltzmann_pos.le hT), ok_bind, sqrt_ok hp.le, ok_bind, if_neg hp.ne', sqrt_ok v.emin, ok_bind]
  simp only [window_index v h]
  unfold item2
  rw [item_out _ le_rfl]
  rfl

/-- **C184 (refuted).** An energy of zero is within the limits if the lower limit is zero, but it raises a `ZeroDivisionError`. -/
theorem C184_zero_refuted {m : Wmp} (h0 : m.eMin = 0) (h1 : 0 ≤ m.eMax) {T : ℝ} (hT : 0 ≤ T) : evaluate m 0 T = .error .zeroDivision := by
  unfold evaluate
  rw [if_neg (by rw [h0]; exact lt_irrefl _), if_neg (not_lt.2 h1)]
  unfold within
  rw [sqrt_ok (mul_nonneg boltzmann_pos.le hT), ok_bind, sqrt_ok le_rfl, ok_bind, if_pos rfl]
  rfl

/-- **C184.** A negative temperature is refused, within the limits. -/
theorem C184_temperature {m : Wmp} {E T : ℝ} (hl : m.eMin ≤ E) (hu : E ≤ m.eMax) (hT : T < 0) : evaluate m E T = .error .valueError := by
  unfold evaluate
  rw [if_neg (not_lt.2 hl), if_neg (not_lt.2 hu)]
  unfold within sqrt
  rw [if_pos (mul_neg_of_pos_of_neg boltzmann_pos hT)]
  rfl

/-- **C187.** Up to 6 widths of the Maxwell distribution the terms of the polynomial are broadened exactly. -/
theorem C187_exact {E d : ℝ} (hE : 0 < E) (hd : 0 < d) (hb : Real.sqrt E * d ≤ 6) {n : ℕ} (hn : 3 ≤ n) :
    ∃ fs, broadenPolynomials E d n = .ok fs ∧ fs.length = n ∧ ∀ k (h : k < fs.length), E * fs[k] = freeGas d (Real.sqrt E) fun u => u ^ k := by
  refine ⟨_, near_eq hE hd hb hn, by simp, fun k h => ?_⟩
  have := hE.ne'
  simp only [List.getElem_map, List.getElem_range]
  field_simp

/-- **C187.** Beyond, the terms of odd number are exact and the others too large by at most `2 exp(-36)` times a moment of the gas at rest. -/
theorem C187_close {E d : ℝ} (hE : 0 < E) (hd : 0 < d) (hb : 6 < Real.sqrt E * d) {n : ℕ} (hn : 3 ≤ n) :
    ∃ fs, broadenPolynomials E d n = .ok fs ∧ fs.length = n ∧ ∀ k (h : k < fs.length),
      (Odd k → E * fs[k] = freeGas d (Real.sqrt E) fun u => u ^ k) ∧ freeGas d (Real.sqrt E) (fun u => u ^ k) ≤ E * fs[k] ∧
      E * fs[k] ≤ freeGas d (Real.sqrt E) (fun u => u ^ k) + 2 * Real.exp (-36) * ∫ u in Set.Ioi (0 : ℝ), u ^ k * maxwell d u := by
  refine ⟨_, far_eq hE hd hb hn, by simp, fun k h => ?_⟩
  have hE' := hE.ne'
  simp only [List.getElem_map, List.getElem_range]
  have e : E * (moment d (Real.sqrt E) k / E) = moment d (Real.sqrt E) k := by field_simp
  rw [e]
  have s := moment_sub hd (Real.sqrt E) k
  have z := half_nonneg hd (-Real.sqrt E) k
  have b := half_back hd (Real.sqrt_nonneg E) k
  have z0 := half_nonneg hd 0 k
  have ex : Real.exp (-(d * Real.sqrt E) ^ 2) ≤ Real.exp (-36) := Real.exp_le_exp.2 (by nlinarith)
  have e0 : half d 0 k = ∫ u in Set.Ioi (0 : ℝ), u ^ k * maxwell d u := by unfold half; simp
  rw [← e0]
  have bb : half d (-Real.sqrt E) k ≤ Real.exp (-36) * half d 0 k := b.trans (mul_le_mul_of_nonneg_right ex z0)
  rcases Nat.even_or_odd k with hk | hk
  · rw [hk.neg_one_pow] at s
    exact ⟨fun o => absurd hk (Nat.not_even_iff_odd.2 o), by linarith, by linarith⟩
  · rw [hk.neg_one_pow] at s
    have : 0 ≤ Real.exp (-36) * half d 0 k := mul_nonneg (Real.exp_pos _).le z0
    exact ⟨fun _ => by linarith, by linarith, by linarith⟩

/-- **C187.** Every broadened term is positive, so that a polynomial with positive coefficients stays positive. -/
theorem C187_positive {E d : ℝ} (hE : 0 < E) (hd : 0 < d) {n : ℕ} (hn : 3 ≤ n) : ∃ fs, broadenPolynomials E d n = .ok fs ∧ ∀ f ∈ fs, 0 < f := by
  have p : ∀ k, 0 < freeGas d (Real.sqrt E) fun u => u ^ k := fun k => freeGas_pos hd (Real.sqrt_pos.2 hE) k
  by_cases hb : Real.sqrt E * d ≤ 6
  · refine ⟨_, near_eq hE hd hb hn, fun f hf => ?_⟩
    obtain ⟨k, _, rfl⟩ := List.mem_map.1 hf
    exact div_pos (p k) hE
  · refine ⟨_, far_eq hE hd (not_le.1 hb) hn, fun f hf => ?_⟩
    obtain ⟨k, _, rfl⟩ := List.mem_map.1 hf
    refine div_pos ?_ hE
    have s := moment_sub hd (Real.sqrt E) k
    have z := half_nonneg hd (-Real.sqrt E) k
    have q : (0 : ℝ) ≤ 1 + (-1) ^ k := by
      rcases neg_one_pow_eq_or ℝ k with h | h <;> rw [h] <;> norm_num
    have := p k
    have := mul_nonneg q z
    linarith

/-- **C188.** Off the real axis `_faddeeva` is the integral of its documentation. -/
theorem C188_faddeeva {z : ℂ} (hz : z.im ≠ 0) : faddeeva z = faddeevaIntegral z := faddeeva_integral hz

theorem mapM_ok {α β : Type} (f : α → Except PyErr β) (g : α → β) : ∀ (l : List α), (∀ a ∈ l, f a = .ok (g a)) → l.mapM f = .ok (l.map g)
  | [], _ => rfl
  | a :: l, h => by
    rw [List.mapM_cons, h a (by simp), ok_bind, mapM_ok f g l fun b hb => h b (by simp [hb])]
    rfl

/-- **C189 (part).** If the first energy is within the limits, the cross sections of an array of energies are those of its elements. -/
theorem C189_array_partial {m : Wmp} {e : ℝ} {es : List ℝ} {T : ℝ} (hl : m.eMin ≤ e) (hu : e ≤ m.eMax) {g : ℝ → Sigma × Bool}
    (h : ∀ x ∈ e :: es, evaluate m x T = .ok (g x)) : call m (e :: es) T = .ok ((e :: es).map fun x => (g x).1) := by
  unfold call
  simp only
  rw [h e (by simp), ok_bind, mapM_ok _ g _ h, ok_bind]
  have : (g e).2 = false := by
    have a := h e (by simp)
    unfold evaluate at a
    rw [if_neg (not_lt.2 hl), if_neg (not_lt.2 hu)] at a
    cases hw : within m e T with
    | error _ => rw [hw] at a; cases a
    | ok x =>
      rw [hw, ok_bind] at a
      have := Except.ok.inj a
      rw [← this]
  rw [this, List.map_map]
  rfl

/-- **C189 (refuted).** If the first energy is below the lower limit, all cross sections are cut to whole numbers; in another order they are not. -/
theorem C189_first_refuted {m : Wmp} {low e T : ℝ} (hlow : low < m.eMin) {x : Sigma} (hx : evaluate m e T = .ok (x, false)) :
    call m [low, e] T = .ok [⟨0, 0, 0⟩, ⟨(FromAce.pyTrunc x.s : ℝ), (FromAce.pyTrunc x.a : ℝ), (FromAce.pyTrunc x.f : ℝ)⟩] ∧
      call m [e, low] T = .ok [x, ⟨0, 0, 0⟩] := by
  have h0 : evaluate m low T = .ok (⟨0, 0, 0⟩, true) := by
    unfold evaluate; rw [if_pos hlow]
  constructor
  · unfold call
    simp only [List.mapM_cons, List.mapM_nil, h0, hx, ok_bind]
    simp [asInt, FromAce.pyTrunc]
    rfl
  · unfold call
    simp only [List.mapM_cons, List.mapM_nil, h0, hx, ok_bind]
    rfl

end ASAPy.Multipole
