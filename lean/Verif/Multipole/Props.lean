import Verif.Multipole.Eval

/-! # Properties of windowed multipole cross sections -/

namespace ASAPy.Multipole
open ASAPy.FromAce (item)

theorem boltzmann_pos : 0 < boltzmann := by unfold boltzmann; norm_num

theorem sqrt_ok {x : ℝ} (h : 0 ≤ x) : sqrt x = .ok (Real.sqrt x) := by
  unfold sqrt; rw [if_neg (not_lt.2 h)]

theorem window_index {m : Wmp} (v : m.Valid) {i : ℕ} {E : ℝ} (h : m.InWindow i E) : ⌊(Real.sqrt E - Real.sqrt m.eMin) / m.spacing⌋ = (i : Int) := by
  have p := Real.sqrt_nonneg m.eMin
  have s := v.spacing
  have q : 0 ≤ (i : ℝ) := by positivity
  have a : Real.sqrt m.eMin + i * m.spacing ≤ Real.sqrt E := Real.le_sqrt_of_sq_le h.1
  have b : Real.sqrt E < Real.sqrt m.eMin + (i + 1) * m.spacing := by
    rw [Real.sqrt_lt' (by positivity)]
    exact h.2
  rw [Int.floor_eq_iff]
  constructor
  · rw [le_div_iff₀ s]; push_cast; linarith
  · rw [div_lt_iff₀ s]; push_cast; linarith

/-- The coefficients of the poles of a window at 0 K and at temperature. -/
noncomputable def factorOf (m : Wmp) (E T : ℝ) (p : ℂ) : ℂ :=
  if T = 0 then -Complex.I / (p - (Real.sqrt E : ℂ)) / (E : ℂ)
  else
    let d := m.sqrtAWR / Real.sqrt (boltzmann * T)
    faddeeva (((Real.sqrt E : ℂ) - p) * (d : ℂ)) * (d : ℂ) * ((1 / E : ℝ) : ℂ) * (Real.sqrt Real.pi : ℂ)

theorem root_zero {T : ℝ} (hT : 0 ≤ T) : Real.sqrt (boltzmann * T) = 0 ↔ T = 0 := by
  have b := boltzmann_pos
  rw [Real.sqrt_eq_zero (by positivity)]
  constructor
  · intro h
    rcases mul_eq_zero.1 h with h | h
    · exact absurd h b.ne'
    · exact h
  · rintro rfl; ring

/-- The evaluation in a window. -/
theorem within_eq {m : Wmp} (v : m.Valid) {i : ℕ} (hi : i < m.windows.length) {E T : ℝ} (hE : 0 < E) (hT : 0 ≤ T) (h : m.InWindow i E) {x : Sigma}
    (hx : curve m i E (Real.sqrt (boltzmann * T)) (Real.sqrt E) = .ok x) :
    within m E T = .ok ⟨x.s + ((m.poles i).map fun r => (r.getD 1 0 * factorOf m E T (r.getD 0 0)).re).sum,
      x.a + ((m.poles i).map fun r => (r.getD 2 0 * factorOf m E T (r.getD 0 0)).re).sum,
      x.f + m.fis ((m.poles i).map fun r => (r.getD 3 0 * factorOf m E T (r.getD 0 0)).re).sum⟩ := by
  have bp := boltzmann_pos
  unfold within
  rw [sqrt_ok (mul_nonneg bp.le hT), ok_bind, sqrt_ok hE.le, ok_bind, if_neg hE.ne', sqrt_ok v.emin, ok_bind]
  simp only [window_index v h]
  obtain ⟨a, b, hw, ha, hb⟩ := v.windows _ (getD_mem hi [])
  have w0 : item2 m.windows (i : Int) 0 = .ok (a : Int) := by
    unfold item2
    rw [item_nat _ hi [], ok_bind, hw]; rfl
  have w1 : item2 m.windows (i : Int) 1 = .ok (b : Int) := by
    unfold item2
    rw [item_nat _ hi [], ok_bind, hw]; rfl
  rw [w0, ok_bind, w1, ok_bind, hx, ok_bind]
  obtain ⟨js, e1, e2, e3⟩ := range_rows (m := m) ha hb
  have ep : m.poles i = (m.data.take b).drop (a - 1) := by
    unfold Wmp.poles
    rw [hw]
    simp only [Int.toNat_natCast]
    congr 1
    omega
  rw [e1, ep, ← e3]
  split
  · next h0 =>
    have hT0 := (root_zero hT).1 h0
    unfold polesCold
    rw [v.rows (fun p => -Complex.I / (p - (Real.sqrt E : ℂ)) / (E : ℂ)) js x e2, rows_sum]
    unfold factorOf
    simp only [if_pos hT0]
  · next h0 =>
    have hT0 := fun e => h0 ((root_zero hT).2 e)
    unfold polesWarm
    rw [v.rows (fun p => faddeeva (((Real.sqrt E : ℂ) - p) * ((m.sqrtAWR / Real.sqrt (boltzmann * T) : ℝ) : ℂ)) * ((m.sqrtAWR / Real.sqrt (boltzmann * T) : ℝ) : ℂ) * ((1 / E : ℝ) : ℂ) *
      (Real.sqrt Real.pi : ℂ)) js x e2, rows_sum]
    unfold factorOf
    simp only [if_neg hT0]

theorem cold_factor {E : ℝ} (hE : 0 < E) (m : Wmp) (p r : ℂ) : E * (r * factorOf m E 0 p).re = resonance p r (Real.sqrt E) := by
  unfold factorOf resonance
  rw [if_pos rfl, ← Complex.re_ofReal_mul]
  congr 1
  have hE' : (E : ℂ) ≠ 0 := by exact_mod_cast hE.ne'
  have e : (E : ℂ) * (r * (-Complex.I / (p - (Real.sqrt E : ℂ)) / (E : ℂ))) = r * (-Complex.I / (p - (Real.sqrt E : ℂ))) := by
    field_simp
  rw [e, ← neg_sub, neg_div_neg_eq]
  ring

theorem warm_factor {E T : ℝ} (hE : 0 < E) (hT : 0 < T) {m : Wmp} (v : m.Valid) {p : ℂ} (hp : p.im ≠ 0) (r : ℂ) :
    E * (r * factorOf m E T p).re = smeared (m.sqrtAWR / Real.sqrt (boltzmann * T)) (Real.sqrt E) (resonance p r) := by
  have hd : 0 < m.sqrtAWR / Real.sqrt (boltzmann * T) := div_pos v.awr (Real.sqrt_pos.2 (mul_pos boltzmann_pos hT))
  rw [smeared_resonance hp r hd]
  unfold factorOf
  rw [if_neg hT.ne', ← Complex.re_ofReal_mul]
  congr 1
  have hE' : (E : ℂ) ≠ 0 := by exact_mod_cast hE.ne'
  push_cast
  field_simp

theorem mul_sum_map {α : Type} (E : ℝ) (f : α → ℝ) (l : List α) : E * (l.map f).sum = (l.map fun r => E * f r).sum := by
  induction l with
  | nil => simp
  | cons a l ih => simp [mul_add, ih]

/-- **C183.** Outside the limits the three cross sections are zero, whatever the data and the temperature are. -/
theorem C183_outside (m : Wmp) (E T : ℝ) (h : E < m.eMin ∨ m.eMax < E) : ∃ b, evaluate m E T = .ok (⟨0, 0, 0⟩, b) := by
  unfold evaluate
  by_cases h1 : E < m.eMin
  · exact ⟨_, if_pos h1⟩
  · rw [if_neg h1, if_pos (h.resolve_left h1)]
    exact ⟨_, rfl⟩

theorem curve_plain {m : Wmp} (v : m.Valid) {i : ℕ} (hi : i < m.windows.length) {E s : ℝ} (hb : s = 0 ∨ m.broaden.getD i false = false) :
    curve m i E s (Real.sqrt E) = .ok ⟨∑ k ∈ Finset.range m.terms, m.coeff i k 0 * (1 / E * Real.sqrt E ^ k), ∑ k ∈ Finset.range m.terms, m.coeff i k 1 * (1 / E * Real.sqrt E ^ k),
      m.fis (∑ k ∈ Finset.range m.terms, m.coeff i k 2 * (1 / E * Real.sqrt E ^ k))⟩ := by
  obtain ⟨t, ht⟩ := v.plain hi (Real.sqrt E) (1 / E)
  unfold curve
  by_cases h0 : s = 0
  · rw [if_neg (by simpa using h0)]
    simp only [pure_bind, Bool.false_eq_true, if_false]
    rw [ht]; rfl
  · rw [if_pos h0, item_nat _ (by rw [v.broaden]; exact hi) false, ok_bind, hb.resolve_left h0]
    simp only [Bool.false_eq_true, if_false]
    rw [ht]; rfl

theorem fit_scaled {E : ℝ} (hE : 0 < E) (m : Wmp) (i c : ℕ) (F : ℕ → ℝ) :
    E * ∑ k ∈ Finset.range m.terms, m.coeff i k c * (F k / E) = ∑ k ∈ Finset.range m.terms, m.coeff i k c * F k := by
  rw [Finset.mul_sum]
  refine Finset.sum_congr rfl fun k _ => ?_
  have := hE.ne'
  field_simp

/-- From sums to channels. -/
theorem channels_of {m : Wmp} {x : Sigma} {E : ℝ} {P R : ℕ → ℝ} {p q : ℕ → ℝ} (hs : x = ⟨p 0 + q 0, p 1 + q 1, m.fis (p 2) + m.fis (q 2)⟩)
    (hp : ∀ c, E * p c = P c) (hq : ∀ c, E * q c = R c) :
    (∀ c, m.HasChannel c → E * x.get c = P c + R c) ∧ (m.fissionable = false → x.f = 0) := by
  subst hs
  constructor
  · intro c hc
    rcases hc with h | ⟨rfl, h⟩
    · have : c = 0 ∨ c = 1 := by omega
      rcases this with rfl | rfl
      · simp only [Sigma.get, mul_add, hp, hq]
      · simp only [Sigma.get, mul_add, hp, hq]
    · simp only [Sigma.get, Wmp.fis, h, if_true, mul_add, hp, hq]
  · intro h
    simp [Wmp.fis, h]

/-- **C185.** At 0 K the cross section of a channel times the energy is the polynomial of the window plus the resonances of the window, at the square root of the energy. -/
theorem C185_cold {m : Wmp} (v : m.Valid) {i : ℕ} (hi : i < m.windows.length) {E : ℝ} (hE : 0 < E) (hl : m.eMin ≤ E) (hu : E ≤ m.eMax) (h : m.InWindow i E) :
    ∃ x, evaluate m E 0 = .ok (x, false) ∧ (∀ c, m.HasChannel c → E * x.get c = m.fit i c (Real.sqrt E) + m.resonances i c (Real.sqrt E)) ∧
      (m.fissionable = false → x.f = 0) := by
  have hr : Real.sqrt (boltzmann * 0) = 0 := (root_zero le_rfl).2 rfl
  have hc := curve_plain v hi (E := E) (s := Real.sqrt (boltzmann * 0)) (Or.inl hr)
  have e := within_eq v hi hE le_rfl h hc
  refine ⟨_, ?_, channels_of (m := m) (E := E) (P := fun c => m.fit i c (Real.sqrt E)) (R := fun c => m.resonances i c (Real.sqrt E))
    (p := fun c => ∑ k ∈ Finset.range m.terms, m.coeff i k c * (1 / E * Real.sqrt E ^ k))
    (q := fun c => ((m.poles i).map fun r => (r.getD (c + 1) 0 * factorOf m E 0 (r.getD 0 0)).re).sum) rfl ?_ ?_⟩
  · unfold evaluate
    rw [if_neg (not_lt.2 hl), if_neg (not_lt.2 hu), e]
    rfl
  · intro c
    have := fit_scaled hE m i c fun k => Real.sqrt E ^ k
    simp only [one_div_mul_eq_div]
    exact this
  · intro c
    rw [mul_sum_map]
    simp only [cold_factor hE]
    rfl

theorem smeared_sum {d : ℝ} (hd : 0 < d) (v : ℝ) (c : ℕ) (l : List (List ℂ)) (h : ∀ r ∈ l, (r.getD 0 0).im ≠ 0) :
    smeared d v (fun u => (l.map fun r => resonance (r.getD 0 0) (r.getD (c + 1) 0) u).sum) = (l.map fun r => smeared d v (resonance (r.getD 0 0) (r.getD (c + 1) 0))).sum ∧
    MeasureTheory.Integrable fun u => (l.map fun r => resonance (r.getD 0 0) (r.getD (c + 1) 0) u).sum * maxwell d (u - v) := by
  induction l with
  | nil => simp [smeared]
  | cons r l ih =>
    obtain ⟨a, b⟩ := ih fun r hr => h r (by simp [hr])
    have i1 : MeasureTheory.Integrable fun u => resonance (r.getD 0 0) (r.getD (c + 1) 0) u * maxwell d (u - v) := by
      refine (pole_int (h r (by simp)) (r.getD (c + 1) 0) hd v).re.congr (Filter.Eventually.of_forall fun u => ?_)
      simp only [resonance, RCLike.re_to_complex]
      rw [Complex.re_mul_ofReal]
    have e : ∀ u : ℝ, ((r :: l).map fun r => resonance (r.getD 0 0) (r.getD (c + 1) 0) u).sum * maxwell d (u - v) =
        resonance (r.getD 0 0) (r.getD (c + 1) 0) u * maxwell d (u - v) + (l.map fun r => resonance (r.getD 0 0) (r.getD (c + 1) 0) u).sum * maxwell d (u - v) := fun u => by
      rw [List.map_cons, List.sum_cons, add_mul]
    constructor
    · rw [List.map_cons, List.sum_cons, ← a]
      unfold smeared
      simp only [e]
      rw [MeasureTheory.integral_add i1 b]
    · simp only [e]
      exact i1.add b

theorem freeGas_fit {d : ℝ} (hd : 0 < d) (v : ℝ) (m : Wmp) (i c : ℕ) :
    freeGas d v (m.fit i c) = ∑ k ∈ Finset.range m.terms, m.coeff i k c * freeGas d v fun u => u ^ k := by
  unfold freeGas Wmp.fit
  simp only [Finset.sum_mul]
  rw [MeasureTheory.integral_finsetSum]
  · refine Finset.sum_congr rfl fun k _ => ?_
    rw [← MeasureTheory.integral_const_mul]
    congr 1
    ext u
    unfold Wmp.coeff
    ring
  · intro k _
    have h := (((moment_int hd v k).sub (moment_int hd (-v) k)).const_mul (m.coeff i k c)).integrableOn (s := Set.Ioi (0 : ℝ))
    refine h.congr (Filter.Eventually.of_forall fun u => ?_)
    simp only [Pi.sub_apply, sub_neg_eq_add]
    unfold Wmp.coeff
    ring

theorem smeared_fit {d : ℝ} (hd : 0 < d) (v : ℝ) (m : Wmp) (i c : ℕ) :
    smeared d v (m.fit i c) = ∑ k ∈ Finset.range m.terms, m.coeff i k c * moment d v k := by
  unfold smeared Wmp.fit moment
  simp only [Finset.sum_mul]
  rw [MeasureTheory.integral_finsetSum]
  · refine Finset.sum_congr rfl fun k _ => ?_
    rw [← MeasureTheory.integral_const_mul]
    congr 1
    ext u
    unfold Wmp.coeff
    ring
  · intro k _
    refine ((moment_int hd v k).const_mul (m.coeff i k c)).congr (Filter.Eventually.of_forall fun u => ?_)
    simp only
    unfold Wmp.coeff
    ring

theorem curve_warm {m : Wmp} (v : m.Valid) {i : ℕ} (hi : i < m.windows.length) {E s : ℝ} (hE : 0 < E) (hs : 0 < s) :
    ∃ p : ℕ → ℝ, curve m i E s (Real.sqrt E) = .ok ⟨p 0, p 1, m.fis (p 2)⟩ ∧ ∀ c, E * p c = m.fitAt i c E (m.sqrtAWR / s) := by
  have hd : 0 < m.sqrtAWR / s := div_pos v.awr hs
  unfold Wmp.fitAt
  by_cases hb : m.broaden.getD i false = false
  · refine ⟨fun c => ∑ k ∈ Finset.range m.terms, m.coeff i k c * (1 / E * Real.sqrt E ^ k), curve_plain v hi (Or.inr hb), fun c => ?_⟩
    have := fit_scaled hE m i c fun k => Real.sqrt E ^ k
    simp only [one_div_mul_eq_div, if_pos hb]
    exact this
  · have hb' : m.broaden.getD i false = true := by simpa using hb
    unfold curve
    rw [if_pos hs.ne', item_nat _ (by rw [v.broaden]; exact hi) false, ok_bind, hb']
    simp only [if_true, Bool.true_eq_false, if_false]
    by_cases hn : Real.sqrt E * (m.sqrtAWR / s) ≤ 6
    · refine ⟨fun c => ∑ k ∈ Finset.range m.terms, m.coeff i k c * (freeGas (m.sqrtAWR / s) (Real.sqrt E) (fun u => u ^ k) / E), ?_, fun c => ?_⟩
      · rw [near_eq hE hd hn v.terms, ok_bind, v.broadened hi]
      · rw [if_pos hn, freeGas_fit hd, fit_scaled hE]
    · refine ⟨fun c => ∑ k ∈ Finset.range m.terms, m.coeff i k c * (moment (m.sqrtAWR / s) (Real.sqrt E) k / E), ?_, fun c => ?_⟩
      · rw [far_eq hE hd (not_le.1 hn) v.terms, ok_bind, v.broadened hi]
      · rw [if_neg hn, smeared_fit hd, fit_scaled hE]

/-- **C186.** At a temperature the resonances of the window are averaged over the Maxwell distribution of the gas, and so is the polynomial where the window says so. -/
theorem C186_warm {m : Wmp} (v : m.Valid) {i : ℕ} (hi : i < m.windows.length) (ha : m.OffAxis i) {E T : ℝ} (hE : 0 < E) (hT : 0 < T) (hl : m.eMin ≤ E) (hu : E ≤ m.eMax)
    (h : m.InWindow i E) :
    ∃ x, evaluate m E T = .ok (x, false) ∧
      (∀ c, m.HasChannel c → E * x.get c = m.fitAt i c E (m.sqrtAWR / Real.sqrt (boltzmann * T)) +
        smeared (m.sqrtAWR / Real.sqrt (boltzmann * T)) (Real.sqrt E) (m.resonances i c)) ∧
      (m.fissionable = false → x.f = 0) := by
  have hs : 0 < Real.sqrt (boltzmann * T) := Real.sqrt_pos.2 (mul_pos boltzmann_pos hT)
  have hd : 0 < m.sqrtAWR / Real.sqrt (boltzmann * T) := div_pos v.awr hs
  obtain ⟨p, hc, hp⟩ := curve_warm v hi hE hs
  have e := within_eq v hi hE hT.le h hc
  refine ⟨_, ?_, channels_of (m := m) (E := E) (P := fun c => m.fitAt i c E (m.sqrtAWR / Real.sqrt (boltzmann * T)))
    (R := fun c => smeared (m.sqrtAWR / Real.sqrt (boltzmann * T)) (Real.sqrt E) (m.resonances i c)) (p := p)
    (q := fun c => ((m.poles i).map fun r => (r.getD (c + 1) 0 * factorOf m E T (r.getD 0 0)).re).sum) rfl hp ?_⟩
  · unfold evaluate
    rw [if_neg (not_lt.2 hl), if_neg (not_lt.2 hu), e]
    rfl
  · intro c
    rw [mul_sum_map]
    have := (smeared_sum hd (Real.sqrt E) c (m.poles i) ha).1
    unfold Wmp.resonances
    rw [this]
    congr 1
    refine List.map_congr_left fun r hr => ?_
    exact warm_factor hE hT v (ha r hr) _

end ASAPy.Multipole
