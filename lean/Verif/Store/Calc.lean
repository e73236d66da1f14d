import Verif.Store.Props
import Verif.Load.Props
import Verif.CovCorr.Props

/-! # C225: the covariance of the file in the hands of the sampler -/

namespace ASAPy.Store
open ASAPy.CovCorr
open ASAPy.Load (entry)

/-! ### Model -/

/-- A stored row as `load_zaid_mt` handles it; of the columns besides the bounds, `s.d.(1)` and `x-sec(1)` are kept. -/
def Row.toLoad (r : Row) : Load.Row ℝ := ⟨r.label, r.lo, r.hi, [(r.sd1 : ℝ), (r.xs1 : ℝ)]⟩

/-- The number of a finite float. Correlations that are not finite are not modelled here (none are stored, C49). -/
def num : Flt ℝ → ℝ
  | .fin x => x
  | _ => 0

/-- XsecSampler.py 24-57, `XsecSampler(h, zaid, mt, remove_negative_eig=False)`: the frames of the store through `load_zaid_mt`. -/
noncomputable def openSampler (s : Store) (zaid mt : Nat) : Except PyErr (List (Load.Row ℝ) × List (List (Flt ℝ))) :=
  match loadFrames s zaid mt with
  | .error e => .error e
  | .ok (.std rows, .corr c) => Load.load (rows.map Row.toLoad) (c.values.map fun r => r.map num) false
  | .ok _ => .error .keyError

/-- XsecSampler.py 97-110, `calc_cov`: `correlation_to_cov` of column `s.d.(1)` and the correlation, for frames of the same size and finite numbers. -/
noncomputable def calcCov (p : List (Load.Row ℝ) × List (List (Flt ℝ))) : List (List ℝ) :=
  List.ofFn fun i : Fin p.1.length => List.ofFn fun j : Fin p.1.length =>
    corrToCov (fun a => (p.1[a].rest[0]?).getD 0) (fun a b => num ((entry p.2 a b).getD .nan)) i j

/-! ### Specification -/

/-- What the file of BOXER says makes sense: as many cross sections and deviations as groups, one bound more; the matrix is square, symmetric and
`cov_ij² ≤ cov_ii cov_jj`; no cross section is zero, and the variance on the diagonal, which is relative to the cross section, is that of the
deviation. -/
structure Proper (d : Boxer.Data) : Prop where
  groups : d.cov ≠ []
  bounds : d.bounds.length = d.cov.length + 1
  xsec : d.xsec.length = d.cov.length
  stdDev : d.stdDev.length = d.cov.length
  square : ∀ r ∈ d.cov, r.length = d.cov.length
  symmetric : ∀ i j, entry d.cov i j = entry d.cov j i
  psd : ∀ {i j : Nat} {v a b : ℚ}, entry d.cov i j = some v → entry d.cov i i = some a → entry d.cov j j = some b → v ^ 2 ≤ a * b
  deviation : ∀ {i : Nat} {x σ a : ℚ}, d.xsec[i]? = some x → d.stdDev[i]? = some σ → entry d.cov i i = some a →
    x ≠ 0 ∧ 0 ≤ σ * x ∧ σ ^ 2 = a * x ^ 2
  decreasing : d.bounds.Pairwise (· > ·)

/-! ### Proofs -/

variable {n : Nat}

/-- The stored correlation times the deviations is the covariance, also where variances are zero. -/
theorem stored_times {cov : Fin n → Fin n → ℝ} (hs : ∀ i j, cov i j = cov j i) (hnn : ∀ i, 0 ≤ cov i i) (hpsd : PairwisePSD cov) :
    ∃ c : Fin n → Fin n → ℝ, (∀ i j, storedCorr cov i j = .fin (c i j)) ∧ (∀ i j, c i j = c j i) ∧ (∀ i, c i i = 1) ∧
      ∀ i j, i ≠ j → c i j * (Real.sqrt (cov i i) * Real.sqrt (cov j j)) = cov i j := by
  obtain ⟨c, h1, _, h3, h4⟩ := C49_stored_is_proper cov
  refine ⟨c, h1, h3, h4, ?_⟩
  have hm : ∀ i j : Fin n, cov (min i j) (max i j) = cov i j := by
    intro i j
    rcases le_total i j with h | h
    · rw [min_eq_left h, max_eq_right h]
    · rw [min_eq_right h, max_eq_left h, hs]
  have hzero : ∀ i j, cov i i * cov j j = 0 → cov i j = 0 := by
    intro i j h
    have := hpsd i j
    rw [h] at this
    exact pow_eq_zero_iff (two_ne_zero) |>.mp (le_antisymm this (sq_nonneg _))
  have hcorr : ∀ i j, i ≠ j → covToCorr cov i j = if cov i i * cov j j = 0 then .nan else .fin (cov i j / Real.sqrt (cov i i * cov j j)) := by
    intro i j h
    rw [covToCorr_apply, if_neg h, hm, abs_of_nonneg (mul_nonneg (hnn i) (hnn j))]
    split_ifs with h0
    · rw [h0, hzero i j h0]
      simp [Flt.div]
    · rw [Flt.div_of_ne]
      intro hc
      exact h0 (by rwa [Real.sqrt_eq_zero (mul_nonneg (hnn i) (hnn j))] at hc)
  have hle : ∀ i j, |cov i j / Real.sqrt (cov i i * cov j j)| ≤ 1 := by
    intro i j
    rw [abs_div, abs_of_nonneg (Real.sqrt_nonneg _)]
    exact div_le_one_of_le₀ (Real.abs_le_sqrt (hpsd i j)) (Real.sqrt_nonneg _)
  have hno : ¬ ∃ i j, Flt.lt (.fin 1) (covToCorr cov i j) ∨ Flt.lt (covToCorr cov i j) (.fin (-1)) := by
    rintro ⟨i, j, h⟩
    by_cases hij : i = j
    · rw [covToCorr_apply, if_pos hij] at h
      simp [Flt.lt] at h
      linarith
    rw [hcorr i j hij] at h
    split_ifs at h
    · simp [Flt.lt] at h
    · have := abs_le.mp (hle i j)
      simp [Flt.lt] at h
      rcases h with h | h <;> linarith
  intro i j hij
  have h := h1 i j
  unfold storedCorr at h
  rw [if_neg hno, hcorr i j hij] at h
  split_ifs at h with h0
  · rw [hzero i j h0]
    rw [← Real.sqrt_mul (hnn i), h0]
    simp
  · simp only [fillna, Flt.isNan, Bool.false_eq_true, if_false, Flt.fin.injEq] at h
    rw [← h, ← Real.sqrt_mul (hnn i), div_mul_cancel₀]
    rw [Ne, Real.sqrt_eq_zero (mul_nonneg (hnn i) (hnn j))]
    exact h0

theorem entry_of {d : Boxer.Data} (h : Proper d) {i j : Nat} (hi : i < d.cov.length) (hj : j < d.cov.length) :
    ∃ v, entry d.cov i j = some v ∧ (d.cov[i]?.getD [])[j]?.getD 0 = v := by
  have hr := h.square d.cov[i] (List.getElem_mem hi)
  refine ⟨d.cov[i][j]'(by omega), ?_, ?_⟩
  · unfold entry
    rw [List.getElem?_eq_getElem hi, Option.bind_some, List.getElem?_eq_getElem]
  · rw [List.getElem?_eq_getElem hi, Option.getD_some, List.getElem?_eq_getElem (by omega), Option.getD_some]

theorem entry_ofFn {α : Type*} {m k : Nat} (f : Fin m → Fin k → α) {i j : Nat} (hi : i < m) (hj : j < k) :
    entry (List.ofFn fun a => List.ofFn fun b => f a b) i j = some (f ⟨i, hi⟩ ⟨j, hj⟩) := by
  unfold entry
  rw [List.getElem?_ofFn, dif_pos hi, Option.bind_some, List.getElem?_ofFn, dif_pos hj]

theorem repair_raw {l : Nat} {hi lo xs sd : ℚ} (h : xs ≠ 0) : repair (rawRow l hi lo xs sd) = rawRow l hi lo xs sd := by
  have : (Flt.div sd xs).isNan = false := by
    rw [Flt.div_of_ne h]; rfl
  simp [repair, rawRow, this]

/-- Rows of the frame. -/
theorem stdFrame_rows {d : Boxer.Data} (h : Proper d) : ∃ rows, stdFrame d = .ok rows ∧ rows.length = d.cov.length ∧
    ∀ i (hi : i < rows.length), ∃ b b' x σ, d.bounds[i]? = some b ∧ d.bounds[i + 1]? = some b' ∧ d.xsec[i]? = some x ∧ d.stdDev[i]? = some σ ∧
      rows[i] = rawRow (i + 1) b b' x σ := by
  have h1 := h.bounds
  have h2 := h.xsec
  have h3 := h.stdDev
  refine ⟨_, by unfold stdFrame; rw [if_pos (by simp [h1, h2, h3])], by simp, ?_⟩
  intro i hi
  simp only [List.length_map, List.length_range] at hi
  have hxi : i < d.xsec.length := by omega
  have hsi : i < d.stdDev.length := by omega
  refine ⟨d.bounds[i], d.bounds[i + 1], d.xsec[i], d.stdDev[i], List.getElem?_eq_getElem _, List.getElem?_eq_getElem _, List.getElem?_eq_getElem _,
    List.getElem?_eq_getElem _, ?_⟩
  have e1 : d.bounds.dropLast[i]? = some (d.bounds[i]'(by omega)) := by
    rw [List.getElem?_eq_getElem (by simp; omega), List.getElem_dropLast]
  have e2 : d.bounds.tail[i]? = some (d.bounds[i + 1]'(by omega)) := by
    rw [List.getElem?_tail, List.getElem?_eq_getElem]
  rw [List.getElem_map, List.getElem_range, e1, e2, List.getElem?_eq_getElem hxi, List.getElem?_eq_getElem hsi]
  simp only [Option.getD_some]
  obtain ⟨v, hv, _⟩ := entry_of h hi hi
  exact repair_raw (h.deviation (List.getElem?_eq_getElem hxi) (List.getElem?_eq_getElem hsi) hv).1

/-- **C225 (partial).** The covariance `calc_cov` returns for what was stored from a file of BOXER is that of the file: the relative covariance times the cross
sections of the two groups. Bounds, cross sections and deviations are those of the file, group by group. Missing: groups without a cross section, see
`C225_zero_refuted`. -/
theorem C225_covariance_partial (s : Store) (zaid mt : Nat) (file : List (List Char)) {d : Boxer.Data} (h : Boxer.readFile file = .ok d) (hp : Proper d) :
    ∃ sd c, openSampler (final s zaid mt file) zaid mt = .ok (sd, c) ∧ sd.length = d.cov.length ∧
      (∀ i r, sd[i]? = some r → r.label = i + 1 ∧ d.bounds[i]?.map (fun b : ℚ => (b : ℝ)) = some r.hi ∧ d.bounds[i + 1]?.map (fun b : ℚ => (b : ℝ)) = some r.lo ∧
        ∃ σ x : ℚ, d.stdDev[i]? = some σ ∧ d.xsec[i]? = some x ∧ r.rest = [(σ : ℝ), (x : ℝ)]) ∧
      ∀ (i j : Nat) (v x y : ℚ), entry d.cov i j = some v → d.xsec[i]? = some x → d.xsec[j]? = some y →
        entry (calcCov (sd, c)) i j = some ((v * x * y : ℚ) : ℝ) := by
  obtain ⟨rows, hrows, hlen, hrow⟩ := stdFrame_rows hp
  have hdec : (rows.map Row.lo).Pairwise (· > ·) ∧ (rows.map Row.hi).Pairwise (· > ·) := by
    have hb := List.pairwise_iff_getElem.mp hp.decreasing
    constructor
    all_goals
      rw [List.pairwise_iff_getElem]
      intro i j hi hj hij
      simp only [List.length_map] at hi hj
      obtain ⟨b, b', x, σ, h1, h2, -, -, h5⟩ := hrow i hi
      obtain ⟨c, c', y, τ, k1, k2, -, -, k5⟩ := hrow j hj
      obtain ⟨_, rfl⟩ := List.getElem?_eq_some_iff.mp h1
      obtain ⟨_, rfl⟩ := List.getElem?_eq_some_iff.mp h2
      obtain ⟨_, rfl⟩ := List.getElem?_eq_some_iff.mp k1
      obtain ⟨_, rfl⟩ := List.getElem?_eq_some_iff.mp k2
      rw [List.getElem_map, List.getElem_map, h5, k5]
      exact hb _ _ _ _ (by omega)
  obtain ⟨-, hc, hsd, -⟩ := C50_complete_partial s zaid mt file h hrows hdec
  -- the covariance as a function
  set cov : Fin d.cov.length → Fin d.cov.length → ℝ := fun a b => (((d.cov[a]?.getD [])[b]?.getD 0 : ℚ) : ℝ) with hcov
  have hcv : ∀ (a b : Fin d.cov.length) v, entry d.cov a b = some v → cov a b = (v : ℝ) := by
    intro a b v hv
    obtain ⟨w, hw, hw'⟩ := entry_of hp a.2 b.2
    rw [hw] at hv
    cases hv
    exact congrArg (fun q : ℚ => (q : ℝ)) hw'
  have hsym : ∀ a b, cov a b = cov b a := by
    intro a b
    obtain ⟨v, hv, _⟩ := entry_of hp a.2 b.2
    rw [hcv a b v hv, hcv b a v (by rw [hp.symmetric]; exact hv)]
  have hdev : ∀ (a : Fin d.cov.length) x σ, d.xsec[a.1]? = some x → d.stdDev[a.1]? = some σ → 0 ≤ cov a a ∧ (σ : ℝ) = Real.sqrt (cov a a) * x := by
    intro a x σ hx hσ
    obtain ⟨v, hv, _⟩ := entry_of hp a.2 a.2
    obtain ⟨h1, h2, h3⟩ := hp.deviation hx hσ hv
    have hv0 : 0 ≤ v := by
      by_contra hneg
      push Not at hneg
      have : 0 < x ^ 2 := by positivity
      nlinarith [sq_nonneg σ]
    rw [hcv a a v hv]
    refine ⟨by exact_mod_cast hv0, ?_⟩
    have hq : (σ : ℝ) ^ 2 = (v : ℝ) * (x : ℝ) ^ 2 := by exact_mod_cast h3
    have hsx : (0 : ℝ) ≤ (σ : ℝ) * (x : ℝ) := by exact_mod_cast h2
    have hx0 : (x : ℝ) ≠ 0 := by exact_mod_cast h1
    have hs : Real.sqrt v = (σ : ℝ) / x := by
      rw [Real.sqrt_eq_iff_eq_sq (by exact_mod_cast hv0)]
      · rw [div_pow, hq]
        field_simp
      · have : (σ : ℝ) / x = σ * x / x ^ 2 := by field_simp
        rw [this]
        positivity
    rw [hs]
    field_simp
  have hnn : ∀ a, 0 ≤ cov a a := by
    intro a
    have h1 : a.1 < d.xsec.length := by rw [hp.xsec]; exact a.2
    have h2 : a.1 < d.stdDev.length := by rw [hp.stdDev]; exact a.2
    exact (hdev a _ _ (List.getElem?_eq_getElem h1) (List.getElem?_eq_getElem h2)).1
  have hpsd : PairwisePSD cov := by
    intro a b
    obtain ⟨v, hv, _⟩ := entry_of hp a.2 b.2
    obtain ⟨u, hu, _⟩ := entry_of hp a.2 a.2
    obtain ⟨w, hw, _⟩ := entry_of hp b.2 b.2
    rw [hcv a b v hv, hcv a a u hu, hcv b b w hw]
    exact_mod_cast hp.psd hv hu hw
  obtain ⟨c, hc1, hc2, hc3, hc4⟩ := stored_times hsym hnn hpsd
  -- the stored correlation, as numbers
  have hvals : (corrFrame d.cov).values.map (fun r => r.map num) = List.ofFn fun i => List.ofFn fun j => c i j := by
    unfold corrFrame
    simp only [List.map_ofFn]
    congr 1
    funext i
    simp only [Function.comp_apply, List.map_ofFn]
    congr 1
    funext j
    simp only [Function.comp_apply]
    have := hc1 i j
    simp only [hcov] at this
    rw [this]
    rfl
  have hent : ∀ i j : Nat, entry (List.ofFn fun i => List.ofFn fun j => c i j) i j =
      if hh : i < d.cov.length ∧ j < d.cov.length then some (c ⟨i, hh.1⟩ ⟨j, hh.2⟩) else none := by
    intro i j
    unfold entry
    rw [List.getElem?_ofFn]
    by_cases hi : i < d.cov.length
    · rw [dif_pos hi, Option.bind_some, List.getElem?_ofFn]
      by_cases hj : j < d.cov.length
      · rw [dif_pos hj, dif_pos ⟨hi, hj⟩]
      · rw [dif_neg hj, dif_neg (by tauto)]
    · rw [dif_neg hi, dif_neg (by tauto)]
      rfl
  have hpos : 0 < d.cov.length := List.length_pos_of_ne_nil hp.groups
  have hdiag : Load.LargestDiag (List.ofFn fun i => List.ofFn fun j => c i j) 1 := by
    refine ⟨⟨0, by rw [hent, dif_pos ⟨hpos, hpos⟩, hc3]⟩, ?_⟩
    intro i x hx
    rw [hent] at hx
    split_ifs at hx with hh
    simp only [Option.some.injEq] at hx
    rw [← hx, hc3]
  have hrows0 : 0 < rows.length := by omega
  have hone : Load.HasRowOne (rows.map Row.toLoad) (rows[0].toLoad) := by
    refine ⟨List.mem_map_of_mem (List.getElem_mem _), ?_, ?_⟩
    · obtain ⟨b, b', x, σ, -, -, -, -, h5⟩ := hrow 0 hrows0
      rw [h5]
      rfl
    · have : ((rows.map Row.toLoad).map Load.Row.label) = List.range' 1 rows.length := by
        apply List.ext_getElem
        · simp
        · intro i h1 h2
          simp only [List.length_map] at h1
          obtain ⟨b, b', x, σ, -, -, -, -, h5⟩ := hrow i h1
          simp only [List.getElem_map, List.getElem_range', h5, Row.toLoad, rawRow]
          omega
      rw [this]
      exact List.nodup_range'
  have hload : openSampler (final s zaid mt file) zaid mt =
      .ok (rows.map Row.toLoad, (List.ofFn fun i => List.ofFn fun j => c i j).map fun r => r.map Flt.fin) := by
    unfold openSampler loadFrames
    rw [hsd, hc]
    simp only
    rw [hvals, Load.load_eq hone hdiag, if_neg]
    · simp
    · obtain ⟨b, b', x, σ, h1, h2, -, -, h5⟩ := hrow 0 hrows0
      obtain ⟨_, rfl⟩ := List.getElem?_eq_some_iff.mp h1
      obtain ⟨_, rfl⟩ := List.getElem?_eq_some_iff.mp h2
      rw [h5]
      simp only [Row.toLoad, rawRow, not_lt]
      exact_mod_cast (List.pairwise_iff_getElem.mp hp.decreasing 0 1 (by omega) (by omega) (by omega)).le
  refine ⟨_, _, hload, by simp [hlen], ?_, ?_⟩
  · intro i r hr
    rw [List.getElem?_map, Option.map_eq_some_iff] at hr
    obtain ⟨r', hr', rfl⟩ := hr
    obtain ⟨hi, rfl⟩ := List.getElem?_eq_some_iff.mp hr'
    obtain ⟨b, b', x, σ, h1, h2, h3, h4, h5⟩ := hrow i hi
    rw [h5, h1, h2]
    exact ⟨rfl, rfl, rfl, σ, x, h4, h3, rfl⟩
  · intro i j v x y hv hx hy
    have hi : i < d.cov.length := by
      rw [← hp.xsec]
      exact (List.getElem?_eq_some_iff.mp hx).1
    have hj : j < d.cov.length := by
      rw [← hp.xsec]
      exact (List.getElem?_eq_some_iff.mp hy).1
    have hsd' : ∀ (a : Nat) (ha : a < (rows.map Row.toLoad).length) (z : ℚ), d.xsec[a]? = some z →
        (((rows.map Row.toLoad)[a].rest[0]?).getD 0) = Real.sqrt (cov ⟨a, by simpa [hlen] using ha⟩ ⟨a, by simpa [hlen] using ha⟩) * z := by
      intro a ha z hz
      simp only [List.length_map] at ha
      obtain ⟨b, b', x', σ, -, -, h3, h4, h5⟩ := hrow a ha
      rw [hz] at h3
      cases h3
      rw [List.getElem_map, h5]
      simp only [Row.toLoad, rawRow, List.getElem?_cons_zero, Option.getD_some]
      exact (hdev ⟨a, by omega⟩ z σ hz h4).2
    have hce : ∀ a b : Nat, ∀ ha : a < d.cov.length, ∀ hb : b < d.cov.length,
        num ((entry ((List.ofFn fun i => List.ofFn fun j => c i j).map fun r => r.map Flt.fin) a b).getD .nan) = c ⟨a, ha⟩ ⟨b, hb⟩ := by
      intro a b ha hb
      rw [Load.entry_map, hent, dif_pos ⟨ha, hb⟩]
      rfl
    have hl : (rows.map Row.toLoad).length = d.cov.length := by simp [hlen]
    unfold calcCov
    simp only
    rw [entry_ofFn _ (show i < (rows.map Row.toLoad).length by omega) (show j < (rows.map Row.toLoad).length by omega)]
    congr 1
    by_cases hij : i = j
    · subst hij
      rw [hx] at hy
      cases hy
      rw [(C39_symmetric _ _).2]
      rw [Fin.getElem_fin, hsd' i (by omega) x hx, mul_pow, Real.sq_sqrt (hnn _), hcv ⟨i, hi⟩ ⟨i, hi⟩ v hv]
      push_cast
      ring
    · rw [C39_entries]
      · simp only
        rw [Fin.getElem_fin, Fin.getElem_fin, hsd' i (by omega) x hx, hsd' j (by omega) y hy, hce i j hi hj]
        have := hc4 ⟨i, hi⟩ ⟨j, hj⟩ (by simpa using hij)
        rw [hcv ⟨i, hi⟩ ⟨j, hj⟩ v hv] at this
        push_cast
        rw [← this]
        ring
      · intro a b
        rw [hce a b (by have := a.2; omega) (by have := b.2; omega), hce b a (by have := b.2; omega) (by have := a.2; omega), hc2]
      · simpa using hij

theorem load_rest {sd sd' : List (Load.Row ℝ)} {corr : List (List ℝ)} {c' : List (List (Flt ℝ))} {b : Bool} (h : Load.load sd corr b = .ok (sd', c')) :
    sd'.map Load.Row.rest = sd.map Load.Row.rest := by
  unfold Load.load at h
  split at h
  · cases h
  · simp only at h
    split at h
    · cases h
    · split at h
      · cases h
      · simp only [Except.ok.injEq, Prod.mk.injEq] at h
        rw [← h.1]
        split_ifs
        · simp [Function.comp_def]
        · rfl

/-- What is stored from a file can be loaded. -/
theorem open_ok (s : Store) (zaid mt : Nat) (file : List (List Char)) {d : Boxer.Data} (h : Boxer.readFile file = .ok d) {rows : List Row}
    (hrows : stdFrame d = .ok rows) (hdec : (rows.map Row.lo).Pairwise (· > ·) ∧ (rows.map Row.hi).Pairwise (· > ·)) (hne : d.cov ≠ []) :
    ∃ sd c, openSampler (final s zaid mt file) zaid mt = .ok (sd, c) ∧ sd.map Load.Row.rest = (rows.map Row.toLoad).map Load.Row.rest := by
  obtain ⟨-, hc, hsd, -⟩ := C50_complete_partial s zaid mt file h hrows hdec
  have hpos : 0 < d.cov.length := List.length_pos_of_ne_nil hne
  have hlab : rows.length = d.cov.length ∧ rows.map Row.label = List.range' 1 d.cov.length := by
    unfold stdFrame at hrows
    simp only at hrows
    split_ifs at hrows with hcond
    have hl : ∀ (l : Nat) (a b c d : ℚ), (repair (rawRow l a b c d)).label = l := by
      intro l a b c d
      unfold repair rawRow
      simp only
      split_ifs <;> rfl
    rw [← Except.ok.inj hrows]
    refine ⟨by simp, ?_⟩
    apply List.ext_getElem
    · simp
    · intro i h1 h2
      simp [hl]
      omega
  obtain ⟨c, hc1, -, -, hc3⟩ := C49_stored_is_proper (fun a b : Fin d.cov.length => (((d.cov[a]?.getD [])[b]?.getD 0 : ℚ) : ℝ))
  have hvals : (corrFrame d.cov).values.map (fun r => r.map num) = List.ofFn fun i => List.ofFn fun j => c i j := by
    unfold corrFrame
    simp only [List.map_ofFn]
    congr 1
    funext i
    simp only [Function.comp_apply, List.map_ofFn]
    congr 1
    funext j
    simp only [Function.comp_apply, hc1 i j]
    rfl
  have hdiag : Load.LargestDiag (List.ofFn fun i => List.ofFn fun j => c i j) 1 := by
    refine ⟨⟨0, by rw [entry_ofFn c hpos hpos, hc3]⟩, ?_⟩
    intro i x hx
    have hi : i < d.cov.length := by
      by_contra hi
      unfold entry at hx
      rw [List.getElem?_eq_none (by simpa using hi)] at hx
      simp at hx
    rw [entry_ofFn c hi hi, hc3] at hx
    simp only [Option.some.injEq] at hx
    rw [hx]
  have hone : Load.HasRowOne (rows.map Row.toLoad) ((rows[0]'(by omega)).toLoad) := by
    have hmap : (rows.map Row.toLoad).map Load.Row.label = List.range' 1 d.cov.length := by
      rw [← hlab.2, List.map_map]
      rfl
    refine ⟨List.mem_map_of_mem (List.getElem_mem _), ?_, ?_⟩
    · have := congrArg (fun l => l[0]?) hlab.2
      simp only [List.getElem?_map] at this
      rw [List.getElem?_eq_getElem (by omega), List.getElem?_eq_getElem (by simpa using hpos)] at this
      simpa [Row.toLoad] using this
    · rw [hmap]
      exact List.nodup_range'
  have hl := Load.load_eq hone hdiag
  have hopen : openSampler (final s zaid mt file) zaid mt
      = Load.load (rows.map Row.toLoad) (List.ofFn fun i => List.ofFn fun j => c i j) false := by
    unfold openSampler loadFrames
    rw [hsd, hc]
    simp only
    rw [hvals]
  rw [hopen, hl]
  exact ⟨_, _, rfl, load_rest hl⟩

/-- **C225 is false for groups without a cross section** (and hence without a deviation): their variance is not 0 but 10⁻¹⁴. -/
theorem C225_zero_refuted (s : Store) (zaid mt : Nat) (file : List (List Char)) {d : Boxer.Data} (h : Boxer.readFile file = .ok d) {rows : List Row}
    (hrows : stdFrame d = .ok rows) (hdec : (rows.map Row.lo).Pairwise (· > ·) ∧ (rows.map Row.hi).Pairwise (· > ·)) {i : Nat}
    (hx : d.xsec[i]? = some 0) (hσ : d.stdDev[i]? = some 0) :
    ∃ p, openSampler (final s zaid mt file) zaid mt = .ok p ∧ entry (calcCov p) i i = some (1 / 10 ^ 14) := by
  have hn : i < d.cov.length ∧ rows.length = d.cov.length ∧ ∀ hi : i < rows.length, rows[i].sd1 = 1 / 10 ^ 7 := by
    unfold stdFrame at hrows
    simp only at hrows
    split_ifs at hrows with hcond
    have hi : i < d.cov.length := by
      rw [← hcond.2.2.1]
      exact (List.getElem?_eq_some_iff.mp hx).1
    rw [← Except.ok.inj hrows]
    refine ⟨hi, by simp, ?_⟩
    intro hi'
    rw [List.getElem_map, List.getElem_range, hx, hσ]
    simp [repair, rawRow, Flt.div, Flt.isNan]
  obtain ⟨hi, hlen, hval⟩ := hn
  obtain ⟨sd, c, hl, hr⟩ := open_ok s zaid mt file h hrows hdec (by rintro he; rw [he] at hi; simp at hi)
  refine ⟨(sd, c), hl, ?_⟩
  have hls : sd.length = rows.length := by
    have := congrArg List.length hr
    simpa using this
  have hi' : i < sd.length := by omega
  unfold calcCov
  rw [entry_ofFn _ hi' hi', (C39_symmetric _ _).2]
  have : sd[i].rest = (rows[i]'(by omega)).toLoad.rest := by
    have := congrArg (fun l => l[i]?) hr
    simp only [List.getElem?_map, List.map_map] at this
    rw [List.getElem?_eq_getElem hi', List.getElem?_eq_getElem (by omega)] at this
    simpa using this
  simp only [Fin.getElem_fin]
  rw [this]
  simp only [Row.toLoad, List.getElem?_cons_zero, Option.getD_some]
  rw [hval (by omega)]
  norm_num

/-- Two groups with relative deviations of 10% and 20% and a covariance of -1%. -/
def calcFile : List (List Char) := ["0 u235\n", " 1.000E+07 1.000E+00 1.000E-05\n", "1 u235\n", " 2.000E+00 4.000E+00\n",
    "2 u235\n", " 1.000E-01 2.000E-01\n", "3 u235\n", " 1.000E-02-1.000E-02\n", "-1.000E-02 4.000E-02\n"].map String.toList

def calcData : Boxer.Data := ⟨[10000000, 1, 1 / 100000], [2, 4], [1 / 5, 4 / 5], [[1 / 100, -1 / 100], [-1 / 100, 4 / 100]]⟩

theorem calc_read : Boxer.readFile calcFile = .ok calcData := by decide +kernel

theorem entry_some {i j : Nat} {v : ℚ} (h : entry calcData.cov i j = some v) :
    i < 2 ∧ j < 2 ∧ v = if i = 0 then (if j = 0 then 1 / 100 else -1 / 100) else (if j = 0 then -1 / 100 else 4 / 100) := by
  match i, j with
  | 0, 0 => simp [entry, calcData] at h; exact ⟨by omega, by omega, by simp [← h]⟩
  | 0, 1 => simp [entry, calcData] at h; exact ⟨by omega, by omega, by simp [← h]⟩
  | 1, 0 => simp [entry, calcData] at h; exact ⟨by omega, by omega, by simp [← h]⟩
  | 1, 1 => simp [entry, calcData] at h; exact ⟨by omega, by omega, by simp [← h]⟩
  | 0, j + 2 => simp [entry, calcData] at h
  | 1, j + 2 => simp [entry, calcData] at h
  | i + 2, j => simp [entry, calcData] at h

theorem calc_proper : Proper calcData where
  groups := by decide
  bounds := by decide
  xsec := by decide
  stdDev := by decide
  square := by decide
  symmetric := by
    intro i j
    match i, j with
    | 0, 0 => rfl
    | 0, 1 => rfl
    | 1, 0 => rfl
    | 1, 1 => rfl
    | 0, j + 2 => simp [entry, calcData]
    | 1, j + 2 => simp [entry, calcData]
    | i + 2, 0 => simp [entry, calcData]
    | i + 2, 1 => simp [entry, calcData]
    | i + 2, j + 2 => simp [entry, calcData]
  psd := by
    intro i j v a b hv ha hb
    obtain ⟨hi, hj, rfl⟩ := entry_some hv
    obtain ⟨-, -, rfl⟩ := entry_some ha
    obtain ⟨-, -, rfl⟩ := entry_some hb
    interval_cases i <;> interval_cases j <;> norm_num
  deviation := by
    intro i x σ a hx hσ ha
    obtain ⟨hi, -, rfl⟩ := entry_some ha
    interval_cases i
    · simp [calcData] at hx hσ
      rw [← hx, ← hσ]
      norm_num
    · simp [calcData] at hx hσ
      rw [← hx, ← hσ]
      norm_num
  decreasing := by decide +kernel

-- The covariance of the two groups: -1% of 2 times 4.
example : ∃ p, openSampler (final [] 92235 18 calcFile) 92235 18 = .ok p ∧ entry (calcCov p) 0 1 = some ((-2 / 25 : ℚ) : ℝ) := by
  obtain ⟨sd, c, h1, -, -, h4⟩ := C225_covariance_partial [] 92235 18 calcFile calc_read calc_proper
  refine ⟨_, h1, ?_⟩
  rw [h4 0 1 (-1 / 100) 2 4 rfl rfl rfl]
  norm_num

/-- A threshold reaction: nothing in the second group. -/
def zeroFile : List (List Char) := ["0 u235\n", " 1.000E+07 1.000E+00 1.000E-05\n", "1 u235\n", " 2.000E+00 0.000E+00\n",
    "2 u235\n", " 1.000E-01 0.000E+00\n", "3 u235\n", " 1.000E-02 0.000E+00\n", " 0.000E+00 0.000E+00\n"].map String.toList

example : ∃ p, openSampler (final [] 92235 51 zeroFile) 92235 51 = .ok p ∧ entry (calcCov p) 1 1 = some (1 / 10 ^ 14) :=
  C225_zero_refuted [] 92235 51 zeroFile (d := ⟨[10000000, 1, 1 / 100000], [2, 0], [1 / 5, 0], [[1 / 100, 0], [0, 0]]⟩)
    (rows := [⟨1, 1, 10000000, 2, 2, .fin (1 / 10), .fin (1 / 10), 1 / 5, 1 / 5⟩,
      ⟨2, 1 / 100000, 1, 0, 0, .fin (1 / 10 ^ 7), .fin (1 / 10 ^ 7), 1 / 10 ^ 7, 1 / 10 ^ 7⟩])
    (by decide +kernel) (by decide +kernel) (by decide +kernel) rfl rfl

end ASAPy.Store
