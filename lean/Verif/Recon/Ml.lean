import Verif.Recon.Bw

/-!
# Closed forms of the multi-level Breit-Wigner cross sections
-/

namespace ASAPy.Recon
open Spec

noncomputable section

/-- `x` and `f` of a resonance. -/
def xOf (b : Base) (E : ℝ) (r : BwRow) : ℝ := 2 * (E - peak b r E) / totalWidth b r E
def fOf (b : Base) (E : ℝ) (r : BwRow) : ℝ := 2 * neutronWidth b r E / (totalWidth b r E * (1 + xOf b E r * xOf b E r))

theorem f_line {b : Base} {E : ℝ} {r : BwRow} (h : 0 < totalWidth b r E) (w : ℝ) :
    2 * Real.pi / (waveNumber b.awr E * waveNumber b.awr E) * (fOf b E r * weight b.spin r.j * w / totalWidth b r E) = line b r E * w := by
  have q : 0 < (E - peak b r E) ^ 2 + totalWidth b r E ^ 2 / 4 := by positivity
  have e : fOf b E r / totalWidth b r E = neutronWidth b r E / ((E - peak b r E) ^ 2 + totalWidth b r E ^ 2 / 4) / 2 := by
    have hx : 0 < 1 + xOf b E r * xOf b E r := by have := mul_self_nonneg (xOf b E r); linarith
    unfold fOf
    rw [div_div, div_div, div_eq_div_iff (by positivity) (by positivity)]
    unfold xOf
    field_simp
    ring
  unfold line
  calc _ = 2 * Real.pi / (waveNumber b.awr E * waveNumber b.awr E) * weight b.spin r.j * w * (fOf b E r / totalWidth b r E) := by ring
    _ = _ := by rw [e]; ring

/-- What a pair of sums changes in the elastic cross section of a J. -/
def quad (c s : ℝ) (p : ℝ × ℝ) : ℝ := p.1 ^ 2 + p.2 ^ 2 - 2 * (1 - c) * p.1 + 2 * s * p.2

def quadSum (I a : ℝ) (N : ℕ) (c s : ℝ) (f : ℤ → ℝ × ℝ) : ℝ := ((List.range N).map fun i : ℕ => gJ I a i * quad c s (f i)).sum

theorem quadSum_update {I a c s : ℝ} {N : ℕ} {f : ℤ → ℝ × ℝ} {i : ℕ} (hi : i < N) (h0 : f i = (0, 0)) (p : ℝ × ℝ) :
    quadSum I a N c s (Function.update f i p) = quadSum I a N c s f + gJ I a i * quad c s p := by
  unfold quadSum
  have e : (fun k : ℕ => gJ I a k * quad c s (Function.update f (i : ℤ) p k)) =
      fun k : ℕ => gJ I a k * quad c s (f k) + if k = i then gJ I a i * quad c s p else 0 := by
    funext k
    by_cases hk : k = i
    · subst hk
      rw [if_pos rfl, Function.update_self, h0]
      simp [quad]
    · rw [if_neg hk, Function.update_of_ne (by exact_mod_cast hk), add_zero]
  rw [e, List.sum_map_add]
  congr 1
  clear e h0
  induction N with
  | zero => omega
  | succ N ih =>
    rw [List.range_succ, List.map_append, List.sum_append]
    by_cases hN : i = N
    · subst hN
      have : ((List.range i).map fun k : ℕ => if k = i then gJ I a i * quad c s p else 0).sum = 0 := by
        apply List.sum_eq_zero
        intro x hx
        obtain ⟨k, hk, rfl⟩ := List.mem_map.mp hx
        rw [List.mem_range] at hk
        rw [if_neg (by omega)]
      rw [this]
      simp
    · rw [ih (by omega)]
      simp [Ne.symm hN]

theorem gJ_weight (I a : ℝ) (i : ℕ) : gJ I a i = weight I (a + i) := by
  unfold gJ
  rw [← weight_eq]
  simp

/-- The index of a row. -/
def HasIndex (I : ℝ) (l : ℤ) (r : BwRow) : Prop := ∃ i : ℕ, r.j = jmin I l + i ∧ (i : ℤ) < nJ I l

theorem mlbw_rows {b : Base} {E c s : ℝ} {l : ℤ} : ∀ (rows : List BwRow) (t : MlState),
    (∀ r ∈ rows, r.l = l ∧ 0 ≤ r.gf ∧ HasIndex b.spin l r) →
    ∃ t', (rows.map (prepared b)).foldlM (mlbwRow b.spin E (pen b l E) (shift b l E) (jmin b.spin l) (nJ b.spin l)) t = .ok t' ∧
      t'.capture = t.capture + (rows.map fun r => fOf b E r * weight b.spin r.j * r.gg / totalWidth b r E).sum ∧
      t'.fission = t.fission + (rows.map fun r => fOf b E r * weight b.spin r.j * r.gf / totalWidth b r E).sum ∧
      (rows.Pairwise (fun r q => r.j ≠ q.j) → (∀ r ∈ rows, ∀ i : ℕ, r.j = jmin b.spin l + i → t.s i = (0, 0)) →
        quadSum b.spin (jmin b.spin l) (nJ b.spin l).toNat c s t'.s = quadSum b.spin (jmin b.spin l) (nJ b.spin l).toNat c s t.s +
          (rows.map fun r => weight b.spin r.j * quad c s (fOf b E r, fOf b E r * xOf b E r)).sum)
  | [], t, _ => ⟨t, rfl, by simp, by simp, by simp⟩
  | r :: rows, t, h => by
    obtain ⟨hl, hf, i, hi, hlt⟩ := h r List.mem_cons_self
    have hw := bwWidths_eq b E r
    rw [hl] at hw
    have hidx : trunc ((prepared b r).j - jmin b.spin l) = i := trunc_int (by show r.j - _ = _; rw [hi]; simp)
    have hwt : gJ b.spin (jmin b.spin l) i = weight b.spin r.j := by rw [gJ_weight, hi]
    obtain ⟨t', ht, h1, h2, h3⟩ := mlbw_rows (b := b) (E := E) (c := c) (s := s) (l := l) rows
      ⟨Function.update t.s i ((t.s i).1 + fOf b E r, (t.s i).2 + fOf b E r * xOf b E r),
        t.capture + fOf b E r * weight b.spin r.j * r.gg / totalWidth b r E, t.fission + fOf b E r * weight b.spin r.j * r.gf / totalWidth b r E⟩
      fun q hq => h q (List.mem_cons_of_mem _ hq)
    refine ⟨t', ?_, ?_, ?_, ?_⟩
    · rw [List.map_cons, List.foldlM_cons]
      have : mlbwRow b.spin E (pen b l E) (shift b l E) (jmin b.spin l) (nJ b.spin l) t (prepared b r) =
          .ok ⟨Function.update t.s i ((t.s i).1 + fOf b E r, (t.s i).2 + fOf b E r * xOf b E r),
            t.capture + fOf b E r * weight b.spin r.j * r.gg / totalWidth b r E, t.fission + fOf b E r * weight b.spin r.j * r.gf / totalWidth b r E⟩ := by
        unfold mlbwRow
        rw [hidx, hw]
        simp only []
        rw [if_neg (by omega), hwt]
        have hgf : (if 0 < (prepared b r).gf then t.fission + fOf b E r * weight b.spin r.j * (prepared b r).gf / totalWidth b r E else t.fission) =
            t.fission + fOf b E r * weight b.spin r.j * r.gf / totalWidth b r E := by
          show (if 0 < r.gf then t.fission + fOf b E r * weight b.spin r.j * r.gf / totalWidth b r E else t.fission) = _
          by_cases h0 : 0 < r.gf
          · rw [if_pos h0]
          · rw [if_neg h0]
            have : r.gf = 0 := le_antisymm (not_lt.mp h0) hf
            rw [this]; simp
        show Except.ok (MlState.mk (Function.update t.s i ((t.s i).1 + fOf b E r, (t.s i).2 + fOf b E r * xOf b E r))
            (t.capture + fOf b E r * weight b.spin r.j * r.gg / totalWidth b r E)
            (if 0 < (prepared b r).gf then t.fission + fOf b E r * weight b.spin r.j * (prepared b r).gf / totalWidth b r E else t.fission)) = _
        rw [hgf]
      rw [this]
      exact ht
    · rw [h1, List.map_cons, List.sum_cons, add_assoc]
    · rw [h2, List.map_cons, List.sum_cons, add_assoc]
    · intro hp hz
      rw [List.pairwise_cons] at hp
      have h0 : t.s i = (0, 0) := hz r List.mem_cons_self i hi
      rw [h3 hp.2, quadSum_update (by omega) h0, List.map_cons, List.sum_cons, hwt, h0, add_assoc]
      · simp
      · intro q hq k hk
        have hne : (k : ℤ) ≠ i := by
          intro e
          have e' : k = i := by exact_mod_cast e
          rw [e'] at hk
          exact hp.1 q hq (by rw [hi, hk])
        show Function.update t.s (i : ℤ) _ k = _
        rw [Function.update_of_ne hne]
        exact hz q (List.mem_cons_of_mem _ hq) k hk

theorem hasIndex_of {d : Bw} {E : ℝ} (h : BwOk d E) {r : BwRow} (hr : r ∈ d.rows) : HasIndex d.spin r.l r := by
  obtain ⟨⟨⟨n, hn⟩, -, -⟩, hrows⟩ := h
  obtain ⟨⟨h0, -⟩, -, -, -, -, -, ha⟩ := hrows r hr
  obtain ⟨L, hL⟩ := Int.eq_ofNat_of_zero_le h0
  rw [hn, hL] at ha
  unfold HasIndex
  rw [hn, hL]
  exact index_of ha

/-- The elastic sum of an l, expanded about potential scattering. -/
theorem elastic_expand (I a c s D : ℝ) (N : ℕ) (l : ℤ) (hcs : c ^ 2 + s ^ 2 = 1) (hD : D = 2 * l + 1 - ((List.range N).map fun ij : ℕ => gJ I a ij).sum) (f : ℤ → ℝ × ℝ) :
    ((List.range N).map fun ij : ℕ => gJ I a ij * ((1 - c - (f ij).1) ^ 2 + (s + (f ij).2) ^ 2)).sum + 2 * D * (1 - c) =
      2 * (2 * l + 1) * (1 - c) + quadSum I a N c s f := by
  have e : (fun ij : ℕ => gJ I a ij * ((1 - c - (f ij).1) ^ 2 + (s + (f ij).2) ^ 2)) =
      fun ij : ℕ => gJ I a ij * (2 * (1 - c)) + gJ I a ij * quad c s (f ij) := by
    funext i
    unfold quad
    linear_combination gJ I a i * hcs
  rw [e, List.sum_map_add, List.sum_map_mul_right, hD]
  unfold quadSum
  ring

/-- What an l adds. -/
theorem mlbwAt_ok {d : Bw} {E : ℝ} (h : BwOk d E) {l : ℤ} (hl : l ∈ firsts [] (d.rows.map (·.l))) :
    ∃ x, mlbwAt d.toBase E l ((rowsOf d l).map (prepared d.toBase)) = .ok x ∧ 0 ≤ x.elastic ∧
      x.capture = ((rowsOf d l).map fun r => fOf d.toBase E r * weight d.spin r.j * r.gg / totalWidth d.toBase r E).sum ∧
      x.fission = ((rowsOf d l).map fun r => fOf d.toBase E r * weight d.spin r.j * r.gf / totalWidth d.toBase r E).sum ∧
      ((rowsOf d l).Pairwise (fun r q => r.j ≠ q.j) → x.elastic = 2 * (2 * l + 1) * (1 - Real.cos (2 * phi d.toBase l E)) +
        ((rowsOf d l).map fun r => weight d.spin r.j * quad (Real.cos (2 * phi d.toBase l E)) (Real.sin (2 * phi d.toBase l E))
          (fOf d.toBase E r, fOf d.toBase E r * xOf d.toBase E r)).sum) := by
  obtain ⟨r, hr, hrl⟩ := firsts_row hl
  have hok := (h.2 r hr).1
  rw [hrl] at hok
  have hφ := phi_same hok
  obtain ⟨t', ht, h1, h2, h3⟩ := mlbw_rows (b := d.toBase) (E := E) (c := Real.cos (2 * phi d.toBase l E)) (s := Real.sin (2 * phi d.toBase l E)) (l := l) (rowsOf d l)
    ⟨fun _ => (0, 0), 0, 0⟩ fun q hq => by
      obtain ⟨hq1, hq2⟩ := rowsOf_mem hq
      exact ⟨hq2, (h.2 q hq1).2.2.2.1, hq2 ▸ hasIndex_of h hq1⟩
  unfold mlbwAt
  rw [waves_ok hok]
  simp only [ok_bind]
  rw [ht]
  simp only [ok_bind]
  obtain ⟨n, hn⟩ := h.1.1
  obtain ⟨L, hL⟩ := Int.eq_ofNat_of_zero_le hok.1
  refine ⟨_, rfl, ?_, ?_, ?_, ?_⟩
  · simp only []
    have hc := Real.cos_le_one (2 * phaseshift l (waveNumber d.awr E * radius d.scattering l E))
    have hD : 0 ≤ dl d.spin l := by rw [hn, hL]; exact dl_nonneg n L
    have hI : 0 ≤ d.spin := by rw [hn]; positivity
    have hs : 0 ≤ ((List.range (nJ d.spin l).toNat).map fun ij : ℕ =>
        gJ d.spin (jmin d.spin l) ij * ((1 - Real.cos (2 * phaseshift l (waveNumber d.awr E * radius d.scattering l E)) - (t'.s ij).1) ^ 2 +
          (Real.sin (2 * phaseshift l (waveNumber d.awr E * radius d.scattering l E)) + (t'.s ij).2) ^ 2)).sum := by
      apply List.sum_nonneg
      intro x hx
      obtain ⟨k, -, rfl⟩ := List.mem_map.mp hx
      exact mul_nonneg (gJ_nonneg hI (jmin_nonneg _ _) k) (by positivity)
    have : 0 ≤ 2 * dl d.spin l * (1 - Real.cos (2 * phaseshift l (waveNumber d.awr E * radius d.scattering l E))) := by
      apply mul_nonneg <;> linarith
    exact add_nonneg hs this
  · simpa using h1
  · simpa using h2
  · intro hp
    simp only []
    rw [hφ.1, hφ.2.1]
    rw [elastic_expand d.spin (jmin d.spin l) _ _ (dl d.spin l) (nJ d.spin l).toNat l (Real.cos_sq_add_sin_sq _) rfl t'.s, h3 hp (by simp)]
    have : quadSum d.spin (jmin d.spin l) (nJ d.spin l).toNat (Real.cos (2 * phi d.toBase l E)) (Real.sin (2 * phi d.toBase l E)) (fun _ => (0, 0)) = 0 := by
      unfold quadSum quad
      simp
    rw [this, zero_add]

theorem level_same {b : Base} {E : ℝ} {r : BwRow} (h : 0 < totalWidth b r E) :
    Real.pi / (waveNumber b.awr E * waveNumber b.awr E) * (weight b.spin r.j * quad (Real.cos (2 * phi b r.l E)) (Real.sin (2 * phi b r.l E)) (fOf b E r, fOf b E r * xOf b E r)) =
      elasticLevel b E r := by
  have hx : 0 < 1 + xOf b E r * xOf b E r := by have := mul_self_nonneg (xOf b E r); linarith
  have e1 : fOf b E r * (1 + xOf b E r * xOf b E r) = 2 * neutronWidth b r E / totalWidth b r E := by
    unfold fOf
    field_simp
  have e2 : xOf b E r * totalWidth b r E = 2 * (E - peak b r E) := by
    unfold xOf
    field_simp
  have hl := f_line h 1
  have hs : Real.cos (2 * phi b r.l E) = 1 - 2 * Real.sin (phi b r.l E) ^ 2 := by rw [Real.cos_two_mul, Real.cos_sq']; ring
  unfold elasticLevel
  rw [mul_one, mul_one] at hl
  rw [← hl]
  have hq : quad (Real.cos (2 * phi b r.l E)) (Real.sin (2 * phi b r.l E)) (fOf b E r, fOf b E r * xOf b E r) =
      fOf b E r * (2 * neutronWidth b r E / totalWidth b r E - 4 * Real.sin (phi b r.l E) ^ 2 + 2 * Real.sin (2 * phi b r.l E) * xOf b E r) := by
    rw [← e1, hs]
    unfold quad
    simp only []
    ring
  have hx2 : xOf b E r = 2 * (E - peak b r E) / totalWidth b r E := rfl
  have ht : r.gg + r.gf = totalWidth b r E - neutronWidth b r E := by unfold totalWidth; ring
  rw [hq, ht, hx2, hs]
  field_simp
  ring

end
end ASAPy.Recon
