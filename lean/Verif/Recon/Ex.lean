import Verif.Recon.Props3
import Verif.Recon.Wave
import Verif.Recon.SWaveSmall

/-!
# Data that meet the hypotheses
-/

namespace ASAPy.Recon
open Spec

noncomputable section

/-- A target of spin 3/2 with resonances of l = 0 and l = 1, one of them with a fission width, one at a negative energy. -/
def sample : Bw := ⟨⟨3 / 2, 10, fun _ => some fun _ => 0.5, fun _ => some fun _ => 0.6⟩,
  [⟨5, 0, 1, 0, 0.1, 0.2, 0.3, 0⟩, ⟨-2, 0, 2, 0, 0.1, 0.2, 0, 0⟩, ⟨7, 1, 3, 0, 0.1, 0.2, 0, 0⟩]⟩

/-- C194, C195, C196, C198: data of several waves and spins. -/
example : BwOk sample 3 ∧ OnePerChannel sample := by
  have hr : ∀ l e, 0 ≤ l → l ≤ 4 → e ≠ 0 → RowOk sample.toBase 3 l e := fun l e h0 h4 he =>
    ⟨h0, h4, he, ⟨_, rfl, by norm_num⟩, ⟨_, rfl, by norm_num⟩, rfl⟩
  refine ⟨⟨⟨⟨3, by norm_num [sample]⟩, by norm_num [sample], by norm_num⟩, ?_⟩, ?_⟩
  · intro r h
    simp only [sample, List.mem_cons, List.not_mem_nil, or_false] at h
    rcases h with rfl | rfl | rfl
    · refine ⟨hr 0 5 (by norm_num) (by norm_num) (by norm_num), by norm_num, by norm_num, by norm_num, by norm_num, by norm_num, ⟨1, .inl ?_, 0, ?_, ?_⟩⟩ <;> norm_num [sample]
    · refine ⟨hr 0 (-2) (by norm_num) (by norm_num) (by norm_num), by norm_num, by norm_num, by norm_num, by norm_num, by norm_num, ⟨2, .inr ?_, 0, ?_, ?_⟩⟩ <;> norm_num [sample]
    · refine ⟨hr 1 7 (by norm_num) (by norm_num) (by norm_num), by norm_num, by norm_num, by norm_num, by norm_num, by norm_num, ⟨2, .inr ?_, 2, ?_, ?_⟩⟩ <;> norm_num [sample]
  · simp [OnePerChannel, sample]

/-- C197: data with fission widths of both signs. -/
example : RmOk ⟨sample.toBase, [⟨5, 0, 1, 0.1, 0.2, 0.3, -0.1⟩, ⟨3, 1, -2, 0.1, 0.2, 0, 0⟩]⟩ 3 := by
  refine ⟨⟨⟨3, by norm_num [sample]⟩, by norm_num [sample], by norm_num⟩, ?_⟩
  intro r h
  simp only [List.mem_cons, List.not_mem_nil, or_false] at h
  rcases h with rfl | rfl
  · exact ⟨⟨by norm_num, by norm_num, by norm_num, ⟨_, rfl, by norm_num⟩, ⟨_, rfl, by norm_num⟩, rfl⟩, by norm_num, by norm_num, .inl (by norm_num)⟩
  · exact ⟨⟨by norm_num, by norm_num, by norm_num, ⟨_, rfl, by norm_num⟩, ⟨_, rfl, by norm_num⟩, rfl⟩, by norm_num, by norm_num, .inl (by norm_num)⟩

/-- One resonance at 2 eV; the phase shift at 1 eV is an eighth of a turn. -/
theorem notSmall_levels : NotSmall (asRm (levels 1)) 1 := by
  intro r hr
  obtain ⟨q, hq, rfl⟩ := List.mem_map.mp hr
  obtain rfl := List.eq_of_mem_replicate hq
  have h1 := k1_pos
  have hrad : radius (asRm (levels 1)).scattering 0 1 = Real.pi / 4 / waveNumber 1 1 := by simp [radius, asRm, levels, target]
  show 3e-4 ≤ |phaseshift 0 (waveNumber 1 1 * radius (asRm (levels 1)).scattering 0 1)|
  rw [hrad]
  show 3e-4 ≤ |waveNumber 1 1 * (Real.pi / 4 / waveNumber 1 1)|
  have : waveNumber 1 1 * (Real.pi / 4 / waveNumber 1 1) = Real.pi / 4 := by field_simp
  rw [this, abs_of_pos (by have := Real.pi_pos; positivity)]
  have := Real.two_le_pi
  norm_num
  linarith

theorem rmOk_levels : RmOk (asRm (levels 1)) 1 := by
  refine ⟨targetOk_target _, ?_⟩
  intro r hr
  obtain ⟨q, hq, rfl⟩ := List.mem_map.mp hr
  obtain rfl := List.eq_of_mem_replicate hq
  exact ⟨rowOk_target, ((levels_ok 1).2 _ hq).2.1, zero_le_one, .inl zero_lt_one⟩

/-- C197 and C202: their hypotheses hold together, and the cross section is not zero. -/
example : ∃ x, xsOf mlbwF (levels 1) 1 = .ok (.number x) ∧ xsOf slbwF (levels 1) 1 = .ok (.number x) ∧ xsOf rmF (asRm (levels 1)) 1 = .ok (.number x) ∧ 0 < x.elastic := by
  have hrow : ∀ r ∈ (levels 1).rows, r = rowAt2 1 1 := fun r hr => List.eq_of_mem_replicate hr
  obtain ⟨x, h1, h2, h3⟩ := C202_s_wave (levels_ok 1) rmOk_levels notSmall_levels (fun r hr => by rw [hrow r hr]; rfl) (fun r hr => by rw [hrow r hr]; rfl)
    (List.pairwise_singleton _ _)
  refine ⟨x, h1, h2, h3, ?_⟩
  obtain ⟨y, h4, h5⟩ := levels_elastic 0
  rw [show levels (0 + 1) = levels 1 from rfl, h2] at h4
  injection h4 with h4
  injection h4 with h4
  rw [h4, h5]
  have := unit_pos
  push_cast
  linarith

/-- C202: the bound that needs no phase shift to be large. -/
example : ∃ x y, xsOf mlbwF (levels 1) 1 = .ok (.number x) ∧ xsOf rmF (asRm (levels 1)) 1 = .ok (.number y) ∧ |y.elastic - x.elastic| ≤ 5e-14 * unitarity (asRm (levels 1)) 1 := by
  have hrow : ∀ r ∈ (levels 1).rows, r = rowAt2 1 1 := fun r hr => List.eq_of_mem_replicate hr
  obtain ⟨x, y, h1, -, h3, h4, -⟩ := C202_close (levels_ok 1) rmOk_levels (fun r hr => by rw [hrow r hr]; rfl) (fun r hr => by rw [hrow r hr]; rfl) (List.pairwise_singleton _ _)
  exact ⟨x, y, h1, h3, h4⟩

/-- C203: its hypotheses hold for a resonance of an s wave, with a phase shift that is not small. -/
example : RmOk (asRm (levels 1)) 1 ∧ NotSmall (asRm (levels 1)) 1 := ⟨rmOk_levels, notSmall_levels⟩

/-- C204: any number of levels of one J, which all interfere. -/
example (n : ℕ) : ∃ x, xsOf mlbwF (levels n) 1 = .ok (.number x) ∧
    x.elastic = Real.pi / waveNumber (levels n).awr 1 ^ 2 * ∑ l ∈ lvalues ((levels n).rows.map (·.l)), multiLevel (levels n) 1 l := by
  obtain ⟨x, h, h1, -⟩ := C204_mlbw_formula (levels_ok n)
  exact ⟨x, h, h1⟩

/-- C198: a range with a competitive width. -/
example : ∃ d : Bw, (∀ r ∈ d.rows, RowOk d.toBase 3 r.l r.energy) ∧ ∃ r ∈ d.rows, 0 < r.gx :=
  ⟨⟨sample.toBase, [⟨5, 0, 1, 0.7, 0.1, 0.2, 0.3, 0.1⟩]⟩, fun r hr => by
    rw [List.mem_singleton.mp hr]
    exact ⟨le_rfl, by norm_num, by norm_num, ⟨_, rfl, by norm_num⟩, ⟨_, rfl, by norm_num⟩, rfl⟩, _, List.mem_singleton.mpr rfl, by norm_num⟩

/-- C193: a range with a resonance of l = 5. -/
example (E : ℝ) : xsOf mlbwF ⟨sample.toBase, [⟨5, 5, 4, 0, 0.1, 0.2, 0.3, 0⟩]⟩ E = .error .typeError :=
  (C193_l5_refuted rfl (by norm_num) rfl rfl E).1

/-- C200: values at several energies. -/
example : ∃ f : ℝ → Xs, ∀ E ∈ [1, 1], xsOf slbwF (levels 1) E = .ok (.number (f E)) := by
  obtain ⟨x, h, -⟩ := levels_elastic 0
  refine ⟨fun _ => x, fun E hE => ?_⟩
  have : E = 1 := by simpa using hE
  rw [this]
  exact h

end
end ASAPy.Recon
