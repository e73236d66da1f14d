import Verif.Recon.RmFormula

/-!
# Reich-Moore and Breit-Wigner for s waves, with phase shifts of any size
-/

namespace ASAPy.Recon
open Spec Complex

noncomputable section

/-- What a channel of an s wave adds, up to the error of the series. -/
theorem channel_s_close {d : Bw} {E : ℝ} (h : BwOk d E) (hr : RmOk (asRm d) E) (hl : ∀ r ∈ d.rows, r.l = 0) (hf : ∀ r ∈ d.rows, r.gf = 0) (ho : OnePerChannel d)
    (φ : ℝ) {c : ℝ × ℝ} (hg : 0 ≤ (2 * c.2 + 1) / (4 * d.spin + 2)) :
    ∃ x, rmChannel d.spin φ c.2 (kOf d.spin E (pen d.toBase 0 E) 0 (rmDict (asRm d) fun _ => none) c) = .ok x ∧
      |x.elastic - ((2 * c.2 + 1) / (4 * d.spin + 2) * (2 * (1 - Real.cos (2 * φ))) + ((d.rows.filter fun r => r.j = c.2).map fun r =>
        weight d.spin r.j * quad (Real.cos (2 * φ)) (Real.sin (2 * φ)) (fOf d.toBase E r, fOf d.toBase E r * xOf d.toBase E r)).sum)| ≤ 5e-14 * ((2 * c.2 + 1) / (4 * d.spin + 2)) ∧
      x.fission = 0 ∧
      |x.total - x.elastic - ((d.rows.filter fun r => r.j = c.2).map fun r => 2 * (fOf d.toBase E r * weight d.spin r.j * r.gg / totalWidth d.toBase r E)).sum| ≤
        5e-14 * ((2 * c.2 + 1) / (4 * d.spin + 2)) := by
  obtain ⟨K, f, y, hk, hw, q1, q2⟩ := channel_core h hr hl hf ho c
  have hd := dissipative_kOf (I := d.spin) (E := E) (P := pen d.toBase 0 E) (l := 0) (rmDict_gg hr) c
  obtain ⟨x, ex, e1, e2, e3⟩ := channel_collision hd (plain_kOf (asRm d) E (pen d.toBase 0 E) 0 c) (φ := φ) (ε := 5e-14) (by norm_num) (fun _ => le_rfl) d.spin c.2 hg
  rw [hk] at hd e1 e2 e3
  have h1 : 1 - K ≠ 0 := by
    intro e
    have := congrArg re e
    rw [sub_re, one_re, zero_re] at this
    have := k00_re hd
    simp only [] at this
    linarith
  have hinv := inv_plain (t := ⟨K, 0, 0, 0, 0, 0, false⟩) (fun _ => ⟨rfl, rfl, rfl, rfl, rfl⟩) rfl h1
  have hcol : collision φ (KState.matrix ⟨K, 0, 0, 0, 0, 0, false⟩) 0 0 = exp (-2 * I * φ) * (2 / (1 - K) - 1) := by
    rw [collision_00, hinv, div_eq_mul_inv]
    rfl
  have h01 : ‖collision φ (KState.matrix ⟨K, 0, 0, 0, 0, 0, false⟩) 0 1‖ ^ 2 = 0 := by
    rw [norm_collision φ _ (by decide), hinv]
    simp
  have h02 : ‖collision φ (KState.matrix ⟨K, 0, 0, 0, 0, 0, false⟩) 0 2‖ ^ 2 = 0 := by
    rw [norm_collision φ _ (by decide), hinv]
    simp
  have hre : (2 / (1 - K) - 1 : ℂ).re = 1 - f := by rw [hw]; simp
  have him : (2 / (1 - K) - 1 : ℂ).im = -y := by rw [hw]; simp
  have hu := ubar_mul φ (2 / (1 - K) - 1)
  have hn : normSq (exp (-2 * I * φ) * (2 / (1 - K) - 1)) = (1 - f) * (1 - f) + (-y) * (-y) := by
    rw [normSq_ubar_mul, normSq_apply, hre, him]
  rw [hre, him] at hu
  rw [hcol] at e1 e3
  rw [h01, h02] at e2
  refine ⟨x, ex, ?_, by rw [e2]; simp, ?_⟩
  · convert e1 using 2
    rw [← q1, normSq_one_sub, hn, hu]
    unfold quad
    ring
  · convert e3 using 2
    rw [← q2, ← normSq_eq_norm_sq, hn]
    ring

/-- C202. Where a phase shift is small, Reich-Moore differs from the two Breit-Wigner formalisms by at most 5e-14 of the limit of unitarity. -/
theorem C202_close {d : Bw} {E : ℝ} (h : BwOk d E) (hr : RmOk (asRm d) E) (hl : ∀ r ∈ d.rows, r.l = 0) (hf : ∀ r ∈ d.rows, r.gf = 0) (ho : OnePerChannel d) :
    ∃ x y, xsOf mlbwF d E = .ok (.number x) ∧ xsOf slbwF d E = .ok (.number x) ∧ xsOf rmF (asRm d) E = .ok (.number y) ∧ |y.elastic - x.elastic| ≤ 5e-14 * unitarity (asRm d) E ∧
      |y.capture - x.capture| ≤ 5e-14 * unitarity (asRm d) E ∧ y.fission = 0 ∧ x.fission = 0 := by
  obtain ⟨x, y, ex, ey, h1, h2, h3⟩ := C196_agree h
  have hxy : x = y := by
    have h3 := h3 ho
    obtain ⟨a, b, c⟩ := x
    obtain ⟨a', b', c'⟩ := y
    simp only [] at h1 h2 h3
    rw [h1, h2, h3]
  subst hxy
  have hv := xsOf_ok (F := slbwF) (prepareBw_ok h _) (slbw_ok h (rowsAt_dict d fun _ => none))
  have ey' := ey
  rw [hv] at ey
  injection ey with ey
  injection ey with ey
  have hls : (asRm d).rows.map (·.l) = d.rows.map (·.l) := by
    show (d.rows.map _).map _ = _
    rw [List.map_map]
    rfl
  by_cases hne : d.rows = []
  · refine ⟨x, x, ex, ey', ?_, ?_, ?_, ?_, ?_⟩
    · apply xsOf_ok (F := rmF) (prepareRm_ok hr _)
      show rm (asRm d) (firsts [] ((asRm d).rows.map (·.l))) (rmDict (asRm d) fun _ => none) E = .ok x
      rw [hls, ← ey]
      unfold rm
      simp only [hne, List.map_nil, firsts, List.foldlM_nil, lvalues, List.toFinset_nil, Finset.sum_empty, List.sum_nil]
      show (.ok _ : Except PyErr Xs) = _
      simp
    · unfold unitarity
      rw [hls, hne]
      simp [lvalues]
    · unfold unitarity
      rw [hls, hne]
      simp [lvalues]
    · rw [← ey]; simp [hne]
    · rw [← ey]; simp [hne]
  · obtain ⟨r0, hr0⟩ := List.exists_mem_of_ne_nil _ hne
    have hok := (h.2 r0 hr0).1
    rw [hl r0 hr0] at hok
    have hphi := phi_same hok
    simp only [] at hphi
    obtain ⟨c1, c2, -⟩ := hphi
    obtain ⟨n, hn⟩ := h.1.1
    have hw := waves_ok hok
    set φ := phaseshift 0 (waveNumber d.awr E * radius d.scattering 0 E) with hφd
    have hI : 0 ≤ d.spin := by rw [hn]; positivity
    obtain ⟨t, et, t1, t3, t2⟩ := fold_sums (B := fun _ => 0) (W := fun c => 5e-14 * ((2 * c.2 + 1) / (4 * d.spin + 2))) (channels d.spin 0) (fun c hc => channel_s_close h hr hl hf ho φ (by
      have := channels_nonneg hc
      positivity)) ⟨0, 0, 0⟩
    have hch := channels_s n
    rw [← hn] at hch
    have hkey : ∀ g : BwRow → ℝ, ((channels d.spin 0).map fun c => ((d.rows.filter fun r => r.j = c.2).map g).sum).sum = (d.rows.map g).sum := by
      intro g
      have := sum_groups (fun r : BwRow => r.j) g d.rows ((channels d.spin 0).map Prod.snd) hch.1 fun r hr => hch.2 _ (by
        have := (h.2 r hr).2.2.2.2.2.2
        rwa [hl r hr] at this)
      rw [List.map_map] at this
      exact this
    have hsum : ((channels d.spin 0).map fun c => (2 * c.2 + 1) / (4 * d.spin + 2)).sum = 1 := by
      have := sum_channels n 0
      rw [← hn] at this
      simpa using this
    have hW : ((channels d.spin 0).map fun c => 5e-14 * ((2 * c.2 + 1) / (4 * d.spin + 2))).sum = 5e-14 := by
      rw [List.sum_map_mul_left, hsum, mul_one]
    rw [List.sum_map_add, hkey, List.sum_map_mul_right, hsum, hW] at t1
    rw [hkey, hW] at t2
    have hev : (List.foldlM (rmAt (asRm d).toBase (rmDict (asRm d) fun _ => none) E) (⟨0, 0, 0⟩ : RmSum) [0]) = .ok t := by
      rw [List.foldlM_cons]
      unfold rmAt
      rw [show (asRm d).toBase = d.toBase from rfl, hw]
      simp only [ok_bind]
      rw [et]
      rfl
    have hlv : lvalues (d.rows.map (·.l)) = {0} := by
      unfold lvalues
      ext a
      simp only [List.mem_toFinset, List.mem_map, Finset.mem_singleton]
      constructor
      · rintro ⟨r, hr, rfl⟩; exact hl r hr
      · rintro rfl; exact ⟨r0, hr0, hl r0 hr0⟩
    have hK : 0 ≤ Real.pi / (waveNumber d.awr E * waveNumber d.awr E) := div_nonneg Real.pi_pos.le (mul_self_nonneg _)
    have hun : 5e-14 * unitarity (asRm d) E = 5e-14 * (Real.pi / (waveNumber d.awr E * waveNumber d.awr E)) := by
      unfold unitarity
      rw [hls, hlv, Finset.sum_singleton, sq]
      show _ * (Real.pi / (waveNumber d.awr E * waveNumber d.awr E) * _) = _
      norm_num
    simp only [zero_add, sub_zero] at t1 t2 t3
    have t3 : t.fission = 0 := by rw [t3]; simp
    refine ⟨x, ⟨t.elastic * (Real.pi / (waveNumber d.awr E * waveNumber d.awr E)), (t.total - t.elastic - t.fission) * (Real.pi / (waveNumber d.awr E * waveNumber d.awr E)),
      t.fission * (Real.pi / (waveNumber d.awr E * waveNumber d.awr E))⟩, ex, ey', ?_, ?_, ?_, ?_, ?_⟩
    · apply xsOf_ok (F := rmF) (prepareRm_ok hr _)
      show rm (asRm d) (firsts [] ((asRm d).rows.map (·.l))) (rmDict (asRm d) fun _ => none) E = _
      rw [hls, ls_s hl hne]
      unfold rm
      simp only []
      rw [hev]
      rfl
    · have hxe : x.elastic = (2 * (1 - Real.cos (2 * φ)) + (d.rows.map fun r => weight d.spin r.j * quad (Real.cos (2 * φ)) (Real.sin (2 * φ)) (fOf d.toBase E r, fOf d.toBase E r * xOf d.toBase E r)).sum) *
          (Real.pi / (waveNumber d.awr E * waveNumber d.awr E)) := by
        rw [← ey, hlv, Finset.sum_singleton, mul_comm _ (Real.pi / _), mul_add, ← List.sum_map_mul_left]
        symm
        congr 1
        · rw [c1]
          have hs : Real.cos (2 * phi d.toBase 0 E) = 1 - 2 * Real.sin (phi d.toBase 0 E) ^ 2 := by rw [Real.cos_two_mul, Real.cos_sq']; ring
          unfold potential
          rw [hs]
          push_cast
          ring
        · congr 1
          apply List.map_congr_left
          intro r hr
          rw [c1, c2]
          have := level_same (b := d.toBase) (total_pos h hr).1
          rw [hl r hr] at this
          exact this
      simp only []
      rw [hxe, hun, ← sub_mul, abs_mul, abs_of_nonneg hK]
      refine mul_le_mul_of_nonneg_right ?_ hK
      rw [one_mul] at t1
      exact t1
    · have hxc : x.capture = (d.rows.map fun r => 2 * (fOf d.toBase E r * weight d.spin r.j * r.gg / totalWidth d.toBase r E)).sum * (Real.pi / (waveNumber d.awr E * waveNumber d.awr E)) := by
        rw [← ey, mul_comm, ← List.sum_map_mul_left]
        simp only []
        congr 1
        apply List.map_congr_left
        intro r hr
        rw [← f_line (total_pos h hr).1 r.gg]
        ring
      simp only []
      rw [hxc, hun, t3, sub_zero, ← sub_mul, abs_mul, abs_of_nonneg hK]
      refine mul_le_mul_of_nonneg_right ?_ hK
      exact t2
    · simp only []
      rw [t3, zero_mul]
    · rw [← ey]
      apply List.sum_eq_zero
      intro v hv
      obtain ⟨r, hr, rfl⟩ := List.mem_map.mp hv
      rw [hf r hr, mul_zero]

end
end ASAPy.Recon
