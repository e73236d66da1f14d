import Verif.Recon.Ml
import Verif.Recon.RmSum

/-!
# Properties of reconstructed cross sections

`xsOf F d E`: what `reconstruct(E)` of a new range of data `d` returns.
-/

namespace ASAPy.Recon
open Spec

noncomputable section

/-- `reconstruct` of a new range at an energy. -/
def xsOf {D K V : Type} (F : Formalism D (K → Option V)) (d : D) (E : ℝ) : Except PyErr Result := (reconstruct true F (fresh d) 0 (.number E)).1

theorem xsOf_ok {D K V : Type} {F : Formalism D (K → Option V)} {d : D} {E : ℝ} {ls : List ℤ} {m : K → Option V} {x : Xs}
    (h : F.prepare d (fun _ => none) = .ok (ls, m)) (hx : F.eval d ls m E = .ok x) : xsOf F d E = .ok (.number x) := by
  simp [xsOf, reconstruct, fresh, ensure, h, evalAll, hx]

theorem xsOf_error {D K V : Type} {F : Formalism D (K → Option V)} {d : D} {E : ℝ} {e : PyErr} (h : F.prepare d (fun _ => none) = .error e) : xsOf F d E = .error e := by
  simp [xsOf, reconstruct, fresh, ensure, h]

theorem rowsAt_dict (d : Bw) (m : BwMatrix) : ∀ l ∈ firsts [] (d.rows.map (·.l)), rowsAt (bwDict d m) l = .ok ((rowsOf d l).map (prepared d.toBase)) := by
  intro l hl
  unfold rowsAt bwDict
  rw [if_pos hl]
  simp only []
  rw [filter_prepared]
  rfl

theorem line_nonneg {d : Bw} {E : ℝ} (h : BwOk d E) {r : BwRow} (hr : r ∈ d.rows) : 0 ≤ line d.toBase r E := by
  obtain ⟨ht, hn⟩ := total_pos h hr
  obtain ⟨i, hi, -⟩ := hasIndex_of h hr
  obtain ⟨n, hI⟩ := h.1.1
  have hj : 0 ≤ r.j := by rw [hi]; have := jmin_nonneg d.spin r.l; positivity
  have hI0 : 0 ≤ d.spin := by rw [hI]; positivity
  unfold line weight
  have := Real.pi_pos
  positivity

theorem fold_mlbw {d : Bw} {E : ℝ} (h : BwOk d E) {m : BwMatrix} (hm : ∀ l ∈ firsts [] (d.rows.map (·.l)), rowsAt m l = .ok ((rowsOf d l).map (prepared d.toBase)))
    (ls : List ℤ) : ∀ t : Xs, (∀ l ∈ ls, l ∈ firsts [] (d.rows.map (·.l))) → ∃ x, ls.foldlM (fun (t : Xs) l => do
      let rows ← rowsAt m l
      let d ← mlbwAt d.toBase E l rows
      return (⟨t.elastic + d.elastic, t.capture + d.capture, t.fission + d.fission⟩ : Xs)) t = .ok x ∧ t.elastic ≤ x.elastic ∧
      x.capture = t.capture + (ls.map fun l => ((rowsOf d l).map fun r => fOf d.toBase E r * weight d.spin r.j * r.gg / totalWidth d.toBase r E).sum).sum ∧
      x.fission = t.fission + (ls.map fun l => ((rowsOf d l).map fun r => fOf d.toBase E r * weight d.spin r.j * r.gf / totalWidth d.toBase r E).sum).sum ∧
      (OnePerChannel d → x.elastic = t.elastic + (ls.map fun l : ℤ => 2 * (2 * (l : ℝ) + 1) * (1 - Real.cos (2 * phi d.toBase l E)) +
        ((rowsOf d l).map fun r => weight d.spin r.j * quad (Real.cos (2 * phi d.toBase r.l E)) (Real.sin (2 * phi d.toBase r.l E))
          (fOf d.toBase E r, fOf d.toBase E r * xOf d.toBase E r)).sum).sum) := by
  induction ls with
  | nil => intro t _; exact ⟨t, rfl, le_rfl, by simp, by simp, by simp⟩
  | cons l ls ih =>
    intro t hl
    obtain ⟨y, ey, y1, y2, y3, y4⟩ := mlbwAt_ok h (hl l List.mem_cons_self)
    obtain ⟨x, ex, x1, x2, x3, x4⟩ := ih ⟨t.elastic + y.elastic, t.capture + y.capture, t.fission + y.fission⟩ fun q hq => hl q (List.mem_cons_of_mem _ hq)
    refine ⟨x, ?_, ?_, ?_, ?_, ?_⟩
    · rw [List.foldlM_cons, hm l (hl l List.mem_cons_self)]
      simp only [ok_bind]
      rw [ey]
      exact ex
    · simp only [] at x1; linarith
    · rw [x2, y2, List.map_cons, List.sum_cons, add_assoc]
    · rw [x3, y3, List.map_cons, List.sum_cons, add_assoc]
    · intro ho
      have hp : (rowsOf d l).Pairwise fun r q => r.j ≠ q.j := by
        have hp := List.Pairwise.filter (fun r : BwRow => decide (r.l = l)) ho
        exact hp.imp_of_mem fun {a b} ha hb hab e => hab ⟨((rowsOf_mem ha).2).trans (rowsOf_mem hb).2.symm, e⟩
      have hq : ((rowsOf d l).map fun r => weight d.spin r.j * quad (Real.cos (2 * phi d.toBase l E)) (Real.sin (2 * phi d.toBase l E))
          (fOf d.toBase E r, fOf d.toBase E r * xOf d.toBase E r)) = (rowsOf d l).map fun r => weight d.spin r.j *
          quad (Real.cos (2 * phi d.toBase r.l E)) (Real.sin (2 * phi d.toBase r.l E)) (fOf d.toBase E r, fOf d.toBase E r * xOf d.toBase E r) := by
        apply List.map_congr_left
        intro r hr
        rw [(rowsOf_mem hr).2]
      rw [x4 ho, y4 hp, hq, List.map_cons, List.sum_cons, add_assoc]

theorem mlbw_ok {d : Bw} {E : ℝ} (h : BwOk d E) {m : BwMatrix} (hm : ∀ l ∈ firsts [] (d.rows.map (·.l)), rowsAt m l = .ok ((rowsOf d l).map (prepared d.toBase))) :
    ∃ x, mlbw d (firsts [] (d.rows.map (·.l))) m E = .ok x ∧ 0 ≤ x.elastic ∧ x.capture = (d.rows.map fun r => line d.toBase r E * r.gg).sum ∧
      x.fission = (d.rows.map fun r => line d.toBase r E * r.gf).sum ∧
      (OnePerChannel d → x.elastic = (∑ l ∈ lvalues (d.rows.map (·.l)), potential d.toBase E l) + (d.rows.map (elasticLevel d.toBase E)).sum) := by
  obtain ⟨x, ex, h1, h2, h3, h4⟩ := fold_mlbw h hm (firsts [] (d.rows.map (·.l))) ⟨0, 0, 0⟩ fun _ hl => hl
  rw [sum_rowsOf] at h2 h3
  unfold mlbw
  simp only []
  rw [ex]
  simp only [ok_bind]
  have hk : 0 ≤ Real.pi / (waveNumber d.awr E * waveNumber d.awr E) := div_nonneg Real.pi_pos.le (mul_self_nonneg _)
  refine ⟨_, rfl, mul_nonneg h1 hk, ?_, ?_, fun ho => ?_⟩
  · simp only []
    rw [h2, zero_add, mul_comm, ← List.sum_map_mul_left]
    congr 1
    apply List.map_congr_left
    intro r hr
    exact f_line (total_pos h hr).1 r.gg
  · simp only []
    rw [h3, zero_add, mul_comm, ← List.sum_map_mul_left]
    congr 1
    apply List.map_congr_left
    intro r hr
    exact f_line (total_pos h hr).1 r.gf
  · simp only []
    rw [h4 ho, zero_add, List.sum_map_add, sum_rowsOf, mul_comm, mul_add, ← List.sum_map_mul_left, ← List.sum_map_mul_left, firsts_sum]
    congr 1
    · apply Finset.sum_congr rfl
      intro l _
      have hs : Real.cos (2 * phi d.toBase l E) = 1 - 2 * Real.sin (phi d.toBase l E) ^ 2 := by rw [Real.cos_two_mul, Real.cos_sq']; ring
      unfold potential
      rw [hs]
      ring
    · congr 1
      apply List.map_congr_left
      intro r hr
      exact level_same (total_pos h hr).1

/-- C193. For l up to 4 the penetration and the shift are those of the recursion, the penetration is positive, and the phase shift gives the same scattering as that of
the recursion, at every value of the argument. -/
theorem C193_hard_sphere_partial {l : ℤ} (h0 : 0 ≤ l) (h4 : l ≤ 4) (ρ : ℝ) :
    penetrationShift l ρ = some (outer l.toNat ρ) ∧ (0 < ρ → 0 < (outer l.toNat ρ).1) ∧
    Complex.exp (2 * Complex.I * phaseshift l ρ) = Complex.exp (2 * Complex.I * phase l.toNat ρ) := by
  refine ⟨penetration_eq h0 h4 ρ, outer_pos _, ?_⟩
  obtain ⟨a, b⟩ := phase_same h0 h4 ρ
  have e : ∀ x : ℝ, Complex.exp (2 * Complex.I * x) = (Real.cos (2 * x) : ℂ) + (Real.sin (2 * x) : ℂ) * Complex.I := by
    intro x
    have : 2 * Complex.I * (x : ℂ) = ((2 * x : ℝ) : ℂ) * Complex.I := by push_cast; ring
    rw [this, Complex.exp_mul_I]
    push_cast
    rfl
  rw [e, e, a, b]

/-- C193. A resonance of l above 4 is not reconstructed: the first such resonance raises a `TypeError`, with each formalism. -/
theorem C193_l5_refuted {d : Bw} {r : BwRow} {rest : List BwRow} (hd : d.rows = r :: rest) (hl : 4 < r.l) (hc : (d.channel r.l).isSome) (hs : (d.scattering r.l).isSome) (E : ℝ) :
    xsOf mlbwF d E = .error .typeError ∧ xsOf slbwF d E = .error .typeError := by
  have : prepareBw d (fun _ => none) = .error .typeError := by
    unfold prepareBw
    rw [hd, List.mapM_cons]
    unfold prepBwRow prepRow
    rw [radiusAt_ok hc, radiusAt_ok hs]
    simp only [ok_bind]
    rw [penetration_none (.inr hl)]
    rfl
  exact ⟨xsOf_error this, xsOf_error this⟩

/-- C194. Multi-level Breit-Wigner cross sections are not negative, whatever the resonances. -/
theorem C194_mlbw {d : Bw} {E : ℝ} (h : BwOk d E) :
    ∃ x, xsOf mlbwF d E = .ok (.number x) ∧ 0 ≤ x.elastic ∧ 0 ≤ x.capture ∧ 0 ≤ x.fission := by
  obtain ⟨x, ex, h1, h2, h3, -⟩ := mlbw_ok h (rowsAt_dict d fun _ => none)
  refine ⟨x, xsOf_ok (F := mlbwF) (prepareBw_ok h _) ex, h1, ?_, ?_⟩
  · rw [h2]
    apply List.sum_nonneg
    intro y hy
    obtain ⟨r, hr, rfl⟩ := List.mem_map.mp hy
    exact mul_nonneg (line_nonneg h hr) (h.2 r hr).2.2.1
  · rw [h3]
    apply List.sum_nonneg
    intro y hy
    obtain ⟨r, hr, rfl⟩ := List.mem_map.mp hy
    exact mul_nonneg (line_nonneg h hr) (h.2 r hr).2.2.2.1

/-- C195. Single-level Breit-Wigner cross sections: the sums of the formulas D.1-D.6 over the resonances, with potential scattering once for each l; capture and fission
are not negative. -/
theorem C195_slbw_partial {d : Bw} {E : ℝ} (h : BwOk d E) :
    ∃ x, xsOf slbwF d E = .ok (.number x) ∧
      x.elastic = (∑ l ∈ lvalues (d.rows.map (·.l)), potential d.toBase E l) + (d.rows.map (elasticLevel d.toBase E)).sum ∧
      x.capture = (d.rows.map fun r => line d.toBase r E * r.gg).sum ∧ x.fission = (d.rows.map fun r => line d.toBase r E * r.gf).sum ∧
      0 ≤ x.capture ∧ 0 ≤ x.fission := by
  refine ⟨_, xsOf_ok (F := slbwF) (prepareBw_ok h _) (slbw_ok h (rowsAt_dict d fun _ => none)), rfl, rfl, rfl, ?_, ?_⟩
  · apply List.sum_nonneg
    intro y hy
    obtain ⟨r, hr, rfl⟩ := List.mem_map.mp hy
    exact mul_nonneg (line_nonneg h hr) (h.2 r hr).2.2.1
  · apply List.sum_nonneg
    intro y hy
    obtain ⟨r, hr, rfl⟩ := List.mem_map.mp hy
    exact mul_nonneg (line_nonneg h hr) (h.2 r hr).2.2.2.1

/-- C196. The two Breit-Wigner formalisms agree: in capture and fission always, in elastic scattering if no l and J has two resonances. -/
theorem C196_agree {d : Bw} {E : ℝ} (h : BwOk d E) :
    ∃ x y, xsOf mlbwF d E = .ok (.number x) ∧ xsOf slbwF d E = .ok (.number y) ∧ x.capture = y.capture ∧ x.fission = y.fission ∧
      (OnePerChannel d → x.elastic = y.elastic) := by
  obtain ⟨x, ex, -, h2, h3, h4⟩ := mlbw_ok h (rowsAt_dict d fun _ => none)
  obtain ⟨y, ey, e1, e2, e3, -, -⟩ := C195_slbw_partial h
  exact ⟨x, y, xsOf_ok (F := mlbwF) (prepareBw_ok h _) ex, ey, h2.trans e2.symm, h3.trans e3.symm, fun ho => (h4 ho).trans e1.symm⟩

/-- C197. Reich-Moore cross sections: elastic scattering and fission are not negative; capture is not below zero by more than 25e-15 of the limit of unitarity; where no
phase shift is below 3e-4 capture is not negative, and neither elastic scattering nor absorption exceeds its limit of unitarity. -/
theorem C197_rm_partial {d : Rm} {E : ℝ} (h : RmOk d E) :
    ∃ x, xsOf rmF d E = .ok (.number x) ∧ 0 ≤ x.elastic ∧ 0 ≤ x.fission ∧ -(25e-15 * unitarity d E) ≤ x.capture ∧
      (NotSmall d E → 0 ≤ x.capture ∧ x.elastic ≤ 4 * unitarity d E ∧ x.capture + x.fission ≤ unitarity d E) := by
  obtain ⟨x, ex, h1⟩ := rm_ok h (rmDict_gg h)
  exact ⟨x, xsOf_ok (F := rmF) (prepareRm_ok h _) ex, h1⟩

end
end ASAPy.Recon
