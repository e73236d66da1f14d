import Verif.Editor.ChiProps

/-! # C12: a spectrum of one value (AceIO.py 163-184) -/

namespace ASAPy.Ace

set_option linter.unusedSectionVars false

variable {K : Type*} [Field K] [LinearOrder K] [ExpLog K]

theorem bcast_single (f : K → K → K) (u : K) {b : List K} (hb : b.length ≠ 1) : bcast f [u] b = bcast f (List.replicate b.length u) b := by
  have h1 : ¬ ([u] : List K).length = b.length := fun h => hb h.symm
  have h2 : List.zipWith f (List.replicate b.length u) b = b.map (f u) := by
    clear hb h1
    induction b with
    | nil => rfl
    | cons a b ih => simp [List.replicate_succ, ih]
  unfold bcast
  rw [if_neg h1, if_pos (by simp), h2]

/-- **C12, one value.** Only the number of values of the first spectrum is checked. A spectrum of one value for a distribution of several is accepted where the same value at all energies would be, gives the same cdf,
and leaves a pdf of this one value. -/
theorem C12_single_value {d : Dist K} (hd : d.Shaped) (hn : d.x.length ≠ 1) (u : K) :
    (setDist d [u]).1.x = d.x ∧ (setDist d [u]).1.c = (setDist d (List.replicate d.x.length u)).1.c ∧
      ((setDist d [u]).2 = .ok () ↔ (setDist d (List.replicate d.x.length u)).2 = .ok ()) ∧
      ((setDist d [u]).2 = .ok () → ∃ v, (setDist d [u]).1.p = [v] ∧ (setDist d (List.replicate d.x.length u)).1.p = List.replicate d.x.length v) := by
  have hx := hd.2.2
  have hl : d.x.length ≠ 0 := fun h => hx (List.length_eq_zero_iff.1 h)
  have e := setDist_eq hd (pdf := List.replicate d.x.length u) (by simp)
  have key : setDist d [u] =
      let r := setDist d (List.replicate d.x.length u)
      if ([u].map (· / chiNorm d (List.replicate d.x.length u))).any (fun v => decide (v < 0)) then ({ d with c := r.1.c }, .error .valueError)
      else ({ x := d.x, c := r.1.c, p := [u / chiNorm d (List.replicate d.x.length u)] }, .ok ()) := by
    have h1 : bcast (· - ·) [u] d.p = bcast (· - ·) (List.replicate d.x.length u) d.p := by
      rw [bcast_single _ _ (by rw [hd.1]; exact hn), hd.1]
    obtain ⟨hp, hc, _⟩ := hd
    set pdf := List.replicate d.x.length u with hpdf
    have hpl : pdf.length = d.x.length := by simp [hpdf]
    have h1' : bcast (· - ·) pdf d.p = .ok (List.zipWith (· - ·) pdf d.p) := bcast_eq (by omega)
    have h2 : bcast (· * ·) (List.zipWith (· - ·) pdf d.p) (deltas d.x) = .ok (List.zipWith (· * ·) (List.zipWith (· - ·) pdf d.p) (deltas d.x)) :=
      bcast_eq (by rw [length_deltas hx, List.length_zipWith]; omega)
    set dc := List.zipWith (· * ·) (List.zipWith (· - ·) pdf d.p) (deltas d.x) with hdc
    have hdcl : dc.length = d.x.length := by rw [hdc, List.length_zipWith, length_deltas hx, List.length_zipWith]; omega
    have hdcne : dc ≠ [] := by intro h; rw [h] at hdcl; simp at hdcl; omega
    have hcne : d.c ≠ [] := by intro h; rw [h] at hc; simp at hc; omega
    have h3 : bcast (· + ·) d.c (prefixSums dc) = .ok (List.zipWith (· + ·) d.c (prefixSums dc)) := bcast_eq (by rw [length_prefixSums]; omega)
    have hlast : d.c.getLast? = some (d.c.getLast hcne) := List.getLast?_eq_some_getLast hcne
    have hnorm : d.c.getLast hcne + dc.sum = chiNorm d pdf := by
      unfold chiNorm
      rw [hlast, hdc, sum_delta d.x d.p pdf hp hpl]
      rfl
    have hc' : (setDist d pdf).1.c = (List.zipWith (· + ·) d.c (prefixSums dc)).map (· / chiNorm d pdf) := by
      rw [e]; dsimp only; split_ifs <;> rfl
    dsimp only
    rw [hc']
    unfold setDist
    rw [h1, h1']
    simp only [h2, h3, hlast, getLast_prefixSums hdcne, hnorm]
    rfl
  have hany : ((List.replicate d.x.length u).map (· / chiNorm d (List.replicate d.x.length u))).any (fun v => decide (v < 0)) =
      ([u].map (· / chiNorm d (List.replicate d.x.length u))).any (fun v => decide (v < 0)) := by
    generalize chiNorm d (List.replicate d.x.length u) = w
    rw [Bool.eq_iff_iff]
    simp [hl]
  rw [key]
  dsimp only
  rw [e]
  dsimp only
  rw [hany]
  split_ifs with h
  · simp
  · refine ⟨rfl, rfl, by simp, fun _ => ⟨_, rfl, by simp⟩⟩

section
local instance : ExpLog ℚ := ⟨id, id⟩

/-- With three points: the spectrum of a reachable editor has one value for three energies after this, and no error was raised. -/
example : (setSigma demoEd 1018 (.pdfs [[1, 2, 1], [2]])).2 = .ok () ∧
    (getChiDistro (setSigma demoEd 1018 (.pdfs [[1, 2, 1], [2]])).1 false).map (fun c => c.energyOut.map fun d => (d.x.length, d.p.length, d.c.length)) = .ok [(3, 3, 3), (3, 1, 3)] := by
  refine ⟨?_, ?_⟩ <;> decide +kernel
end

end ASAPy.Ace
