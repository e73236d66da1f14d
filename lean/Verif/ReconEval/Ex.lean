import Verif.ReconEval.Props2
import Verif.Res.Example

/-!
# Cross sections of an evaluation: abundances, and files that meet the hypotheses
-/

namespace ASAPy.ReconEval
open ASAPy.Recon ASAPy.Recon.Spec Spec
open ASAPy.Endf
open ASAPy.Elastic0K (resolved limits addWithin)

noncomputable section

/-! ### C208 -/

theorem abundances_section {mass : ℚ} {isos : List (ℚ × List Res.Range)} {ls : List Line} (h : Abundances mass isos ls) : Res.SectionRec mass (isos.map (·.2)) ls := by
  obtain ⟨l, c, ils, rest, e, hl, hn, hf⟩ := h
  refine ⟨l, c, ils, rest, e, hl, by rw [hn, List.length_map], ?_⟩
  rw [List.forall₂_map_left_iff]
  exact hf.imp fun _ _ h => h.1

theorem covering_append (a b : List Res.Range) (E : ℝ) (f : Res.Range → ℝ) : covering (a ++ b) E f = covering a E f + covering b E f := by
  unfold covering
  rw [List.map_append, List.sum_append]

theorem weighted_one {isos : List (ℚ × List Res.Range)} (h : ∀ i ∈ isos, i.1 = 1) (E : ℝ) (f : Res.Range → ℝ) : weighted isos E f = covering (isos.map (·.2)).flatten E f := by
  induction isos with
  | nil => rfl
  | cons i isos ih =>
    have h1 : weighted (i :: isos) E f = (i.1 : ℝ) * covering i.2 E f + weighted isos E f := by
      unfold weighted
      rw [List.map_cons, List.sum_cons]
    rw [h1, ih fun q hq => h q (List.mem_cons_of_mem _ hq), h i List.mem_cons_self, List.map_cons, List.flatten_cons, covering_append]
    push_cast
    ring

/-- C208. If every isotope has the abundance 1 (in effect: one isotope), the cross sections are the background plus the sum of the isotopes by their abundances. -/
theorem C208_weighted_partial {mass : ℚ} {isos : List (ℚ × List Res.Range)} {ls : List Line} (h : Abundances mass isos ls) (h1 : ∀ i ∈ isos, i.1 = 1) {E : ℝ}
    (hs : ∀ i ∈ isos, ∀ r ∈ i.2, Covers E r → Sound E r) (background : ℝ → ℝ) :
    ∃ rs, Res.fromEndf mass ls = .ok rs ∧ ∃ x : Res.Range → Xs, (∀ i ∈ isos, ∀ r ∈ i.2, Covers E r → Formula E r (x r)) ∧
      call 2 background rs E = .ok (background E + weighted isos E fun r => (x r).elastic) ∧
      call 102 background rs E = .ok (background E + weighted isos E fun r => (x r).capture) ∧
      call 18 background rs E = .ok (background E + weighted isos E fun r => (x r).fission) := by
  have hmem : ∀ {r}, r ∈ (isos.map (·.2)).flatten ↔ ∃ i ∈ isos, r ∈ i.2 := by
    intro r
    rw [List.mem_flatten]
    constructor
    · rintro ⟨l, hl, hr⟩
      obtain ⟨i, hi, rfl⟩ := List.mem_map.mp hl
      exact ⟨i, hi, hr⟩
    · rintro ⟨i, hi, hr⟩
      exact ⟨_, List.mem_map_of_mem hi, hr⟩
  obtain ⟨rs, e, x, hx, v1, v2, v3⟩ := C206_values_partial (abundances_section h) (E := E) (fun r hr => by
    obtain ⟨i, hi, hr⟩ := hmem.mp hr
    exact hs i hi r hr) background
  refine ⟨rs, e, x, fun i hi r hr => hx r (hmem.mpr ⟨i, hi, hr⟩), ?_⟩
  simp only [weighted_one h1]
  exact ⟨v1, v2, v3⟩

/-- The file of one isotope of abundance 1/2, with one resonance of the single-level formalism. -/
def exLines : List Line := [
  c!" 9.223500+4 2.330248+2          0          0          1          09999 2151    1\n",
  c!" 9.223500+4 5.000000-1          0          0          1          09999 2151    2\n",
  c!" 1.000000-5 1.000000+2          1          1          0          19999 2151    3\n",
  c!" 0.000000+0 9.600000-1          0          0          1          09999 2151    4\n",
  c!" 2.360000+2 0.000000+0          0          0          6          19999 2151    5\n",
  c!" 6.670000+0 5.000000-1 2.450000-2 1.500000-3 2.300000-2 0.000000+09999 2151    6\n"]

def exRange : Res.Bw := ⟨false, ⟨0, 1 / 100000, 100, [(0, .const (24 / 25))], [(0, .const (24 / 25))]⟩, [(0, 0)], 236, [⟨667 / 100, 0, 1 / 2, 49 / 2000, 3 / 2000, 23 / 1000, 0, 0⟩]⟩

theorem exBody : Res.BwRec ⟨1 / 100000, 100, 1, 1, 0, 1⟩ exRange ([] ++ (exLines[3] :: [[exLines[4], exLines[5]]].flatten)) :=
  ⟨[], none, exLines[3], ⟨0, 24 / 25, 0, 0, 1, 0⟩, [⟨0, 0, .const (24 / 25), .const (24 / 25), exRange.rows⟩], [[exLines[4], exLines[5]]], rfl, .none, contLine_of (by decide +kernel), rfl,
    by simp, by decide, .cons ⟨⟨236, 0, 0, 0, 6, 1⟩, Decay.listRec_of (by decide +kernel), rfl, rfl, rfl, Or.inl ⟨rfl, by simp [exRange]⟩, by simp [exRange], .const⟩ .nil, rfl, rfl, rfl⟩

theorem exAbundances : Abundances 233 [(1 / 2, [.bw exRange])] exLines :=
  ⟨exLines[0], ⟨92235, 2330248 / 10000, 0, 0, 1, 0⟩, [exLines.tail], [], by simp [exLines], headLine_of (by decide +kernel) (by decide), rfl,
    .cons ⟨⟨exLines[1], ⟨92235, 1 / 2, 0, 0, 1, 0⟩, false, [exLines.drop 2], by simp [exLines], contLine_of (by decide +kernel), rfl, rfl,
        .cons ⟨exLines[2], ⟨1 / 100000, 100, 1, 1, 0, 1⟩, _, rfl, contLine_of (by decide +kernel), .slbw rfl rfl rfl exBody⟩ .nil⟩,
      exLines[1], ⟨92235, 1 / 2, 0, 0, 1, 0⟩, exLines.drop 2, rfl, contLine_of (by decide +kernel), rfl⟩ .nil⟩

theorem exSame : SameBw exRange (bwData exRange) := by
  refine ⟨⟨rfl, rfl, fun l => ?_, fun l => ?_⟩, ?_⟩
  · by_cases h : l = 0
    · subst h; exact .some (.const fun _ => rfl)
    · have : Dict.get? exRange.base.channel l = none := by simp [exRange, Dict.get?, Ne.symm h]
      show Option.Rel _ _ ((Dict.get? exRange.base.channel l).map radius)
      rw [this]; exact .none
  · by_cases h : l = 0
    · subst h; exact .some (.const fun _ => rfl)
    · have : Dict.get? exRange.base.scattering l = none := by simp [exRange, Dict.get?, Ne.symm h]
      show Option.Rel _ _ ((Dict.get? exRange.base.scattering l).map radius)
      rw [this]; exact .none
  · exact .cons ⟨rfl, rfl, rfl, rfl, rfl, rfl, rfl, rfl⟩ .nil

theorem exOk {E : ℝ} (hE : 0 < E) : BwOk (bwData exRange) E := by
  refine ⟨⟨⟨0, by simp [bwData, baseData, exRange]⟩, by norm_num [bwData, baseData, exRange], hE⟩, ?_⟩
  intro r hr
  have hr : r = ⟨667 / 100, 0, 1 / 2, 49 / 2000, 3 / 2000, 23 / 1000, 0, 0⟩ := by
    simp only [bwData, exRange, List.map_cons, List.map_nil, List.mem_singleton] at hr
    rw [hr]; norm_num
  subst hr
  have hrad : ∀ e, HasRadius (bwData exRange).channel 0 e := fun e => ⟨_, rfl, by norm_num [radius]⟩
  refine ⟨⟨le_rfl, by norm_num, by norm_num, hrad _, hrad _, rfl⟩, by norm_num, by norm_num, by norm_num, by norm_num, by norm_num, ?_⟩
  refine ⟨1 / 2, .inr ?_, 0, ?_, ?_⟩ <;> norm_num [bwData, baseData, exRange]

theorem exLine {E : ℝ} (hE : 0 < E) : 0 < line (bwData exRange).toBase ⟨667 / 100, 0, 1 / 2, 49 / 2000, 3 / 2000, 23 / 1000, 0, 0⟩ E := by
  have hrad : ∀ e, HasRadius (bwData exRange).channel 0 e := fun e => ⟨_, rfl, by norm_num [radius]⟩
  have hA : 0 < (bwData exRange).awr := by norm_num [bwData, baseData, exRange]
  have hp : ∀ e : ℝ, e ≠ 0 → 0 < pen (bwData exRange).toBase 0 e := fun e he => pen_pos hA he (hrad e)
  have hk := waveNumber_pos hA hE.ne'
  have hn : 0 < neutronWidth (bwData exRange).toBase ⟨667 / 100, 0, 1 / 2, 49 / 2000, 3 / 2000, 23 / 1000, 0, 0⟩ E := by
    unfold neutronWidth
    have h1 := hp E hE.ne'
    have h2 := hp (667 / 100) (by norm_num)
    positivity
  have ht : 0 < totalWidth (bwData exRange).toBase ⟨667 / 100, 0, 1 / 2, 49 / 2000, 3 / 2000, 23 / 1000, 0, 0⟩ E := by
    unfold totalWidth
    positivity
  have hw : 0 < weight (bwData exRange).spin (1 / 2) := by norm_num [weight, bwData, baseData, exRange]
  unfold line
  have := Real.pi_pos
  positivity

/-- C208. The abundances of isotopes are read over: for a file with an isotope of abundance 1/2 the cross section is that of a file with the abundance 1, at every energy of the
range twice the sum by the abundances. -/
theorem C208_abundance_refuted : ∃ (mass : ℚ) (isos : List (ℚ × List Res.Range)) (ls : List Line) (rs : List Res.Range), Abundances mass isos ls ∧ Res.fromEndf mass ls = .ok rs ∧
    ∀ E : ℝ, 1e-5 ≤ E → E ≤ 100 → (∀ i ∈ isos, ∀ r ∈ i.2, Sound E r) ∧
      ∀ background : ℝ → ℝ, ∃ x : Res.Range → Xs, (∀ i ∈ isos, ∀ r ∈ i.2, Formula E r (x r)) ∧ 0 < weighted isos E (fun r => (x r).capture) ∧
        call 102 background rs E = .ok (background E + 2 * weighted isos E fun r => (x r).capture) := by
  classical
  refine ⟨_, _, _, [.bw exRange], exAbundances, Res.C148_section_partial _ _ _ (abundances_section exAbundances), fun E h1 h2 => ?_⟩
  have hE : 0 < E := by norm_num at h1; linarith
  have hcov : Covers E (.bw exRange) := .bw (by norm_num [exRange] at h1 ⊢; linarith) (by norm_num [exRange] at h2 ⊢; linarith)
  have hsound : Sound E (.bw exRange) := .bw exSame (exOk hE)
  refine ⟨by simpa using hsound, fun background => ?_⟩
  obtain ⟨rs, e, x, hx, -, v, -⟩ := C206_values_partial (abundances_section exAbundances) (E := E) (by simpa using fun _ => hsound) background
  have e' := Res.C148_section_partial _ _ _ (abundances_section exAbundances)
  rw [e] at e'
  cases e'
  have hf := hx (.bw exRange) (by simp) hcov
  have hc : covering [.bw exRange] E (fun r => (x r).capture) = (x (.bw exRange)).capture := by simp [covering, hcov]
  refine ⟨x, by simpa using hf, ?_, ?_⟩
  · have : 0 < (x (.bw exRange)).capture := by
      have key : ∀ {d : Bw}, SameBw exRange d → 0 < (d.rows.map fun r => line d.toBase r E * r.gg).sum := by
        intro d hd
        obtain rfl := bw_unique hd
        have : (bwData exRange).rows = [⟨667 / 100, 0, 1 / 2, 49 / 2000, 3 / 2000, 23 / 1000, 0, 0⟩] := by norm_num [bwData, exRange]
        rw [this]
        have := exLine hE
        simp only [List.map_cons, List.map_nil, List.sum_cons, List.sum_nil, add_zero]
        positivity
      cases hf with
      | slbw _ hd _ h2 _ => rw [h2]; exact key hd
      | mlbw _ hd _ h2 _ => rw [h2]; exact key hd
    simp only [weighted, List.map_cons, List.map_nil, List.sum_cons, List.sum_nil, hc]
    norm_num
    exact this
  · refine v.trans ?_
    simp only [weighted, List.map_cons, List.map_nil, List.sum_cons, List.sum_nil, List.flatten_cons, List.flatten_nil, List.append_nil, hc]
    norm_num
    ring

/-- The hypotheses of `C206_values_partial` and `C207_array_partial` are met. -/
example : Res.SectionRec 233 [[.bw exRange]] exLines ∧ (∀ r ∈ [[Res.Range.bw exRange]].flatten, Covers 1 r → Sound 1 r) ∧ Covers 1 (.bw exRange) :=
  ⟨abundances_section exAbundances, by simpa using fun _ => .bw exSame (exOk one_pos), .bw (by norm_num [exRange]) (by norm_num [exRange])⟩

example : ∀ r ∈ [Res.Range.bw exRange], resolved r = true → ∃ E0 x, reconstructRange r (.number E0) = .ok x := by
  simp only [List.mem_singleton, forall_eq]
  obtain ⟨x, ex, -⟩ := range_formula (.bw exSame (exOk one_pos))
  exact fun _ => ⟨_, _, ex⟩

/-- The hypotheses of `C206_bound_refuted` are met: the range of `Verif.Res.Example` with NAPS = 1, whose first level is below zero. -/
example : ∃ (r : Res.Bw) (ls : List Line), Res.BwRec ⟨1 / 100000, 100, 1, 2, 1, 1⟩ r ls ∧ (∃ q ∈ r.rows, q.energy < -1e-13) ∧
    Dict.get? r.base.channel 0 = some Res.exTable ∧ Tab1D.WF (table [(2, 2)] [(1 / 100000, 9 / 10), (100, 1)]) := by
  refine ⟨⟨true, ⟨7 / 2, 1 / 100000, 100, [(0, Res.exTable), (1, Res.exTable)], [(0, Res.exTable), (1, Res.exTable)]⟩, [(0, 0), (1, -5 / 2)], 233, Res.exBw.rows⟩,
    (Res.exApHead :: (Res.exApRegions ++ Res.exApPoints)) ++ (Res.exBwCont :: [Res.exBw0, Res.exBw1].flatten), ?_, ⟨_, List.mem_cons_self, by norm_num⟩, rfl, ?_⟩
  · exact ⟨_, some Res.exTable, Res.exBwCont, ⟨7 / 2, 24 / 25, 0, 0, 2, 0⟩, [⟨0, 0, Res.exTable, Res.exTable, Res.exBwL0.rows⟩, ⟨1, -5 / 2, Res.exTable, Res.exTable, Res.exBwL1.rows⟩],
      [Res.exBw0, Res.exBw1], rfl,
      .table (c := ⟨0, 0, 0, 0, 1, 2⟩) ⟨Res.exApHead, Res.exApRegions, Res.exApPoints, rfl, contLine_of (by decide +kernel), rfl, rfl, pairLines_of (by decide +kernel), pairLines_of (by decide +kernel)⟩,
      contLine_of (by decide +kernel), rfl, by simp, by decide,
      .cons ⟨⟨233, 0, 0, 0, 12, 2⟩, Decay.listRec_of (by decide +kernel), rfl, rfl, rfl, Or.inl ⟨rfl, by simp [Res.exBwL0]⟩, by simp [Res.exBwL0], .table⟩
        (.cons ⟨⟨233, -5 / 2, 1, 1, 6, 1⟩, Decay.listRec_of (by decide +kernel), rfl, rfl, rfl, Or.inr ⟨rfl, by norm_num [Res.exBwL1]⟩, by simp [Res.exBwL1], .table⟩ .nil),
      rfl, rfl, rfl⟩
  · constructor <;> simp [table] <;> norm_num

/-- The hypotheses of `C206_rml_refuted` and `C207_rml_refuted` are met by a range that is read (`exRmlRange_ok`). -/
example : Covers 1 (.rml Res.exRml) := .rml (by norm_num [Res.exRml]) (by norm_num [Res.exRml])

end
end ASAPy.ReconEval
