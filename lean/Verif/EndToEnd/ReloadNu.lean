import Verif.EndToEnd.Reload
import Verif.FromAce.NuProps

/-! # Nu-bar and the fission spectrum of the file of a sample (C233) -/

set_option linter.unusedSimpArgs false

namespace ASAPy.EndToEnd
open ASAPy.WriteAce ASAPy.AceData ASAPy.Str ASAPy.Sampled ASAPy.FromAce
open ASAPy.Ace (Editor init getSigma getEnergy)

/-! ### Specification -/

/-- Position `p` (from 1) says that reaction `k` is fission. -/
def FissionMark (t : AceData.Table ℚ) (k p : Nat) : Prop := ∃ j : Nat, JXS t 5 = some (j : Int) ∧ p = j + k

/-- How many numbers stand in front of the values of a table of nu: its kind, the regions and the energies. -/
def nuHead (nu : Tab ℚ) : Nat := 3 + nu.breakpoints.length + nu.laws.length + nu.energies.length

/-- Position `p` is the number in front of prompt and total nu, or one of the numbers in front of the values of the total nu. -/
def NuFrame (t : AceData.Table ℚ) (nu : Tab ℚ) (p : Nat) : Prop :=
  ∃ j m : Nat, JXS t 2 = some (j : Int) ∧ XSS t j = some (-(m : ℚ)) ∧ (p = j ∨ j + m + 1 ≤ p ∧ p < j + m + 1 + nuHead nu)

/-- The values of the total nu begin behind the first `s` values of the table. -/
def NuPlace (t : AceData.Table ℚ) (nu : Tab ℚ) (s : Nat) : Prop :=
  ∃ j m : Nat, JXS t 2 = some (j : Int) ∧ XSS t j = some (-(m : ℚ)) ∧ s = j + m + nuHead nu

/-- Position `p` is one of the numbers that say where the spectra of reaction `k` are: its place, the law, the place of the data, the table of incident energies, and the law, the length and the energies in front
of the densities of each spectrum. -/
def ChiFrame (t : AceData.Table ℚ) (k : Nat) (incident : List ℚ) (spectra : List (Spectrum ℚ)) (p : Nat) : Prop :=
  ∃ j10 j11 loc idat regions : Nat, JXS t 10 = some (j10 : Int) ∧ JXS t 11 = some (j11 : Int) ∧ XSS t (j10 + k) = some (loc : ℚ) ∧ XSS t (j11 + loc + 1) = some (idat : ℚ) ∧
    XSS t (j11 + idat - 1) = some (regions : ℚ) ∧
    (p = j10 + k ∨ p = j11 + loc ∨ p = j11 + loc + 1 ∨ (j11 + idat - 1 ≤ p ∧ p < j11 + idat - 1 + (2 + 2 * regions + 2 * incident.length)) ∨
      ∃ s ∈ spectra, j11 + s.loc - 1 ≤ p ∧ p < j11 + s.loc - 1 + (2 + s.energies.length))

/-- The densities of the spectrum begin behind the first `p` values of the table. -/
def PdfPlace (t : AceData.Table ℚ) (s : Spectrum ℚ) (p : Nat) : Prop := ∃ j11 : Nat, JXS t 11 = some (j11 : Int) ∧ p + 2 = j11 + s.loc + (2 + s.energies.length)

/-- The spectrum that is left of `s`: its place, law and energies, and what the replacements leave of its densities and of its cumulated probabilities. -/
def SpectrumBecomes (t : AceData.Table ℚ) (jobs : List (Job ℚ × Nat)) (s s' : Spectrum ℚ) : Prop :=
  s'.loc = s.loc ∧ s'.law = s.law ∧ s'.energies = s.energies ∧ s'.pdf.length = s.pdf.length ∧ s'.cdf.length = s.cdf.length ∧
    ∀ p, PdfPlace t s p → Becomes jobs p s.pdf s'.pdf ∧ Becomes jobs (p + s.energies.length) s.cdf s'.cdf

/-! ### Proofs -/

theorem notXs_new {t : AceData.Table ℚ} {c : Content ℚ} {xss' : List ℚ} {j1 j7 p : Nat} (h : NotXs t c p) : NotXs { t with xss := xss' } (newContent { t with xss := xss' } c j1 j7) p := by
  refine ⟨h.1, ?_⟩
  intro j hj r hr
  simp only [newContent, List.mem_map] at hr
  obtain ⟨r0, hr0, rfl⟩ := hr
  simp only [reread_length]
  exact h.2 j hj r0 hr0

theorem last_new {c : Content ℚ} {t' : AceData.Table ℚ} {j1 j7 i : Nat} {r : Entry ℚ} (h : c.Last i r) :
    (newContent t' c j1 j7).Last i { r with vals := reread t' (j7 + r.loc + 1) r.vals.length } := by
  refine ⟨by simp [newContent, h.1], ?_⟩
  intro k r' hk hr'
  simp only [newContent, List.getElem?_map, Option.map_eq_some_iff] at hr'
  obtain ⟨r0, hr0, rfl⟩ := hr'
  exact h.2 k r0 hk hr0

theorem xss_pos {t : AceData.Table ℚ} {p : Nat} {v : ℚ} (h : XSS t p = some v) : 0 < p := by
  unfold XSS at h
  by_contra hc
  rw [if_pos (by omega)] at h
  cases h

/-- **C233 (nu-bar).** Let a sample replace values of the table, none of them part of its structure. If the table of the sample can be loaded, the editor reads from it the original energies of nu-bar and what the
replacements leave of its values, if these are not negative and not all the same (as C80 needs it). -/
theorem C233_nu [ExpLog ℚ] {t : AceData.Table ℚ} {c : Content ℚ} (hc : Holds t c) {jobs : List (Job ℚ × Nat)} {xss' : List ℚ} (hr : Replaced jobs t.xss xss')
    (hstr : ∀ js ∈ jobs, ∀ i, Covers js i → ¬ Structural t c (i + 1)) {T : Ace.Table ℚ} (hl : load { t with xss := xss' } = .ok T) {ed : Editor ℚ} (hi : init T none = .ok ed)
    {k : Nat} {r : Entry ℚ} (hlast : c.Last k r) (hmt : r.mt = 18) (hf : IsFission t k) {nu : Tab ℚ} (hn : HoldsNu t c nu)
    (hfree : ∀ js ∈ jobs, ∀ i, Covers js i → ¬ FissionMark t k (i + 1) ∧ ¬ NuFrame t nu (i + 1)) {s : Nat} (hs : NuPlace t nu s) :
    ∃ out, out.length = nu.values.length ∧ Becomes jobs s nu.values out ∧ ((∀ v ∈ out, 0 ≤ v) → (∃ v ∈ out, ∃ w ∈ out, v ≠ w) →
      452 ∈ ed.allMts ∧ getEnergy ed 452 = .ok (.arr (nu.energies.map (· * 1000000))) ∧ getSigma ed 452 none false = .ok (.arr out)) := by
  obtain ⟨j1, h1, -⟩ := hc.main
  obtain ⟨j3, j6, j7, h3, h6, h7, -, -, hrs⟩ := hc.lists
  have hc' := holds_new hc hr hstr h1 h7
  obtain ⟨j, m, hj, hj0, hm0, hx, hnx, hat, hfit⟩ := hn
  obtain ⟨ja, ma, hja, hxa, rfl⟩ := hs
  rw [hj] at hja
  simp only [Option.some.injEq, Nat.cast_inj] at hja
  subst hja
  rw [hx] at hxa
  simp only [Option.some.injEq, neg_inj, Nat.cast_inj] at hxa
  subst hxa
  set t' : AceData.Table ℚ := { t with xss := xss' } with ht'
  set out := reread t' (j + m + nuHead nu + 1) nu.values.length with hout
  have hsplit : (2 :: nu.numbers : List ℚ) = (2 :: ([(nu.breakpoints.length : ℚ)] ++ nu.breakpoints.map (fun v : Nat => (v : ℚ)) ++ nu.laws.map (fun v : Nat => (v : ℚ)) ++ [(nu.energies.length : ℚ)] ++ nu.energies)) ++
      nu.values := by simp [Tab.numbers]
  have hhead : ((2 :: ([(nu.breakpoints.length : ℚ)] ++ nu.breakpoints.map (fun v : Nat => (v : ℚ)) ++ nu.laws.map (fun v : Nat => (v : ℚ)) ++ [(nu.energies.length : ℚ)] ++ nu.energies)) : List ℚ).length = nuHead nu := by
    simp [nuHead]; omega
  rw [hsplit] at hat
  obtain ⟨hat1, hat2⟩ := at_split hat
  rw [hhead, show j + m + 1 + nuHead nu = j + m + nuHead nu + 1 by omega] at hat2
  have hkeep1 : At t' (j + m + 1) _ := replaced_at hr hat1 (by
    intro js hjs i hi hcov
    rw [hhead] at hi
    refine (hfree js hjs _ hcov).2 ⟨j, m, hj, hx, Or.inr ⟨?_, ?_⟩⟩ <;> omega)
  have hnew : At t' (j + m + nuHead nu + 1) out := reread_new hr hat2
  refine ⟨out, reread_length .., becomes hr hat2, fun hpos hflat => ?_⟩
  have hf' : IsFission t' k := by
    obtain ⟨jf, n, q1, q2, q3, q4⟩ := hf
    refine ⟨jf, n, q1, replaced_keeps hr q2 ?_, q3, q4⟩
    intro js hjs hcov
    have := xss_pos q2
    exact (hfree js hjs _ hcov).1 ⟨jf, q1, by omega⟩
  refine C80_nu (nu := { nu with values := out }) hc' hl hi (last_new hlast) hmt hf' ⟨j, m, hj, hj0, hm0, ?_, notXs_new hnx, ?_, ?_⟩ hflat
  · refine replaced_keeps hr hx ?_
    intro js hjs hcov
    exact (hfree js hjs _ hcov).2 ⟨j, m, hj, hx, Or.inl (by omega)⟩
  · have : (2 :: ({ nu with values := out } : Tab ℚ).numbers : List ℚ) = (2 :: ([(nu.breakpoints.length : ℚ)] ++ nu.breakpoints.map (fun v : Nat => (v : ℚ)) ++ nu.laws.map (fun v : Nat => (v : ℚ)) ++
        [(nu.energies.length : ℚ)] ++ nu.energies)) ++ out := by simp [Tab.numbers]
    rw [this]
    refine at_join hkeep1 ?_
    rw [hhead, show j + m + 1 + nuHead nu = j + m + nuHead nu + 1 by omega]
    exact hnew
  · obtain ⟨f1, f2, f3, f4⟩ := hfit
    exact ⟨f1, by rw [← f2]; exact reread_length .., f3, hpos⟩

theorem promptFirst_new {t : AceData.Table ℚ} {c : Content ℚ} {jobs : List (Job ℚ × Nat)} {xss' : List ℚ} (hr : Replaced jobs t.xss xss') {j1 j7 : Nat} (hp : PromptFirst t c)
    (hfree : ∀ js ∈ jobs, ∀ i, Covers js i → JXS t 2 ≠ some ((i + 1 : Nat) : Int)) : PromptFirst { t with xss := xss' } (newContent { t with xss := xss' } c j1 j7) := by
  obtain ⟨j, h1, h2, h, h3, h4⟩ := hp
  refine ⟨j, h1, h2, h, replaced_keeps hr h3 ?_, h4.imp (fun q => ⟨q.1, notXs_new q.2⟩) id⟩
  intro js hjs hcov
  exact hfree js hjs _ hcov (by rw [show j - 1 + 1 = j by omega]; exact h1)

/-- **C233 (fission spectrum).** Let a sample replace values of the table, none of them part of its structure. If the table of the sample can be loaded, the editor reads from it the original energies of the fission
spectra and what the replacements leave of their densities, if nothing negative is left. -/
theorem C233_chi [ExpLog ℚ] {t : AceData.Table ℚ} {c : Content ℚ} (hc : Holds t c) {jobs : List (Job ℚ × Nat)} {xss' : List ℚ} (hr : Replaced jobs t.xss xss')
    (hstr : ∀ js ∈ jobs, ∀ i, Covers js i → ¬ Structural t c (i + 1)) {T : Ace.Table ℚ} (hl : load { t with xss := xss' } = .ok T) {ed : Editor ℚ} (hi : init T none = .ok ed)
    {k : Nat} {r : Entry ℚ} (hlast : c.Last k r) (hmt : r.mt = 18) (hf : IsFission t k) (hp : PromptFirst t c) {incident : List ℚ} {spectra : List (Spectrum ℚ)} (hchi : HoldsChi t k incident spectra)
    (hfree : ∀ js ∈ jobs, ∀ i, Covers js i → ¬ FissionMark t k (i + 1) ∧ JXS t 2 ≠ some ((i + 1 : Nat) : Int) ∧ ¬ ChiFrame t k incident spectra (i + 1)) :
    ∃ spectra', List.Forall₂ (SpectrumBecomes t jobs) spectra spectra' ∧ ((∀ s ∈ spectra', ∀ v ∈ s.pdf ++ s.cdf, 0 ≤ v) →
      1018 ∈ ed.allMts ∧ getEnergy ed 1018 = .ok (.pdfs (spectra.map fun s => s.energies.map (· * 1000000))) ∧
        getSigma ed 1018 none false = .ok (.pdfs (spectra'.map fun s => s.pdf.map (· / 1000000)))) := by
  obtain ⟨j1, h1, -⟩ := hc.main
  obtain ⟨j3, j6, j7, h3, h6, h7, -, -, hrs⟩ := hc.lists
  have hc' := holds_new hc hr hstr h1 h7
  obtain ⟨j10, j11, loc, idat, bps, laws, c1, c2, c3, c4, c5, c6, c7, c8, c9, c10, c11, c12, c13⟩ := hchi
  have hreg : XSS t (j11 + idat - 1) = some (bps.length : ℚ) := c12 0 _ (by simp [Tab.numbers])
  set t' : AceData.Table ℚ := { t with xss := xss' } with ht'
  have frame : ∀ {p : Nat}, (p = j10 + k ∨ p = j11 + loc ∨ p = j11 + loc + 1 ∨ (j11 + idat - 1 ≤ p ∧ p < j11 + idat - 1 + (2 + 2 * bps.length + 2 * incident.length)) ∨
      ∃ s ∈ spectra, j11 + s.loc - 1 ≤ p ∧ p < j11 + s.loc - 1 + (2 + s.energies.length)) → ChiFrame t k incident spectra p := fun h => ⟨j10, j11, loc, idat, bps.length, c1, c2, c5, c7, hreg, h⟩
  have keep1 : ∀ {p : Nat} {v : ℚ}, XSS t p = some v → ChiFrame t k incident spectra p → XSS t' p = some v := by
    intro p v hv hfr
    refine replaced_keeps hr hv ?_
    intro js hjs hcov
    have := xss_pos hv
    exact (hfree js hjs _ hcov).2.2 (by rw [show p - 1 + 1 = p by omega]; exact hfr)
  have keep : ∀ {p : Nat} {vs : List ℚ}, At t p vs → (∀ i < vs.length, ChiFrame t k incident spectra (p + i)) → At t' p vs := by
    intro p vs hat hfr i v hv
    have hin : i < vs.length := by
      by_contra hcn; rw [List.getElem?_eq_none (by omega)] at hv; cases hv
    exact keep1 (hat i v hv) (hfr i hin)
  let f : Spectrum ℚ → Spectrum ℚ := fun s => { s with
    pdf := reread t' (j11 + s.loc - 1 + (2 + s.energies.length)) s.pdf.length
    cdf := reread t' (j11 + s.loc - 1 + (2 + s.energies.length) + s.energies.length) s.cdf.length }
  have hparts : ∀ s ∈ spectra, At t (j11 + s.loc - 1) ([(s.law : ℚ), (s.energies.length : ℚ)] ++ s.energies) ∧ At t (j11 + s.loc - 1 + (2 + s.energies.length)) s.pdf ∧
      At t (j11 + s.loc - 1 + (2 + s.energies.length) + s.energies.length) s.cdf := by
    intro s hs
    obtain ⟨-, -, d3, d4, -, d6⟩ := c13 s hs
    obtain ⟨a1, a2⟩ := at_split d6
    obtain ⟨b1, b2⟩ := at_split a1
    refine ⟨b1, ?_, ?_⟩
    · have : ([(s.law : ℚ), (s.energies.length : ℚ)] ++ s.energies).length = 2 + s.energies.length := by simp; omega
      rwa [this] at b2
    · have : ([(s.law : ℚ), (s.energies.length : ℚ)] ++ s.energies ++ s.pdf).length = 2 + s.energies.length + s.energies.length := by simp [d3]; omega
      rwa [this, ← Nat.add_assoc] at a2
  refine ⟨spectra.map f, ?_, fun hpos => ?_⟩
  · rw [List.forall₂_map_right_iff, List.forall₂_same]
    intro s hs
    refine ⟨rfl, rfl, rfl, reread_length .., reread_length .., ?_⟩
    rintro p ⟨j, hj, hpj⟩
    rw [c2] at hj
    simp only [Option.some.injEq, Nat.cast_inj] at hj
    subst hj
    obtain ⟨-, e2, e3⟩ := hparts s hs
    have hl0 := (c13 s hs).1
    have hpp : j11 + s.loc - 1 + (2 + s.energies.length) = p + 1 := by omega
    have e2' := e2
    have e3' := e3
    rw [hpp] at e2' e3'
    constructor
    · have := becomes hr e2'
      simpa [f, hpp] using this
    · rw [show p + 1 + s.energies.length = p + s.energies.length + 1 by omega] at e3'
      have := becomes hr e3'
      simpa [f, hpp, show p + 1 + s.energies.length = p + s.energies.length + 1 by omega] using this
  · have hf' : IsFission t' k := by
      obtain ⟨jf, n, q1, q2, q3, q4⟩ := hf
      refine ⟨jf, n, q1, replaced_keeps hr q2 ?_, q3, q4⟩
      intro js hjs hcov
      have := xss_pos q2
      exact (hfree js hjs _ hcov).1 ⟨jf, q1, by omega⟩
    have hp' : PromptFirst t' (newContent t' c j1 j7) := promptFirst_new hr hp (fun js hjs i hcov => (hfree js hjs i hcov).2.1)
    have hchi' : HoldsChi t' k incident (spectra.map f) := by
      refine ⟨j10, j11, loc, idat, bps, laws, c1, c2, c3, c4, keep1 c5 (frame (Or.inl rfl)), keep1 c6 (frame (Or.inr (Or.inl rfl))), keep1 c7 (frame (Or.inr (Or.inr (Or.inl rfl)))), c8, c9, c10,
        by simpa using c11, ?_, ?_⟩
      · have hm : ((spectra.map f).map fun s => (s.loc : ℚ)) = spectra.map fun s => (s.loc : ℚ) := by simp [f]
        rw [hm]
        refine keep c12 ?_
        intro i hin
        refine frame (Or.inr (Or.inr (Or.inr (Or.inl ⟨by omega, ?_⟩))))
        simp [Tab.numbers, c10, c11] at hin
        omega
      · intro s' hs'
        have hpos' := hpos s' hs'
        obtain ⟨s, hs, rfl⟩ := List.mem_map.mp hs'
        obtain ⟨d1, d2, d3, d4, d5, d6⟩ := c13 s hs
        obtain ⟨e1, e2, e3⟩ := hparts s hs
        refine ⟨d1, d2, by simp [f, d3, reread_length], by simp [f, d4, reread_length], ?_, ?_⟩
        · intro v hv
          simp only [List.mem_append] at hv hpos'
          rcases hv with (hv | hv) | hv
          · exact d5 v (by simp only [List.mem_append]; exact Or.inl (Or.inl hv))
          · exact hpos' v (Or.inl hv)
          · exact hpos' v (Or.inr hv)
        · have k1 : At t' (j11 + s.loc - 1) ([(s.law : ℚ), (s.energies.length : ℚ)] ++ s.energies) := keep e1 (by
            intro i hin
            simp at hin
            exact frame (Or.inr (Or.inr (Or.inr (Or.inr ⟨s, hs, by omega, by omega⟩)))))
          have k2 := reread_new hr e2
          have k3 := reread_new hr e3
          refine at_join (at_join k1 ?_) ?_
          · have : ([(s.law : ℚ), (s.energies.length : ℚ)] ++ s.energies).length = 2 + s.energies.length := by simp; omega
            show At t' _ (f s).pdf
            rw [this]; exact k2
          · have : ([(s.law : ℚ), (s.energies.length : ℚ)] ++ s.energies ++ (f s).pdf).length = 2 + s.energies.length + s.energies.length := by simp [f, d3, reread_length]; omega
            show At t' (j11 + s.loc - 1 + ([(s.law : ℚ), (s.energies.length : ℚ)] ++ s.energies ++ (f s).pdf).length) (f s).cdf
            rw [this, ← Nat.add_assoc]; exact k3
    have := C81_chi hc' hl hi (last_new hlast) hmt hf' hp' hchi'
    simpa [List.map_map, Function.comp_def, f] using this

end ASAPy.EndToEnd
