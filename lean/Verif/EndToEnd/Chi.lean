import Verif.EndToEnd.Nu
import Verif.Sampled.Mixed

/-! # C233: a sampled fission spectrum, from the file to the file -/

set_option linter.unusedSimpArgs false

namespace ASAPy.EndToEnd
open ASAPy.WriteAce ASAPy.AceData ASAPy.Str ASAPy.Sampled ASAPy.FromAce ASAPy.MapGroups
open ASAPy.Ace (Editor init getSigma getEnergy getChiDistro WellFormed Chi)

/-- The densities and the cumulated probabilities of spectrum `s` are replaced at their places: those of `d` (in 1/eV) by those of `d'`. -/
def ReplacedAt (t : AceData.Table ℚ) (jobs : List (Job ℚ × Nat)) (s : Spectrum ℚ) (d d' : Ace.Dist ℚ) : Prop :=
  ∃ p n m, PdfPlace t s p ∧ (⟨d.p.map (· * 1000000), d'.p.map (· * 1000000), n⟩, p) ∈ jobs ∧ (⟨d.c, d'.c, m⟩, p + s.energies.length) ∈ jobs

/-- **C233 (the file of a sample of chi).** A sample of an ACE file is written as in C86, chi among the sampled MTs. If the written file can be loaded, the spectra loaded from it have the original energies, and each has, up
to one positive factor, the original densities times the sampled relative value of the group of each outgoing energy (1 outside the groups), with a relative error of at most 5e-12. -/
theorem C233_chi_file [ExpLog ℚ] {t : AceData.Table ℚ} {text : List Char} {hs xss : List (List Char)} (ht : AceText t text hs xss)
    {c : Content ℚ} (hc : FromAce.Holds t c) {file : Ace.Table ℚ} (hp : load t = .ok file) {ed0 ed : Editor ℚ} (hi : init file none = .ok ed0)
    (hsound : c.Sound) {k : Nat} {ins : List (Input ℚ)} (hall : ∀ inp ∈ ins, Sampleable ed0 k inp) (hnd : (ins.map (·.mt)).Nodup) {inp : Input ℚ} (hin : inp ∈ ins) {chi chi' : Chi ℚ} (hchi : getChiDistro ed0 false = .ok chi) {high : List ℚ} {maxE minE : ℚ} {rel : Nat → ℚ}
    (hfit : FitsChi chi k inp high maxE minE rel) (hs : sampleMts ed0 k ins = (ed, .ok ())) (hchi' : getChiDistro ed false = .ok chi') {w : Writer} (hw : WriteAce.read text = .ok w)
    {groups : List (List (Job ℚ))}
    (hrep : List.Forall₂ (fun mt js => Replaces ed0 ed mt js ∧ (mt = 452 → ∀ j ∈ js, j.maxReplaces = 9999))
      (ed.adjusted.insertionSort (· ≤ ·)) groups)
    (jobs : List (Job ℚ × Nat)) (hjobs : jobs.map Prod.fst = groups.flatten)
    (hok : ∀ js ∈ jobs, js.1.base.length = js.1.new.length ∧ js.1.base ≠ [] ∧ 0 < js.1.maxReplaces)
    (hfin : ∀ js ∈ jobs, ∀ x ∈ js.1.new, Finite x)
    (hdis : jobs.Pairwise (fun a b => ∀ i, ¬ (Covers a i ∧ Covers b i)))
    (hstr : ∀ js ∈ jobs, ∀ i, Covers js i → ¬ Structural t c (i + 1))
    (hocc : ∀ pre js post, jobs = pre ++ js :: post →
      FoundAt fmtE (runGroup fmtE w (pre.map Prod.fst)).1.singleLine js.1 js.2)
    {q : Nat} {r : Entry ℚ} (hlast : c.Last q r) (hmt : r.mt = 18) (hf : IsFission t q) (hpr : PromptFirst t c) {incident : List ℚ} {spectra : List (Spectrum ℚ)} (hh : HoldsChi t q incident spectra)
    (hfree : ∀ js ∈ jobs, ∀ i, Covers js i → ¬ FissionMark t q (i + 1) ∧ JXS t 2 ≠ some ((i + 1 : Nat) : Int) ∧ ¬ ChiFrame t q incident spectra (i + 1))
    (hat : ∀ (i : Nat) s (d d' : Ace.Dist ℚ), spectra[i]? = some s → chi.energyOut[i]? = some d → chi'.energyOut[i]? = some d' → ReplacedAt t jobs s d d')
    (hcdf : ∀ d ∈ chi'.energyOut, ∀ v ∈ d.c, 0 ≤ v) :
    ∃ text', render fmtE parse ins text k = .ok text' ∧ ∀ file' ed', parse text' = .ok file' → init file' none = .ok ed' →
      getEnergy ed' 1018 = .ok (.pdfs (chi.energyOut.map (·.x))) ∧ ∃ outs, getSigma ed' 1018 none false = .ok (.pdfs outs) ∧ outs.length = chi.energyOut.length ∧
        ∀ (i : Nat) (d : Ace.Dist ℚ) (out : List ℚ), chi.energyOut[i]? = some d → outs[i]? = some out → out.length = d.x.length ∧ ∃ f : ℚ, 0 < f ∧
          ∀ (j : Nat) (E p v : ℚ), d.x[j]? = some E → d.p[j]? = some p → out[j]? = some v →
            (∀ g, InGroup high maxE minE g E → |v * f - rel g * p| ≤ rel g * p / (2 * 10 ^ 11)) ∧ ((E < minE ∨ maxE < E) → |v * f - p| ≤ p / (2 * 10 ^ 11)) := by
  obtain ⟨text', xss', g1, _, g3, g4⟩ := C86_sample_table ht hp hi hs hw hrep jobs hjobs hok hfin hdis hocc
  refine ⟨text', g1, ?_⟩
  have hwf : WellFormed file ed0.temperature := by
    have := C89_well_formed hc hsound hp
    obtain ⟨rs, _, hT⟩ := load_split hp
    rw [hT] at hi
    unfold init Ace.chooseTemperature at hi
    simp only [List.length_cons, List.length_nil] at hi
    cases hi
    exact this
  intro file' ed' hfile' hed'
  rw [g3] at hfile'
  -- the sampled spectra
  obtain ⟨ed1, s1, -, s2⟩ := C34_with_chi hwf hi rfl k ins hall hnd
  obtain ⟨chi1, s3, -, s5, s6⟩ := s2 inp hin chi high maxE minE rel hchi hfit
  cases hs.symm.trans s1
  rw [hchi'] at s3
  cases s3
  -- the spectra of the file
  obtain ⟨_, p2, p3⟩ := C81_chi hc hp hi hlast hmt hf hpr hh
  have hE : getEnergy ed0 1018 = .ok (.pdfs (chi.energyOut.map (·.x))) := by
    simp only [getEnergy, show (1018 : Nat) ≠ 452 by decide, if_false, if_true, hchi, bind, Except.bind]
  have hS : getSigma ed0 1018 none false = .ok (.pdfs (chi.energyOut.map (·.p))) := by
    simp only [getSigma, show (1018 : Nat) ≠ 452 by decide, if_false, if_true, hchi, bind, Except.bind]
  have hxs : (spectra.map fun s => s.energies.map (· * 1000000)) = chi.energyOut.map (·.x) := by
    have := p2.symm.trans hE
    simpa using this
  have hps : (spectra.map fun s => s.pdf.map (· / 1000000)) = chi.energyOut.map (·.p) := by
    have := p3.symm.trans hS
    simpa using this
  have hlen : spectra.length = chi.energyOut.length := by simpa using congrArg List.length hxs
  obtain ⟨spectra', b1, b2⟩ := C233_chi hc g4 hstr hfile' hed' hlast hmt hf hpr hh hfree
  have hlen' : spectra'.length = spectra.length := b1.length_eq.symm
  -- spectrum i
  have key : ∀ (i : Nat) s' (d : Ace.Dist ℚ), spectra'[i]? = some s' → chi.energyOut[i]? = some d → ∃ (d' : Ace.Dist ℚ) (f : ℚ), d' ∈ chi'.energyOut ∧ 0 < f ∧
      TimesGroups high maxE minE rel d (d'.p.map (· * f)) ∧ s'.pdf = (d'.p.map (· * 1000000)).map rounded ∧ s'.cdf = d'.c.map rounded ∧ ∀ v ∈ d'.p, Finite (v * 1000000) := by
    intro i s' d hs' hd
    obtain ⟨d', f, e1, -, -, e4, e5⟩ := s6 i d hd
    have hi1 : i < spectra'.length := by
      by_contra hcn; rw [List.getElem?_eq_none (by omega)] at hs'; cases hs'
    have hi2 : i < spectra.length := hlen' ▸ hi1
    have hsi : spectra[i]? = some spectra[i] := List.getElem?_eq_getElem hi2
    obtain ⟨p, n, m, a1, a2, a3⟩ := hat i _ d d' hsi hd e1
    have hb := (List.forall₂_iff_get.1 b1).2 i hi2 hi1
    rw [List.getElem?_eq_getElem hi1] at hs'
    simp only [Option.some.injEq] at hs'
    subst hs'
    obtain ⟨-, -, -, -, -, hb⟩ := hb
    obtain ⟨c1, c2⟩ := hb p a1
    have x1 : spectra[i].energies.map (· * 1000000) = d.x := by
      have := congrArg (·[i]?) hxs
      simpa [List.getElem?_map, hsi, hd] using this
    have x2 : spectra[i].pdf.map (· / 1000000) = d.p := by
      have := congrArg (·[i]?) hps
      simpa [List.getElem?_map, hsi, hd] using this
    have l1 : d.p.length = spectra[i].pdf.length := by rw [← x2]; simp
    have l2 : d.x.length = spectra[i].energies.length := by rw [← x1]; simp
    have l3 : spectra[i].cdf.length = spectra[i].energies.length := by
      obtain ⟨_, _, _, _, _, _, _, _, _, _, _, _, _, _, _, _, _, _, h13⟩ := hh
      exact (h13 _ (List.getElem_mem hi2)).2.2.2.1
    have l4 : d.c.length = d.x.length := (hfit.dists d (List.mem_of_getElem? hd)).1.2.1
    have k1 := (hok _ a2).1
    have k2 := (hok _ a3).1
    simp only [List.length_map] at k1 k2
    refine ⟨d', f, List.mem_of_getElem? e1, e4, e5, ?_, ?_, ?_⟩
    · exact c1.1 _ a2 rfl (by simp only [List.length_map]; exact l1) (by simp only [List.length_map]; exact k1 ▸ l1)
    · exact c2.1 _ a3 rfl (by simp only [List.get_eq_getElem]; omega) (by simp only [List.get_eq_getElem]; omega)
    · exact fun v hv => hfin _ a2 _ (List.mem_map.2 ⟨v, hv, rfl⟩)
  have dpos : ∀ {d d' : Ace.Dist ℚ} {f : ℚ}, d ∈ chi.energyOut → 0 < f → TimesGroups high maxE minE rel d (d'.p.map (· * f)) → ∀ v ∈ d'.p, 0 ≤ v := by
    intro d d' f hd hf0 hT v hv
    have := times_nonneg hfit hd hT (v * f) (List.mem_map.2 ⟨v, hv, rfl⟩)
    exact nonneg_of_mul_nonneg_left this hf0
  obtain ⟨-, q2, q3⟩ := b2 (by
    intro s' hs' v hv
    obtain ⟨i, hi1, rfl⟩ := List.getElem_of_mem hs'
    have hi2 : i < chi.energyOut.length := by omega
    obtain ⟨d', f, e1, e2, e3, e4, e5, -⟩ := key i _ _ (List.getElem?_eq_getElem hi1) (List.getElem?_eq_getElem hi2)
    rcases List.mem_append.1 hv with hv | hv
    · rw [e4] at hv
      simp only [List.map_map, List.mem_map, Function.comp] at hv
      obtain ⟨x, hx, rfl⟩ := hv
      exact rounded_nonneg (mul_nonneg (dpos (List.getElem_mem hi2) e2 e3 x hx) (by norm_num))
    · rw [e5] at hv
      obtain ⟨x, hx, rfl⟩ := List.mem_map.1 hv
      exact rounded_nonneg (hcdf _ e1 x hx))
  refine ⟨by rw [q2, hxs], _, q3, by simp [hlen', hlen], ?_⟩
  intro i d out hd hout
  rw [List.getElem?_map, Option.map_eq_some_iff] at hout
  obtain ⟨s', hs', rfl⟩ := hout
  obtain ⟨d', f, e1, e2, e3, e4, e5, e6⟩ := key i s' d hs' hd
  have hpos := dpos (List.mem_of_getElem? hd) e2 e3
  refine ⟨by rw [e4]; simpa using e3.1, f, e2, ?_⟩
  intro j E p v hx hpp hv
  rw [e4] at hv
  simp only [List.getElem?_map, Option.map_map, Option.map_eq_some_iff, Function.comp] at hv
  obtain ⟨u, hu, rfl⟩ := hv
  have hum := List.mem_of_getElem? hu
  obtain ⟨t1, t2⟩ := e3.2 j E p (u * f) hx hpp (by simp [List.getElem?_map, hu])
  have hclose := (C84_written (u * 1000000) (e6 u hum)).2
  rw [abs_of_nonneg (mul_nonneg (hpos u hum) (by norm_num))] at hclose
  have main : |rounded (u * 1000000) / 1000000 * f - u * f| ≤ u * f / (2 * 10 ^ 11) := by
    have : rounded (u * 1000000) / 1000000 * f - u * f = (rounded (u * 1000000) - u * 1000000) * (f / 1000000) := by ring
    rw [this, abs_mul, abs_of_pos (div_pos e2 (by norm_num) : 0 < f / 1000000)]
    calc _ ≤ u * 1000000 / (2 * 10 ^ 11) * (f / 1000000) := mul_le_mul_of_nonneg_right hclose (div_pos e2 (by norm_num)).le
      _ = _ := by ring
  exact ⟨fun g hg => by rw [← t1 g hg]; exact main, fun hg => by rw [← t2 hg]; exact main⟩

end ASAPy.EndToEnd
