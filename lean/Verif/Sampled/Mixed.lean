import Verif.Sampled.Chi

/-! # Samples of cross sections and nu-bar together with the fission spectrum (C34, C232) -/

set_option linter.unusedSectionVars false

namespace ASAPy.Sampled
open ASAPy.Ace ASAPy.MapGroups

variable {K : Type*} [Field K] [LinearOrder K] [ExpLog K] {file : Table K} {T : Temp}

/-! ### Specification -/

/-- What can be sampled: an elementary MT (with its data, see `Fits`), or chi (with its data, see `FitsChi`). -/
def Sampleable (ed : Editor K) (k : Nat) (inp : Input K) : Prop :=
  (∃ d, Fits ed k inp d) ∨ ∃ (chi : Chi K) (high : List K) (maxE minE : K) (rel : Nat → K), getChiDistro ed false = .ok chi ∧ FitsChi chi k inp high maxE minE rel

/-- The spectra of `chi'` are those of `chi` times the relative value of the group of each outgoing energy, each divided by one positive number; the energies are the same, and the cdfs end in 1. -/
def ChiSampled (high : List K) (maxE minE : K) (rel : Nat → K) (chi chi' : Chi K) : Prop :=
  chi'.energyIn = chi.energyIn ∧ chi'.energyOut.length = chi.energyOut.length ∧
    ∀ (i : Nat) (d : Ace.Dist K), chi.energyOut[i]? = some d → ∃ (d' : Ace.Dist K) (c : K), chi'.energyOut[i]? = some d' ∧ d'.x = d.x ∧ d'.c.getLast? = some 1 ∧ 0 < c ∧
      TimesGroups high maxE minE rel d (d'.p.map (· * c))

/-! ### Proofs -/

/-- What a sample of one MT does to the editor. -/
theorem sampleMt_cases (ed : Editor K) (k : Nat) (inp : Input K) :
    (sampleMt ed k inp).1 = ed ∨ ∃ v, (sampleMt ed k inp).1 = (setSigma ed inp.mt v).1 ∨ (sampleMt ed k inp).1 = (applySumRules (setSigma ed inp.mt v).1).1 := by
  have key : ∀ new : Except PyErr (Val K),
      (match new with
        | .error e => (ed, .error e)
        | .ok v => match setSigma ed inp.mt v with
          | (ed, .error e) => (ed, .error e)
          | (ed, .ok ()) => applySumRules ed : Editor K × Except PyErr Unit).1 = ed ∨ ∃ v,
      (match new with
        | .error e => (ed, .error e)
        | .ok v => match setSigma ed inp.mt v with
          | (ed, .error e) => (ed, .error e)
          | (ed, .ok ()) => applySumRules ed : Editor K × Except PyErr Unit).1 = (setSigma ed inp.mt v).1 ∨
      (match new with
        | .error e => (ed, .error e)
        | .ok v => match setSigma ed inp.mt v with
          | (ed, .error e) => (ed, .error e)
          | (ed, .ok ()) => applySumRules ed : Editor K × Except PyErr Unit).1 = (applySumRules (setSigma ed inp.mt v).1).1 := by
    intro new
    cases new with
    | error e => exact Or.inl rfl
    | ok v =>
      right
      refine ⟨v, ?_⟩
      simp only
      cases hs : setSigma ed inp.mt v with
      | mk ed1 o => cases o with
        | error e => exact Or.inl rfl
        | ok u => exact Or.inr rfl
  unfold sampleMt
  cases inp.cols[k]? with
  | none => exact Or.inl rfl
  | some col =>
    cases inp.bounds with
    | error e => exact Or.inl rfl
    | ok b =>
      obtain ⟨high, low⟩ := b
      cases getEnergy ed inp.mt with
      | error e => exact Or.inl rfl
      | ok es =>
        cases getSigma ed inp.mt none false with
        | error e => exact Or.inl rfl
        | ok base =>
          exact key _

theorem sampleMt_chi (ed : Editor K) (k : Nat) {inp : Input K} (h : inp.mt ≠ 1018) : getChiDistro (sampleMt ed k inp).1 false = getChiDistro ed false := by
  rcases sampleMt_cases ed k inp with h1 | ⟨v, h1 | h1⟩
  · rw [h1]
  · rw [h1, chi_set ed h]
  · rw [h1, chi_sums, chi_set ed h]

theorem sampleMts_chi (k : Nat) : ∀ (ins : List (Input K)) (ed : Editor K), (∀ inp ∈ ins, inp.mt ≠ 1018) → getChiDistro (sampleMts ed k ins).1 false = getChiDistro ed false
  | [], _, _ => rfl
  | inp :: ins, ed, h => by
    have h1 := sampleMt_chi ed k (h inp (List.mem_cons_self ..))
    cases hs : sampleMt ed k inp with
    | mk ed1 o =>
      rw [hs] at h1
      cases o with
      | error e => simp only [sampleMts, hs]; exact h1
      | ok u =>
        simp only [sampleMts, hs]
        exact (sampleMts_chi k ins ed1 fun i hi => h i (List.mem_cons_of_mem _ hi)).trans h1

theorem sampleMt_energy (ed : Editor K) (k : Nat) (inp : Input K) {m : MT} (hm : m ≠ inp.mt) : getEnergy (sampleMt ed k inp).1 m = getEnergy ed m := by
  rcases sampleMt_cases ed k inp with h1 | ⟨v, h1 | h1⟩
  · rw [h1]
  · rw [h1]; exact (C01_nothing_else (ed := ed) inp.mt v).2.1 m hm
  · rw [h1, energy_sums]; exact (C01_nothing_else (ed := ed) inp.mt v).2.1 m hm

theorem sampleMts_energy (k : Nat) {m : MT} : ∀ (ins : List (Input K)) (ed : Editor K), m ∉ ins.map (·.mt) → getEnergy (sampleMts ed k ins).1 m = getEnergy ed m
  | [], _, _ => rfl
  | inp :: ins, ed, h => by
    rw [List.map_cons, List.mem_cons, not_or] at h
    have h1 := sampleMt_energy ed k inp h.1
    cases hs : sampleMt ed k inp with
    | mk ed1 o =>
      rw [hs] at h1
      cases o with
      | error e => simp only [sampleMts, hs]; exact h1
      | ok u =>
        simp only [sampleMts, hs]
        exact (sampleMts_energy k ins ed1 h.2).trans h1

theorem sampleMts_append (k : Nat) : ∀ (as bs : List (Input K)) (ed ed1 : Editor K), sampleMts ed k as = (ed1, .ok ()) → sampleMts ed k (as ++ bs) = sampleMts ed1 k bs
  | [], _, _, _, h => by cases h; rfl
  | a :: as, bs, ed, ed1, h => by
    simp only [List.cons_append, sampleMts] at h ⊢
    cases hs : sampleMt ed k a with
    | mk ed2 o =>
      rw [hs] at h
      cases o with
      | error e => cases h
      | ok u => exact sampleMts_append k as bs ed2 ed1 h

/-- **C34 and C232, for any sample.** Sampling any number of different MTs - elementary ones, and chi - succeeds and leaves in the editor, at each energy of each elementary MT, the base value times the sampled relative
value of the energy's group (a base value of zero counted as one), and in each outgoing distribution of a sampled chi the pdf of the file times the relative value of the group of each energy, divided by one positive
number. -/
theorem C34_with_chi [IsStrictOrderedRing K] (hf : WellFormed file T) {ed0 : Editor K} (h0 : init file none = .ok ed0)
    (hT : ed0.temperature = T) (k : Nat) (ins : List (Input K)) (hfit : ∀ inp ∈ ins, Sampleable ed0 k inp) (hnd : (ins.map (·.mt)).Nodup) :
    ∃ ed, sampleMts ed0 k ins = (ed, .ok ()) ∧
      (∀ inp ∈ ins, ∀ d, Fits ed0 k inp d → ∃ out, getSigma ed inp.mt none false = .ok (.arr out) ∧ Scaled d out) ∧
      ∀ inp ∈ ins, ∀ (chi : Chi K) (high : List K) (maxE minE : K) (rel : Nat → K), getChiDistro ed0 false = .ok chi → FitsChi chi k inp high maxE minE rel →
        ∃ chi', getChiDistro ed false = .ok chi' ∧ ChiSampled high maxE minE rel chi chi' := by
  have hr0 : Reachable file T ed0 := ⟨none, ed0, [], h0, hT, rfl⟩
  have hel : ∀ inp ∈ ins, inp.mt ≠ 1018 → ∃ d, Fits ed0 k inp d := by
    intro inp hi hm
    rcases hfit inp hi with h | ⟨chi, high, maxE, minE, rel, -, h⟩
    · exact h
    · exact absurd h.mt hm
  by_cases hc : ∃ ci ∈ ins, ci.mt = 1018
  · obtain ⟨ci, hci, hmt⟩ := hc
    obtain ⟨chi, high, maxE, minE, rel, hchi, hfc⟩ : ∃ (chi : Chi K) (high : List K) (maxE minE : K) (rel : Nat → K), getChiDistro ed0 false = .ok chi ∧ FitsChi chi k ci high maxE minE rel := by
      rcases hfit ci hci with ⟨d, h⟩ | h
      · exact absurd hmt h.notChi
      · exact h
    obtain ⟨pre, post, rfl⟩ := List.append_of_mem hci
    have hnd' := hnd
    rw [List.map_append, List.map_cons, List.nodup_append, List.nodup_cons] at hnd'
    obtain ⟨n1, ⟨n2, n3⟩, n4⟩ := hnd'
    have hpre : ∀ inp ∈ pre, inp.mt ≠ 1018 := fun inp hi he => n4 _ (List.mem_map_of_mem hi) _ (List.mem_cons_self ..) (he.trans hmt.symm)
    have hpost : ∀ inp ∈ post, inp.mt ≠ 1018 := fun inp hi he => n2 (by rw [hmt, ← he]; exact List.mem_map_of_mem hi)
    have hcross : ∀ a ∈ pre, ∀ b ∈ post, a.mt ≠ b.mt := fun a ha b hb => n4 _ (List.mem_map_of_mem ha) _ (List.mem_cons_of_mem _ (List.mem_map_of_mem hb))
    obtain ⟨ed1, s1, hr1, v1, o1⟩ := sampleMts_spec hf k pre ed0 hr0 (fun inp hi => hel inp (by simp [hi]) (hpre inp hi)) n1
    have c1 : getChiDistro ed1 false = .ok chi := by
      have := sampleMts_chi k pre ed0 hpre
      rw [s1] at this
      exact this.trans hchi
    have en1 : ∀ m, m ∉ pre.map (·.mt) → getEnergy ed1 m = getEnergy ed0 m := fun m hm => by
      have := sampleMts_energy k pre ed0 hm
      rwa [s1] at this
    have keyChi : ∀ (high : List K) (maxE minE : K) (rel : Nat → K), FitsChi chi k ci high maxE minE rel → ∃ ed2 chi', sampleMt ed1 k ci = (ed2, .ok ()) ∧ Reachable file T ed2 ∧ getChiDistro ed2 false = .ok chi' ∧
        ChiSampled high maxE minE rel chi chi' ∧ ∀ m, m ≠ 1018 → (∀ c, ¬ Part m c) → ∀ at? un, getSigma ed2 m at? un = getSigma ed1 m at? un := by
      intro high maxE minE rel hfc
      obtain ⟨ed2, chi', s2, hr2, c2, c3, c4, c5, o2⟩ := C232_chi hf hr1 c1 hfc
      exact ⟨ed2, chi', s2, hr2, c2, ⟨c3, c4, c5⟩, o2⟩
    obtain ⟨ed2, chi', s2, hr2, c2, -, o2⟩ := keyChi high maxE minE rel hfc
    have en2 : ∀ m, m ≠ 1018 → getEnergy ed2 m = getEnergy ed1 m := fun m hm => by
      have := sampleMt_energy ed1 k ci (m := m) (by rw [hmt]; exact hm)
      rwa [s2] at this
    have carry : ∀ inp ∈ post, ∀ d, Fits ed0 k inp d → Fits ed2 k inp d := by
      intro inp hi d hd
      have hnot : inp.mt ∉ pre.map (·.mt) := by
        intro hm
        obtain ⟨a, ha, he⟩ := List.mem_map.mp hm
        exact hcross a ha inp hi he
      exact { hd with
        energies := by rw [en2 _ hd.notChi, en1 _ hnot]; exact hd.energies
        values := by rw [o2 _ hd.notChi hd.elementary, o1 _ hnot hd.elementary]; exact hd.values }
    obtain ⟨ed3, s3, hr3, v3, o3⟩ := sampleMts_spec hf k post ed2 hr2 (fun inp hi => by
      obtain ⟨d, hd⟩ := hel inp (by simp [hi]) (hpost inp hi)
      exact ⟨d, carry inp hi d hd⟩) n3
    have c3 : getChiDistro ed3 false = .ok chi' := by
      have := sampleMts_chi k post ed2 hpost
      rw [s3] at this
      exact this.trans c2
    refine ⟨ed3, ?_, ?_, ?_⟩
    · rw [sampleMts_append k pre _ ed0 ed1 s1]
      simp only [sampleMts, s2]
      exact s3
    · intro inp hi d hd
      rcases List.mem_append.mp hi with hi | hi
      · obtain ⟨out, g1, g2⟩ := v1 inp hi d hd
        have hnot : inp.mt ∉ post.map (·.mt) := by
          intro hm
          obtain ⟨b, hb, he⟩ := List.mem_map.mp hm
          exact hcross inp hi b hb he.symm
        exact ⟨out, by rw [o3 _ hnot hd.elementary, o2 _ hd.notChi hd.elementary]; exact g1, g2⟩
      · rcases List.mem_cons.mp hi with rfl | hi
        · exact absurd hmt hd.notChi
        · exact v3 inp hi d (carry inp hi d hd)
    · intro inp hi chiA highA maxA minA relA hA hfA
      rw [hchi] at hA
      cases hA
      have : inp = ci := by
        rcases List.mem_append.mp hi with hi | hi
        · exact absurd hfA.mt (hpre inp hi)
        · rcases List.mem_cons.mp hi with rfl | hi
          · rfl
          · exact absurd hfA.mt (hpost inp hi)
      subst this
      obtain ⟨ed2', chi2, t2, -, d2, d3, -⟩ := keyChi highA maxA minA relA hfA
      rw [s2] at t2
      cases t2
      rw [c2] at d2
      cases d2
      exact ⟨chi', c3, d3⟩
  · push Not at hc
    obtain ⟨ed, h1, _, h2, _⟩ := sampleMts_spec hf k ins ed0 hr0 (fun inp hi => hel inp hi (hc inp hi)) hnd
    exact ⟨ed, h1, h2, fun inp hi chi high maxE minE rel _ h => absurd h.mt (hc inp hi)⟩

/-- A sample of ones: of an elementary MT without zeros, or of chi with cdfs that end in one. -/
def UnitSample (ed : Editor K) (k : Nat) (inp : Input K) : Prop :=
  (∃ d, Fits ed k inp d ∧ (∀ g, d.rel g = 1) ∧ 0 ∉ d.base) ∨
    ∃ (chi : Chi K) (high : List K) (maxE minE : K), getChiDistro ed false = .ok chi ∧ FitsChi chi k inp high maxE minE (fun _ => 1) ∧ ∀ d ∈ chi.energyOut, d.c.getLast? = some 1

theorem unit_scaled {ed : Editor K} {k : Nat} {inp : Input K} {d : Data K} {out : List K} (hd : Fits ed k inp d) (hone : ∀ g, d.rel g = 1) (hz : 0 ∉ d.base) [IsStrictOrderedRing K] (h : Scaled d out) :
    out = d.base := by
  obtain ⟨hlen, hsc⟩ := h
  apply List.ext_getElem (by rw [hlen, hd.length])
  intro i hi1 hi2
  have hie : i < d.es.length := hlen ▸ hi1
  obtain ⟨s1, s2⟩ := hsc i _ _ _ (List.getElem?_eq_getElem hie) (List.getElem?_eq_getElem hi2) (List.getElem?_eq_getElem hi1)
  have hb : d.base[i] ≠ 0 := fun h => hz (h ▸ List.getElem_mem hi2)
  rw [if_neg hb] at s1 s2
  by_cases hr : d.minE < d.es[i] ∧ d.es[i] ≤ d.maxE
  · obtain ⟨g, hg, _⟩ := C26_every_energy_has_one_group hd.usable hr.1 hr.2
    rw [s1 g hg, hone, one_mul]
  · apply s2
    by_contra hc
    push Not at hc
    have hne : d.es[i] ≠ d.minE := fun h => hd.noMin (h ▸ List.getElem_mem hie)
    exact hr ⟨lt_of_le_of_ne hc.1 (Ne.symm hne), hc.2⟩

/-- **C35, for any sample.** A sample of ones of any number of different MTs - elementary ones without zeros, and chi with cdfs that end in one - leaves all their values and the fission spectrum as they are. Missing: as in
`C35_unit_sample_partial`. -/
theorem C35_with_chi_partial [IsStrictOrderedRing K] (hf : WellFormed file T) {ed0 : Editor K} (h0 : init file none = .ok ed0)
    (hT : ed0.temperature = T) (k : Nat) (ins : List (Input K)) (hfit : ∀ inp ∈ ins, UnitSample ed0 k inp) (hnd : (ins.map (·.mt)).Nodup) :
    ∃ ed, sampleMts ed0 k ins = (ed, .ok ()) ∧ (∀ inp ∈ ins, inp.mt ≠ 1018 → getSigma ed inp.mt none false = getSigma ed0 inp.mt none false) ∧
      getChiDistro ed false = getChiDistro ed0 false := by
  have hr0 : Reachable file T ed0 := ⟨none, ed0, [], h0, hT, rfl⟩
  obtain ⟨ed, h1, h2, -⟩ := C34_with_chi hf h0 hT k ins (fun inp hi => (hfit inp hi).imp (fun ⟨d, h, _⟩ => ⟨d, h⟩) fun ⟨chi, high, maxE, minE, h, h', _⟩ => ⟨chi, high, maxE, minE, _, h, h'⟩) hnd
  refine ⟨ed, h1, ?_, ?_⟩
  · intro inp hi hm
    rcases hfit inp hi with ⟨d, hd, hone, hz⟩ | ⟨_, _, _, _, -, h, -⟩
    · obtain ⟨out, g1, g2⟩ := h2 inp hi d hd
      rw [g1, hd.values, unit_scaled hd hone hz g2]
    · exact absurd h.mt hm
  · by_cases hc : ∃ ci ∈ ins, ci.mt = 1018
    · obtain ⟨ci, hci, hmt⟩ := hc
      obtain ⟨chi, high, maxE, minE, hchi, hfc, hend⟩ : ∃ (chi : Chi K) (high : List K) (maxE minE : K), getChiDistro ed0 false = .ok chi ∧ FitsChi chi k ci high maxE minE (fun _ => 1) ∧
          ∀ d ∈ chi.energyOut, d.c.getLast? = some 1 := by
        rcases hfit ci hci with ⟨d, h, -⟩ | h
        · exact absurd hmt h.notChi
        · exact h
      obtain ⟨pre, post, rfl⟩ := List.append_of_mem hci
      have hnd' := hnd
      rw [List.map_append, List.map_cons, List.nodup_append, List.nodup_cons] at hnd'
      obtain ⟨n1, ⟨n2, -⟩, n4⟩ := hnd'
      have hpre : ∀ inp ∈ pre, inp.mt ≠ 1018 := fun inp hi he => n4 _ (List.mem_map_of_mem hi) _ (List.mem_cons_self ..) (he.trans hmt.symm)
      have hpost : ∀ inp ∈ post, inp.mt ≠ 1018 := fun inp hi he => n2 (by rw [hmt, ← he]; exact List.mem_map_of_mem hi)
      obtain ⟨ed1, s1, hr1, -, -⟩ := sampleMts_spec hf k pre ed0 hr0 (fun inp hi => by
        rcases hfit inp (by simp [hi]) with ⟨d, h, -⟩ | ⟨_, _, _, _, -, h, -⟩
        · exact ⟨d, h⟩
        · exact absurd h.mt (hpre inp hi)) n1
      have c1 : getChiDistro ed1 false = .ok chi := by
        have := sampleMts_chi k pre ed0 hpre
        rw [s1] at this
        exact this.trans hchi
      obtain ⟨ed2, s2, c2⟩ := C35_chi hf hr1 c1 hfc hend
      have c3 := sampleMts_chi k post ed2 hpost
      rw [sampleMts_append k pre _ ed0 ed1 s1] at h1
      simp only [sampleMts, s2] at h1
      rw [h1] at c3
      exact (c3.trans c2).trans hchi.symm
    · push Not at hc
      have := sampleMts_chi k ins ed0 hc
      rwa [h1] at this

/-! ### A concrete case -/

section
local instance : ExpLog ℚ := ⟨id, id⟩

theorem demo_sampleable : ∀ inp ∈ [chiInput, demoInput], Sampleable demoEd 0 inp := by
  intro inp hi
  simp only [List.mem_cons, List.not_mem_nil, or_false] at hi
  rcases hi with rfl | rfl
  · exact .inr ⟨_, _, _, _, _, rfl, chi_fits⟩
  · exact .inl ⟨_, demo_fits⟩

/-- The fission spectrum first, then capture. -/
example : ∃ ed, sampleMts demoEd 0 [chiInput, demoInput] = (ed, .ok ()) ∧
    (∃ out, getSigma ed 102 none false = .ok (.arr out) ∧ Scaled (demoData fun g => if g = 1 then 2 else 1/2) out) ∧
    ∃ chi', getChiDistro ed false = .ok chi' ∧ ChiSampled [4, 3/2] 4 (1/2) (fun g => if g = 1 then 2 else 1/2) ⟨true, [1, 2], [chiDist, chiDist]⟩ chi' := by
  obtain ⟨ed, h1, h2, h3⟩ := C34_with_chi demo_wf demo_open rfl 0 [chiInput, demoInput] demo_sampleable (by decide)
  exact ⟨ed, h1, h2 demoInput (by simp) _ demo_fits, h3 chiInput (by simp) _ _ _ _ _ rfl chi_fits⟩

example : ∃ ed, sampleMts demoEd 0 [chiInput, demoInput] = (ed, .ok ()) ∧
    getSigma ed 102 none false = .ok (.arr [15, 31/2, 64]) ∧ getSigma ed 1018 none false = .ok (.pdfs [[2/5, 1/5, 4/5], [2/5, 1/5, 4/5]]) := by
  refine ⟨_, Prod.ext rfl ?_, ?_, ?_⟩ <;> decide +kernel

/-- Capture and the fission spectrum, both with ones (the second sample of capture). -/
def chiOnes1 : Input ℚ := { chiOnes with cols := chiOnes.cols ++ chiOnes.cols }

example : ∃ ed, sampleMts demoEd 1 [demoInput, chiOnes1] = (ed, .ok ()) ∧ (∀ inp ∈ [demoInput, chiOnes1], inp.mt ≠ 1018 → getSigma ed inp.mt none false = getSigma demoEd inp.mt none false) ∧
    getChiDistro ed false = getChiDistro demoEd false := by
  refine C35_with_chi_partial demo_wf demo_open rfl 1 _ ?_ (by decide)
  intro inp hi
  simp only [List.mem_cons, List.not_mem_nil, or_false] at hi
  rcases hi with rfl | rfl
  · exact .inl ⟨_, demo_fits_unit, fun _ => rfl, by simp [demoData]⟩
  · refine .inr ⟨⟨true, [1, 2], [chiDist, chiDist]⟩, [4, 3/2], 4, 1/2, rfl, { chi_fits_ones with mt := rfl, bounds := chi_fits.bounds, sample := ?_ }, by decide +kernel⟩
    refine ⟨[(1, 1), (2, 1)], rfl, ?_⟩
    intro g h1 h2
    have : g = 1 ∨ g = 2 := by simp at h2; omega
    rcases this with rfl | rfl <;> decide +kernel
end

end ASAPy.Sampled
