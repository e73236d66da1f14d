import Verif.EndfRx.Props4
import Verif.Res.Props2
import Verif.Res.Example

/-!
# Concrete cases that meet the hypotheses of C155-C162
-/

namespace ASAPy.EndfRx
open ASAPy.Endf
open ASAPy.Decay (listRec_of)
open ASAPy.Func (Fn)

/-! ### C155 -/

example : angleFromEndf 20000000 exAngleSection = .ok ⟨[1 / 100000, 100, 1000], [.legendre [1, 1 / 4, 1 / 8], .legendre [1, 1 / 2, 1 / 4, 1 / 8, 1 / 16, 0, 0, 1 / 32],
    .tabular 2 [-1, 0, 1] [1 / 4, 1 / 2, 3 / 4]]⟩ := C155_angles_partial (exAngleSection_ok _)

example : angleFromEndf 20000000 [exAHead0, exACont0] = .ok ⟨[0, 20000000], [.uniform, .uniform]⟩ := C155_angles_partial (exIsotropic_ok _)

/-- Linear interpolation between two incident energies, and constant then logarithmic. -/
example : angleFromEndf 20000000 (exAHead1 :: exACont1 :: (exALeg ++ [exALeg0, exALeg1].flatten)) = angleFromEndf 20000000 (exAHead1 :: exACont1 :: (exALeg' ++ [exALeg0, exALeg1].flatten)) :=
  C155_schemes_refuted (h := ⟨92235, 2330248 / 10000, 0, 1, 0, 0⟩) (c := ⟨0, 2330248 / 10000, 0, 1, 0, 0⟩) (headLine_of (by decide +kernel) (by decide)) (contLine_of (by decide +kernel)) rfl rfl rfl
    (exLegendre_ok (c := ⟨0, 0, 0, 0, 1, 2⟩) (regions := [(2, 2)]) (tab2_of (by decide +kernel)) rfl)
    (exLegendre_ok (c := ⟨0, 0, 0, 0, 2, 2⟩) (regions := [(1, 1), (2, 5)]) (tab2_of (by decide +kernel)) rfl)

/-! ### C156 -/

example (rest : List Line) : rdEnergy (1000, 0, 0, 9) (exE9 ++ rest) = .ok (.evaporation (lin (1 / 100000) 400000 20000000 500000) 1000, rest) :=
  C156_laws_partial (p := ⟨1000, 0, 0, 9, 1, 2⟩) (.evaporation (c := ⟨0, 0, 0, 0, 1, 2⟩) rfl (tabRec_of (by decide +kernel))) rest

/-- An evaluation with one section of file 5. -/
example : neutronParts ⟨[((5, 18), exEnergySection)], 233, 20000000⟩ 18 0 = .ok (exParts.map (·.1), exParts.map fun x => .uncorrelated none (some x.2)) :=
  C156_section_partial rfl exEnergySection_ok

example (rest : List Line) : rdEnergy (0, 0, 0, 1) ((exE1 ++ [exE1a, exE1b].flatten) ++ rest) = rdEnergy (0, 0, 0, 1) ((exE1' ++ [exE1a, exE1b].flatten) ++ rest) :=
  C156_schemes_refuted (p := ⟨0, 0, 0, 1, 1, 2⟩) rfl (exSpectra_ok (c := ⟨0, 0, 0, 0, 1, 2⟩) (regions := [(2, 2)]) (tab2_of (by decide +kernel)) rfl)
    (exSpectra_ok (c := ⟨0, 0, 0, 0, 1, 2⟩) (regions := [(2, 1)]) (tab2_of (by decide +kernel)) rfl) rest

/-! ### C157 -/

example : productsFromEndf exProductSection = .ok exProducts := C157_products_partial exProductSection_ok

example (rest : List Line) : rdLaw 2 ((exPLeg ++ [exPLeg0].flatten) ++ rest) ≠ .ok ([.uncorrelated (some ⟨[1000000], [.legendre [1, 1 / 4, 1 / 8]]⟩) none], rest) :=
  (C157_legendre_refuted (c := ⟨0, 0, 0, 0, 1, 1⟩) (regions := [(1, 2)]) (xs := [(1000000, [1 / 4, 1 / 8])]) (by simp)
    ⟨exPLeg, [exPLeg0], rfl, tab2_of (by decide +kernel), rfl, .cons ⟨⟨0, 1000000, 0, 0, 2, 2⟩, listRec_of (by decide +kernel), rfl, rfl, by simp⟩ .nil⟩ rest).2

example (b : List Line) : rdProduct (exPCharged ++ b) = .ok (⟨c!"He4", .prompt, 0, .tab exOne, [], []⟩, b) :=
  C157_charged_refuted (c := ⟨2004, 4, 0, 5, 1, 2⟩) (tabRec_of (by decide +kernel)) (zap := 2004) rfl
    (exParticle (z := 2) (a := 4) (sym := c!"He") (by decide) (by decide) (by decide) (by unfold AceData.Element; decide +kernel) rfl (by decide +kernel)) rfl b

example (b : List Line) : rdLaw 1 (exPTabulated ++ b) = .ok ([], exPTabulated ++ b) :=
  C157_tabulated_refuted (c' := ⟨0, 0, 12, 2, 1, 2⟩) (regions := [(2, 2)]) (tab2_of (by decide +kernel)) (by decide) b

/-- A ground state and an isomer. -/
example (b : List Line) : rdProduct (exP8 ++ b) = rdProduct (exP8' ++ b) :=
  C157_isomer_refuted (c := ⟨1002, 2, 0, 0, 1, 2⟩) (c' := ⟨1002, 2, 1, 0, 1, 2⟩) (y := exOne) (tabRec_of (by decide +kernel)) (tabRec_of (by decide +kernel)) rfl rfl b

example (rest : List Line) : rdLaw 6 (exP6n :: rest) ≠ .ok ([.nbody 3 3 233 (-5000000)], rest) :=
  C157_nbody_refuted (c := ⟨3, 0, 0, 0, 0, 3⟩) (contLine_of (by decide +kernel)) (by norm_num) (by decide) 233 (-5000000) (Or.inl (by norm_num)) rest

/-- Logarithmic interpolation is read as linear. -/
example (rest : List Line) : rdCosine (exP7s ++ rest) = .ok ((1, 3 / 2, ⟨2, [1, 2], [1, 1 / 2]⟩), rest) := by
  have := C157_spectrum_refuted (c := ⟨0, 1, 0, 0, 1, 2⟩) (t := ⟨[1, 2], [1, 1 / 2], [2], [5]⟩) (ls := exP7s) (tabRec_of (by decide +kernel)) (by norm_num) rest
  rw [this]
  norm_num

/-! ### C158 -/

local instance : ExpLog ℚ := ⟨id, id⟩

theorem lin_wf {x0 y0 x1 y1 : ℚ} (h : x0 < x1) : Tab1D.WF (lin x0 y0 x1 y1) :=
  ⟨by simpa [lin] using h, rfl, by simp [lin], by simp [lin], by simp [lin], rfl, rfl⟩

def exFission : Ev := ⟨[((1, 452), exNuHead :: (exNu ++ [])), ((1, 455), exDelHead :: (exRates ++ (exDel ++ []))), ((1, 456), exPromptHead :: (exPrompt ++ [])), ((3, 18), ex3Head' :: (ex318 ++ [])),
  ((5, 18), exEnergySection), ((5, 455), exGroupLines)], 233, 20000000⟩

theorem exGroups_wf : ∀ x ∈ exGroups, Tab1D.WF x.1 := by
  intro x hx
  simp only [exGroups, List.mem_cons, List.not_mem_nil, or_false] at hx
  obtain rfl | rfl | rfl | rfl | rfl | rfl := hx <;> exact lin_wf (by norm_num)

theorem exFission_ok : ∃ ds, fissionFromEndf exFission = .ok (⟨c!"neutron", .prompt, 0, .tab (lin (1 / 100000) (9 / 4) 20000000 (9 / 2)), [], []⟩ :: ds,
      [⟨c!"neutron", .total, 0, .poly [5 / 2, 1 / 10000000], [], []⟩]) ∧
    List.Forall₂ (fun (rx : ℚ × (Tab1D ℚ × EnDist)) d => GroupProduct (.tab exDelayed) rx.1 rx.2 d) ([1 / 80, 1 / 32, 1 / 8, 1 / 4, 1, 4].zip exGroups) ds :=
  C158_neutrons_partial (ev := exFission) rfl rfl rfl rfl exPrompt_ok exNu_ok exDelayed_ok exGroups_ok rfl rfl (Or.inl ⟨_, rfl, lin_wf (by norm_num)⟩) exGroups_wf

example : ∃ ds, fissionFromEndf ⟨[((1, 452), exNuHead :: (exNu ++ [])), ((1, 455), exDelHead :: (exRates ++ (exDel ++ []))), ((5, 455), exGroupLines)], 233, 20000000⟩ =
      .ok (⟨c!"neutron", .total, 0, .poly [5 / 2, 1 / 10000000], [], []⟩ :: ds, []) ∧
    List.Forall₂ (fun (rx : ℚ × (Tab1D ℚ × EnDist)) d => GroupProduct (.tab exDelayed) rx.1 rx.2 d) ([1 / 80, 1 / 32, 1 / 8, 1 / 4, 1, 4].zip exGroups) ds :=
  C158_total_partial rfl rfl rfl rfl exNu_ok exDelayed_ok exGroups_ok rfl rfl (Or.inl ⟨_, rfl, lin_wf (by norm_num)⟩) exGroups_wf

example : fissionFromEndf ⟨[((1, 452), exNuHead :: (exNu ++ []))], 233, 20000000⟩ = .ok ([⟨c!"neutron", .total, 0, .poly [5 / 2, 1 / 10000000], [], []⟩], []) :=
  C158_prompt_only rfl rfl rfl exNu_ok

/-- With one group the prompt neutrons have the delayed yield. -/
example : ∃ ds, fissionFromEndf ⟨[((1, 452), exNuHead :: (exNu ++ [])), ((1, 455), exDelHead :: (exRates1 ++ (exDel ++ []))), ((1, 456), exPromptHead :: (exPrompt ++ [])),
      ((5, 455), exGHead1 :: ([exGp ++ exG].flatten ++ []))], 233, 20000000⟩ =
    .ok (⟨c!"neutron", .prompt, 0, .tab exDelayed, [], []⟩ :: ds, [⟨c!"neutron", .total, 0, .poly [5 / 2, 1 / 10000000], [], []⟩]) :=
  C158_few_refuted rfl rfl rfl rfl exPrompt_ok exNu_ok exDelayed1_ok exGroups1_ok (by decide) rfl (Or.inl ⟨_, rfl, lin_wf (by norm_num)⟩) (by
    intro x hx
    rw [List.mem_singleton.mp hx]
    exact lin_wf (by norm_num))

/-- With seven groups the first has the fraction as its yield. -/
example : ∃ d ds, fissionFromEndf ⟨[((1, 452), exNuHead :: (exNu ++ [])), ((1, 455), exDelHead :: (exRates7 ++ (exDel ++ []))), ((1, 456), exPromptHead :: (exPrompt ++ [])),
      ((5, 455), exGHead7 :: ([exGp ++ exG, exGp ++ exG, exGp' ++ exG, exGp ++ exG, exGp' ++ exG, exGp ++ exG, exGp ++ exG].flatten ++ []))], 233, 20000000⟩ =
    .ok (⟨c!"neutron", .prompt, 0, .tab (lin (1 / 100000) (9 / 4) 20000000 (9 / 2)), [], []⟩ :: d :: ds, [⟨c!"neutron", .total, 0, .poly [5 / 2, 1 / 10000000], [], []⟩]) ∧
      d.decayRate = 1 / 80 ∧ d.yield_ = .tab exGroup.1 :=
  C158_many_refuted rfl rfl rfl rfl exPrompt_ok exNu_ok exDelayed7_ok exGroups7_ok (by decide) rfl (Or.inl ⟨_, rfl, lin_wf (by norm_num)⟩) (by
    intro x hx
    obtain rfl | hx := List.mem_cons.mp hx
    · exact lin_wf (by norm_num)
    · exact exGroups_wf x hx)

example : groupYield (.poly [1 / 64, 1 / 1000000000]) exGroup.1 = .ok (.poly [1 / 64 * (1 / 8), 1 / 1000000000]) :=
  C158_polynomial_refuted (by simp [exGroup, lin]) (by simp [exGroup, lin])

/-! ### C159 -/

def exCaptureEv : Ev := ⟨[((3, 102), ex3Head :: (ex3 ++ [])), ((8, 102), exSHead :: ([[exS0], [exS1]].flatten ++ [])), ((9, 102), ex9Head :: ([ex90].flatten ++ [])),
  ((10, 102), ex10Head :: ([ex100].flatten ++ [])), ((12, 102), ex12Head :: (ex12t ++ ([ex120, ex121].flatten ++ [])))], 239, 20000000⟩

theorem exT10_wf : ∀ t ∈ exT10, Tab1D.WF t.2 := by
  intro t ht
  rw [List.mem_singleton.mp ht]
  exact lin_wf (by norm_num)

/-- The ground state replaces the yield of a product of file 6, the isomer comes behind. -/
example : ∃ s10 old', List.Forall₂ (fun t s => s.1 = t.1 ∧ Ratio t.2 exCapture s.2) exT10 s10 ∧
    List.Forall₂ (Replaced (exT9 ++ s10)) [exProduct c!"Am242" exOne [], exProduct c!"photon" exOne []] old' ∧
      addActivation exCaptureEv ⟨102, true, 5500000, some exCapture, [exProduct c!"Am242" exOne [], exProduct c!"photon" exOne []], []⟩ =
        .ok ⟨102, true, 5500000, some exCapture, old' ++ ((exT9 ++ s10).filter fun s => decide (s.1 ∉ [c!"Am242", c!"photon"])).map stateProduct, []⟩ :=
  C159_states_partial (rx := ⟨102, true, 5500000, some exCapture, [exProduct c!"Am242" exOne [], exProduct c!"photon" exOne []], []⟩) rfl ex8_ok (Or.inr ⟨by decide, _, rfl, ex9_ok⟩)
    (Or.inr ⟨by decide, _, rfl, ex10_ok⟩) rfl (lin_wf (by norm_num)) exT10_wf (by decide +kernel) (by decide +kernel)

example (rest : List Line) : activationStates 9 none 1 [exProduct c!"Am242_e2" exOne [], exProduct c!"Am242_e2" exOne []] [] (ex90 ++ rest) =
    .ok (([exProduct c!"Am242_e2" (lin (1 / 100000) (1 / 8) 20000000 (1 / 2)) [], exProduct c!"Am242_e2" exOne []], []), rest) :=
  C159_isomer_refuted exState9_ok rfl rfl rest

/-! ### C160 -/

example (rx : Rx) (h : rx.mt = 102) : photonsFromEndf exCaptureEv rx = .ok ((exPhotons 239).map fun x => photonProduct x.1 x.2) :=
  C160_multiplicities_partial (by rw [h]; rfl) (ex12_ok 239)

example : ∃ ys, List.Forall₂ (fun (x : Tab1D ℚ × Option EnDist) y => Ratio x.1 exCapture y) [(lin (1 / 100000) 5 10000000 1, some (.discretePhoton 0 500000 239))] ys ∧
    photonsFromEndf ⟨[((13, 102), ex13Head :: ([] ++ ([ex130].flatten ++ [])))], 239, 20000000⟩ ⟨102, true, 5500000, some exCapture, [], []⟩ =
      .ok (List.zipWith (fun y x => photonProduct y x.2) ys [(lin (1 / 100000) 5 10000000 1, some (.discretePhoton 0 500000 239))]) :=
  C160_cross_sections_partial rfl rfl (ex13_ok 239) rfl (lin_wf (by norm_num)) (by
    intro x hx
    rw [List.mem_singleton.mp hx]
    exact lin_wf (by norm_num))

example : photonsFromEndf ⟨[((12, 51), ex12Head2 :: (ex12l ++ []))], 239, 20000000⟩ ⟨51, true, -75, none, [], []⟩ = .ok [] :=
  C160_transitions_refuted (h := ⟨95241, 238986 / 1000, 2, 1, 1, 0⟩) (c := ⟨500000, 0, 1, 0, 2, 1⟩) (vs := [0, 1]) rfl (headLine_of (by decide +kernel) (by decide)) rfl (listRec_of (by decide +kernel))

example : photonsFromEndf ⟨[((12, 102), ex12Head1 :: (ex121 ++ [])), ((15, 102), [ex15Head])], 239, 20000000⟩ ⟨102, true, 5500000, none, [], []⟩ =
    .ok [⟨c!"photon", .prompt, 0, .tab (lin (1 / 100000) 2 20000000 3), [], [.uncorrelated none none]⟩] :=
  C160_continuum_refuted (h := ⟨95241, 238986 / 1000, 1, 0, 1, 0⟩) (c := ⟨0, 0, 0, 1, 1, 2⟩) rfl rfl (headLine_of (by decide +kernel) (by decide)) rfl rfl (tabRec_of (by decide +kernel)) rfl

/-! ### C161 -/

/-- Elastic scattering, a level, (n, 2n) and inelastic scattering to the continuum. -/
def exEv : Ev := ⟨[((2, 151), []), ((3, 2), ex3Head' :: (ex32 ++ [])), ((3, 16), ex3Head' :: (ex316 ++ [])), ((3, 51), ex3Head' :: (ex351 ++ [])), ((3, 91), ex3Head' :: (ex351 ++ [])),
  ((4, 2), exAHead0 :: exACont0 :: ([] ++ ([] ++ []))), ((4, 51), exAngleSection), ((5, 16), exEnergySection), ((6, 91), exProductSection)], 233, 20000000⟩

theorem exElastic_ok : rxFromEndf exEv 2 = .ok ⟨2, true, 0, some (lin (1 / 100000) 10 20000000 4), [oneNeutron [] [.uncorrelated (some ⟨[0, 20000000], [.uniform, .uniform]⟩) none]], []⟩ :=
  C161_reaction_partial (by norm_num [exEv]) (by unfold Fission; omega) rfl ex32_ok (.elastic rfl rfl rfl (Or.inr ⟨_, _, _, rfl, exIsotropic_ok _, rfl⟩)) rfl rfl rfl

example : rxFromEndf exEv 51 = .ok ⟨51, true, -75, some (lin (753125 / 10000) 0 20000000 4), [oneNeutron [] [.uncorrelated (some ⟨exAngles.map (·.1), exAngles.map (·.2)⟩)
    (some (.level (234 * 75 / 233) (233 ^ 2 / 234 ^ 2)))]], []⟩ :=
  C161_reaction_partial (by norm_num [exEv]) (by unfold Fission; omega) rfl ex351_ok (.level (by decide) (by decide) rfl rfl (Or.inr ⟨_, _, _, rfl, exAngleSection_ok _, rfl⟩)
    (by norm_num [exEv]) (by norm_num [exEv])) rfl rfl rfl

example : rxFromEndf exEv 91 = .ok ⟨91, true, -75, some (lin (753125 / 10000) 0 20000000 4), exProducts, []⟩ :=
  C161_reaction_partial (by norm_num [exEv]) (by unfold Fission; omega) rfl ex351_ok (.file6 rfl exProductSection_ok) rfl rfl rfl

example : ∃ p, rxFromEndf exEv 16 = .ok ⟨16, true, -5000000, some (lin 5062500 0 20000000 1), [p], []⟩ ∧ p.particle = c!"neutron" ∧ p.yield_ = .poly [1] :=
  C161_multiplicity_refuted (by norm_num [exEv]) rfl ex316_ok rfl rfl exEnergySection_ok (Or.inl ⟨rfl, rfl⟩) rfl rfl rfl

example : ∃ s10 ps', List.Forall₂ (fun t s => s.1 = t.1 ∧ Ratio t.2 exCapture s.2) exT10 s10 ∧ List.Forall₂ (Replaced (exT9 ++ s10)) [] ps' ∧
    rxFromEndf exCaptureEv 102 = .ok ⟨102, true, 5500000, some exCapture, ps' ++ ((exT9 ++ s10).filter fun s => decide (s.1 ∉ ([] : List Prod).map (·.particle))).map stateProduct ++
      (exPhotons 239).map fun x => photonProduct x.1 x.2, []⟩ :=
  C161_all_partial (by norm_num [exCaptureEv]) (by unfold Fission; omega) rfl ex3_ok (.none rfl rfl rfl) rfl ex8_ok (Or.inr ⟨by decide, _, rfl, ex9_ok⟩) (Or.inr ⟨by decide, _, rfl, ex10_ok⟩)
    (lin_wf (by norm_num)) exT10_wf (by decide +kernel) (by decide) rfl (ex12_ok 239)

theorem exFission18 : ∃ p ds derived, rxFromEndf exFission 18 = .ok ⟨18, true, 190000000, some (lin (1 / 100000) 500 20000000 2), p :: ds, derived⟩ ∧
    p.applicability = exParts.map (·.1) ∧ p.dist = (exParts.map fun x => .uncorrelated none (some x.2)) ∧ ds.length = 6 := by
  obtain ⟨ds, h, h2⟩ := exFission_ok
  exact ⟨_, ds, _, C161_fission_partial (Or.inl rfl) rfl ex318_ok h rfl rfl exEnergySection_ok (Or.inl ⟨rfl, rfl⟩) rfl rfl rfl, rfl, rfl, by
    have := h2.length_eq
    simpa [exGroups] using this.symm⟩

/-- Fission with a section of file 6 that has a neutron between other products. -/
def exFission6 : Ev := ⟨[((1, 452), exNuHead :: (exNu ++ [])), ((3, 18), ex3Head' :: (ex318 ++ [])), ((6, 18), exF6Head :: ([exP5 ++ [], exP6 ++ [exP6n], exP8 ++ []].flatten ++ []))], 233, 20000000⟩

example : rxFromEndf exFission6 18 = .ok ⟨18, true, 190000000, some (lin (1 / 100000) 500 20000000 2),
    [⟨c!"neutron", .total, 0, .poly [5 / 2, 1 / 10000000], [], [.nbody 3 3 1 0]⟩, exProduct c!"photon" exOne [.uncorrelated none none], exProduct c!"H2" exOne []], []⟩ :=
  C161_fission6_partial (before := [exProduct c!"photon" exOne [.uncorrelated none none]]) (n := exProduct c!"neutron" exOne [.nbody 3 3 1 0]) (after := [exProduct c!"H2" exOne []]) (ds := [])
    (Or.inl rfl) rfl ex318_ok (C158_prompt_only rfl rfl rfl exNu_ok) rfl exF6_ok rfl (by decide) (by decide) rfl rfl rfl

example : ∃ r, rxFromEndf exEv 2 = .ok r ∧ r.com = true := ⟨_, exElastic_ok, C161_frame_refuted exElastic_ok⟩

/-! ### C162 -/

/-- An evaluation of uranium 235 with resonances, elastic scattering, fission and first-chance fission, which has no section of file 5. -/
def exEvaluation (f2 : List Line) : Evaluation where
  sections := [((1, 452), exNuHead :: (exNu ++ [])), ((2, 151), f2), ((3, 2), ex3Head' :: (ex32 ++ [])), ((3, 18), ex3Head' :: (ex318 ++ [])), ((3, 19), ex3Head' :: (ex319 ++ [])),
    ((4, 2), exAHead0 :: exACont0 :: ([] ++ ([] ++ []))), ((5, 18), exEnergySection)]
  mass := 233
  energyMax := 20000000
  z := 92
  a := 235
  m := 0
  temperature := 0
  list := [(1, 451), (1, 452), (2, 151), (3, 2), (3, 18), (3, 19), (4, 2), (5, 18)]

def exNeutron (app : List (Tab1D ℚ)) (ds : List Dist) : Prod := ⟨c!"neutron", .total, 0, .poly [5 / 2, 1 / 10000000], app, ds⟩

def exReactions : List Rx := [⟨2, true, 0, some (lin (1 / 100000) 10 20000000 4), [oneNeutron [] [.uncorrelated (some ⟨[0, 20000000], [.uniform, .uniform]⟩) none]], []⟩,
  ⟨18, true, 190000000, some (lin (1 / 100000) 500 20000000 2), [exNeutron (exParts.map (·.1)) (exParts.map fun x => .uncorrelated none (some x.2))], []⟩,
  ⟨19, true, 190000000, some (lin (1 / 100000) 500 20000000 1), [exNeutron [] []], []⟩]

theorem exReactions_ok (f2 : List Line) : List.Forall₂ (fun mt r => rxFromEndf (exEvaluation f2).toEv mt = .ok r) (listed (exEvaluation f2).list) exReactions :=
  .cons (C161_reaction_partial (by norm_num [exEvaluation]) (by unfold Fission; decide) rfl ex32_ok (.elastic rfl rfl rfl (Or.inr ⟨_, _, _, rfl, exIsotropic_ok _, rfl⟩)) rfl rfl rfl)
    (.cons (C161_fission_partial (Or.inl rfl) rfl ex318_ok (C158_prompt_only rfl rfl rfl exNu_ok) rfl rfl exEnergySection_ok (Or.inl ⟨rfl, rfl⟩) rfl rfl rfl)
    (.cons (C161_yields_partial (Or.inr (Or.inl rfl)) rfl ex319_ok (C158_prompt_only rfl rfl rfl exNu_ok) rfl rfl rfl rfl rfl rfl) .nil))

/-- First-chance fission has the spectra of fission; elastic scattering and fission have resonances. -/
theorem exNuclide_ok : ∃ (f2 : List Line) (rs : List Res.Range), rs.length = 5 ∧ nuclideFromEndf (exEvaluation f2) = .ok ⟨c!"U235", 92, 235, 0, 233, .number 0, some rs,
    [(2, ⟨2, true, 0, some (lin (1 / 100000) 10 20000000 4), [oneNeutron [] [.uncorrelated (some ⟨[0, 20000000], [.uniform, .uniform]⟩) none]], []⟩),
     (18, ⟨18, true, 190000000, some (lin (1 / 100000) 500 20000000 2), [exNeutron (exParts.map (·.1)) (exParts.map fun x => .uncorrelated none (some x.2))], []⟩),
     (19, ⟨19, true, 190000000, some (lin (1 / 100000) 500 20000000 1), [exNeutron (exParts.map (·.1)) (exParts.map fun x => .uncorrelated none (some x.2))], []⟩)],
    [2, 18]⟩ := by
  obtain ⟨isos, ls, h, hl, hb⟩ := Res.exSection_ok
  have hr := Res.C148_section_partial 233 _ _ h
  refine ⟨ls, isos.flatten, by rw [List.length_flatten, hl]; rfl, ?_⟩
  have := C162_nuclide_partial (ev := exEvaluation ls) (z := 92) (a := 235) (m := 0) (sym := c!"U") (n := exNeutron (exParts.map (·.1)) (exParts.map fun x => .uncorrelated none (some x.2))) rfl rfl
    rfl (by unfold AceData.Element; decide +kernel) (by norm_num [exEvaluation]) rfl hr (show [(2 : Int), 18, 19].Nodup by decide) (exReactions_ok ls) (by simp [exReactions])
    (Or.inr ⟨⟨_, [], List.mem_cons_of_mem _ (List.mem_cons_self ..), rfl⟩, by
      intro mt r hm _
      have : r ∈ exReactions := (List.of_mem_zip hm).2
      simp only [exReactions, List.mem_cons, List.not_mem_nil, or_false] at this
      obtain rfl | rfl | rfl := this <;> simp⟩)
  rw [if_pos ⟨_, hb, Or.inl ⟨_, rfl⟩⟩] at this
  rw [this]
  have hname : Decay.nuclideName c!"U" 235 0 = c!"U235" := by decide +kernel
  rw [hname]
  rfl

/-- The temperatures of this nuclide. -/
example : ∃ (f2 : List Line) (n : Nuclide), nuclideFromEndf (exEvaluation f2) = .ok n ∧ ∀ k text, temperatures k text n.kTs = .error .typeError := by
  obtain ⟨f2, rs, -, h⟩ := exNuclide_ok
  exact ⟨f2, _, h, fun k text => C162_temperatures_refuted h k text⟩

/-- The same evaluation without file 2. -/
example : nuclideFromEndf { exEvaluation [] with sections := [((3, 2), ex3Head' :: (ex32 ++ [])), ((4, 2), exAHead0 :: exACont0 :: ([] ++ ([] ++ [])))], list := [(1, 451), (3, 2), (4, 2)] } =
    .error .typeError :=
  C162_file2_refuted (z := 92) (a := 235) (m := 0) (sym := c!"U") (rxs := [⟨2, true, 0, some (lin (1 / 100000) 10 20000000 4), [oneNeutron [] [.uncorrelated (some ⟨[0, 20000000], [.uniform, .uniform]⟩) none]], []⟩])
    rfl rfl rfl (by unfold AceData.Element; decide +kernel) (by norm_num [exEvaluation]) rfl (by decide)
    (.cons (C161_reaction_partial (by norm_num [exEvaluation]) (by unfold Fission; decide) rfl ex32_ok (.elastic rfl rfl rfl (Or.inr ⟨_, _, _, rfl, exIsotropic_ok _, rfl⟩)) rfl rfl rfl) .nil)

/-- First-chance fission with its own distribution in file 6. -/
example (ev : Evaluation) (f6 : List Line) (h6 : Dict.get? ev.sections (6, 19) = some f6) (h5 : Dict.get? ev.sections (5, 19) = none) :
    copyFission ev.toEv [(18, ⟨18, true, 0, none, [exNeutron [] [.nbody 3 3 1 0]], []⟩)] (19, ⟨19, true, 0, none, [exNeutron [] [.nbody 5 5 1 0]], []⟩) =
      .ok (19, ⟨19, true, 0, none, [exNeutron [] [.nbody 3 3 1 0]], []⟩) :=
  C162_chances_refuted (r := ⟨19, true, 0, none, [exNeutron [] [.nbody 5 5 1 0]], []⟩) (r18 := ⟨18, true, 0, none, [exNeutron [] [.nbody 3 3 1 0]], []⟩) (p := exNeutron [] [.nbody 5 5 1 0])
    (n := exNeutron [] [.nbody 3 3 1 0]) (ps := []) (ns := []) h6 h5 rfl rfl rfl

end ASAPy.EndfRx
