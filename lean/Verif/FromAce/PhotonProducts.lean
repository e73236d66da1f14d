import Verif.FromAce.PhotonSum

/-! # The photons of the reactions of an ACE table (C230) -/

set_option linter.unusedSectionVars false

namespace ASAPy.FromAce
open ASAPy.Ace ASAPy.AceData

variable {K : Type} [Field K] [LinearOrder K] [FloorRing K] [IsStrictOrderedRing K]

/-- A product that stands for photons number `i` of the table. -/
def IsPhoton (t : AceData.Table K) (i : Nat) (p : Product K) : Prop :=
  p.mode = .prompt ∧ ∀ incident spectra, HoldsPhotonSpectrum t i incident spectra →
    p.dist = some (some (incident.map (· * 1000000), spectra.map Spectrum.loaded))

theorem photonMts_spec {t : AceData.Table K} {a : Arrays K} (ha : Inv t a) {pms : List Nat} (hp : HoldsPhotons t pms) :
    photonMts a = .ok (pms.map fun m : Nat => (m : Int)) := by
  obtain ⟨h6, j, h13, hat⟩ := hp
  have e6 := ha.n (i := 6) (by omega) h6
  have e13 := ha.j (i := 13) (by omega) h13
  simp only [Nat.cast_ofNat] at e6 e13
  have hatL := ha.xss.at hat.list (by
    intro v hv
    obtain ⟨w, -, rfl⟩ := List.mem_map.mp hv
    exact Nat.cast_nonneg _)
  unfold photonMts
  rw [e6, e13]
  simp only [bind, Except.bind, pure, Except.pure, Except.ok.injEq]
  rw [slice_at hatL _ _ rfl (by rw [List.length_map]), map_trunc]

theorem photonProducts_spec {t : AceData.Table K} {a : Arrays K} (ha : Inv t a) (pms : List Nat) (mt : MT) : ∀ (is : List Nat) (ps : List (Product K)),
    photonProducts a mt (pms.map fun m : Nat => (m : Int)) is = .ok ps → List.Forall₂ (IsPhoton t) (is.filter fun i => pms[i]?.any fun m => m / 1000 = mt) ps
  | [], ps, h => by
    simp only [photonProducts, Except.ok.injEq] at h
    subst h
    exact .nil
  | i :: is, ps, h => by
    unfold photonProducts at h
    simp only [bind, Except.bind] at h
    cases hi : pms[i]? with
    | none =>
      have : item (pms.map fun m : Nat => (m : Int)) (i : Int) = .error .indexError := by
        unfold item
        rw [show pyGet (pms.map fun m : Nat => (m : Int)) (i : Int) = none by simp [pyGet, hi]]
      rw [this] at h
      cases h
    | some m =>
      rw [item_nat _ i (m : Int) (by rw [List.getElem?_map, hi]; rfl)] at h
      simp only at h
      by_cases hm : m / 1000 = mt
      · rw [if_neg (by rw [ne_eq, not_not, ← hm]; norm_cast)] at h
        split at h
        · cases h
        rename_i j18 h18
        split at h
        · cases h
        rename_i start hst
        split at h
        · cases h
        rename_i j19 h19
        split at h
        · cases h
        rename_i d hd
        split at h
        · cases h
        rename_i qs hq
        simp only [pure, Except.pure, Except.ok.injEq] at h
        subst h
        rw [List.filter_cons_of_pos (by simp [hi, hm])]
        refine .cons ⟨rfl, ?_⟩ (photonProducts_spec ha pms mt is qs hq)
        rintro inc sp ⟨k18, k19, loc, q18, q19, ql, q4⟩
        have e18 := ha.j (i := 18) (by omega) q18
        have e19 := ha.j (i := 19) (by omega) q19
        simp only [Nat.cast_ofNat] at e18 e19
        rw [h18] at e18
        rw [h19] at e19
        obtain rfl := Except.ok.inj e18
        obtain rfl := Except.ok.inj e19
        rw [ha.int ql _ (by push_cast; rfl)] at hst
        obtain rfl := Except.ok.inj hst
        rw [angleEnergy_spec ha q4] at hd
        obtain rfl := Except.ok.inj hd
        rfl
      · rw [if_pos (by rw [ne_eq]; exact_mod_cast hm)] at h
        rw [List.filter_cons_of_neg (by simp [hi, hm])]
        exact photonProducts_spec ha pms mt is ps h

theorem photons_spec {t : AceData.Table K} {a : Arrays K} (ha : Inv t a) {pms : List Nat} (hp : HoldsPhotons t pms) {mt : MT} {ps : List (Product K)} (h : photons a mt = .ok ps) :
    List.Forall₂ (IsPhoton t) (photonNumbers pms mt) ps := by
  have e6 := ha.n (i := 6) (by omega) hp.1
  simp only [Nat.cast_ofNat] at e6
  unfold photons at h
  rw [e6, photonMts_spec ha hp] at h
  simp only [bind, Except.bind, Int.toNat_natCast] at h
  exact photonProducts_spec ha pms mt _ _ h

theorem neutrons_nil {t : AceData.Table K} {a : Arrays K} (ha : Inv t a) {n : Int} (hn : NXS t 5 = some n) {k : Nat} {mt : MT} {ps derived : List (Product K)}
    (h : neutrons a (k + 1) mt = .ok (ps, derived)) : ps = [] ↔ n ≤ k := by
  have n5 := ha.n (i := 5) (by omega) hn
  simp only [Nat.cast_ofNat] at n5
  unfold neutrons at h
  simp only [bind, Except.bind] at h
  split at h
  · cases h
  split at h
  · cases h
  rw [n5] at h
  simp only at h
  by_cases hlt : ((k + 1 : Nat) : Int) < n + 1
  · rw [if_pos hlt] at h
    refine ⟨fun h0 => absurd h ?_, fun h0 => by push_cast at hlt; omega⟩
    subst h0
    intro h
    split at h
    · split at h
      · cases h
      · simp [pure, Except.pure] at h
    · split at h
      · cases h
      split at h
      · cases h
      split at h
      · cases h
      split at h
      · cases h
      split at h
      · cases h
      simp [pure, Except.pure] at h
  · rw [if_neg hlt] at h
    simp only [pure, Except.pure, Except.ok.injEq, Prod.mk.injEq] at h
    exact ⟨fun _ => by push_cast at hlt; omega, fun _ => h.1.symm⟩

variable [ExpLog K]

/-- **C230.** The products of a reaction that the table lists are neutrons, if it is one of those with neutrons, and then one product for each of the photons that the table gives for it, in the order
of the table, with its spectrum. (The last reaction with its MT counts; MT 101 may be overwritten, and gas production and damage are left out.) -/
theorem C230_listed {t : AceData.Table K} {c : Content K} (hc : Holds t c) {pms : List Nat} (hp : HoldsPhotons t pms) {rs : List (MT × Rx K)} (h : reactions t = .ok rs) {k : Nat} {r : Entry K}
    (hr : c.Last k r) (hl : ¬ LeftOut r.mt) (h101 : r.mt ≠ 101) :
    ∃ rx ns ph, Dict.get? rs r.mt = some rx ∧ rx.products = ns ++ ph ∧ (∀ n, NXS t 5 = some n → (ns = [] ↔ n ≤ k)) ∧ List.Forall₂ (IsPhoton t) (photonNumbers pms r.mt) ph := by
  obtain ⟨rs1, a1, pm, rs2, g1, _, g3, g4⟩ := reactions_split hc h
  have ha : Inv t (⟨0 :: t.nxs, 0 :: t.jxs, 0 :: t.xss⟩ : Arrays K) := ⟨rfl, rfl, Fixed.refl _⟩
  have hk : Kept t c (⟨0 :: t.nxs, 0 :: t.jxs, 0 :: t.xss⟩ : Arrays K) := fun _ _ => rfl
  obtain ⟨rx, a0, a2, i1, i2, i3, i4⟩ := readAll_from hc _ _ _ _ _ ha hk (fun i hi => by rw [List.mem_range] at hi; omega) g1 r.mt (k + 1) _ _
    (range_split hr.1) (by unfold Content.mtAt; rw [if_neg (by omega), Nat.add_sub_cancel, hr.1]; rfl) (by
      unfold LeftOut at hl
      unfold skipped
      simp only [Bool.or_eq_false_iff, decide_eq_false_iff_not]
      tauto) (last_after hr)
  obtain ⟨_, _, _, q1, _, ps, ph, q2, q4, q3⟩ := reaction_xs hc i1 hr.1 i3
  exact ⟨rx, ps, ph, addSums_keeps _ _ _ _ g4 _ _ (addPhotonMts_keeps _ _ _ _ _ _ g3 _ _ (Or.inl h101) i4), q3, fun n hn => neutrons_nil q1 hn q2, photons_spec q1 hp q4⟩

/-- Reaction `k` (from 0) has neutrons and is not fission (TYR block, at JXS(5), and NXS(5)). -/
def Scatters (t : AceData.Table K) (k : Nat) : Prop :=
  ∃ (j m : Nat) (n : Int), JXS t 5 = some (j : Int) ∧ XSS t (j + k) = some (m : K) ∧ m ≠ 19 ∧ NXS t 5 = some n ∧ (k : Int) < n

/-- Reaction `k` has no law for its neutrons (LDLW block, at JXS(10)). -/
def NoLaw (t : AceData.Table K) (k : Nat) : Prop :=
  ∃ (j : Nat) (j11 : Int), JXS t 10 = some (j : Int) ∧ JXS t 11 = some j11 ∧ XSS t (j + k) = some 0

theorem neutrons_scatter {t : AceData.Table K} {a : Arrays K} (ha : Inv t a) {k : Nat} (hf : Scatters t k) {mt : MT} {ps derived : List (Product K)}
    (h : neutrons a (k + 1) mt = .ok (ps, derived)) : ∃ d, firstDist a (k + 1) = .ok d ∧ ps = [⟨.prompt, none, d⟩] ∧ derived = [] := by
  obtain ⟨j, m, n, hj, hx, hm, hn, hlt⟩ := hf
  have e5 := ha.j (i := 5) (by omega) hj
  have n5 := ha.n (i := 5) (by omega) hn
  simp only [Nat.cast_ofNat] at e5 n5
  unfold neutrons at h
  simp only [bind, Except.bind] at h
  rw [e5] at h
  simp only at h
  rw [ha.int hx _ (by push_cast; ring)] at h
  simp only at h
  rw [n5] at h
  simp only at h
  rw [if_pos (by push_cast; omega), if_pos (by exact_mod_cast hm)] at h
  split at h
  · cases h
  rename_i d hd
  simp only [pure, Except.pure, Except.ok.injEq, Prod.mk.injEq] at h
  exact ⟨d, hd, h.1.symm, h.2.symm⟩

theorem firstDist_none {t : AceData.Table K} {a : Arrays K} (ha : Inv t a) {k : Nat} (h : NoLaw t k) : firstDist a (k + 1) = .ok none := by
  obtain ⟨j, j11, h10, h11, hx⟩ := h
  have e10 := ha.j (i := 10) (by omega) h10
  have e11 := ha.j (i := 11) (by omega) h11
  simp only [Nat.cast_ofNat] at e10 e11
  unfold firstDist
  simp only [bind, Except.bind]
  rw [e10, e11]
  simp only
  rw [ha.int (n := 0) (by simpa using hx) _ (by push_cast; ring)]
  rfl

/-- **C230.** The neutrons of a listed reaction other than fission are one prompt product, which has the spectra that the table gives for the reaction, and none if the table has no law for it. -/
theorem C230_neutrons {t : AceData.Table K} {c : Content K} (hc : Holds t c) {rs : List (MT × Rx K)} (h : reactions t = .ok rs) {k : Nat} {r : Entry K}
    (hr : c.Last k r) (hl : ¬ LeftOut r.mt) (h101 : r.mt ≠ 101) (hf : Scatters t k) :
    ∃ rx p ph, Dict.get? rs r.mt = some rx ∧ rx.products = p :: ph ∧ p.mode = .prompt ∧ rx.derived = [] ∧ (NoLaw t k → p.dist = none) ∧
      ∀ incident spectra, HoldsChi t k incident spectra → p.dist = some (some (incident.map (· * 1000000), spectra.map Spectrum.loaded)) := by
  obtain ⟨rs1, a1, pm, rs2, g1, _, g3, g4⟩ := reactions_split hc h
  have ha : Inv t (⟨0 :: t.nxs, 0 :: t.jxs, 0 :: t.xss⟩ : Arrays K) := ⟨rfl, rfl, Fixed.refl _⟩
  have hk : Kept t c (⟨0 :: t.nxs, 0 :: t.jxs, 0 :: t.xss⟩ : Arrays K) := fun _ _ => rfl
  obtain ⟨rx, a0, a2, i1, i2, i3, i4⟩ := readAll_from hc _ _ _ _ _ ha hk (fun i hi => by rw [List.mem_range] at hi; omega) g1 r.mt (k + 1) _ _
    (range_split hr.1) (by unfold Content.mtAt; rw [if_neg (by omega), Nat.add_sub_cancel, hr.1]; rfl) (by
      unfold LeftOut at hl
      unfold skipped
      simp only [Bool.or_eq_false_iff, decide_eq_false_iff_not]
      tauto) (last_after hr)
  obtain ⟨_, _, _, q1, _, ps, ph, q2, -, q3⟩ := reaction_xs hc i1 hr.1 i3
  obtain ⟨d, w1, w2, w3⟩ := neutrons_scatter q1 hf q2
  refine ⟨rx, _, ph, addSums_keeps _ _ _ _ g4 _ _ (addPhotonMts_keeps _ _ _ _ _ _ g3 _ _ (Or.inl h101) i4), by rw [q3, w2]; rfl, rfl, w3, ?_, ?_⟩
  · intro hn
    rw [firstDist_none q1 hn] at w1
    exact (Except.ok.inj w1).symm
  · intro inc sp hch
    rw [firstDist_spec q1 hch] at w1
    exact (Except.ok.inj w1).symm

/-- **C230.** The products of elastic scattering are one for its neutrons, and then one for each of its photons. -/
theorem C230_elastic {t : AceData.Table K} {c : Content K} (hc : Holds t c) {pms : List Nat} (hp : HoldsPhotons t pms) {rs : List (MT × Rx K)} (h : reactions t = .ok rs)
    (hnot : ∀ r ∈ c.reactions, r.mt ≠ 2) :
    ∃ rx n ph, Dict.get? rs 2 = some rx ∧ rx.products = n :: ph ∧ List.Forall₂ (IsPhoton t) (photonNumbers pms 2) ph := by
  obtain ⟨rs1, a1, pm, rs2, g1, _, g3, g4⟩ := reactions_split hc h
  have ha : Inv t (⟨0 :: t.nxs, 0 :: t.jxs, 0 :: t.xss⟩ : Arrays K) := ⟨rfl, rfl, Fixed.refl _⟩
  have hk : Kept t c (⟨0 :: t.nxs, 0 :: t.jxs, 0 :: t.xss⟩ : Arrays K) := fun _ _ => rfl
  obtain ⟨rx, a0, a2, i1, i2, i3, i4⟩ := readAll_from hc _ _ _ _ _ ha hk (fun i hi => by rw [List.mem_range] at hi; omega) g1 2 0 [] _
    (List.range_succ_eq_map (n := c.reactions.length)) rfl (by decide) (by
      intro j hj hcon
      obtain ⟨m, -, rfl⟩ := List.mem_map.mp hj
      unfold Content.mtAt at hcon
      rw [if_neg (Nat.succ_ne_zero m)] at hcon
      obtain ⟨r', hr', hrm⟩ := Option.map_eq_some_iff.mp hcon
      exact hnot r' (List.mem_of_getElem? hr') hrm)
  obtain ⟨_, _, _, q1, _, ph, q2, q3⟩ := elastic_xs hc i1 i3
  exact ⟨rx, _, ph, addSums_keeps _ _ _ _ g4 _ _ (addPhotonMts_keeps _ _ _ _ _ _ g3 _ _ (Or.inl (by decide)) i4), q3, photons_spec q1 hp q2⟩

theorem addPhotonMts_products (a : Arrays K) (energy : List K) (abs : Option (Rx K)) {mt : MT} (h101 : mt ≠ 101) : ∀ (mts : List MT) (rs rs' : List (MT × Rx K)),
    addPhotonMts a energy abs mts rs = .ok rs' → (∀ rx, Dict.get? rs mt = some rx → photons a mt = .ok rx.products) → ∀ rx, Dict.get? rs' mt = some rx → photons a mt = .ok rx.products := by
  intro mts
  induction mts with
  | nil => intro rs rs' h hg; simp only [addPhotonMts, Except.ok.injEq] at h; rw [← h]; exact hg
  | cons m mts ih =>
    intro rs rs' h hg
    unfold addPhotonMts at h
    by_cases h1 : has rs m = true
    · rw [if_pos h1] at h; exact ih _ _ h hg
    rw [if_neg h1] at h
    by_cases h2 : (Comp.sumRules.lookup m).isNone = true
    · rw [if_pos h2] at h; exact ih _ _ h hg
    rw [if_neg h2] at h
    by_cases h3 : componentsOf rs m = []
    · rw [if_pos h3] at h; exact ih _ _ h hg
    rw [if_neg h3] at h
    cases hr : redundant rs energy (componentsOf rs m) with
    | error e => rw [hr] at h; cases h
    | ok r =>
      rw [hr] at h
      simp only [bind, Except.bind] at h
      cases hp : photons a m with
      | error e => rw [hp] at h; cases h
      | ok ph =>
        rw [hp] at h
        simp only at h
        split at h
        · cases abs with
          | none => simp at h
          | some r' =>
            simp only at h
            refine ih _ _ h fun rx hx => hg rx ?_
            rwa [Dict.get?_set_ne _ _ h101] at hx
        · refine ih _ _ h fun rx hx => ?_
          by_cases hm : m = mt
          · subst hm
            rw [Dict.get?_set_same] at hx
            cases hx
            exact hp
          · rw [Dict.get?_set_ne _ _ (Ne.symm hm)] at hx
            exact hg rx hx

theorem addSums_other (energy : List K) {mt : MT} : ∀ (mts : List MT) (rs rs' : List (MT × Rx K)), addSums energy mts rs = .ok rs' → mt ∉ mts → Dict.get? rs' mt = Dict.get? rs mt := by
  intro mts
  induction mts with
  | nil => intro rs rs' h _; simp only [addSums, Except.ok.injEq] at h; rw [← h]
  | cons m mts ih =>
    intro rs rs' h hm
    simp only [List.mem_cons, not_or] at hm
    unfold addSums at h
    by_cases h1 : has rs m = true
    · rw [if_pos h1] at h; exact ih _ _ h hm.2
    rw [if_neg h1] at h
    by_cases h3 : componentsOf rs m = []
    · rw [if_pos h3] at h; exact ih _ _ h hm.2
    rw [if_neg h3] at h
    cases hr : redundant rs energy (componentsOf rs m) with
    | error e => rw [hr] at h; cases h
    | ok r =>
      rw [hr] at h
      simp only [bind, Except.bind] at h
      rw [ih _ _ h hm.2, Dict.get?_set_ne _ _ hm.1]

/-- **C230.** The products of a sum of reactions that is added for its photons are these photons, and nothing else. -/
theorem C230_added {t : AceData.Table K} {c : Content K} (hc : Holds t c) {pms : List Nat} (hp : HoldsPhotons t pms) {rs : List (MT × Rx K)} (h : reactions t = .ok rs) {mt : MT} {rx : Rx K}
    (hrx : Dict.get? rs mt = some rx) (hnot : ∀ r ∈ c.reactions, r.mt ≠ mt) (hm : mt ≠ 1 ∧ mt ≠ 2 ∧ mt ≠ 101) (hs : mt ∉ [16, 103, 104, 105, 106, 107]) :
    List.Forall₂ (IsPhoton t) (photonNumbers pms mt) rx.products := by
  obtain ⟨rs1, a1, pm, rs2, g1, _, g3, g4⟩ := reactions_split hc h
  have ha : Inv t (⟨0 :: t.nxs, 0 :: t.jxs, 0 :: t.xss⟩ : Arrays K) := ⟨rfl, rfl, Fixed.refl _⟩
  obtain ⟨k1, _, _⟩ := readAll_spec hc _ _ _ _ _ ha (fun i hi => by rw [List.mem_range] at hi; omega) g1
  have hn := readAll_none hc g1 hm hnot
  rw [addSums_other _ _ _ _ g4 hs] at hrx
  exact photons_spec k1 hp (addPhotonMts_products _ _ _ hm.2.2 _ _ _ g3 (fun rx' h' => by rw [hn] at h'; cases h') rx hrx)

namespace GammaExample
local instance : ExpLog ℚ := ⟨id, id⟩

/-- A table with a level of inelastic scattering and its continuum, two photons of the level, one of the sum and one of elastic scattering, all with the same spectra. -/
def gammaTable : AceData.Table ℚ where
  name := "26056.80c".toList
  awr := 55
  temperature := 253 / 10 ^ 10
  pairs := []
  nxs := [65, 26056, 3, 2, 1, 4, 0, 0, 0, 0, 0, 0, 0, 0, 0, 0]
  jxs := [1, 0, 16, 18, 20, 22, 24, 0, 0, 66, 67, 0, 33, 0, 0, 0, 0, 37, 41, 0, 0, 0, 0, 0, 0, 0, 0, 0, 0, 0, 0, 0]
  xss :=
    [1, 2, 3, 20, 21, 22, 5, 6, 7] ++ [10, 11, 12, 0, 0, 0] ++               -- energies, total, absorption, elastic, heating
    [51, 91] ++ [-2, -1] ++ [1, 1] ++ [1, 5] ++                              -- MTs, Q values, neutrons, places
    [2, 2, 5, 6] ++ [3, 1, 4] ++ [0, 0] ++                                   -- cross sections
    [51001, 4001, 2001, 51002] ++ [1, 1, 1, 1] ++                            -- photons: MTs, places of their laws
    [0, 4, 4] ++ [0, 2, 1, 3, 10, 18] ++                                     -- law 4, incident energies and places of the spectra
    [2, 2, 0, 1, 1, 1, 0, 1] ++ [1, 2, 0, 2, 1 / 2, 1 / 2, 0, 1] ++          -- spectra
    [0]                                                                      -- place of the law of the neutrons

def gammaContent : Content ℚ where
  energies := [1, 2, 3]
  total := [20, 21, 22]
  absorption := [5, 6, 7]
  elastic := [10, 11, 12]
  reactions := [⟨51, 2, [5, 6], 1⟩, ⟨91, 3, [4], 5⟩]

theorem gamma_holds : Holds gammaTable gammaContent where
  numEnergies := by decide +kernel
  numReactions := by decide +kernel
  positive := by decide +kernel
  main := ⟨1, by decide +kernel, at_of_take (by decide) (by decide +kernel)⟩
  lengths := by decide +kernel
  lists := ⟨16, 22, 24, by decide +kernel, by decide +kernel, by decide +kernel, at_of_take (by decide) (by decide +kernel),
    at_of_take (by decide) (by decide +kernel), by
      intro r hr
      simp only [gammaContent, List.mem_cons, List.not_mem_nil, or_false] at hr
      rcases hr with rfl | rfl
      · exact ⟨by decide, by decide, at_of_take (by decide) (by decide +kernel), by decide, by decide⟩
      · exact ⟨by decide, by decide, at_of_take (by decide) (by decide +kernel), by decide, by decide⟩⟩

theorem gamma_photons : HoldsPhotons gammaTable [51001, 4001, 2001, 51002] :=
  ⟨by decide +kernel, 33, by decide +kernel, at_of_take (by decide) (by decide +kernel)⟩

theorem gamma_spectrum {i : Nat} (hi : i < 4) : HoldsPhotonSpectrum gammaTable i [1, 3] [⟨10, 2, [0, 1], [1, 1], [0, 1]⟩, ⟨18, 1, [0, 2], [1 / 2, 1 / 2], [0, 1]⟩] := by
  refine ⟨37, 41, 1, by decide +kernel, by decide +kernel, ?_, 4, [], [], by decide, by decide, by decide +kernel, by decide +kernel, by decide, by decide +kernel, rfl, rfl,
    at_of_take (by decide) (by decide +kernel), ?_⟩
  · obtain rfl | rfl | rfl | rfl : i = 0 ∨ i = 1 ∨ i = 2 ∨ i = 3 := by omega
    all_goals decide +kernel
  · intro s hs
    simp only [List.mem_cons, List.not_mem_nil, or_false] at hs
    rcases hs with rfl | rfl <;> exact ⟨by decide, by decide, rfl, rfl, by decide +kernel, at_of_take (by decide) (by decide +kernel)⟩

theorem gamma_load : ∃ rs, reactions gammaTable = .ok rs ∧ (Dict.get? rs 4).isSome := by
  have : (match reactions gammaTable with
      | .ok rs => (Dict.get? rs 4).isSome
      | .error _ => false) = true := by decide +kernel
  cases h : reactions gammaTable with
  | error e => rw [h] at this; cases this
  | ok rs => exact ⟨rs, rfl, by simpa [h] using this⟩

-- The level: neutrons, and photons number 0 and 3, with these spectra.
example : ∃ rs rx n p q, reactions gammaTable = .ok rs ∧ Dict.get? rs 51 = some rx ∧ n ≠ [] ∧ rx.products = n ++ [p, q] ∧ IsPhoton gammaTable 0 p ∧ IsPhoton gammaTable 3 q ∧
    p.dist = some (some ([1000000, 3000000], [⟨[0, 1000000], [1 / 1000000, 1 / 1000000], [0, 1]⟩, ⟨[0, 2000000], [1 / 2000000, 1 / 2000000], [0, 1]⟩])) := by
  obtain ⟨rs, h, -⟩ := gamma_load
  obtain ⟨rx, ns, ph, h1, h2, h3, h4⟩ := C230_listed gamma_holds gamma_photons h (k := 0) (r := ⟨51, 2, [5, 6], 1⟩) ⟨rfl, by
    intro j r' hj hr'
    obtain rfl | hj : j = 1 ∨ 2 ≤ j := by omega
    · cases hr'; decide
    · rw [List.getElem?_eq_none (by simpa [gammaContent] using hj)] at hr'; cases hr'⟩ (by unfold LeftOut; decide) (by decide)
  rw [show photonNumbers [51001, 4001, 2001, 51002] 51 = [0, 3] by decide] at h4
  obtain _ | ⟨hp, _ | ⟨hq, _ | _⟩⟩ := h4
  refine ⟨rs, rx, ns, _, _, h, h1, fun h0 => ?_, h2, hp, hq, ?_⟩
  · have := (h3 1 (by decide +kernel)).mp h0
    simp at this
  · rw [hp.2 _ _ (gamma_spectrum (by decide))]
    norm_num [Spectrum.loaded]

-- Its neutrons have no law.
example : ∃ rs rx p ph, reactions gammaTable = .ok rs ∧ Dict.get? rs 51 = some rx ∧ rx.products = p :: ph ∧ p.dist = none := by
  obtain ⟨rs, h, -⟩ := gamma_load
  obtain ⟨rx, p, ph, h1, h2, -, -, h3, -⟩ := C230_neutrons gamma_holds h (k := 0) (r := ⟨51, 2, [5, 6], 1⟩) ⟨rfl, by
    intro j r' hj hr'
    obtain rfl | hj : j = 1 ∨ 2 ≤ j := by omega
    · cases hr'; decide
    · rw [List.getElem?_eq_none (by simpa [gammaContent] using hj)] at hr'; cases hr'⟩ (by unfold LeftOut; decide) (by decide)
    ⟨20, 1, 1, by decide +kernel, by decide +kernel, by decide, by decide +kernel, by decide⟩
  exact ⟨rs, rx, p, ph, h, h1, h2, h3 ⟨66, 67, by decide +kernel, by decide +kernel, by decide +kernel⟩⟩

-- The sum of the inelastic scattering is added for photons number 1, and elastic scattering has photons number 2.
example : ∃ rs rx rx' n p q, reactions gammaTable = .ok rs ∧ Dict.get? rs 4 = some rx ∧ rx.products = [p] ∧ IsPhoton gammaTable 1 p ∧
    Dict.get? rs 2 = some rx' ∧ rx'.products = [n, q] ∧ IsPhoton gammaTable 2 q := by
  obtain ⟨rs, h, hs⟩ := gamma_load
  obtain ⟨rx, hrx⟩ := Option.isSome_iff_exists.mp hs
  have h4 := C230_added gamma_holds gamma_photons h hrx (by decide) (by decide) (by decide)
  rw [show photonNumbers [51001, 4001, 2001, 51002] 4 = [1] by decide] at h4
  obtain ⟨rx', n, ph, g1, g2, g3⟩ := C230_elastic gamma_holds gamma_photons h (by decide)
  rw [show photonNumbers [51001, 4001, 2001, 51002] 2 = [2] by decide] at g3
  obtain _ | ⟨hq, _ | _⟩ := g3
  cases hpr : rx.products with
  | nil => rw [hpr] at h4; cases h4
  | cons p ps =>
    rw [hpr] at h4
    obtain _ | ⟨hp, _ | _⟩ := h4
    exact ⟨rs, rx, rx', n, p, _, h, hrx, hpr, hp, g1, g2, hq⟩

end GammaExample
end ASAPy.FromAce
