import Verif.FromAce.SumProps
import Verif.FromAce.ReadProps
import Verif.Components.Props

/-! # Reactions a table only has photons of (C222) -/

set_option linter.unusedSimpArgs false
set_option linter.unusedSectionVars false

namespace ASAPy.FromAce
open ASAPy.Ace ASAPy.AceData

variable {K : Type} [Field K] [LinearOrder K] [FloorRing K] [IsStrictOrderedRing K] [ExpLog K]

/-- **C222, what holds.** A table with photons of the inelastic scattering (MT 4) that only lists levels of it gets the inelastic scattering when it is
loaded: it is listed, and at each of its energies its value is the sum of the values of the levels. It begins at the lowest of their first energies. -/
theorem C222_inelastic_partial {t : AceData.Table K} {c : Content K} (hc : Holds t c) (hs : c.Sound) {T : Ace.Table K} (h : load t = .ok T) {ed : Editor K}
    (hi : init T none = .ok ed) (hph : PhotonsOf t 4) (hnot : ∀ r ∈ c.reactions, r.mt ≠ 4) (hpart : ∃ r ∈ c.reactions, 50 ≤ r.mt ∧ r.mt ≤ 91)
    (levels : Finset MT) (hlevels : ∀ m, m ∈ levels ↔ (50 ≤ m ∧ m ≤ 91) ∧ ∃ r ∈ c.reactions, r.mt = m) :
    4 ∈ ed.allMts ∧ ∃ k, (∀ r ∈ c.reactions, 50 ≤ r.mt ∧ r.mt ≤ 91 → ∃ i r', c.Last i r' ∧ r'.mt = r.mt ∧ k ≤ r'.first - 1) ∧
      (∃ i r, c.Last i r ∧ (50 ≤ r.mt ∧ r.mt ≤ 91) ∧ k = r.first - 1) ∧
      getEnergy ed 4 = .ok (.arr ((c.energies.map (· * 1000000)).drop k)) ∧
      getSigma ed 4 none false = .ok (.arr (((c.energies.map (· * 1000000)).drop k).map fun e => ∑ m ∈ levels, sigmaAt ed m false e)) := by
  have e : ∀ m, Ace.Part 4 m ↔ 50 ≤ m ∧ m ≤ 91 := by intro m; unfold Ace.Part; omega
  have := level_sums hc hs h hi (mt := 4) (by unfold IsSumMt; decide) (Or.inr hph) hnot (by simpa only [e] using hpart) levels (by simpa only [e] using hlevels)
  simpa only [e] using this

theorem not_listed {t : AceData.Table K} {T : Ace.Table K} (h : load t = .ok T) {rs : List (MT × Rx K)} (hr : reactions t = .ok rs) {mt : MT}
    (hg : Dict.get? rs mt = none) {ed : Editor K} (hi : init T none = .ok ed) (hmt : mt ≠ 452 ∧ mt ≠ 1018) : mt ∉ ed.allMts := by
  obtain ⟨rs', hr', rfl⟩ := load_split h
  rw [hr] at hr'
  cases hr'
  unfold init chooseTemperature at hi
  simp only [List.length_cons, List.length_nil] at hi
  cases hi
  have : mt ∉ Dict.keys (rs.map fun e => (e.1, e.2.toReaction (tempName t.temperature))) := by
    rw [← Dict.get?_isSome, get?_map, hg]; simp
  unfold allMtsOf
  simp only
  split_ifs
  · rw [List.mem_append]
    rintro (h | h)
    · exact this h
    · simp only [List.mem_cons, List.not_mem_nil, or_false] at h
      rcases h with rfl | rfl
      · exact hmt.1 rfl
      · exact hmt.2 rfl
  · exact this

/-- Reactions that are not asked for are not added. -/
theorem addPhotonMts_none (a : Arrays K) (energy : List K) (abs : Option (Rx K)) {mt : MT} (h101 : mt ≠ 101) : ∀ (mts : List MT) (rs rs' : List (MT × Rx K)),
    addPhotonMts a energy abs mts rs = .ok rs' → (mt ∈ mts → mt = 3) → Dict.get? rs mt = none → Dict.get? rs' mt = none := by
  intro mts
  induction mts with
  | nil => intro rs rs' h _ hg; simp only [addPhotonMts, Except.ok.injEq] at h; rw [← h]; exact hg
  | cons m mts ih =>
    intro rs rs' h hne hg
    have hne' : mt ∈ mts → mt = 3 := fun hh => hne (List.mem_cons_of_mem _ hh)
    unfold addPhotonMts at h
    by_cases h1 : has rs m = true
    · rw [if_pos h1] at h; exact ih _ _ h hne' hg
    rw [if_neg h1] at h
    split at h
    · exact ih _ _ h hne' hg
    split at h
    · exact ih _ _ h hne' hg
    cases hr : redundant rs energy (componentsOf rs m) with
    | error e => rw [hr] at h; cases h
    | ok r =>
      rw [hr] at h
      simp only [bind, Except.bind] at h
      cases hp : photons a m with
      | error e => rw [hp] at h; cases h
      | ok ph =>
        rw [hp] at h
        simp only at h
        split at h
        · cases abs with
          | none => simp at h
          | some r' =>
            simp only at h
            exact ih _ _ h hne' (by rw [Dict.get?_set_ne _ _ h101]; exact hg)
        · rename_i hm3
          have hm : mt ≠ m := by
            rintro rfl
            exact hm3 (hne (List.mem_cons_self ..))
          exact ih _ _ h hne' (by rw [Dict.get?_set_ne _ _ hm]; exact hg)

theorem addSums_none (energy : List K) {mt : MT} : ∀ (mts : List MT) (rs rs' : List (MT × Rx K)), addSums energy mts rs = .ok rs' → mt ∉ mts →
    Dict.get? rs mt = none → Dict.get? rs' mt = none := by
  intro mts
  induction mts with
  | nil => intro rs rs' h _ hg; simp only [addSums, Except.ok.injEq] at h; rw [← h]; exact hg
  | cons m mts ih =>
    intro rs rs' h hne hg
    rw [List.mem_cons, not_or] at hne
    unfold addSums at h
    by_cases h1 : has rs m = true
    · rw [if_pos h1] at h; exact ih _ _ h hne.2 hg
    rw [if_neg h1] at h
    split at h
    · exact ih _ _ h hne.2 hg
    cases hr : redundant rs energy (componentsOf rs m) with
    | error e => rw [hr] at h; cases h
    | ok r =>
      rw [hr] at h
      exact ih _ _ h hne.2 (by rw [Dict.get?_set_ne _ _ hne.1]; exact hg)

/-- The loop over the listed reactions does not make others. -/
theorem readAll_none {t : AceData.Table K} {c : Content K} (hc : Holds t c) {rs1 : List (MT × Rx K)} {a1 : Arrays K}
    (h : readAll (List.range (c.reactions.length + 1)) (startRs c) ⟨0 :: t.nxs, 0 :: t.jxs, 0 :: t.xss⟩ = .ok (rs1, a1)) {mt : MT}
    (hm : mt ≠ 1 ∧ mt ≠ 2 ∧ mt ≠ 101) (hnot : ∀ r ∈ c.reactions, r.mt ≠ mt) : Dict.get? rs1 mt = none := by
  have ha : Inv t (⟨0 :: t.nxs, 0 :: t.jxs, 0 :: t.xss⟩ : Arrays K) := ⟨rfl, rfl, Fixed.refl _⟩
  obtain ⟨_, k2, _⟩ := readAll_spec hc _ _ _ _ _ ha (fun i hi => by rw [List.mem_range] at hi; omega) h
  rw [k2 mt (Or.inr ?_)]
  · unfold startRs
    split_ifs <;> simp [Dict.get?, hm.1.symm, hm.2.2.symm]
  · intro j hj hcon
    unfold Content.mtAt at hcon
    split_ifs at hcon
    · simp only [Option.some.injEq] at hcon
      exact hm.2.1 hcon.symm
    · obtain ⟨r', hr', hrm⟩ := Option.map_eq_some_iff.mp hcon
      exact hnot r' (List.mem_of_getElem? hr') hrm

theorem photonMts_not_mem {t : AceData.Table K} {a : Arrays K} (ha : Inv t a) {n j : Nat} (h6 : NXS t 6 = some (n : Int)) (h13 : JXS t 13 = some (j : Int))
    {mt : MT} (hmt : 0 < mt) (hno : ∀ i < n, ∀ v, XSS t (j + i) = some v → v < 1000 * mt ∨ 1000 * (mt + 1) ≤ v) {pm : List Int} (h : photonMts a = .ok pm) :
    mt ∉ uniqueMts pm := by
  have e6 := ha.n (i := 6) (by omega) h6
  have e13 := ha.j (i := 13) (by omega) h13
  simp only [Nat.cast_ofNat] at e6 e13
  unfold photonMts at h
  rw [e6, e13] at h
  simp only [bind, Except.bind, pure, Except.pure, Except.ok.injEq] at h
  subst h
  unfold uniqueMts
  rw [List.mem_insertionSort, List.mem_dedup, List.map_map, List.mem_map]
  rintro ⟨v, hv, hvm⟩
  simp only [Function.comp] at hvm
  -- the number is in [1000 mt, 1000 (mt + 1))
  have hfl : (1000 * mt : Int) ≤ pyTrunc v ∧ pyTrunc v < 1000 * (mt + 1) := by omega
  unfold pyTrunc at hfl
  have hv0 : 0 ≤ v := by
    by_contra hneg
    rw [if_neg hneg] at hfl
    have : ⌈v⌉ ≤ 0 := Int.ceil_le.mpr (by simpa using (not_le.mp hneg).le)
    omega
  rw [if_pos hv0] at hfl
  have hlo : (1000 * mt : K) ≤ v := by
    have := Int.le_floor.mp hfl.1
    push_cast at this
    exact this
  have hhi : v < (1000 * (mt + 1) : K) := by
    have := Int.floor_lt.mp hfl.2
    push_cast at this
    exact this
  have hpos : (0 : K) < 1000 * mt := by positivity
  rw [show (j : Int) + n = ((j + n : Nat) : Int) by push_cast; rfl, slice_nat] at hv
  obtain ⟨i, hi⟩ := List.mem_iff_getElem?.mp hv
  rw [List.getElem?_drop, List.getElem?_take] at hi
  split_ifs at hi with hij
  have hlen : j + i < ((0 : K) :: t.xss).length := by
    rw [← ha.xss.1]
    by_contra hx
    rw [List.getElem?_eq_none (by omega)] at hi
    cases hi
  obtain ⟨w, hw⟩ : ∃ w, ((0 : K) :: t.xss)[j + i]? = some w := ⟨_, List.getElem?_eq_getElem hlen⟩
  rcases ha.xss.2 _ _ hw with h1 | ⟨_, h1⟩
  · rw [hi] at h1
    cases h1
    rcases Nat.eq_zero_or_pos (j + i) with h0 | h0
    · rw [h0] at hw
      simp only [List.getElem?_cons_zero, Option.some.injEq] at hw
      rw [← hw] at hlo
      exact absurd hlo (not_le.mpr hpos)
    · obtain ⟨p, hp⟩ : ∃ p, j + i = p + 1 := ⟨j + i - 1, by omega⟩
      rw [hp, List.getElem?_cons_succ] at hw
      rcases hno i (by omega) v (by unfold XSS; rw [if_neg (by omega), hp]; exact hw) with h | h
      · exact absurd hlo (not_le.mpr h)
      · exact absurd hhi (not_lt.mpr h)
  · rw [hi] at h1
    cases h1
    exact absurd hlo (not_le.mpr hpos)

/-- **C222 is false as stated.** A table that lists levels of the inelastic scattering but not their sum, and that has no photons of the inelastic scattering,
does not get it when it is loaded. -/
theorem C222_inelastic_refuted {t : AceData.Table K} {c : Content K} (hc : Holds t c) {T : Ace.Table K} (h : load t = .ok T) {ed : Editor K}
    (hi : init T none = .ok ed) {n j : Nat} (h6 : NXS t 6 = some (n : Int)) (h13 : JXS t 13 = some (j : Int))
    (hno : ∀ i < n, ∀ v, XSS t (j + i) = some v → v < 4000 ∨ 5000 ≤ v) (hnot : ∀ r ∈ c.reactions, r.mt ≠ 4) : 4 ∉ ed.allMts := by
  obtain ⟨rs, hrs, _⟩ := load_split h
  obtain ⟨rs1, a1, pm, rs2, g1, gp, g3, g4⟩ := reactions_split hc hrs
  have ha : Inv t (⟨0 :: t.nxs, 0 :: t.jxs, 0 :: t.xss⟩ : Arrays K) := ⟨rfl, rfl, Fixed.refl _⟩
  obtain ⟨k1, _, _⟩ := readAll_spec hc _ _ _ _ _ ha (fun i hi => by rw [List.mem_range] at hi; omega) g1
  have hn1 := readAll_none hc g1 (mt := 4) (by decide) hnot
  have hpm : 4 ∉ uniqueMts pm := photonMts_not_mem k1 h6 h13 (by decide) (by
    intro i hi v hv
    have := hno i hi v hv
    norm_num
    exact this) gp
  have hn2 := addPhotonMts_none _ _ _ (by decide) _ _ _ g3 (fun hh => absurd hh hpm) hn1
  exact not_listed h hrs (addSums_none _ _ _ _ g4 (by decide) hn2) hi (by decide)

theorem componentsOf_ne_nil {rs : List (MT × Rx K)} {mt m : MT} (hp : Comp.PartOf mt m) (hm : has rs m = true) : componentsOf rs mt ≠ [] := by
  have hr : Comp.rank mt < 6 := by unfold Comp.rank; split_ifs <;> omega
  obtain ⟨l, hl⟩ := Comp.components_some (has rs) 6 mt hr
  obtain ⟨m', h1, h2⟩ := Comp.leaf_below (has rs) _ m (Nat.lt_succ_self _) hm
  have := ((Comp.components_spec _ _ _ _ hl).2 m').mpr ⟨hp.trans h1, h2⟩
  unfold componentsOf
  rw [hl]
  intro hcon
  simp only [Option.getD_some] at hcon
  rw [hcon] at this
  cases this

theorem addPhotonMts_three (a : Arrays K) (energy : List K) (abs : Option (Rx K)) {m0 : MT} (hp : Comp.PartOf 3 m0) : ∀ (mts : List MT) (rs rs' : List (MT × Rx K)),
    addPhotonMts a energy abs mts rs = .ok rs' → 3 ∈ mts → Dict.get? rs 3 = none → has rs m0 = true → ∃ r, abs = some r ∧ Dict.get? rs' 101 = some r := by
  intro mts
  induction mts with
  | nil => intro rs rs' _ h; cases h
  | cons m mts ih =>
    intro rs rs' h hin h3 hm0
    have hrest : m ≠ 3 → 3 ∈ mts := fun hne => (List.mem_cons.mp hin).resolve_left (Ne.symm hne)
    have hhas3 : has rs 3 = false := by unfold has; rw [h3]; rfl
    have hset : ∀ k r, has (Dict.set rs k r) m0 = true := by
      intro k r
      unfold has at hm0 ⊢
      by_cases hk : m0 = k
      · subst hk; rw [Dict.get?_set_same]; rfl
      · rw [Dict.get?_set_ne _ _ hk]; exact hm0
    unfold addPhotonMts at h
    by_cases h1 : has rs m = true
    · rw [if_pos h1] at h
      exact ih _ _ h (hrest (by rintro rfl; rw [hhas3] at h1; cases h1)) h3 hm0
    rw [if_neg h1] at h
    by_cases h2 : (Comp.sumRules.lookup m).isNone = true
    · rw [if_pos h2] at h
      exact ih _ _ h (hrest (by rintro rfl; exact absurd h2 (by decide))) h3 hm0
    rw [if_neg h2] at h
    by_cases h5 : componentsOf rs m = []
    · rw [if_pos h5] at h
      exact ih _ _ h (hrest (by rintro rfl; exact componentsOf_ne_nil hp hm0 h5)) h3 hm0
    rw [if_neg h5] at h
    cases hr : redundant rs energy (componentsOf rs m) with
    | error e => rw [hr] at h; cases h
    | ok r =>
      rw [hr] at h
      simp only [bind, Except.bind] at h
      cases hph : photons a m with
      | error e => rw [hph] at h; cases h
      | ok ph =>
        rw [hph] at h
        simp only at h
        split at h
        · cases abs with
          | none => simp at h
          | some r' =>
            simp only at h
            exact ⟨r', rfl, addPhotonMts_keeps _ _ _ _ _ _ h 101 r' (Or.inr rfl) (Dict.get?_set_same ..)⟩
        · rename_i hm3
          exact ih _ _ h (hrest hm3) (by rw [Dict.get?_set_ne _ _ (Ne.symm hm3)]; exact h3) (hset _ _)

/-- **C222, photons of the nonelastic cross section.** With photons of MT 3 that is not listed, and some reaction it is the sum of, a table is only loaded if
its absorption is not zero everywhere. MT 3 is not added; MT 101 is the absorption of the main block, also if the table lists an MT 101 of its own. -/
theorem C222_nonelastic {t : AceData.Table K} {c : Content K} (hc : Holds t c) {T : Ace.Table K} (h : load t = .ok T) {ed : Editor K}
    (hi : init T none = .ok ed) (hph : PhotonsOf t 3) (hnot : ∀ r ∈ c.reactions, r.mt ≠ 3)
    (hpart : ∃ r ∈ c.reactions, Comp.PartOf 3 r.mt ∧ ¬ LeftOut r.mt) :
    (∃ v ∈ c.absorption, v ≠ 0) ∧ 3 ∉ ed.allMts ∧ 101 ∈ ed.allMts ∧ getEnergy ed 101 = .ok (.arr (c.energies.map (· * 1000000))) ∧
      getSigma ed 101 none false = .ok (.arr c.absorption) := by
  obtain ⟨rs, hrs, _⟩ := load_split h
  obtain ⟨rs1, a1, pm, rs2, g1, gp, g3, g4⟩ := reactions_split hc hrs
  have ha : Inv t (⟨0 :: t.nxs, 0 :: t.jxs, 0 :: t.xss⟩ : Arrays K) := ⟨rfl, rfl, Fixed.refl _⟩
  obtain ⟨k1, _, k3⟩ := readAll_spec hc _ _ _ _ _ ha (fun i hi => by rw [List.mem_range] at hi; omega) g1
  have hn1 := readAll_none hc g1 (mt := 3) (by decide) hnot
  obtain ⟨r0, hr0, hp, hout⟩ := hpart
  have hhas : has rs1 r0.mt = true := by
    obtain ⟨i, hl⟩ : ∃ i, ∃ r', c.Last i r' ∧ r'.mt = r0.mt := by
      by_contra hcon
      push Not at hcon
      obtain ⟨i, hi⟩ := List.mem_iff_getElem?.mp hr0
      have : ∀ d i r', c.reactions.length - i = d → c.reactions[i]? = some r' → r'.mt = r0.mt → False := by
        intro d
        induction d using Nat.strong_induction_on with
        | _ d ih =>
          intro i r' hd hi' hm
          refine hcon i r' ⟨hi', ?_⟩ hm
          intro j r'' hij hj hm'
          have hjl : j < c.reactions.length := by
            by_contra hx; rw [List.getElem?_eq_none (by omega)] at hj; cases hj
          exact ih _ (by omega) j r'' rfl hj (hm'.trans hm)
      exact this _ i r0 rfl hi rfl
    obtain ⟨r', hl, hm⟩ := hl
    have hskip : skipped r'.mt = false := by
      unfold skipped
      unfold LeftOut at hout
      push Not at hout
      rw [hm]
      simp only [Bool.or_eq_false_iff, decide_eq_false_iff_not]
      exact ⟨fun hh => absurd hh.2 (not_lt.mpr (hout.1 hh.1)), hout.2⟩
    obtain ⟨rx, n, e1, _⟩ := k3 r'.mt (i + 1) _ _ (range_split hl.1) (by unfold Content.mtAt; rw [if_neg (by omega), Nat.add_sub_cancel, hl.1]; rfl) hskip
      (last_after hl)
    unfold has
    rw [← hm, e1]; rfl
  obtain ⟨r, hr, h101⟩ := addPhotonMts_three a1 _ _ hp _ _ _ g3 (photonMts_mem k1 hph gp) hn1 hhas
  have hn2 := addPhotonMts_none _ _ _ (by decide) _ _ _ g3 (fun _ => rfl) hn1
  unfold absOf at hr
  split_ifs at hr with hx
  cases hr
  exact ⟨hx, not_listed h hrs (addSums_none _ _ _ _ g4 (by decide) hn2) hi (by decide), editor_reads h hrs (addSums_keeps _ _ _ _ g4 _ _ h101) hi (by decide)⟩

/-- **C222 is false as stated**, too, for tables with photons of MT 3 and no absorption at all: they cannot be loaded (UnboundLocalError). -/
theorem C222_absorption_refuted {t : AceData.Table K} {c : Content K} (hc : Holds t c) (hph : PhotonsOf t 3) (hnot : ∀ r ∈ c.reactions, r.mt ≠ 3)
    (hpart : ∃ r ∈ c.reactions, Comp.PartOf 3 r.mt ∧ ¬ LeftOut r.mt) (hzero : ∀ v ∈ c.absorption, v = 0) : ∃ e, load t = .error e := by
  rcases h : load t with e | T
  · exact ⟨e, rfl⟩
  · exfalso
    obtain ⟨ed, hi⟩ : ∃ ed, init T none = .ok ed := by
      obtain ⟨rs, _, rfl⟩ := load_split h
      exact ⟨_, rfl⟩
    obtain ⟨⟨v, hv, hne⟩, _⟩ := C222_nonelastic hc h hi hph hnot hpart
    exact hne (hzero v hv)

namespace Example
local instance : ExpLog ℚ := ⟨id, id⟩

/-- A table with a level of inelastic scattering and its continuum, and photons of `mt`; `ab` is the absorption. -/
def photonTable (mt : ℚ) (ab : List ℚ) : AceData.Table ℚ where
  name := "26056.80c".toList
  awr := 55
  temperature := 253 / 10 ^ 10
  pairs := []
  nxs := [53, 26056, 3, 2, 0, 1, 0, 0, 0, 0, 0, 0, 0, 0, 0, 0]
  jxs := [1, 0, 16, 18, 20, 22, 24, 0, 0, 0, 0, 0, 33, 46, 47, 52, 53, 34, 35, 0, 0, 0, 0, 0, 0, 0, 0, 0, 0, 0, 0, 0]
  xss :=
    [1, 2, 3, 20, 21, 22] ++ ab ++ [10, 11, 12, 0, 0, 0] ++                  -- energies, total, absorption, elastic, heating
    [51, 91] ++ [-2, -1] ++ [1, 1] ++ [1, 5] ++                              -- MTs, Q values, neutrons, places
    [2, 2, 5, 6] ++ [3, 1, 4] ++ [0, 0] ++                                   -- cross sections
    [1000 * mt + 1] ++ [1] ++ [0, 2, 10, 0, 2, 1, 3, 1, 1, 0, 1] ++          -- photons: MTs, laws
    [1] ++ [13, 2, 2, 1, 1] ++ [0] ++ [0]                                    -- yields, angles

def photonContent (ab : List ℚ) : Content ℚ where
  energies := [1, 2, 3]
  total := [20, 21, 22]
  absorption := ab
  elastic := [10, 11, 12]
  reactions := [⟨51, 2, [5, 6], 1⟩, ⟨91, 3, [4], 5⟩]

theorem photon_holds {mt : ℚ} {ab : List ℚ} (h : mt = 3 ∧ ab = [5, 6, 7] ∨ mt = 3 ∧ ab = [0, 0, 0] ∨ mt = 4 ∧ ab = [5, 6, 7] ∨ mt = 102 ∧ ab = [5, 6, 7]) :
    Holds (photonTable mt ab) (photonContent ab) := by
  rcases h with ⟨rfl, rfl⟩ | ⟨rfl, rfl⟩ | ⟨rfl, rfl⟩ | ⟨rfl, rfl⟩ <;> exact {
    numEnergies := by decide +kernel
    numReactions := by decide +kernel
    positive := by decide +kernel
    main := ⟨1, by decide +kernel, at_of_take (by decide) (by decide +kernel)⟩
    lengths := by decide +kernel
    lists := ⟨16, 22, 24, by decide +kernel, by decide +kernel, by decide +kernel, at_of_take (by decide) (by decide +kernel),
      at_of_take (by decide) (by decide +kernel), by
        intro r hr
        simp only [photonContent, List.mem_cons, List.not_mem_nil, or_false] at hr
        rcases hr with rfl | rfl
        · exact ⟨by decide, by decide, at_of_take (by decide) (by decide +kernel), by decide, by decide⟩
        · exact ⟨by decide, by decide, at_of_take (by decide) (by decide +kernel), by decide, by decide⟩⟩ }

theorem photon_sound (ab : List ℚ) : (photonContent ab).Sound := ⟨by simp [photonContent], by
  intro r hr
  simp only [photonContent, List.mem_cons, List.not_mem_nil, or_false] at hr
  rcases hr with rfl | rfl <;> decide⟩

theorem photon_mts (ab : List ℚ) : ∀ r ∈ (photonContent ab).reactions, r.mt = 51 ∨ r.mt = 91 := by
  intro r hr
  simp only [photonContent, List.mem_cons, List.not_mem_nil, or_false] at hr
  rcases hr with rfl | rfl <;> decide

/-- It can be loaded, but for photons of MT 3 without absorption. -/
theorem photon_load {mt : ℚ} (h : mt = 3 ∨ mt = 4 ∨ mt = 102) : ∃ T ed, load (photonTable mt [5, 6, 7]) = .ok T ∧ init T none = .ok ed := by
  have : (match load (photonTable mt [5, 6, 7]) with
      | .ok T => match init T none with
        | .ok _ => true
        | .error _ => false
      | .error _ => false) = true := by
    rcases h with rfl | rfl | rfl <;> decide +kernel
  cases hT : load (photonTable mt [5, 6, 7]) with
  | error e => rw [hT] at this; cases this
  | ok T =>
    rw [hT] at this
    cases hi : init T none with
    | error e => simp only [hi] at this; cases this
    | ok ed => exact ⟨T, ed, rfl, hi⟩

theorem photonsOf {mt : Nat} {ab : List ℚ} (h : mt = 3 ∧ ab = [5, 6, 7] ∨ mt = 3 ∧ ab = [0, 0, 0] ∨ mt = 4 ∧ ab = [5, 6, 7]) :
    PhotonsOf (photonTable mt ab) mt := by
  refine ⟨1, 33, 0, 1, ?_⟩
  rcases h with ⟨rfl, rfl⟩ | ⟨rfl, rfl⟩ | ⟨rfl, rfl⟩ <;> exact ⟨by decide, by decide, by decide, by decide +kernel, by decide⟩

-- Photons of the inelastic scattering: it is added.
example : ∃ T ed, load (photonTable 4 [5, 6, 7]) = .ok T ∧ init T none = .ok ed ∧ 4 ∈ ed.allMts := by
  obtain ⟨T, ed, h, hi⟩ := photon_load (mt := 4) (by simp)
  have hp := photonsOf (mt := 4) (ab := [5, 6, 7]) (by simp)
  refine ⟨T, ed, h, hi, (C222_inelastic_partial (photon_holds (by simp)) (photon_sound _) h hi hp ?_ ⟨⟨51, 2, [5, 6], 1⟩, by simp [photonContent], by decide⟩
    {51, 91} ?_).1⟩
  · intro r hr
    rcases photon_mts _ r hr with h | h <;> rw [h] <;> decide
  · intro m
    simp only [Finset.mem_insert, Finset.mem_singleton, photonContent, List.mem_cons, List.not_mem_nil, or_false, exists_eq_or_imp, exists_eq_left]
    omega

-- Its values: 5 at 2 MeV, and 6 + 4 at 3 MeV.
example : (load (photonTable 4 [5, 6, 7])).toOption.bind (fun T => (init T none).toOption.bind fun ed => (getSigma ed 4 none false).toOption) =
    some (.arr [5, 10]) := by decide +kernel

-- Photons of the capture only: it is not.
example : ∃ T ed, load (photonTable 102 [5, 6, 7]) = .ok T ∧ init T none = .ok ed ∧ 4 ∉ ed.allMts := by
  obtain ⟨T, ed, h, hi⟩ := photon_load (mt := 102) (by simp)
  refine ⟨T, ed, h, hi, C222_inelastic_refuted (photon_holds (by simp)) h hi (n := 1) (j := 33) (by decide) (by decide) ?_ ?_⟩
  · intro i hi v hv
    obtain rfl : i = 0 := by omega
    have : XSS (photonTable 102 [5, 6, 7]) (33 + 0) = some 102001 := by decide +kernel
    rw [this] at hv
    cases hv
    right; norm_num
  · intro r hr
    rcases photon_mts _ r hr with h | h <;> rw [h] <;> decide

theorem part_three : Comp.PartOf 3 51 := (Relation.ReflTransGen.single (show (4 : Nat) ∈ Comp.parts 3 by decide)).tail (by decide +kernel)

-- Photons of the nonelastic cross section: MT 3 is not added.
example : ∃ T ed, load (photonTable 3 [5, 6, 7]) = .ok T ∧ init T none = .ok ed ∧ 3 ∉ ed.allMts ∧ getSigma ed 101 none false = .ok (.arr [5, 6, 7]) := by
  obtain ⟨T, ed, h, hi⟩ := photon_load (mt := 3) (by simp)
  have hp := photonsOf (mt := 3) (ab := [5, 6, 7]) (by simp)
  obtain ⟨_, h3, _, _, h101⟩ := C222_nonelastic (photon_holds (by simp)) h hi hp (by
    intro r hr
    rcases photon_mts _ r hr with h | h <;> rw [h] <;> decide) ⟨⟨51, 2, [5, 6], 1⟩, by simp [photonContent], part_three, by unfold LeftOut; decide⟩
  exact ⟨T, ed, h, hi, h3, h101⟩

-- Without absorption, it cannot be loaded.
example : ∃ e, load (photonTable 3 [0, 0, 0]) = .error e :=
  C222_absorption_refuted (c := photonContent [0, 0, 0]) (photon_holds (by simp)) (photonsOf (mt := 3) (by simp)) (by
    intro r hr
    rcases photon_mts _ r hr with h | h <;> rw [h] <;> decide) ⟨⟨51, 2, [5, 6], 1⟩, by simp [photonContent], part_three, by unfold LeftOut; decide⟩
    (by simp [photonContent])

example : load (photonTable 3 [0, 0, 0]) = .error .unboundLocal := by decide +kernel
end Example

end ASAPy.FromAce
