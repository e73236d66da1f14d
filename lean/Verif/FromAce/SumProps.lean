import Verif.FromAce.FormProps

/-! # Redundant reactions a loaded table gets in addition (C90) -/

set_option linter.unusedSimpArgs false
set_option linter.unusedSectionVars false

namespace ASAPy.FromAce
open ASAPy.Ace ASAPy.AceData

variable {K : Type} [Field K] [LinearOrder K]

/-- The reactions that are added as sums of levels (4 only if there are photons of it). -/
def IsSumMt (mt : MT) : Prop := mt ∈ [4, 16, 103, 104, 105, 106, 107]

theorem sumMt_parts {mt : MT} (h : IsSumMt mt) : (∀ m ∈ Comp.parts mt, Comp.parts m = [] ∧ (Comp.sumRules.lookup m).isNone = true ∧ m ≠ mt ∧ m ≠ 452 ∧ m ≠ 1018 ∧
    m ∉ [4, 16, 103, 104, 105, 106, 107]) ∧ mt ≠ 1 ∧ mt ≠ 2 ∧ mt ≠ 101 ∧ mt ≠ 452 ∧ mt ≠ 1018 ∧ skipped mt = false ∧ (Comp.parts mt).Nodup := by
  unfold IsSumMt at h
  simp only [List.mem_cons, List.not_mem_nil, or_false] at h
  rcases h with rfl | rfl | rfl | rfl | rfl | rfl | rfl <;> decide +kernel

theorem sumMt_part {mt : MT} (h : IsSumMt mt) (m : MT) : m ∈ Comp.parts mt ↔ Ace.Part mt m := by
  unfold IsSumMt at h
  simp only [List.mem_cons, List.not_mem_nil, or_false] at h
  have e4 : Comp.parts 4 = List.range' 50 42 := by decide +kernel
  have e16 : Comp.parts 16 = List.range' 875 17 := by decide +kernel
  have e103 : Comp.parts 103 = List.range' 600 50 := by decide +kernel
  have e104 : Comp.parts 104 = List.range' 650 50 := by decide +kernel
  have e105 : Comp.parts 105 = List.range' 700 50 := by decide +kernel
  have e106 : Comp.parts 106 = List.range' 750 50 := by decide +kernel
  have e107 : Comp.parts 107 = List.range' 800 50 := by decide +kernel
  rcases h with rfl | rfl | rfl | rfl | rfl | rfl | rfl <;> simp [e4, e16, e103, e104, e105, e106, e107, List.mem_range'_1, Ace.Part] <;> omega

theorem sumMt_rule {mt : MT} (h : IsSumMt mt) : ¬ (Comp.sumRules.lookup mt).isNone = true ∧ mt ≠ 3 := by
  unfold IsSumMt at h
  simp only [List.mem_cons, List.not_mem_nil, or_false] at h
  rcases h with rfl | rfl | rfl | rfl | rfl | rfl | rfl <;> decide +kernel

theorem concatAll_leaves (present : Nat → Bool) (k : Nat) : ∀ (ms : List Nat), (∀ m ∈ ms, Comp.parts m = []) →
    Comp.concatAll (Comp.components present (k + 1)) ms = some (ms.filter present)
  | [], _ => rfl
  | m :: ms, h => by
    unfold Comp.concatAll
    rw [concatAll_leaves present k ms fun m hm => h m (List.mem_cons_of_mem _ hm)]
    have : Comp.components present (k + 1) m = some (if present m = true then [m] else []) := by
      unfold Comp.components
      rw [h m (List.mem_cons_self ..)]
      simp [Comp.concatAll]
    rw [this]
    by_cases hp : present m = true <;> simp [hp]

theorem componentsOf_sum {rs : List (MT × Rx K)} {mt : MT} (h : IsSumMt mt) (hn : has rs mt = false) :
    componentsOf rs mt = (Comp.parts mt).filter (has rs) := by
  unfold componentsOf Comp.components
  rw [concatAll_leaves _ _ _ fun m hm => ((sumMt_parts h).1 m hm).1]
  simp only
  by_cases hp : (Comp.parts mt).filter (has rs) = []
  · rw [hp]; simp [hn]
  · simp [hp]

variable [FloorRing K] [IsStrictOrderedRing K] [ExpLog K]

/-- `rx` is the sum of the parts of `mt` that are in `rs`, on the grid from the lowest of their first points. -/
def IsSum (rs : List (MT × Rx K)) (energy : List K) (mt : MT) (rx : Rx K) : Prop :=
  ∃ (l : List (Rx K)) (k : Nat), List.Forall₂ (fun m r => Dict.get? rs m = some r) ((Comp.parts mt).filter (has rs)) l ∧ (∀ r ∈ l, (k : Int) ≤ r.threshold) ∧
    (∃ r ∈ l, r.threshold = k) ∧ rx.xs = .linlin (energy.drop k) ((energy.drop k).map fun e => (l.map fun r => val r.xs e).sum)

/-- The same parts in both. -/
def SameParts (mt : MT) (rs rs' : List (MT × Rx K)) : Prop := ∀ m ∈ Comp.parts mt, Dict.get? rs' m = Dict.get? rs m

theorem SameParts.filter {mt : MT} {rs rs' : List (MT × Rx K)} (h : SameParts mt rs rs') : (Comp.parts mt).filter (has rs') = (Comp.parts mt).filter (has rs) := by
  apply List.filter_congr
  intro m hm
  unfold has
  rw [h m hm]

theorem SameParts.isSum {mt : MT} {rs rs' : List (MT × Rx K)} (h : SameParts mt rs rs') {energy : List K} {rx : Rx K} (hs : IsSum rs' energy mt rx) :
    IsSum rs energy mt rx := by
  obtain ⟨l, k, h1, h2⟩ := hs
  rw [h.filter] at h1
  refine ⟨l, k, ?_, h2⟩
  rw [List.forall₂_iff_get] at h1 ⊢
  refine ⟨h1.1, ?_⟩
  intro i hi hi'
  have := h1.2 i hi hi'
  rwa [h _ (List.mem_of_mem_filter (List.get_mem _ _))] at this

/-- Either `mt` is not there, or it is the sum of its parts. -/
def NoneOrSum (rs0 : List (MT × Rx K)) (energy : List K) (mt : MT) (rs : List (MT × Rx K)) : Prop :=
  Dict.get? rs mt = none ∨ ∃ rx, Dict.get? rs mt = some rx ∧ IsSum rs0 energy mt rx

theorem redundant_isSum {n : Nat} {rs : List (MT × Rx K)} (hg : Good n rs) {mt : MT} (hm : IsSumMt mt) (hn : has rs mt = false) {energy : List K} {rx : Rx K}
    (h : redundant rs energy (componentsOf rs mt) = .ok rx) (ps ds : List (Product K)) : IsSum rs energy mt { rx with products := ps, derived := ds } := by
  rw [componentsOf_sum hm hn] at h
  obtain ⟨l, k, h1, h2, h3, rfl⟩ := redundant_spec hg h
  exact ⟨l, k, h1, h2, h3, rfl⟩

theorem addPhotonMts_sum {n : Nat} (a : Arrays K) (energy : List K) (hn : energy.length = n) (abs : Option (Rx K))
    (habs : ∀ r, abs = some r → GoodRx n (101, r)) {mt : MT} (hmt : IsSumMt mt) (rs0 : List (MT × Rx K)) : ∀ (mts : List MT) (rs rs' : List (MT × Rx K)),
    addPhotonMts a energy abs mts rs = .ok rs' → Good n rs → SameParts mt rs0 rs → NoneOrSum rs0 energy mt rs →
    SameParts mt rs0 rs' ∧ NoneOrSum rs0 energy mt rs' ∧
      ((Comp.parts mt).filter (has rs0) ≠ [] → mt ∈ mts ∨ Dict.get? rs mt ≠ none → Dict.get? rs' mt ≠ none) := by
  obtain ⟨p1, p2, p3, p4, p5, p6, p7, p8⟩ := sumMt_parts hmt
  obtain ⟨p9, p10⟩ := sumMt_rule hmt
  intro mts
  induction mts with
  | nil => intro rs rs' h hg h1 h2; simp only [addPhotonMts, Except.ok.injEq] at h; rw [← h]; exact ⟨h1, h2, fun _ hh => hh.resolve_left (by simp)⟩
  | cons m mts ih =>
    intro rs rs' h hg hsame hsum
    unfold addPhotonMts at h
    by_cases h1 : has rs m = true
    · rw [if_pos h1] at h
      obtain ⟨g1, g2, g3⟩ := ih _ _ h hg hsame hsum
      refine ⟨g1, g2, fun hne hh => g3 hne ?_⟩
      by_cases hmm : mt = m
      · subst hmm
        right
        intro h0
        unfold has at h1
        rw [h0] at h1
        cases h1
      · exact hh.imp (fun hh => (List.mem_cons.mp hh).resolve_left hmm) id
    rw [if_neg h1] at h
    by_cases h2 : (Comp.sumRules.lookup m).isNone = true
    · rw [if_pos h2] at h
      obtain ⟨g1, g2, g3⟩ := ih _ _ h hg hsame hsum
      have hmm : mt ≠ m := fun e => p9 (e ▸ h2)
      exact ⟨g1, g2, fun hne hh => g3 hne (hh.imp (fun hh => (List.mem_cons.mp hh).resolve_left hmm) id)⟩
    rw [if_neg h2] at h
    by_cases h3 : componentsOf rs m = []
    · rw [if_pos h3] at h
      obtain ⟨g1, g2, g3⟩ := ih _ _ h hg hsame hsum
      refine ⟨g1, g2, fun hne hh => g3 hne ?_⟩
      by_cases hmm : mt = m
      · subst hmm
        exfalso
        rw [componentsOf_sum hmt (by simpa using h1), hsame.filter] at h3
        exact hne h3
      · exact hh.imp (fun hh => (List.mem_cons.mp hh).resolve_left hmm) id
    rw [if_neg h3] at h
    have hpm : m ∉ Comp.parts mt := fun hm => h2 (p1 m hm).2.1
    have hp101 : 101 ∉ Comp.parts mt := fun hm => absurd (p1 101 hm).2.1 (by decide)
    cases hr : redundant rs energy (componentsOf rs m) with
    | error e => rw [hr] at h; cases h
    | ok r =>
      rw [hr] at h
      simp only [bind, Except.bind] at h
      cases hp : photons a m with
      | error e => rw [hp] at h; cases h
      | ok ph =>
        rw [hp] at h
        simp only at h
        split at h
        · rename_i hm3
          cases abs with
          | none => simp at h
          | some r' =>
            simp only at h
            have hmm : mt ≠ m := fun e => p10 (e.trans hm3)
            have hsame' : SameParts mt rs0 (Dict.set rs 101 r') := by
              intro k hk
              rw [Dict.get?_set_ne _ _ (fun e : k = 101 => hp101 (e ▸ hk))]
              exact hsame k hk
            obtain ⟨g1, g2, g3⟩ := ih _ _ h (hg.set (habs r' rfl)) hsame' (by
              unfold NoneOrSum
              rw [Dict.get?_set_ne _ _ p4]
              exact hsum)
            refine ⟨g1, g2, fun hne hh => g3 hne ?_⟩
            rw [Dict.get?_set_ne _ _ p4]
            exact hh.imp (fun hh => (List.mem_cons.mp hh).resolve_left hmm) id
        · have hg' : Good n (Dict.set rs m { r with products := ph }) :=
            hg.set (redundant_good hg hn hr (sumRules_keys (by simpa using h2)) ph r.derived)
          have hsame' : SameParts mt rs0 (Dict.set rs m { r with products := ph }) := by
            intro k hk
            rw [Dict.get?_set_ne _ _ (fun e : k = m => hpm (e ▸ hk))]
            exact hsame k hk
          obtain ⟨g1, g2, g3⟩ := ih _ _ h hg' hsame' (by
            by_cases hmm : mt = m
            · subst hmm
              right
              refine ⟨_, Dict.get?_set_same .., ?_⟩
              exact hsame.isSum (redundant_isSum hg hmt (by simpa using h1) hr ph r.derived)
            · unfold NoneOrSum
              rw [Dict.get?_set_ne _ _ hmm]
              exact hsum)
          refine ⟨g1, g2, fun hne hh => g3 hne ?_⟩
          by_cases hmm : mt = m
          · subst hmm
            right
            rw [Dict.get?_set_same]
            simp
          · rw [Dict.get?_set_ne _ _ hmm]
            exact hh.imp (fun hh => (List.mem_cons.mp hh).resolve_left hmm) id

theorem addSums_sum {n : Nat} (energy : List K) (hn : energy.length = n) {mt : MT} (hmt : IsSumMt mt) (rs0 : List (MT × Rx K))
    (hne : (Comp.parts mt).filter (has rs0) ≠ []) : ∀ (mts : List MT) (rs rs' : List (MT × Rx K)), addSums energy mts rs = .ok rs' →
    (∀ m ∈ mts, IsSumMt m) → Good n rs → SameParts mt rs0 rs → NoneOrSum rs0 energy mt rs →
    SameParts mt rs0 rs' ∧ NoneOrSum rs0 energy mt rs' ∧ (mt ∈ mts ∨ Dict.get? rs mt ≠ none → Dict.get? rs' mt ≠ none) := by
  obtain ⟨p1, p2, p3, p4, p5, p6, p7, p8⟩ := sumMt_parts hmt
  intro mts
  induction mts with
  | nil =>
    intro rs rs' h _ _ h1 h2
    simp only [addSums, Except.ok.injEq] at h
    rw [← h]
    exact ⟨h1, h2, fun h => h.resolve_left (by simp)⟩
  | cons m mts ih =>
    intro rs rs' h hms hg hsame hsum
    have hms' : ∀ m ∈ mts, IsSumMt m := fun m hh => hms m (List.mem_cons_of_mem _ hh)
    have hm := hms m (List.mem_cons_self ..)
    unfold addSums at h
    by_cases h1 : has rs m = true
    · rw [if_pos h1] at h
      obtain ⟨g1, g2, g3⟩ := ih _ _ h hms' hg hsame hsum
      refine ⟨g1, g2, fun hh => g3 ?_⟩
      by_cases hmm : mt = m
      · subst hmm
        right
        intro h0
        unfold has at h1
        rw [h0] at h1
        cases h1
      · exact hh.imp (fun hh => (List.mem_cons.mp hh).resolve_left hmm) id
    rw [if_neg h1] at h
    by_cases h3 : componentsOf rs m = []
    · rw [if_pos h3] at h
      obtain ⟨g1, g2, g3⟩ := ih _ _ h hms' hg hsame hsum
      refine ⟨g1, g2, fun hh => g3 ?_⟩
      by_cases hmm : mt = m
      · subst hmm
        exfalso
        rw [componentsOf_sum hmt (by simpa using h1), hsame.filter] at h3
        exact hne h3
      · exact hh.imp (fun hh => (List.mem_cons.mp hh).resolve_left hmm) id
    rw [if_neg h3] at h
    have hpm : m ∉ Comp.parts mt := fun hmem => (p1 m hmem).2.2.2.2.2 hm
    cases hr : redundant rs energy (componentsOf rs m) with
    | error e => rw [hr] at h; cases h
    | ok r =>
      rw [hr] at h
      obtain ⟨_, _, _, _, m5, m6, _⟩ := sumMt_parts hm
      have hg' : Good n (Dict.set rs m r) := hg.set (redundant_good hg hn hr ⟨m5, m6⟩ r.products r.derived)
      have hsame' : SameParts mt rs0 (Dict.set rs m r) := by
        intro k hk
        rw [Dict.get?_set_ne _ _ (fun e : k = m => hpm (e ▸ hk))]
        exact hsame k hk
      by_cases hmm : mt = m
      · subst hmm
        obtain ⟨g1, g2, g3⟩ := ih _ _ h hms' hg' hsame' (Or.inr ⟨r, Dict.get?_set_same .., hsame.isSum
          (redundant_isSum hg hmt (by simpa using h1) hr r.products r.derived)⟩)
        exact ⟨g1, g2, fun _ => g3 (Or.inr (by rw [Dict.get?_set_same]; simp))⟩
      · obtain ⟨g1, g2, g3⟩ := ih _ _ h hms' hg' hsame' (by
          unfold NoneOrSum
          rw [Dict.get?_set_ne _ _ hmm]
          exact hsum)
        refine ⟨g1, g2, fun hh => g3 ?_⟩
        rw [Dict.get?_set_ne _ _ hmm]
        exact hh.imp (fun hh => (List.mem_cons.mp hh).resolve_left hmm) id

/-- A sum over the parts that are there. -/
theorem sum_parts {rs : List (MT × Rx K)} (f : Rx K → K) (g : MT → K) (hfg : ∀ m r, Dict.get? rs m = some r → g m = f r) :
    ∀ {ms : List MT} {l : List (Rx K)}, List.Forall₂ (fun m r => Dict.get? rs m = some r) ms l → (l.map f).sum = (ms.map g).sum
  | _, _, .nil => rfl
  | _, _, .cons h hs => by simp [hfg _ _ h, sum_parts f g hfg hs]

/-- The number at a position, of the table, and after the cross sections were read. -/
theorem photonMts_mem {t : AceData.Table K} {a : Arrays K} (ha : Inv t a) {mt : MT} (hp : PhotonsOf t mt) {pm : List Int} (h : photonMts a = .ok pm) :
    mt ∈ uniqueMts pm := by
  obtain ⟨n, j, i, p, h6, h13, hi, hx, hp⟩ := hp
  have e6 := ha.n (i := 6) (by omega) h6
  have e13 := ha.j (i := 13) (by omega) h13
  simp only [Nat.cast_ofNat] at e6 e13
  unfold photonMts at h
  rw [e6, e13] at h
  simp only [bind, Except.bind, pure, Except.pure, Except.ok.injEq] at h
  have hx' := ha.xss.nonneg (xss_cons hx) (by positivity)
  subst h
  unfold uniqueMts
  rw [List.mem_insertionSort, List.mem_dedup, List.map_map, List.mem_map]
  refine ⟨((1000 * mt + p : Nat) : K), ?_, ?_⟩
  · rw [show (j : Int) + n = ((j + n : Nat) : Int) by push_cast; rfl, slice_nat]
    apply List.mem_of_getElem? (i := i)
    rw [List.getElem?_drop, List.getElem?_take, if_pos (by omega), hx']
  · simp only [Function.comp]
    unfold pyTrunc
    rw [if_pos (by positivity), Int.floor_natCast]
    omega

/-- The sum rule, for the six reactions that are always added and for those there are photons of. -/
theorem level_sums {t : AceData.Table K} {c : Content K} (hc : Holds t c) (hs : c.Sound) {T : Ace.Table K} (h : load t = .ok T) {ed : Editor K}
    (hi : init T none = .ok ed) {mt : MT} (hmt : IsSumMt mt) (hwhy : mt ∈ [16, 103, 104, 105, 106, 107] ∨ PhotonsOf t mt) (hnot : ∀ r ∈ c.reactions, r.mt ≠ mt)
    (hpart : ∃ r ∈ c.reactions, Ace.Part mt r.mt) (parts : Finset MT) (hparts : ∀ m, m ∈ parts ↔ Ace.Part mt m ∧ ∃ r ∈ c.reactions, r.mt = m) :
    mt ∈ ed.allMts ∧ ∃ k, (∀ r ∈ c.reactions, Ace.Part mt r.mt → ∃ i r', c.Last i r' ∧ r'.mt = r.mt ∧ k ≤ r'.first - 1) ∧
      (∃ i r, c.Last i r ∧ Ace.Part mt r.mt ∧ k = r.first - 1) ∧
      getEnergy ed mt = .ok (.arr ((c.energies.map (· * 1000000)).drop k)) ∧
      getSigma ed mt none false = .ok (.arr (((c.energies.map (· * 1000000)).drop k).map fun e => ∑ m ∈ parts, sigmaAt ed m false e)) := by
  obtain ⟨p1, p2, p3, p4, p5, p6, p7, p8⟩ := sumMt_parts hmt
  obtain ⟨rs, hrs, hT⟩ := load_split h
  obtain ⟨rs1, a1, pm, rs2, g1, gp, g3, g4⟩ := reactions_split hc hrs
  have ha : Inv t (⟨0 :: t.nxs, 0 :: t.jxs, 0 :: t.xss⟩ : Arrays K) := ⟨rfl, rfl, Fixed.refl _⟩
  obtain ⟨s1, s2⟩ := start_good hc hs
  have hb : ∀ i ∈ List.range (c.reactions.length + 1), i ≤ c.reactions.length := fun i hi => by rw [List.mem_range] at hi; omega
  have e1 := readAll_good hc hs _ _ _ _ _ ha hb s1 g1
  obtain ⟨k1, k2, k3⟩ := readAll_spec hc _ _ _ _ _ ha hb g1
  -- a listed reaction has a last entry
  have hlast : ∀ r ∈ c.reactions, ∃ i r', c.Last i r' ∧ r'.mt = r.mt := by
    intro r hr
    obtain ⟨i, hi⟩ := List.mem_iff_getElem?.mp hr
    by_contra hcon
    push Not at hcon
    have : ∀ d i r', c.reactions.length - i = d → c.reactions[i]? = some r' → r'.mt = r.mt → False := by
      intro d
      induction d using Nat.strong_induction_on with
      | _ d ih =>
        intro i r' hd hi' hm
        refine hcon i r' ⟨hi', ?_⟩ hm
        intro j r'' hij hj hm'
        have hjl : j < c.reactions.length := by
          by_contra hx; rw [List.getElem?_eq_none (by omega)] at hj; cases hj
        exact ih _ (by omega) j r'' rfl hj (hm'.trans hm)
    exact this _ i r rfl hi rfl
  -- what the loop leaves for the parts
  have hpartget : ∀ m ∈ Comp.parts mt, (∀ rx, Dict.get? rs1 m = some rx → ∃ i r, c.Last i r ∧ r.mt = m ∧ rx.xs = .linlin (c.energiesOf r) (cleaned r.vals) ∧
      rx.threshold = ((r.first - 1 : Nat) : Int)) ∧ ((∃ r ∈ c.reactions, r.mt = m) → Dict.get? rs1 m ≠ none) := by
    intro m hm
    have hskip : skipped m = false := by
      have : Ace.Part mt m := (sumMt_part hmt m).mp hm
      unfold skipped
      unfold IsSumMt at hmt
      simp only [List.mem_cons, List.not_mem_nil, or_false] at hmt
      unfold Ace.Part at this
      simp only [Bool.or_eq_false_iff, decide_eq_false_iff_not]
      omega
    have hne12 : m ≠ 1 ∧ m ≠ 101 ∧ m ≠ 2 := by
      have : Ace.Part mt m := (sumMt_part hmt m).mp hm
      unfold IsSumMt at hmt
      simp only [List.mem_cons, List.not_mem_nil, or_false] at hmt
      unfold Ace.Part at this
      omega
    by_cases hex : ∃ r ∈ c.reactions, r.mt = m
    · obtain ⟨r0, hr0, hr0m⟩ := hex
      obtain ⟨i, r, hl, hrm⟩ := hlast r0 hr0
      have hrm' : r.mt = m := hrm.trans hr0m
      obtain ⟨rx, n, q1, q2, q3, q4⟩ := k3 m (i + 1) _ _ (range_split hl.1)
        (by unfold Content.mtAt; rw [if_neg (by omega), Nat.add_sub_cancel, hl.1, ← hrm']; rfl) hskip (hrm' ▸ last_after hl)
      refine ⟨?_, fun _ => by rw [q1]; simp⟩
      intro rx' hrx'
      rw [q1] at hrx'
      cases hrx'
      refine ⟨i, r, hl, hrm', ?_, ?_⟩
      · unfold Content.xsAt at q2
        rw [if_neg (by omega), Nat.add_sub_cancel, hl.1] at q2
        simpa using q2.symm
      · unfold Content.firstAt at q3
        rw [if_neg (by omega), Nat.add_sub_cancel, hl.1] at q3
        simp only [Option.map_some, Option.some.injEq] at q3
        rw [q4, q3]
    · refine ⟨?_, fun hh => absurd hh hex⟩
      intro rx hrx
      rw [k2 m (Or.inr ?_)] at hrx
      · exfalso
        unfold startRs at hrx
        split_ifs at hrx <;> simp [Dict.get?, hne12.1.symm, hne12.2.1.symm] at hrx
      · intro j hj hcon
        unfold Content.mtAt at hcon
        split_ifs at hcon
        · simp only [Option.some.injEq] at hcon
          exact hne12.2.2 hcon.symm
        · obtain ⟨r', hr', hrm⟩ := Option.map_eq_some_iff.mp hcon
          exact hex ⟨r', List.mem_of_getElem? hr', hrm⟩
  have hnone : Dict.get? rs1 mt = none := by
    rw [k2 mt (Or.inr ?_)]
    · unfold startRs
      split_ifs <;> simp [Dict.get?, p2.symm, p4.symm]
    · intro j hj hcon
      unfold Content.mtAt at hcon
      split_ifs at hcon
      · simp only [Option.some.injEq] at hcon
        exact p3 hcon.symm
      · obtain ⟨r', hr', hrm⟩ := Option.map_eq_some_iff.mp hcon
        exact hnot r' (List.mem_of_getElem? hr') hrm
  have hfilter : ∀ m, m ∈ (Comp.parts mt).filter (has rs1) ↔ m ∈ parts := by
    intro m
    rw [List.mem_filter, hparts, sumMt_part hmt]
    constructor
    · rintro ⟨hm, hh⟩
      unfold has at hh
      obtain ⟨rx, hrx⟩ := Option.isSome_iff_exists.mp hh
      obtain ⟨i, r, hl, hrm, _⟩ := (hpartget m ((sumMt_part hmt m).mpr hm)).1 rx hrx
      exact ⟨hm, r, List.mem_of_getElem? hl.1, hrm⟩
    · rintro ⟨hm, hex⟩
      refine ⟨hm, ?_⟩
      unfold has
      rw [← Option.ne_none_iff_isSome]
      exact (hpartget m ((sumMt_part hmt m).mpr hm)).2 hex
  have hne : (Comp.parts mt).filter (has rs1) ≠ [] := by
    obtain ⟨r, hr, hp⟩ := hpart
    intro he
    have := (hfilter r.mt).mpr ((hparts _).mpr ⟨hp, r, hr, rfl⟩)
    rw [he] at this
    cases this
  obtain ⟨u1, u2, u3⟩ := addPhotonMts_sum a1 _ (by simp) _ s2 hmt rs1 _ _ _ g3 e1 (fun _ _ => rfl) (Or.inl hnone)
  have e2 := addPhotonMts_good a1 _ (by simp) _ s2 _ _ _ g3 e1
  obtain ⟨v1, v2, v3⟩ := addSums_sum (c.energies.map (· * 1000000)) (by simp) hmt rs1 hne _ _ _ g4 (fun m hm => List.mem_cons_of_mem _ hm) e2 u1 u2
  have e3 := reactions_good hc hs hrs
  rcases v2 with v2 | ⟨rx, hrx, l, k, w1, w2, w3, w4⟩
  · exact absurd v2 (v3 (hwhy.imp id fun hp => u3 hne (Or.inl (photonMts_mem k1 hp gp))))
  obtain ⟨x1, x2, x3⟩ := editor_reads h hrs hrx hi ⟨p5, p6⟩
  have hmem : ∀ r ∈ l, ∃ m ∈ (Comp.parts mt).filter (has rs1), Dict.get? rs1 m = some r := by
    intro r hr
    obtain ⟨i, hi, rfl⟩ := List.mem_iff_getElem.mp hr
    have hi' : i < ((Comp.parts mt).filter (has rs1)).length := by rw [w1.length_eq]; exact hi
    exact ⟨_, List.get_mem _ ⟨i, hi'⟩, (List.forall₂_iff_get.mp w1).2 i hi' hi⟩
  refine ⟨x1, k, ?_, ?_, ?_, ?_⟩
  · intro r hr hp
    have hin := (hfilter r.mt).mpr ((hparts _).mpr ⟨hp, r, hr, rfl⟩)
    obtain ⟨i, hi', hii⟩ := List.mem_iff_getElem.mp hin
    have hil : i < l.length := by rw [← w1.length_eq]; exact hi'
    have hget := (List.forall₂_iff_get.mp w1).2 i hi' hil
    simp only [List.get_eq_getElem] at hget
    rw [hii] at hget
    obtain ⟨n, r', hl, hrm, _, hth⟩ := (hpartget r.mt (List.mem_of_mem_filter hin)).1 _ hget
    refine ⟨n, r', hl, hrm, ?_⟩
    have := w2 _ (List.getElem_mem hil)
    rw [hth] at this
    exact_mod_cast this
  · obtain ⟨r, hr, hrk⟩ := w3
    obtain ⟨m, hm, hget⟩ := hmem r hr
    obtain ⟨n, r', hl, hrm, _, hth⟩ := (hpartget m (List.mem_of_mem_filter hm)).1 _ hget
    refine ⟨n, r', hl, ?_, ?_⟩
    · rw [hrm]; exact ((hparts m).mp ((hfilter m).mp hm)).1
    · rw [hth] at hrk
      exact_mod_cast hrk.symm
  · rw [x2, w4]; rfl
  · rw [x3, w4]
    simp only [Tab1D.linlin]
    congr 2
    apply List.map_congr_left
    intro e _
    have hsig : ∀ m ∈ (Comp.parts mt).filter (has rs1), ∀ r, Dict.get? rs1 m = some r → sigmaAt ed m false e = val r.xs e := by
      intro m hm r hr
      have hmp := List.mem_of_mem_filter hm
      have hr2 : Dict.get? rs m = some r := by rw [v1 m hmp]; exact hr
      obtain ⟨⟨x, y, hxy, hl, hne'⟩, _⟩ := e3.2 _ (mem_of_get? hr2)
      simp only at hxy
      obtain ⟨_, _, q3, q4, q5, _⟩ := p1 m hmp
      have hget : Dict.get? (rs.map fun e => (e.1, e.2.toReaction (tempName t.temperature))) m = some (r.toReaction (tempName t.temperature)) := by
        rw [get?_map, hr2]; rfl
      subst hT
      unfold init chooseTemperature at hi
      simp only [List.length_cons, List.length_nil] at hi
      cases hi
      unfold sigmaAt getSigma
      rw [if_neg q4, if_neg q5]
      unfold getTab
      simp only [hget, Bool.false_eq_true, if_false]
      simp only [Rx.toReaction, Dict.get?, if_true, bind, Except.bind, hxy]
      rw [linlin_evals hne' hl]
      rfl
    have : (l.map fun r => val r.xs e).sum = (((Comp.parts mt).filter (has rs1)).map fun m => sigmaAt ed m false e).sum := by
      clear w2 w3 w4 hmem
      revert hsig w1
      generalize (Comp.parts mt).filter (has rs1) = ms
      intro w1 hsig
      induction w1 with
      | nil => rfl
      | cons hh _ ih =>
        simp only [List.map_cons, List.sum_cons]
        rw [ih fun m hm => hsig m (List.mem_cons_of_mem _ hm), hsig _ (List.mem_cons_self ..) _ hh]
    rw [this, ← List.sum_toFinset _ (p8.filter _)]
    apply Finset.sum_congr _ fun _ _ => rfl
    ext m
    rw [List.mem_toFinset]
    exact hfilter m

/-- **C90.** A table that lists partial reactions - levels of (n,2n), (n,p), (n,d), (n,t), (n,He3) or (n,alpha) - but not their sum gets the sum when it is
loaded: it is listed, and at each of its energies its value is the sum of the values of its parts. -/
theorem C90_level_sums {t : AceData.Table K} {c : Content K} (hc : Holds t c) (hs : c.Sound) {T : Ace.Table K} (h : load t = .ok T) {ed : Editor K}
    (hi : init T none = .ok ed) {mt : MT} (hmt : mt = 16 ∨ 103 ≤ mt ∧ mt ≤ 107) (hnot : ∀ r ∈ c.reactions, r.mt ≠ mt) (hpart : ∃ r ∈ c.reactions, Ace.Part mt r.mt)
    (parts : Finset MT) (hparts : ∀ m, m ∈ parts ↔ Ace.Part mt m ∧ ∃ r ∈ c.reactions, r.mt = m) :
    mt ∈ ed.allMts ∧ ∃ k, (∀ r ∈ c.reactions, Ace.Part mt r.mt → ∃ i r', c.Last i r' ∧ r'.mt = r.mt ∧ k ≤ r'.first - 1) ∧
      (∃ i r, c.Last i r ∧ Ace.Part mt r.mt ∧ k = r.first - 1) ∧
      getEnergy ed mt = .ok (.arr ((c.energies.map (· * 1000000)).drop k)) ∧
      getSigma ed mt none false = .ok (.arr (((c.energies.map (· * 1000000)).drop k).map fun e => ∑ m ∈ parts, sigmaAt ed m false e)) := by
  have hmt : IsSumMt mt := by
    unfold IsSumMt
    simp only [List.mem_cons, List.not_mem_nil, or_false]
    omega
  exact level_sums hc hs h hi hmt (by simp only [List.mem_cons, List.not_mem_nil, or_false]; omega) hnot hpart parts hparts

namespace Example
local instance : ExpLog ℚ := ⟨id, id⟩

/-- A table with two levels of (n,p), and no fission. -/
def levels : AceData.Table ℚ where
  name := "26056.80c".toList
  awr := 55
  temperature := 253 / 10 ^ 10
  pairs := []
  nxs := [32, 26056, 3, 2, 0, 0, 0, 0, 0, 0, 0, 0, 0, 0, 0, 0]
  jxs := [1, 0, 16, 18, 20, 22, 24, 0, 0, 0, 0, 0, 0, 0, 0, 0, 0, 0, 0, 0, 0, 0, 0, 0, 0, 0, 0, 0, 0, 0, 0, 0]
  xss :=
    [1, 2, 3, 20, 21, 22, 5, 6, 7, 10, 11, 12, 0, 0, 0] ++                   -- energies, total, absorption, elastic, heating
    [600, 601] ++ [2, 1] ++ [0, 0] ++ [1, 5] ++                              -- MTs, Q values, neutrons, places
    [2, 2, 5, 6] ++ [3, 1, 4] ++ [0, 0]                                      -- cross sections

def levelsContent : Content ℚ where
  energies := [1, 2, 3]
  total := [20, 21, 22]
  absorption := [5, 6, 7]
  elastic := [10, 11, 12]
  reactions := [⟨600, 2, [5, 6], 1⟩, ⟨601, 3, [4], 5⟩]

theorem levels_holds : Holds levels levelsContent where
  numEnergies := by decide +kernel
  numReactions := by decide +kernel
  positive := by decide +kernel
  main := ⟨1, by decide +kernel, at_of_take (by decide) (by decide +kernel)⟩
  lengths := by decide +kernel
  lists := ⟨16, 22, 24, by decide +kernel, by decide +kernel, by decide +kernel, at_of_take (by decide) (by decide +kernel),
    at_of_take (by decide) (by decide +kernel), by
      intro r hr
      simp only [levelsContent, List.mem_cons, List.not_mem_nil, or_false] at hr
      rcases hr with rfl | rfl
      · exact ⟨by decide, by decide, at_of_take (by decide) (by decide +kernel), by decide, by decide⟩
      · exact ⟨by decide, by decide, at_of_take (by decide) (by decide +kernel), by decide, by decide⟩⟩

theorem levels_sound : levelsContent.Sound := ⟨by decide, by
  intro r hr
  simp only [levelsContent, List.mem_cons, List.not_mem_nil, or_false] at hr
  rcases hr with rfl | rfl <;> decide⟩

def levelsLoaded : Ace.Table ℚ := ⟨["294K".toList],
  [(1, ⟨[("294K".toList, .linlin [1000000, 2000000, 3000000] [20, 21, 22])], none, none⟩),
   (101, ⟨[("294K".toList, .linlin [1000000, 2000000, 3000000] [5, 6, 7])], none, none⟩),
   (2, ⟨[("294K".toList, .linlin [1000000, 2000000, 3000000] [10, 11, 12])], none, none⟩),
   (600, ⟨[("294K".toList, .linlin [2000000, 3000000] [5, 6])], none, none⟩),
   (601, ⟨[("294K".toList, .linlin [3000000] [4])], none, none⟩),
   (103, ⟨[("294K".toList, .linlin [2000000, 3000000] [5, 10])], none, none⟩)]⟩

theorem levels_load : load levels = .ok levelsLoaded := by decide +kernel

-- The editor has (n,p), with 5 at 2 MeV and 6 + 4 at 3 MeV.
example : ∃ ed, init levelsLoaded none = .ok ed ∧ 103 ∈ ed.allMts ∧ ∃ k, getEnergy ed 103 = .ok (.arr (([1, 2, 3].map (· * 1000000)).drop k)) ∧
    getSigma ed 103 none false = .ok (.arr ((([1, 2, 3].map (· * 1000000)).drop k).map fun e => ∑ m ∈ {600, 601}, sigmaAt ed m false e)) := by
  obtain ⟨ed, hi⟩ : ∃ ed, init levelsLoaded none = .ok ed := ⟨_, rfl⟩
  obtain ⟨h1, k, _, _, h2, h3⟩ := C90_level_sums levels_holds levels_sound levels_load hi (mt := 103) (by decide)
    (by intro r hr; simp only [levelsContent, List.mem_cons, List.not_mem_nil, or_false] at hr; rcases hr with rfl | rfl <;> decide)
    ⟨⟨600, 2, [5, 6], 1⟩, by simp [levelsContent], by show Ace.Part 103 600; unfold Ace.Part; omega⟩ {600, 601} (by
      intro m
      simp only [Finset.mem_insert, Finset.mem_singleton, levelsContent, List.mem_cons, List.not_mem_nil, or_false, exists_eq_or_imp, exists_eq_left]
      unfold Ace.Part
      constructor
      · rintro (rfl | rfl) <;> omega
      · rintro ⟨_, h⟩; omega)
  exact ⟨ed, hi, h1, k, h2, h3⟩

example : getSigma (⟨levelsLoaded, levelsLoaded, "294K".toList, [], [], []⟩ : Editor ℚ) 103 none false = .ok (.arr [5, 10]) := by decide +kernel
end Example

end ASAPy.FromAce
