import Verif.FromAce.Lemmas

/-! # Loading cross sections from ACE tables (C78, C79) -/

namespace ASAPy.FromAce
open ASAPy.Ace ASAPy.AceData

variable {K : Type} [Field K] [LinearOrder K]

/-- The arrays belong to the table; some negative numbers may have been set to zero. -/
structure Inv (t : AceData.Table K) (a : Arrays K) : Prop where
  nxs : a.nxs = 0 :: t.nxs
  jxs : a.jxs = 0 :: t.jxs
  xss : Fixed (0 :: t.xss) a.xss

theorem xss_cons {t : AceData.Table K} {p : Nat} {v : K} (h : XSS t p = some v) : ((0 : K) :: t.xss)[p]? = some v := by
  unfold XSS at h
  by_cases hp : p = 0
  · rw [if_pos hp] at h; cases h
  · rw [if_neg hp] at h
    obtain ⟨k, rfl⟩ : ∃ k, p = k + 1 := ⟨p - 1, by omega⟩
    simpa using h

theorem At.list {t : AceData.Table K} {p : Nat} {vs : List K} (h : At t p vs) : AtL ((0 : K) :: t.xss) p vs :=
  fun k v hk => xss_cons (h k v hk)

theorem Inv.n {t : AceData.Table K} {a : Arrays K} (ha : Inv t a) {i : Nat} (hi : 0 < i) {v : Int} (h : NXS t i = some v) : item a.nxs (i : Int) = .ok v := by
  rw [ha.nxs]; exact item_cons _ _ _ hi _ h

theorem Inv.j {t : AceData.Table K} {a : Arrays K} (ha : Inv t a) {i : Nat} (hi : 0 < i) {v : Int} (h : JXS t i = some v) : item a.jxs (i : Int) = .ok v := by
  rw [ha.jxs]; exact item_cons _ _ _ hi _ h

theorem Inv.zero {t : AceData.Table K} {a : Arrays K} (ha : Inv t a) (p q : Int) : Inv t { a with xss := zeroNeg a.xss p q } :=
  ⟨ha.nxs, ha.jxs, ha.xss.zeroNeg p q⟩

variable [FloorRing K] [IsStrictOrderedRing K]

theorem Inv.int {t : AceData.Table K} {a : Arrays K} (ha : Inv t a) {p n : Nat} (h : XSS t p = some (n : K)) (q : Int) (hq : q = p) :
    a.int q = .ok (n : Int) := by
  subst hq
  unfold Arrays.int
  rw [item_nat _ _ _ (ha.xss.nonneg (xss_cons h) (Nat.cast_nonneg n))]
  show Except.ok (pyTrunc (n : K)) = _
  rw [pyTrunc_nat]

theorem grid_spec {t : AceData.Table K} {c : Content K} (hc : Holds t c) {a : Arrays K} (ha : Inv t a) :
    grid a = .ok (c.energies.map (· * 1000000)) := by
  obtain ⟨j, hj, hat⟩ := hc.main
  unfold grid
  have h3 := ha.n (i := 3) (by omega) hc.numEnergies
  have h1 := ha.j (i := 1) (by omega) hj
  simp only [Nat.cast_ofNat, Nat.cast_one] at h3 h1
  rw [h3, h1]
  show Except.ok _ = _
  have hE : AtL ((0 : K) :: t.xss) j c.energies := by
    have := hat.list
    rw [List.append_assoc, List.append_assoc] at this
    exact (at_append this).1
  rw [slice_at (ha.xss.at hE hc.positive) _ _ rfl rfl]

theorem reaction_xs {t : AceData.Table K} {c : Content K} (hc : Holds t c) {a : Arrays K} (ha : Inv t a) {k : Nat} {r : Entry K}
    (hr : c.reactions[k]? = some r) {mt : MT} {rx : Rx K} {a' : Arrays K} (h : reaction a (k + 1) = .ok (mt, rx, a')) :
    mt = r.mt ∧ rx.xs = .linlin (c.energiesOf r) (cleaned r.vals) ∧ rx.threshold = (r.first - 1 : Nat) ∧ Inv t a' ∧
      (∃ j7 : Nat, JXS t 7 = some (j7 : Int) ∧
        a' = { a with xss := zeroNeg a.xss (j7 + r.loc + 1 : Nat) (j7 + r.loc + 1 + r.vals.length : Nat) }) ∧
      ∃ ps ph, neutrons a' (k + 1) mt = .ok (ps, rx.derived) ∧ photons a' mt = .ok ph ∧ rx.products = ps ++ ph := by
  obtain ⟨j3, j6, j7, h3, h6, h7, hmt, hloc, hall⟩ := hc.lists
  obtain ⟨hj7, hl0, hsig, hf, hfit⟩ := hall r (List.mem_of_getElem? hr)
  have hmt' := hmt k (r.mt : K) (by simp [hr])
  have hloc' := hloc k (r.loc : K) (by simp [hr])
  have hthr : XSS t (j7 + r.loc - 1) = some (r.first : K) := hsig 0 _ rfl
  have hn : XSS t (j7 + r.loc) = some (r.vals.length : K) := by
    have := hsig 1 _ rfl
    rwa [Nat.sub_add_cancel (by omega)] at this
  have hvals : AtL ((0 : K) :: t.xss) (j7 + r.loc + 1) r.vals := by
    have := (at_append hsig.list).2
    have e : j7 + r.loc - 1 + [(r.first : K), (r.vals.length : K)].length = j7 + r.loc + 1 := by simp; omega
    rwa [e] at this
  unfold reaction at h
  rw [grid_spec hc ha] at h
  have e3 := ha.j (i := 3) (by omega) h3
  have e6 := ha.j (i := 6) (by omega) h6
  have e7 := ha.j (i := 7) (by omega) h7
  simp only [Nat.cast_ofNat] at e3 e6 e7
  simp only [bind, Except.bind, Nat.succ_pos, if_true, e3, e6, e7] at h
  rw [ha.int hmt' _ (by push_cast; ring)] at h
  simp only at h
  cases h4 : item a.jxs 4 with
  | error e => rw [h4] at h; cases h
  | ok j4 =>
    rw [h4] at h
    simp only at h
    cases h5 : item a.xss (j4 + ((k + 1 : Nat) : Int) - 1) with
    | error e => rw [h5] at h; cases h
    | ok q =>
      rw [h5] at h
      simp only at h
      rw [ha.int hloc' _ (by push_cast; ring)] at h
      simp only at h
      rw [ha.int hthr _ (by omega)] at h
      simp only at h
      rw [ha.int hn _ (by push_cast; ring)] at h
      simp only at h
      have hcl := ha.xss.cleaned hvals ((j7 : Int) + r.loc + 1) ((j7 : Int) + r.loc + 1 + r.vals.length) (by push_cast; ring) rfl
      rw [hcl] at h
      have hsl : slice (c.energies.map (· * 1000000)) ((r.first : Int) - 1) ((r.first : Int) - 1 + r.vals.length) = c.energiesOf r := by
        rw [show ((r.first : Int) - 1) = ((r.first - 1 : Nat) : Int) by omega,
          show (((r.first - 1 : Nat) : Int) + (r.vals.length : Int)) = ((r.first - 1 + r.vals.length : Nat) : Int) by push_cast; rfl, slice_nat]
        unfold Content.energiesOf
        rw [List.map_take, List.map_drop, List.drop_take]
        congr 1
        omega
      rw [hsl] at h
      split at h
      · cases h
      · rename_i v hv
        split at h
        · cases h
        · rename_i w hw
          simp only [pure, Except.pure, Except.ok.injEq, Prod.mk.injEq] at h
          obtain ⟨rfl, rfl, rfl⟩ := h
          refine ⟨by simp, rfl, ?_, ha.zero _ _, ⟨j7, h7, ?_⟩, v.1, _, hv, hw, rfl⟩
          · show (r.first : Int) - 1 = _
            omega
          · push_cast
            rfl

theorem elastic_xs {t : AceData.Table K} {c : Content K} (hc : Holds t c) {a : Arrays K} (ha : Inv t a) {mt : MT} {rx : Rx K} {a' : Arrays K}
    (h : reaction a 0 = .ok (mt, rx, a')) :
    mt = 2 ∧ rx.xs = .linlin (c.energies.map (· * 1000000)) (cleaned c.elastic) ∧ rx.threshold = 0 ∧ Inv t a' ∧
      (∃ j : Nat, JXS t 1 = some (j : Int) ∧
        a' = { a with xss := zeroNeg a.xss (j + 3 * c.energies.length : Nat) (j + 4 * c.energies.length : Nat) }) ∧
      ∃ ph, photons a' 2 = .ok ph ∧ rx.products = ⟨.prompt, none, some none⟩ :: ph := by
  obtain ⟨j, hj, hat⟩ := hc.main
  obtain ⟨l1, l2, l3⟩ := hc.lengths
  have h3 := ha.n (i := 3) (by omega) hc.numEnergies
  have h1 := ha.j (i := 1) (by omega) hj
  simp only [Nat.cast_ofNat, Nat.cast_one] at h3 h1
  unfold reaction at h
  rw [grid_spec hc ha] at h
  simp only [bind, Except.bind, lt_irrefl, if_false, h3, h1] at h
  have hE : AtL ((0 : K) :: t.xss) (j + 3 * c.energies.length) c.elastic := by
    have := (at_append hat.list).2
    have e : j + (c.energies ++ c.total ++ c.absorption).length = j + 3 * c.energies.length := by simp [l1, l2]; ring
    rwa [e] at this
  have hcl := ha.xss.cleaned hE ((j : Int) + 3 * c.energies.length) ((j : Int) + 4 * c.energies.length) (by push_cast; ring) (by rw [l3]; ring)
  rw [hcl] at h
  split at h
  · cases h
  · rename_i w hw
    simp only [pure, Except.pure, Except.ok.injEq, Prod.mk.injEq] at h
    obtain ⟨rfl, rfl, rfl⟩ := h
    exact ⟨rfl, rfl, rfl, ha.zero _ _, ⟨j, hj, by push_cast; rfl⟩, w, hw, rfl⟩

/-- The MT of the `i`-th reaction read; number 0 is elastic scattering. -/
def Content.mtAt (c : Content K) (i : Nat) : Option Nat := if i = 0 then some 2 else (c.reactions[i - 1]?).map (·.mt)

/-- Its cross section. -/
def Content.xsAt (c : Content K) (i : Nat) : Option (Tab1D K) :=
  if i = 0 then some (.linlin (c.energies.map (· * 1000000)) (cleaned c.elastic))
  else (c.reactions[i - 1]?).map fun r => .linlin (c.energiesOf r) (cleaned r.vals)

/-- Its first point. -/
def Content.firstAt (c : Content K) (i : Nat) : Option Nat := if i = 0 then some 0 else (c.reactions[i - 1]?).map (·.first - 1)

theorem reaction_at {t : AceData.Table K} {c : Content K} (hc : Holds t c) {a : Arrays K} (ha : Inv t a) {i : Nat} (hi : i ≤ c.reactions.length)
    {mt : MT} {rx : Rx K} {a' : Arrays K} (h : reaction a i = .ok (mt, rx, a')) :
    c.mtAt i = some mt ∧ c.xsAt i = some rx.xs ∧ (∃ n, c.firstAt i = some n ∧ rx.threshold = n) ∧ Inv t a' := by
  cases i with
  | zero =>
    obtain ⟨rfl, h2, h3, h4, _⟩ := elastic_xs hc ha h
    refine ⟨rfl, ?_, ⟨0, rfl, h3⟩, h4⟩
    rw [h2]; rfl
  | succ k =>
    have hk : c.reactions[k]? = some c.reactions[k] := List.getElem?_eq_getElem hi
    obtain ⟨h1, h2, h3, h4, _⟩ := reaction_xs hc ha hk h
    refine ⟨?_, ?_, ⟨c.reactions[k].first - 1, ?_, h3⟩, h4⟩
    · unfold Content.mtAt; rw [if_neg (by omega), Nat.add_sub_cancel, hk, h1]; rfl
    · unfold Content.xsAt; rw [if_neg (by omega), Nat.add_sub_cancel, hk, h2]; rfl
    · unfold Content.firstAt; rw [if_neg (by omega), Nat.add_sub_cancel, hk]; rfl

/-- The dictionary after the loop: for every MT the last reaction that has it; what was there before otherwise. -/
theorem readAll_spec {t : AceData.Table K} {c : Content K} (hc : Holds t c) : ∀ (is : List Nat) (rs : List (MT × Rx K)) (a : Arrays K)
    (rs' : List (MT × Rx K)) (a' : Arrays K), Inv t a → (∀ i ∈ is, i ≤ c.reactions.length) → readAll is rs a = .ok (rs', a') →
    Inv t a' ∧ (∀ mt, (skipped mt = true ∨ ∀ i ∈ is, c.mtAt i ≠ some mt) → Dict.get? rs' mt = Dict.get? rs mt) ∧
    (∀ mt i pre post, is = pre ++ i :: post → c.mtAt i = some mt → skipped mt = false → (∀ j ∈ post, c.mtAt j ≠ some mt) →
      ∃ rx n, Dict.get? rs' mt = some rx ∧ c.xsAt i = some rx.xs ∧ c.firstAt i = some n ∧ rx.threshold = n) := by
  intro is
  induction is with
  | nil =>
    intro rs a rs' a' ha _ h
    simp only [readAll, Except.ok.injEq, Prod.mk.injEq] at h
    obtain ⟨rfl, rfl⟩ := h
    refine ⟨ha, fun _ _ => rfl, ?_⟩
    intro mt i pre post h
    simp at h
  | cons i is ih =>
    intro rs a rs' a' ha hb h
    unfold readAll at h
    cases hrx : reaction a i with
    | error e => rw [hrx] at h; cases h
    | ok v =>
      obtain ⟨m, rx, a1⟩ := v
      rw [hrx] at h
      simp only [bind, Except.bind] at h
      obtain ⟨h1, h2, ⟨n, h3, h3'⟩, h4⟩ := reaction_at hc ha (hb i (List.mem_cons_self ..)) hrx
      obtain ⟨g1, g2, g3⟩ := ih _ _ _ _ h4 (fun j hj => hb j (List.mem_cons_of_mem _ hj)) h
      refine ⟨g1, ?_, ?_⟩
      · intro mt hmt
        rw [g2 mt (hmt.imp id fun h j hj => h j (List.mem_cons_of_mem _ hj))]
        by_cases hs : skipped m = true
        · rw [if_pos hs]
        · rw [if_neg hs]
          apply Dict.get?_set_ne
          rintro rfl
          rcases hmt with hmt | hmt
          · exact hs hmt
          · exact hmt i (List.mem_cons_self ..) h1
      · intro mt j pre post hsplit hj hs hlast
        cases pre with
        | nil =>
          simp only [List.nil_append, List.cons.injEq] at hsplit
          obtain ⟨rfl, rfl⟩ := hsplit
          rw [h1] at hj
          cases hj
          refine ⟨rx, n, ?_, h2, h3, h3'⟩
          rw [g2 m (Or.inr hlast), if_neg (by rw [hs]; simp), Dict.get?_set_same]
        | cons p pre =>
          simp only [List.cons_append, List.cons.injEq] at hsplit
          exact g3 mt j pre post hsplit.2 hj hs hlast

variable [ExpLog K]

theorem addPhotonMts_keeps (a : Arrays K) (energy : List K) (abs : Option (Rx K)) : ∀ (mts : List MT) (rs rs' : List (MT × Rx K)),
    addPhotonMts a energy abs mts rs = .ok rs' → ∀ mt rx, (mt ≠ 101 ∨ abs = some rx) → Dict.get? rs mt = some rx → Dict.get? rs' mt = some rx := by
  intro mts
  induction mts with
  | nil => intro rs rs' h mt rx _ hg; simp only [addPhotonMts, Except.ok.injEq] at h; rw [← h]; exact hg
  | cons m mts ih =>
    intro rs rs' h mt rx hne hg
    unfold addPhotonMts at h
    by_cases h1 : has rs m = true
    · rw [if_pos h1] at h; exact ih _ _ h mt rx hne hg
    rw [if_neg h1] at h
    split at h
    · exact ih _ _ h mt rx hne hg
    split at h
    · exact ih _ _ h mt rx hne hg
    have hm : mt ≠ m := by
      rintro rfl
      apply h1
      unfold has
      rw [hg]; rfl
    cases hr : redundant rs energy (componentsOf rs m) with
    | error e => rw [hr] at h; cases h
    | ok r =>
      rw [hr] at h
      simp only [bind, Except.bind] at h
      cases hp : photons a m with
      | error e => rw [hp] at h; cases h
      | ok ph =>
        rw [hp] at h
        simp only at h
        split at h
        · cases abs with
          | none => simp at h
          | some r' =>
            simp only at h
            apply ih _ _ h mt rx hne
            by_cases h101 : mt = 101
            · subst h101
              rcases hne with hne | hne
              · exact absurd rfl hne
              · rw [Dict.get?_set_same, hne]
            · rw [Dict.get?_set_ne _ _ h101]; exact hg
        · apply ih _ _ h mt rx hne
          rw [Dict.get?_set_ne _ _ hm]; exact hg

theorem addSums_keeps (energy : List K) : ∀ (mts : List MT) (rs rs' : List (MT × Rx K)), addSums energy mts rs = .ok rs' →
    ∀ mt rx, Dict.get? rs mt = some rx → Dict.get? rs' mt = some rx := by
  intro mts
  induction mts with
  | nil => intro rs rs' h mt rx hg; simp only [addSums, Except.ok.injEq] at h; rw [← h]; exact hg
  | cons m mts ih =>
    intro rs rs' h mt rx hg
    unfold addSums at h
    by_cases h1 : has rs m = true
    · rw [if_pos h1] at h; exact ih _ _ h mt rx hg
    rw [if_neg h1] at h
    split at h
    · exact ih _ _ h mt rx hg
    have hm : mt ≠ m := by
      rintro rfl
      apply h1
      unfold has
      rw [hg]; rfl
    cases hr : redundant rs energy (componentsOf rs m) with
    | error e => rw [hr] at h; cases h
    | ok r =>
      rw [hr] at h
      apply ih _ _ h mt rx
      rw [Dict.get?_set_ne _ _ hm]; exact hg

/-- The reactions before the loop: total, and absorption if it is not zero everywhere. -/
def startRs (c : Content K) : List (MT × Rx K) :=
  if ∃ v ∈ c.absorption, v ≠ 0 then
    [(1, ⟨.linlin (c.energies.map (· * 1000000)) c.total, 0, [], []⟩), (101, ⟨.linlin (c.energies.map (· * 1000000)) c.absorption, 0, [], []⟩)]
  else [(1, ⟨.linlin (c.energies.map (· * 1000000)) c.total, 0, [], []⟩)]

/-- The local variable `absorption`. -/
def absOf (c : Content K) : Option (Rx K) :=
  if ∃ v ∈ c.absorption, v ≠ 0 then some ⟨.linlin (c.energies.map (· * 1000000)) c.absorption, 0, [], []⟩ else none

theorem reactions_split {t : AceData.Table K} {c : Content K} (hc : Holds t c) {rs : List (MT × Rx K)} (h : reactions t = .ok rs) :
    ∃ rs1 a1 pm rs2, readAll (List.range (c.reactions.length + 1)) (startRs c) ⟨0 :: t.nxs, 0 :: t.jxs, 0 :: t.xss⟩ = .ok (rs1, a1) ∧
      photonMts a1 = .ok pm ∧
      addPhotonMts a1 (c.energies.map (· * 1000000)) (absOf c) (uniqueMts pm) rs1 = .ok rs2 ∧
      addSums (c.energies.map (· * 1000000)) [16, 103, 104, 105, 106, 107] rs2 = .ok rs := by
  have ha : Inv t (⟨0 :: t.nxs, 0 :: t.jxs, 0 :: t.xss⟩ : Arrays K) := ⟨rfl, rfl, Fixed.refl _⟩
  obtain ⟨j, hj, hat⟩ := hc.main
  obtain ⟨l1, l2, l3⟩ := hc.lengths
  have h3 := ha.n (i := 3) (by omega) hc.numEnergies
  have h4 := ha.n (i := 4) (by omega) hc.numReactions
  have h1 := ha.j (i := 1) (by omega) hj
  simp only [Nat.cast_ofNat, Nat.cast_one] at h3 h1 h4
  have hA := (at_append hat.list).1
  rw [List.append_assoc] at hA
  obtain ⟨hE, hA⟩ := at_append hA
  obtain ⟨hT, hA⟩ := at_append hA
  unfold reactions at h
  simp only [bind, Except.bind] at h
  rw [grid_spec hc ha] at h
  simp only [h3, h1, h4] at h
  rw [slice_at hT ((j : Int) + c.energies.length) (j + 2 * c.energies.length) (by push_cast; ring) (by rw [l1]; ring),
    slice_at hA ((j : Int) + 2 * c.energies.length) (j + 3 * c.energies.length) (by rw [l1]; push_cast; ring) (by rw [l2]; ring)] at h
  rw [show ((c.reactions.length : Int) + 1).toNat = c.reactions.length + 1 by omega] at h
  have hany : (c.absorption.any fun v => decide (v ≠ 0)) = true ↔ ∃ v ∈ c.absorption, v ≠ 0 := by simp
  have hs : (if (c.absorption.any fun v => decide (v ≠ 0)) = true then
        some (⟨.linlin (c.energies.map (· * 1000000)) c.absorption, 0, [], []⟩ : Rx K) else none).elim
      [(1, (⟨.linlin (c.energies.map (· * 1000000)) c.total, 0, [], []⟩ : Rx K))]
      (Dict.set [(1, (⟨.linlin (c.energies.map (· * 1000000)) c.total, 0, [], []⟩ : Rx K))] 101 ·) = startRs c := by
    unfold startRs
    by_cases hx : ∃ v ∈ c.absorption, v ≠ 0
    · rw [if_pos (hany.mpr hx), if_pos hx]; simp [Dict.set]
    · rw [if_neg (fun h => hx (hany.mp h)), if_neg hx]; rfl
  have habs : (if (c.absorption.any fun v => decide (v ≠ 0)) = true then
        some (⟨.linlin (c.energies.map (· * 1000000)) c.absorption, 0, [], []⟩ : Rx K) else none) = absOf c := by
    unfold absOf
    by_cases hx : ∃ v ∈ c.absorption, v ≠ 0
    · rw [if_pos (hany.mpr hx), if_pos hx]
    · rw [if_neg (fun h => hx (hany.mp h)), if_neg hx]
  rw [hs, habs] at h
  cases hr : readAll (List.range (c.reactions.length + 1)) (startRs c) ⟨0 :: t.nxs, 0 :: t.jxs, 0 :: t.xss⟩ with
  | error e => rw [hr] at h; cases h
  | ok v =>
    obtain ⟨rs1, a1⟩ := v
    rw [hr] at h
    simp only at h
    cases hp : photonMts a1 with
    | error e => rw [hp] at h; cases h
    | ok pm =>
      rw [hp] at h
      simp only at h
      cases hq : addPhotonMts a1 (c.energies.map (· * 1000000)) (absOf c) (uniqueMts pm) rs1 with
      | error e => rw [hq] at h; cases h
      | ok rs2 =>
        rw [hq] at h
        exact ⟨rs1, a1, pm, rs2, rfl, hp, hq, h⟩

theorem load_split {t : AceData.Table K} {T : Ace.Table K} (h : load t = .ok T) :
    ∃ rs, reactions t = .ok rs ∧ T = ⟨[tempName t.temperature], rs.map fun e => (e.1, e.2.toReaction (tempName t.temperature))⟩ := by
  unfold load at h
  simp only [bind, Except.bind] at h
  split at h
  · cases h
  split at h
  · cases h
  split at h
  · cases h
  cases hr : reactions t with
  | error e => rw [hr] at h; cases h
  | ok rs =>
    rw [hr] at h
    simp only [pure, Except.pure, Except.ok.injEq] at h
    exact ⟨rs, rfl, h.symm⟩

theorem get?_map {α β : Type} (f : α → β) (d : List (MT × α)) (k : MT) :
    Dict.get? (d.map fun e => (e.1, f e.2)) k = (Dict.get? d k).map f := by
  induction d with
  | nil => rfl
  | cons e d ih =>
    obtain ⟨k', a⟩ := e
    by_cases h : k' = k <;> simp [Dict.get?, h, ih]

/-- A reaction of the loaded table, as the editor reads it. -/
theorem editor_reads {t : AceData.Table K} {T : Ace.Table K} (h : load t = .ok T) {rs : List (MT × Rx K)} (hr : reactions t = .ok rs) {mt : MT}
    {rx : Rx K} (hg : Dict.get? rs mt = some rx) {ed : Editor K} (hi : init T none = .ok ed) (hmt : mt ≠ 452 ∧ mt ≠ 1018) :
    mt ∈ ed.allMts ∧ getEnergy ed mt = .ok (.arr rx.xs.x) ∧ getSigma ed mt none false = .ok (.arr rx.xs.y) := by
  obtain ⟨rs', hr', rfl⟩ := load_split h
  rw [hr] at hr'
  cases hr'
  have hget : Dict.get? (rs.map fun e => (e.1, e.2.toReaction (tempName t.temperature))) mt = some (rx.toReaction (tempName t.temperature)) := by
    rw [get?_map, hg]; rfl
  unfold init chooseTemperature at hi
  simp only [List.length_cons, List.length_nil] at hi
  cases hi
  refine ⟨?_, ?_, ?_⟩
  · unfold allMtsOf
    have : mt ∈ Dict.keys (rs.map fun e => (e.1, e.2.toReaction (tempName t.temperature))) := by
      rw [← Dict.get?_isSome, hget]; rfl
    simp only
    split_ifs
    · exact List.mem_append_left _ this
    · exact this
  · unfold getEnergy
    rw [if_neg hmt.1, if_neg hmt.2]
    unfold Table.rx
    simp only [hget]
    rfl
  · unfold getSigma
    rw [if_neg hmt.1, if_neg hmt.2]
    unfold getTab
    simp only [hget, Bool.false_eq_true, if_false]
    simp [Rx.toReaction, Dict.get?, bind, Except.bind]

theorem range_split {α : Type} {l : List α} {i : Nat} {v : α} (h : l[i]? = some v) :
    List.range (l.length + 1) = List.range (i + 1) ++ (i + 1) :: (List.range (l.length - i - 1)).map (i + 2 + ·) := by
  have hlen : i < l.length := by
    by_contra hcon
    rw [List.getElem?_eq_none (by omega)] at h
    cases h
  rw [show l.length + 1 = (i + 1) + ((l.length - i - 1) + 1) by omega, List.range_add, List.range_succ_eq_map (n := l.length - i - 1)]
  congr 1
  simp only [List.map_cons, List.map_map, Nat.add_zero]
  congr 1
  apply List.map_congr_left
  intro j _
  simp only [Function.comp, Nat.succ_eq_add_one]
  omega

theorem last_after {c : Content K} {i : Nat} {r : Entry K} (hr : c.Last i r) {n : Nat} :
    ∀ j ∈ (List.range n).map (i + 2 + ·), c.mtAt j ≠ some r.mt := by
  intro j hj
  obtain ⟨m, _, rfl⟩ := List.mem_map.mp hj
  unfold Content.mtAt
  rw [if_neg (by omega)]
  intro hcon
  obtain ⟨r', hr', hrm⟩ := Option.map_eq_some_iff.mp hcon
  exact hr.2 _ r' (by omega) hr' hrm

/-- **C78.** Every reaction listed in an ACE table (the last one, if an MT is listed twice; gas production and damage are left out; the absorption, MT
101, is that of the main block) is loaded with the energies and cross sections the table has for it, negative ones as zero. -/
theorem C78_reactions {t : AceData.Table K} {c : Content K} (hc : Holds t c) {T : Ace.Table K} (h : load t = .ok T) {ed : Editor K}
    (hi : init T none = .ok ed) {i : Nat} {r : Entry K} (hr : c.Last i r) (hout : ¬ LeftOut r.mt) (hmt : r.mt ≠ 101 ∧ r.mt ≠ 452 ∧ r.mt ≠ 1018) :
    r.mt ∈ ed.allMts ∧ getEnergy ed r.mt = .ok (.arr (c.energiesOf r)) ∧ getSigma ed r.mt none false = .ok (.arr (cleaned r.vals)) := by
  obtain ⟨rs, hrs, _⟩ := load_split h
  obtain ⟨rs1, a1, pm, rs2, g1, _, g3, g4⟩ := reactions_split hc hrs
  have ha : Inv t (⟨0 :: t.nxs, 0 :: t.jxs, 0 :: t.xss⟩ : Arrays K) := ⟨rfl, rfl, Fixed.refl _⟩
  obtain ⟨_, _, k3⟩ := readAll_spec hc _ _ _ _ _ ha (fun i hi => by rw [List.mem_range] at hi; omega) g1
  have hskip : skipped r.mt = false := by
    unfold skipped
    unfold LeftOut at hout
    push Not at hout
    simp only [Bool.or_eq_false_iff, decide_eq_false_iff_not]
    exact ⟨fun hh => absurd hh.2 (not_lt.mpr (hout.1 hh.1)), hout.2⟩
  obtain ⟨rx, n, e1, e2, _⟩ := k3 r.mt (i + 1) _ _ (range_split hr.1) (by unfold Content.mtAt; rw [if_neg (by omega), Nat.add_sub_cancel, hr.1]; rfl) hskip
    (last_after hr)
  have hxs : rx.xs = .linlin (c.energiesOf r) (cleaned r.vals) := by
    unfold Content.xsAt at e2
    rw [if_neg (by omega), Nat.add_sub_cancel, hr.1] at e2
    simp only [Option.map_some, Option.some.injEq] at e2
    exact e2.symm
  have hfin := addSums_keeps _ _ _ _ g4 r.mt rx (addPhotonMts_keeps _ _ _ _ _ _ g3 r.mt rx (Or.inl hmt.1) e1)
  have := editor_reads h hrs hfin hi hmt.2
  rw [hxs] at this
  exact this

/-- **C79.** Total, elastic and absorption cross sections are those of the main block, for the energies of the grid, if the table does not list these MTs
among its reactions (negative elastic cross sections as zero; MT 101 only exists if the absorption is not zero everywhere). -/
theorem C79_main {t : AceData.Table K} {c : Content K} (hc : Holds t c) {T : Ace.Table K} (h : load t = .ok T) {ed : Editor K}
    (hi : init T none = .ok ed) :
    ((∀ r ∈ c.reactions, r.mt ≠ 1) → 1 ∈ ed.allMts ∧ getEnergy ed 1 = .ok (.arr (c.energies.map (· * 1000000))) ∧
      getSigma ed 1 none false = .ok (.arr c.total)) ∧
    ((∀ r ∈ c.reactions, r.mt ≠ 2) → 2 ∈ ed.allMts ∧ getEnergy ed 2 = .ok (.arr (c.energies.map (· * 1000000))) ∧
      getSigma ed 2 none false = .ok (.arr (cleaned c.elastic))) ∧
    ((∀ r ∈ c.reactions, r.mt ≠ 101) → (∃ v ∈ c.absorption, v ≠ 0) → 101 ∈ ed.allMts ∧
      getEnergy ed 101 = .ok (.arr (c.energies.map (· * 1000000))) ∧ getSigma ed 101 none false = .ok (.arr c.absorption)) := by
  obtain ⟨rs, hrs, _⟩ := load_split h
  obtain ⟨rs1, a1, pm, rs2, g1, _, g3, g4⟩ := reactions_split hc hrs
  have ha : Inv t (⟨0 :: t.nxs, 0 :: t.jxs, 0 :: t.xss⟩ : Arrays K) := ⟨rfl, rfl, Fixed.refl _⟩
  obtain ⟨_, k2, k3⟩ := readAll_spec hc _ _ _ _ _ ha (fun i hi => by rw [List.mem_range] at hi; omega) g1
  have hnot : ∀ m, (∀ r ∈ c.reactions, r.mt ≠ m) → ∀ i, 0 < i → c.mtAt i ≠ some m := by
    intro m hm i hi hcon
    unfold Content.mtAt at hcon
    rw [if_neg (by omega)] at hcon
    obtain ⟨r', hr', hrm⟩ := Option.map_eq_some_iff.mp hcon
    exact hm r' (List.mem_of_getElem? hr') hrm
  refine ⟨?_, ?_, ?_⟩
  · intro hm
    have e1 : Dict.get? rs1 1 = some ⟨.linlin (c.energies.map (· * 1000000)) c.total, 0, [], []⟩ := by
      rw [k2 1 (Or.inr (fun i _ => by
        rcases Nat.eq_zero_or_pos i with rfl | hp
        · simp [Content.mtAt]
        · exact hnot 1 hm i hp))]
      unfold startRs
      split_ifs <;> simp [Dict.get?]
    exact editor_reads h hrs (addSums_keeps _ _ _ _ g4 _ _ (addPhotonMts_keeps _ _ _ _ _ _ g3 _ _ (Or.inl (by decide)) e1)) hi (by decide)
  · intro hm
    obtain ⟨rx, n, e1, e2, _⟩ := k3 2 0 [] ((List.range c.reactions.length).map (· + 1)) (by rw [List.range_succ_eq_map]; rfl) (by simp [Content.mtAt])
      (by decide) (by
        intro j hj
        obtain ⟨m, _, rfl⟩ := List.mem_map.mp hj
        exact hnot 2 hm _ (by omega))
    simp only [Content.xsAt, if_true, Option.some.injEq] at e2
    have := editor_reads h hrs (addSums_keeps _ _ _ _ g4 _ _ (addPhotonMts_keeps _ _ _ _ _ _ g3 _ _ (Or.inl (by decide)) e1)) hi (by decide)
    rw [← e2] at this
    exact this
  · intro hm hx
    have e1 : Dict.get? rs1 101 = some ⟨.linlin (c.energies.map (· * 1000000)) c.absorption, 0, [], []⟩ := by
      rw [k2 101 (Or.inr (fun i _ => by
        rcases Nat.eq_zero_or_pos i with rfl | hp
        · simp [Content.mtAt]
        · exact hnot 101 hm i hp))]
      unfold startRs
      rw [if_pos hx]
      simp [Dict.get?]
    exact editor_reads h hrs (addSums_keeps _ _ _ _ g4 _ _ (addPhotonMts_keeps _ _ _ _ _ _ g3 _ _
      (Or.inr (by unfold absOf; rw [if_pos hx])) e1)) hi (by decide)

end ASAPy.FromAce
