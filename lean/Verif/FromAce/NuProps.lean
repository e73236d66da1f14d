import Verif.FromAce.Example

/-! # Nu and fission spectra loaded from ACE tables (C80, C81) -/

set_option linter.unusedSimpArgs false

namespace ASAPy.FromAce
open ASAPy.Ace ASAPy.AceData

variable {K : Type} [Field K] [LinearOrder K]

/-- Outside the cross sections the array is that of the table. -/
def Kept (t : AceData.Table K) (c : Content K) (a : Arrays K) : Prop := ∀ p, NotXs t c p → a.xss[p]? = ((0 : K) :: t.xss)[p]?

theorem zeroNeg_outside (l : List K) (a b p : Nat) (h : ¬ (a ≤ p ∧ p < b)) : (zeroNeg l (a : Int) (b : Int))[p]? = l[p]? := by
  unfold zeroNeg
  rw [List.getElem?_mapIdx]
  cases hp : l[p]? with
  | none => rfl
  | some v =>
    simp only [Option.map_some, Option.some.injEq]
    rw [if_neg]
    rintro ⟨h1, h2, _⟩
    rw [clamp_nat] at h1 h2
    have hl : p < l.length := by
      by_contra hc
      rw [List.getElem?_eq_none (by omega)] at hp
      cases hp
    apply h
    constructor
    · rcases le_total a l.length with hh | hh
      · rwa [min_eq_left hh] at h1
      · rw [min_eq_right hh] at h1; omega
    · exact lt_of_lt_of_le h2 (min_le_left _ _)

variable [FloorRing K] [IsStrictOrderedRing K]

theorem reaction_kept {t : AceData.Table K} {c : Content K} (hc : Holds t c) {a : Arrays K} (ha : Inv t a) (hk : Kept t c a) {i : Nat}
    (hi : i ≤ c.reactions.length) {mt : MT} {rx : Rx K} {a' : Arrays K} (h : reaction a i = .ok (mt, rx, a')) : Kept t c a' := by
  cases i with
  | zero =>
    obtain ⟨_, _, _, _, ⟨j, hj, rfl⟩, _⟩ := elastic_xs hc ha h
    intro p hp
    rw [zeroNeg_outside _ _ _ _ (hp.1 j hj)]
    exact hk p hp
  | succ k =>
    have hr : c.reactions[k]? = some c.reactions[k] := List.getElem?_eq_getElem hi
    obtain ⟨_, _, _, _, ⟨j7, hj, rfl⟩, _⟩ := reaction_xs hc ha hr h
    intro p hp
    rw [zeroNeg_outside _ _ _ _ (hp.2 j7 hj _ (List.mem_of_getElem? hr))]
    exact hk p hp

/-- The reaction that ends up in the dictionary is one that has been read. -/
theorem readAll_from {t : AceData.Table K} {c : Content K} (hc : Holds t c) : ∀ (is : List Nat) (rs : List (MT × Rx K)) (a : Arrays K)
    (rs' : List (MT × Rx K)) (a' : Arrays K), Inv t a → Kept t c a → (∀ i ∈ is, i ≤ c.reactions.length) → readAll is rs a = .ok (rs', a') →
    ∀ mt i pre post, is = pre ++ i :: post → c.mtAt i = some mt → skipped mt = false → (∀ j ∈ post, c.mtAt j ≠ some mt) →
      ∃ rx a0 a1, Inv t a0 ∧ Kept t c a0 ∧ reaction a0 i = .ok (mt, rx, a1) ∧ Dict.get? rs' mt = some rx := by
  intro is
  induction is with
  | nil =>
    intro rs a rs' a' _ _ _ _ mt i pre post h
    simp at h
  | cons i is ih =>
    intro rs a rs' a' ha hk hb h mt j pre post hsplit hj hs hlast
    unfold readAll at h
    cases hrx : reaction a i with
    | error e => rw [hrx] at h; cases h
    | ok v =>
      obtain ⟨m, rx, a1⟩ := v
      rw [hrx] at h
      simp only [bind, Except.bind] at h
      obtain ⟨h1, _, _, h4⟩ := reaction_at hc ha (hb i (List.mem_cons_self ..)) hrx
      have hk1 := reaction_kept hc ha hk (hb i (List.mem_cons_self ..)) hrx
      cases pre with
      | nil =>
        simp only [List.nil_append, List.cons.injEq] at hsplit
        obtain ⟨rfl, rfl⟩ := hsplit
        rw [h1] at hj
        cases hj
        refine ⟨rx, a, a1, ha, hk, hrx, ?_⟩
        rw [(readAll_spec hc _ _ _ _ _ h4 (fun j hj => hb j (List.mem_cons_of_mem _ hj)) h).2.1 mt (Or.inr hlast), if_neg (by rw [hs]; simp),
          Dict.get?_set_same]
      | cons p pre =>
        simp only [List.cons_append, List.cons.injEq] at hsplit
        exact ih _ _ _ _ h4 hk1 (fun j hj => hb j (List.mem_cons_of_mem _ hj)) h mt j pre post hsplit.2 hj hs hlast

theorem map_trunc (l : List Nat) : (l.map fun v : Nat => (v : K)).map pyTrunc = l.map fun v : Nat => (v : Int) := by
  rw [List.map_map]
  apply List.map_congr_left
  intro v _
  exact pyTrunc_nat v

/-- `Tabulated1D.from_ace`. -/
theorem tab1_spec {t : AceData.Table K} {a : Arrays K} (ha : Inv t a) {p : Nat} {n : Tab K} (h : At t p n.numbers) (hf : n.Fits)
    (q : Int) (hq : q = p) :
    tab1 a q = .ok ⟨n.energies.map (· * 1000000), n.values,
      if n.breakpoints = [] then [(n.energies.length : Int)] else n.breakpoints.map fun v : Nat => (v : Int),
      if n.breakpoints = [] then [2] else n.laws⟩ := by
  obtain ⟨f1, f2, f3, f4⟩ := hf
  subst hq
  have hnn : ∀ v ∈ n.numbers, (0 : K) ≤ v := by
    intro v hv
    unfold Tab.numbers at hv
    simp only [List.mem_append, List.mem_map, List.mem_cons, List.not_mem_nil, or_false] at hv
    rcases hv with ((((rfl | ⟨w, _, rfl⟩) | ⟨w, _, rfl⟩) | rfl) | hv) | hv
    · exact Nat.cast_nonneg _
    · exact Nat.cast_nonneg _
    · exact Nat.cast_nonneg _
    · exact Nat.cast_nonneg _
    · exact f3 v hv
    · exact f4 v hv
  have hat := ha.xss.at h.list hnn
  have h0 : XSS t p = some (n.breakpoints.length : K) := h 0 _ rfl
  obtain ⟨hat, hV⟩ := at_append hat
  obtain ⟨hat, hE⟩ := at_append hat
  obtain ⟨hat, hN⟩ := at_append hat
  obtain ⟨hat, hI⟩ := at_append hat
  obtain ⟨_, hB⟩ := at_append hat
  simp only [List.length_append, List.length_map, List.length_cons, List.length_nil] at hV hE hN hI hB
  have hnp : XSS t (p + (1 + 2 * n.breakpoints.length)) = some (n.energies.length : K) := by
    apply h
    unfold Tab.numbers
    rw [List.append_assoc, List.append_assoc, List.getElem?_append_right (by simp; omega)]
    simp [f1]
    rw [show 1 + 2 * n.breakpoints.length - (n.breakpoints.length + n.breakpoints.length + 1) = 0 by omega]
    rfl
  unfold tab1
  simp only [bind, Except.bind]
  rw [ha.int h0 _ rfl]
  simp only
  rw [ha.int hnp _ (by push_cast; ring)]
  simp only [pure, Except.pure, Except.ok.injEq, Tab1D.mk.injEq]
  refine ⟨?_, ?_, ?_, ?_⟩
  · rw [slice_at hE _ _ (by rw [f1]; push_cast; ring) rfl]
  · rw [slice_at hV _ _ (by rw [f1]; push_cast; ring) (by rw [f2]; ring)]
  · by_cases hb : n.breakpoints = []
    · rw [if_pos hb, hb]; simp
    · have : 0 < n.breakpoints.length := List.length_pos_iff.mpr hb
      rw [if_neg hb, if_pos (by omega), slice_at hB _ _ (by push_cast; ring) (by rw [List.length_map]), map_trunc]
  · by_cases hb : n.breakpoints = []
    · rw [if_pos hb, hb]; simp
    · have : 0 < n.breakpoints.length := List.length_pos_iff.mpr hb
      rw [if_neg hb, if_pos (by omega), slice_at hI _ _ (by push_cast; ring) (by rw [List.length_map, f1]; ring), List.map_map]
      conv_rhs => rw [← List.map_id n.laws]
      apply List.map_congr_left
      intro v _
      simp [pyTrunc_nat]

theorem item_kept {t : AceData.Table K} {c : Content K} {a : Arrays K} (hk : Kept t c a) {p : Nat} {v : K} (h : XSS t p = some v) (hp : NotXs t c p) :
    item a.xss (p : Int) = .ok v := item_nat _ _ _ (by rw [hk p hp]; exact xss_cons h)

theorem fissionProducts_split {a : Arrays K} {ps derived : List (Product K)} (h : fissionProducts a = .ok (ps, derived)) :
    ∃ j2 v j24 qs rest, item a.jxs 2 = .ok j2 ∧ item a.xss j2 = .ok v ∧ item a.jxs 24 = .ok j24 ∧ nuBlock a j2 v j24 = .ok (qs, derived) ∧
      ps = qs ++ rest := by
  unfold fissionProducts at h
  simp only [bind, Except.bind] at h
  split at h
  · cases h
  rename_i j2 hj2
  split at h
  · cases h
  split at h
  · cases h
  rename_i v hv
  split at h
  · cases h
  rename_i j24 h24
  split at h
  · cases h
  rename_i pr hpr
  split at h
  · split at h
    · cases h
    · simp only [pure, Except.pure, Except.ok.injEq, Prod.mk.injEq] at h
      obtain ⟨rfl, rfl⟩ := h
      exact ⟨j2, v, j24, pr.1, _, hj2, hv, h24, hpr, rfl⟩
  · simp only [pure, Except.pure, Except.ok.injEq, Prod.mk.injEq] at h
    obtain ⟨rfl, rfl⟩ := h
    exact ⟨j2, v, j24, pr.1, [], hj2, hv, h24, hpr, by simp⟩

theorem nuBlock_neg {a : Arrays K} {j2 : Int} {v : K} {j24 : Int} (hv : v < 0) {qs derived : List (Product K)}
    (h : nuBlock a j2 v j24 = .ok (qs, derived)) :
    ∃ y y', nuAt a (j2 + pyTrunc |v| + 1) = .ok y' ∧ qs = [⟨.prompt, y, none⟩] ∧ derived = [⟨.total, y', none⟩] := by
  unfold nuBlock at h
  rw [if_neg (not_lt.mpr hv.le), if_pos hv] at h
  simp only [bind, Except.bind] at h
  split at h
  · cases h
  rename_i y hy
  split at h
  · cases h
  rename_i y' hy'
  simp only [pure, Except.pure, Except.ok.injEq, Prod.mk.injEq] at h
  exact ⟨y, y', hy', h.1.symm, h.2.symm⟩

theorem fissionProducts_prompt {t : AceData.Table K} {c : Content K} {a : Arrays K} (ha : Inv t a) (hk : Kept t c a) (hp : PromptFirst t c)
    {ps derived : List (Product K)} (h : fissionProducts a = .ok (ps, derived)) : ∃ y ps', ps = ⟨.prompt, y, none⟩ :: ps' := by
  obtain ⟨j, hj, hj0, v, hv, hcase⟩ := hp
  have e2 := ha.j (i := 2) (by omega) hj
  simp only [Nat.cast_ofNat] at e2
  have hitem : item a.xss (j : Int) = .ok v := by
    rcases hcase with ⟨_, hn⟩ | ⟨h0, _⟩
    · exact item_kept hk hv hn
    · exact item_nat _ _ _ (ha.xss.nonneg (xss_cons hv) h0.le)
  obtain ⟨j2, v', j24, qs, rest, g1, g2, g3, g4, rfl⟩ := fissionProducts_split h
  rw [e2] at g1
  cases g1
  rw [hitem] at g2
  cases g2
  rcases hcase with ⟨hneg, _⟩ | ⟨hpos, d', hd', hd0⟩
  · obtain ⟨y, _, _, rfl, _⟩ := nuBlock_neg hneg g4
    exact ⟨y, rest, rfl⟩
  · have e24 := ha.j (i := 24) (by omega) hd'
    simp only [Nat.cast_ofNat] at e24
    rw [g3] at e24
    cases e24
    unfold nuBlock at g4
    rw [if_pos hpos] at g4
    simp only [bind, Except.bind] at g4
    split at g4
    · cases g4
    simp only [pure, Except.pure, Except.ok.injEq, Prod.mk.injEq] at g4
    rw [← g4.1, if_pos hd0]
    exact ⟨_, rest, rfl⟩

/-- What a table of values becomes. -/
def Tab.loaded (n : Tab K) : Tab1D K := ⟨n.energies.map (· * 1000000), n.values,
  if n.breakpoints = [] then [(n.energies.length : Int)] else n.breakpoints.map fun v : Nat => (v : Int), if n.breakpoints = [] then [2] else n.laws⟩

theorem at_tail {t : AceData.Table K} {p : Nat} {v : K} {vs : List K} (h : At t p (v :: vs)) : At t (p + 1) vs := by
  intro k w hk
  have := h (k + 1) w (by simpa using hk)
  rwa [show p + (k + 1) = p + 1 + k by omega] at this

theorem fissionProducts_nu {t : AceData.Table K} {c : Content K} {a : Arrays K} (ha : Inv t a) (hk : Kept t c a) {nu : Tab K} (hp : HoldsNu t c nu)
    {ps derived : List (Product K)} (h : fissionProducts a = .ok (ps, derived)) : derived = [⟨.total, some nu.loaded, none⟩] := by
  obtain ⟨j, m, hj, hj0, hm, hv, hn, hat, hf⟩ := hp
  have e2 := ha.j (i := 2) (by omega) hj
  simp only [Nat.cast_ofNat] at e2
  obtain ⟨j2, v', j24, qs, rest, g1, g2, g3, g4, rfl⟩ := fissionProducts_split h
  rw [e2] at g1
  cases g1
  rw [item_kept hk hv hn] at g2
  cases g2
  have hneg : -(m : K) < 0 := by
    have : (0 : K) < m := by exact_mod_cast hm
    linarith
  obtain ⟨y, y', hy', rfl, rfl⟩ := nuBlock_neg hneg g4
  have habs : pyTrunc |(-(m : K))| = m := by rw [abs_neg, abs_of_nonneg (Nat.cast_nonneg m), pyTrunc_nat]
  have h2 : XSS t (j + m + 1) = some ((2 : Nat) : K) := by
    have := hat 0 2 rfl
    simpa using this
  rw [habs] at hy'
  unfold nuAt at hy'
  simp only [bind, Except.bind] at hy'
  rw [ha.int h2 _ (by push_cast; ring)] at hy'
  simp only at hy'
  rw [if_neg (by decide), if_pos (by decide), tab1_spec ha (at_tail hat) hf _ (by push_cast; ring)] at hy'
  simp only [pure, Except.pure, Except.ok.injEq] at hy'
  rw [← hy']
  rfl

theorem neutrons_fission {t : AceData.Table K} {a : Arrays K} (ha : Inv t a) {k : Nat} (hf : IsFission t k) {mt : MT} {ps derived : List (Product K)}
    (h : neutrons a (k + 1) mt = .ok (ps, derived)) :
    ∃ p qs d, fissionProducts a = .ok (p :: qs, derived) ∧ firstDist a (k + 1) = .ok d ∧ ps = { p with dist := d } :: qs := by
  obtain ⟨j, n, hj, hx, hn, hlt⟩ := hf
  have e5 := ha.j (i := 5) (by omega) hj
  have n5 := ha.n (i := 5) (by omega) hn
  simp only [Nat.cast_ofNat] at e5 n5
  have hty : XSS t (j + k) = some ((19 : Nat) : K) := by simpa using hx
  unfold neutrons at h
  simp only [bind, Except.bind] at h
  rw [e5] at h
  simp only at h
  rw [ha.int hty _ (by push_cast; ring)] at h
  simp only at h
  rw [n5] at h
  simp only at h
  rw [if_pos (by push_cast; omega), if_neg (by decide)] at h
  split at h
  · cases h
  split at h
  · cases h
  rename_i fp hfp
  obtain ⟨fps, fd⟩ := fp
  simp only at h
  split at h
  · cases h
  rename_i p qs
  split at h
  · cases h
  split at h
  · cases h
  rename_i d hd
  simp only [pure, Except.pure, Except.ok.injEq, Prod.mk.injEq] at h
  obtain ⟨rfl, rfl⟩ := h
  exact ⟨p, qs, d, hfp, hd, rfl⟩

/-- The fission reaction that ends up in the dictionary. -/
theorem fission_from [ExpLog K] {t : AceData.Table K} {c : Content K} (hc : Holds t c) {rs : List (MT × Rx K)} (h : reactions t = .ok rs) {k : Nat}
    {r : Entry K} (hr : c.Last k r) (hmt : r.mt = 18) (hf : IsFission t k) :
    ∃ rx a p qs d ph, Dict.get? rs 18 = some rx ∧ Inv t a ∧ Kept t c a ∧ fissionProducts a = .ok (p :: qs, rx.derived) ∧ firstDist a (k + 1) = .ok d ∧
      rx.products = { p with dist := d } :: (qs ++ ph) := by
  obtain ⟨rs1, a1, pm, rs2, g1, _, g3, g4⟩ := reactions_split hc h
  have ha : Inv t (⟨0 :: t.nxs, 0 :: t.jxs, 0 :: t.xss⟩ : Arrays K) := ⟨rfl, rfl, Fixed.refl _⟩
  have hk : Kept t c (⟨0 :: t.nxs, 0 :: t.jxs, 0 :: t.xss⟩ : Arrays K) := fun _ _ => rfl
  obtain ⟨rx, a0, a2, i1, i2, i3, i4⟩ := readAll_from hc _ _ _ _ _ ha hk (fun i hi => by rw [List.mem_range] at hi; omega) g1 18 (k + 1) _ _
    (range_split hr.1) (by unfold Content.mtAt; rw [if_neg (by omega), Nat.add_sub_cancel, hr.1, ← hmt]; rfl) (by decide) (by
      intro j hj
      rw [← hmt]
      exact last_after hr j hj)
  have hlen : k + 1 ≤ c.reactions.length := by
    by_contra hcon
    have := hr.1
    rw [List.getElem?_eq_none (by omega)] at this
    cases this
  obtain ⟨_, _, _, q1, _, ps, ph, q2, -, q3⟩ := reaction_xs hc i1 hr.1 i3
  obtain ⟨p, qs, d, w1, w2, w3⟩ := neutrons_fission q1 hf q2
  refine ⟨rx, a2, p, qs, d, ph, ?_, q1, reaction_kept hc i1 i2 hlen i3, w1, w2, ?_⟩
  · exact addSums_keeps _ _ _ _ g4 _ _ (addPhotonMts_keeps _ _ _ _ _ _ g3 _ _ (Or.inl (by decide)) i4)
  · rw [q3, w3]; rfl

theorem at_self {α : Type} (l : List α) : AtL l 0 l := by
  intro k v hk
  rwa [Nat.zero_add]

/-- What a spectrum becomes. -/
def Spectrum.loaded (s : Spectrum K) : Dist K := ⟨s.energies.map (· * 1000000), s.pdf.map (· / 1000000), s.cdf⟩

theorem outAt_spec {t : AceData.Table K} {a : Arrays K} (ha : Inv t a) {p : Nat} {s : Spectrum K} (hlaw : s.law < 10)
    (h1 : s.pdf.length = s.energies.length) (h2 : s.cdf.length = s.energies.length) (hnn : ∀ v ∈ s.energies ++ s.pdf ++ s.cdf, 0 ≤ v)
    (h : At t p ([(s.law : K), (s.energies.length : K)] ++ s.energies ++ s.pdf ++ s.cdf)) (q : Int) (hq : q = p) :
    outAt a q = .ok (some s.loaded) := by
  subst hq
  have hx : XSS t p = some (s.law : K) := h 0 _ rfl
  have hn : XSS t (p + 1) = some (s.energies.length : K) := h 1 _ rfl
  have hat : AtL a.xss (p + 2) (s.energies ++ s.pdf ++ s.cdf) := by
    have : AtL ((0 : K) :: t.xss) (p + 2) (s.energies ++ s.pdf ++ s.cdf) := by
      have := h.list
      rw [List.append_assoc, List.append_assoc] at this
      have := (at_append this).2
      rwa [← List.append_assoc] at this
    exact ha.xss.at this hnn
  have hdata : slice a.xss ((p : Int) + 2) ((p : Int) + 2 + 3 * (s.energies.length : Int)) = s.energies ++ s.pdf ++ s.cdf :=
    slice_at hat _ _ (by push_cast; ring) (by simp only [List.length_append, h1, h2]; push_cast; ring)
  have hs := at_self (s.energies ++ s.pdf ++ s.cdf)
  obtain ⟨hs, hC⟩ := at_append hs
  obtain ⟨hE, hP⟩ := at_append hs
  simp only [List.length_append, h1, Nat.zero_add] at hC hP
  have r0 : slice (s.energies ++ s.pdf ++ s.cdf) (((0 : Nat) : Int) * s.energies.length) ((((0 : Nat) : Int) + 1) * s.energies.length) = s.energies :=
    slice_at hE _ _ (by simp) (by push_cast; ring)
  have r1 : slice (s.energies ++ s.pdf ++ s.cdf) (((1 : Nat) : Int) * s.energies.length) ((((1 : Nat) : Int) + 1) * s.energies.length) = s.pdf :=
    slice_at hP _ _ (by push_cast; ring) (by rw [h1]; push_cast; ring)
  have r2 : slice (s.energies ++ s.pdf ++ s.cdf) (((2 : Nat) : Int) * s.energies.length) ((((2 : Nat) : Int) + 1) * s.energies.length) = s.cdf :=
    slice_at hC _ _ (by push_cast; ring) (by rw [h2]; push_cast; ring)
  have whole : ∀ {α : Type} (l : List α), l.length = s.energies.length → slice l 0 (s.energies.length : Int) = l :=
    fun l hl => slice_at (at_self l) _ _ rfl (by rw [hl]; ring)
  have hnd : ((s.law : Int) - (s.law : Int) % 10) / 10 = 0 := by omega
  unfold outAt
  simp only [bind, Except.bind]
  rw [ha.int hx _ rfl]
  simp only
  rw [ha.int hn _ (by push_cast; ring)]
  simp only [hnd, hdata, r0, r1, r2]
  rw [if_neg (by simp only [List.length_append, h1, h2]; push_cast; intro hcon; apply hcon; ring), whole s.pdf h1, if_neg]
  · rw [if_neg (by decide), whole _ (by rw [List.length_map]), whole _ h2]
    rfl
  · intro hcon
    obtain ⟨v, hv, hlt⟩ := List.any_eq_true.mp hcon
    have : 0 ≤ v := hnn v (by simp [hv])
    rw [decide_eq_true_eq] at hlt
    exact absurd (div_nonneg this (by norm_num)) (not_le.mpr hlt)

theorem outsAt_spec {t : AceData.Table K} {a : Arrays K} (ha : Inv t a) {j : Nat} (hj : 0 < j) : ∀ (spectra : List (Spectrum K)),
    (∀ s ∈ spectra, 0 < s.loc ∧ s.law < 10 ∧ s.pdf.length = s.energies.length ∧ s.cdf.length = s.energies.length ∧
      (∀ v ∈ s.energies ++ s.pdf ++ s.cdf, 0 ≤ v) ∧
      At t (j + s.loc - 1) ([(s.law : K), (s.energies.length : K)] ++ s.energies ++ s.pdf ++ s.cdf)) →
    outsAt a (j : Int) (spectra.map fun s => (s.loc : Int)) = .ok (spectra.map fun s => some s.loaded) := by
  intro spectra
  induction spectra with
  | nil => intro _; rfl
  | cons s spectra ih =>
    intro h
    obtain ⟨h0, h1, h2, h3, h4, h5⟩ := h s (List.mem_cons_self ..)
    simp only [List.map_cons, outsAt]
    rw [outAt_spec ha h1 h2 h3 h4 h5 _ (by omega), ih fun s hs => h s (List.mem_cons_of_mem _ hs)]
    rfl

theorem allSome_map {α β : Type} (f : α → β) (l : List α) : allSome (l.map fun s => some (f s)) = some (l.map f) := by
  induction l with
  | nil => rfl
  | cons v l ih => simp [allSome, ih]

theorem angleEnergy_spec {t : AceData.Table K} {a : Arrays K} (ha : Inv t a) {j11 loc : Nat} {incident : List K} {spectra : List (Spectrum K)}
    (h : Law4At t j11 loc incident spectra) :
    angleEnergy a j11 loc = .ok (some (incident.map (· * 1000000), spectra.map Spectrum.loaded)) := by
  obtain ⟨idat, bs, ls, hl0, hj0, hlaw, hidat, hi0, hin, hlen, hsl, hat, hall⟩ := h
  have hlaw' : XSS t (j11 + loc) = some ((4 : Nat) : K) := by simpa using hlaw
  have hnn : ∀ v ∈ (⟨bs, ls, incident, spectra.map fun s => (s.loc : K)⟩ : Tab K).numbers, (0 : K) ≤ v := by
    intro v hv
    unfold Tab.numbers at hv
    simp only [List.mem_append, List.mem_map, List.mem_cons, List.not_mem_nil, or_false] at hv
    rcases hv with ((((rfl | ⟨w, _, rfl⟩) | ⟨w, _, rfl⟩) | rfl) | hv) | ⟨w, _, rfl⟩
    · exact Nat.cast_nonneg _
    · exact Nat.cast_nonneg _
    · exact Nat.cast_nonneg _
    · exact Nat.cast_nonneg _
    · exact hin v hv
    · exact Nat.cast_nonneg _
  have hatL := ha.xss.at hat.list hnn
  have h0 : XSS t (j11 + idat - 1) = some (bs.length : K) := hat 0 _ rfl
  have hnp : XSS t (j11 + idat - 1 + (1 + 2 * bs.length)) = some (incident.length : K) := by
    apply hat
    unfold Tab.numbers
    rw [List.append_assoc, List.append_assoc, List.getElem?_append_right (by simp; omega)]
    simp [hlen]
    rw [show 1 + 2 * bs.length - (bs.length + bs.length + 1) = 0 by omega]
    rfl
  obtain ⟨hatL, hV⟩ := at_append hatL
  obtain ⟨hatL, hE⟩ := at_append hatL
  simp only [List.length_append, List.length_map, List.length_cons, List.length_nil, hlen] at hV hE
  unfold angleEnergy
  simp only [bind, Except.bind]
  rw [ha.int hlaw' _ (by push_cast; ring)]
  simp only
  rw [ha.int hidat _ (by push_cast; ring)]
  simp only
  rw [if_pos (by decide)]
  unfold contTabular
  simp only [bind, Except.bind]
  rw [ha.int h0 _ (by omega)]
  simp only
  rw [ha.int hnp _ (by omega)]
  simp only
  have sE : slice a.xss ((j11 : Int) + idat - 1 + 1 + (2 * (bs.length : Int) + 1)) ((j11 : Int) + idat - 1 + 1 + (2 * (bs.length : Int) + 1) + incident.length) =
      incident := slice_at hE _ _ (by omega) rfl
  have sV : slice a.xss ((j11 : Int) + idat - 1 + 1 + (2 * (bs.length : Int) + 1) + incident.length)
      ((j11 : Int) + idat - 1 + 1 + (2 * (bs.length : Int) + 1) + incident.length + incident.length) = spectra.map fun s => (s.loc : K) :=
    slice_at hV _ _ (by omega) (by rw [List.length_map, hsl])
  rw [sE, sV]
  have hmap : (spectra.map fun s => (s.loc : K)).map pyTrunc = spectra.map fun s => (s.loc : Int) := by
    rw [List.map_map]
    apply List.map_congr_left
    intro s _
    exact pyTrunc_nat _
  rw [hmap, if_neg (by rw [List.length_map, hsl]; omega), outsAt_spec ha hj0 spectra hall]
  simp only [allSome_map, pure, Except.pure, Option.map_some]

theorem firstDist_spec {t : AceData.Table K} {a : Arrays K} (ha : Inv t a) {k : Nat} {incident : List K} {spectra : List (Spectrum K)}
    (h : HoldsChi t k incident spectra) :
    firstDist a (k + 1) = .ok (some (some (incident.map (· * 1000000), spectra.map Spectrum.loaded))) := by
  obtain ⟨j10, j11, loc, idat, bs, ls, h10, h11, hl0, hj0, hloc, hlaw, hidat, hi0, hin, hlen, hsl, hat, hall⟩ := h
  have e10 := ha.j (i := 10) (by omega) h10
  have e11 := ha.j (i := 11) (by omega) h11
  simp only [Nat.cast_ofNat] at e10 e11
  unfold firstDist
  simp only [bind, Except.bind]
  rw [e10, e11]
  simp only
  rw [ha.int hloc _ (by push_cast; ring)]
  simp only
  rw [if_pos (by omega), angleEnergy_spec ha ⟨idat, bs, ls, hl0, hj0, hlaw, hidat, hi0, hin, hlen, hsl, hat, hall⟩]
  rfl

variable [ExpLog K]

/-- **C80.** The editor's nu-bar (MT 452) of a table with prompt and total nu is the total nu of the table, if its values are not all the same. -/
theorem C80_nu {t : AceData.Table K} {c : Content K} (hc : Holds t c) {T : Ace.Table K} (h : load t = .ok T) {ed : Editor K}
    (hi : init T none = .ok ed) {k : Nat} {r : Entry K} (hr : c.Last k r) (hmt : r.mt = 18) (hf : IsFission t k) {nu : Tab K} (hn : HoldsNu t c nu)
    (hflat : ∃ v ∈ nu.values, ∃ w ∈ nu.values, v ≠ w) :
    452 ∈ ed.allMts ∧ getEnergy ed 452 = .ok (.arr (nu.energies.map (· * 1000000))) ∧ getSigma ed 452 none false = .ok (.arr nu.values) := by
  obtain ⟨rs, hrs, rfl⟩ := load_split h
  obtain ⟨rx, a, p, qs, d, ph, g1, g2, g3, g4, _, _⟩ := fission_from hc hrs hr hmt hf
  have hd := fissionProducts_nu g2 g3 hn g4
  have hget : Dict.get? (rs.map fun e => (e.1, e.2.toReaction (tempName t.temperature))) 18 = some (rx.toReaction (tempName t.temperature)) := by
    rw [get?_map, g1]; rfl
  unfold init chooseTemperature at hi
  simp only [List.length_cons, List.length_nil] at hi
  cases hi
  have hsays : saysTabulated nu.values = .ok true := by
    obtain ⟨v, hv, w, hw, hne⟩ := hflat
    cases hval : nu.values with
    | nil => rw [hval] at hv; cases hv
    | cons y0 ys =>
      rw [hval] at hv hw
      simp only [saysTabulated, Except.ok.injEq, Bool.not_eq_true', List.all_eq_false, decide_eq_true_eq]
      by_contra hcon
      push Not at hcon
      apply hne
      have : ∀ u ∈ y0 :: ys, u = y0 := by
        intro u hu
        rcases List.mem_cons.mp hu with rfl | hu
        · rfl
        · exact hcon u hu
      rw [this v hv, this w hw]
  have hrx : (rx.toReaction (tempName t.temperature)).nu = some ⟨true, nu.loaded⟩ := by
    unfold Rx.toReaction
    rw [hd]
  have hnu : ∀ u, getNuDistro (⟨⟨[tempName t.temperature], rs.map fun e => (e.1, e.2.toReaction (tempName t.temperature))⟩,
      ⟨[tempName t.temperature], rs.map fun e => (e.1, e.2.toReaction (tempName t.temperature))⟩, tempName t.temperature,
      allMtsOf ⟨[tempName t.temperature], rs.map fun e => (e.1, e.2.toReaction (tempName t.temperature))⟩, [], []⟩ : Editor K) u = .ok nu.loaded := by
    intro u
    unfold getNuDistro Table.rx
    cases u <;>
    · simp only [Bool.false_eq_true, if_true, if_false, hget, hrx]
      rw [show nu.loaded.y = nu.values from rfl, hsays]
      rfl
  refine ⟨?_, ?_, ?_⟩
  · unfold allMtsOf
    have : 18 ∈ Dict.keys (rs.map fun e => (e.1, e.2.toReaction (tempName t.temperature))) := by
      rw [← Dict.get?_isSome, hget]; rfl
    simp only [if_pos this]
    simp
  · unfold getEnergy
    rw [if_pos rfl, hnu]
    rfl
  · unfold getSigma
    rw [if_pos rfl, hnu]
    rfl

/-- **C81.** The editor's fission spectrum (MT 1018) of a table whose fission neutrons have a distribution of law 4 without lines is that of the table:
energies in eV, densities per eV. -/
theorem C81_chi {t : AceData.Table K} {c : Content K} (hc : Holds t c) {T : Ace.Table K} (h : load t = .ok T) {ed : Editor K}
    (hi : init T none = .ok ed) {k : Nat} {r : Entry K} (hr : c.Last k r) (hmt : r.mt = 18) (hf : IsFission t k) (hp : PromptFirst t c)
    {incident : List K} {spectra : List (Spectrum K)} (hchi : HoldsChi t k incident spectra) :
    1018 ∈ ed.allMts ∧ getEnergy ed 1018 = .ok (.pdfs (spectra.map fun s => s.energies.map (· * 1000000))) ∧
      getSigma ed 1018 none false = .ok (.pdfs (spectra.map fun s => s.pdf.map (· / 1000000))) := by
  obtain ⟨rs, hrs, rfl⟩ := load_split h
  obtain ⟨rx, a, p, qs, d, ph, g1, g2, g3, g4, g5, g6⟩ := fission_from hc hrs hr hmt hf
  obtain ⟨y, ps', hps⟩ := fissionProducts_prompt g2 g3 hp g4
  rw [firstDist_spec g2 hchi] at g5
  cases g5
  obtain ⟨rfl, rfl⟩ := List.cons.inj hps
  have hget : Dict.get? (rs.map fun e => (e.1, e.2.toReaction (tempName t.temperature))) 18 = some (rx.toReaction (tempName t.temperature)) := by
    rw [get?_map, g1]; rfl
  unfold init chooseTemperature at hi
  simp only [List.length_cons, List.length_nil] at hi
  cases hi
  have h18 : 18 ∈ allMtsOf (⟨[tempName t.temperature], rs.map fun e => (e.1, e.2.toReaction (tempName t.temperature))⟩ : Ace.Table K) ∧
      1018 ∈ allMtsOf (⟨[tempName t.temperature], rs.map fun e => (e.1, e.2.toReaction (tempName t.temperature))⟩ : Ace.Table K) := by
    unfold allMtsOf
    have : 18 ∈ Dict.keys (rs.map fun e => (e.1, e.2.toReaction (tempName t.temperature))) := by
      rw [← Dict.get?_isSome, hget]; rfl
    simp only [if_pos this]
    exact ⟨List.mem_append_left _ this, by simp⟩
  have hpres : checkIfMtsPresent [18] (allMtsOf (⟨[tempName t.temperature], rs.map fun e => (e.1, e.2.toReaction (tempName t.temperature))⟩ : Ace.Table K)) ≠ [] := by
    unfold checkIfMtsPresent
    intro hcon
    have : 18 ∈ ((allMtsOf (⟨[tempName t.temperature], rs.map fun e => (e.1, e.2.toReaction (tempName t.temperature))⟩ : Ace.Table K)).filter
        (· ∈ [18])).dedup := by
      rw [List.mem_dedup, List.mem_filter]
      exact ⟨h18.1, by simp⟩
    rw [hcon] at this
    cases this
  have hrx : (rx.toReaction (tempName t.temperature)).chi = some ⟨true, incident.map (· * 1000000), spectra.map Spectrum.loaded⟩ := by
    unfold Rx.toReaction
    rw [g6]
    rfl
  have hdist : ∀ u, getChiDistro (⟨⟨[tempName t.temperature], rs.map fun e => (e.1, e.2.toReaction (tempName t.temperature))⟩,
      ⟨[tempName t.temperature], rs.map fun e => (e.1, e.2.toReaction (tempName t.temperature))⟩, tempName t.temperature,
      allMtsOf ⟨[tempName t.temperature], rs.map fun e => (e.1, e.2.toReaction (tempName t.temperature))⟩, [], []⟩ : Editor K) u =
        .ok ⟨true, incident.map (· * 1000000), spectra.map Spectrum.loaded⟩ := by
    intro u
    unfold getChiDistro
    simp only
    rw [if_pos hpres]
    unfold Table.rx
    cases u <;> simp [hget, hrx, bind, Except.bind]
  refine ⟨h18.2, ?_, ?_⟩
  · unfold getEnergy
    rw [if_neg (by decide), if_pos rfl, hdist]
    simp only [bind, Except.bind, List.map_map]
    rfl
  · unfold getSigma
    rw [if_neg (by decide), if_pos rfl, hdist]
    simp only [bind, Except.bind, List.map_map]
    rfl

end ASAPy.FromAce
