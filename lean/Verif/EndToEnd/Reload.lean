import Verif.EndToEnd.Sample

/-! # The file of a sample, loaded again (C87) -/

set_option linter.unusedSimpArgs false

namespace ASAPy.EndToEnd
open ASAPy.WriteAce ASAPy.AceData ASAPy.Str ASAPy.Sampled ASAPy.FromAce
open ASAPy.Ace (Editor init getSigma getEnergy)

/-- Position `p` (from 1) belongs to the energy grid, to the list of MT numbers, to the list of places, or is one of the two numbers in front of the cross
sections of a reaction. -/
def Structural (t : AceData.Table ℚ) (c : Content ℚ) (p : Nat) : Prop :=
  (∃ j : Nat, JXS t 1 = some (j : Int) ∧ j ≤ p ∧ p < j + c.energies.length) ∨
  (∃ j : Nat, (JXS t 3 = some (j : Int) ∨ JXS t 6 = some (j : Int)) ∧ j ≤ p ∧ p < j + c.reactions.length) ∨
  (∃ j : Nat, JXS t 7 = some (j : Int) ∧ ∃ r ∈ c.reactions, p + 1 = j + r.loc ∨ p = j + r.loc)

/-- The cross sections of `r` begin behind the first `s` values of the table. -/
def PlaceOf (t : AceData.Table ℚ) (r : Entry ℚ) (s : Nat) : Prop := ∃ j : Nat, JXS t 7 = some (j : Int) ∧ s = j + r.loc

/-- Block `q` of the main block (1: total, 2: absorption, 3: elastic) begins behind the first `s` values of the table. -/
def MainPlace (t : AceData.Table ℚ) (c : Content ℚ) (q s : Nat) : Prop := ∃ j : Nat, JXS t 1 = some (j : Int) ∧ s + 1 = j + q * c.energies.length

/-- What the jobs leave of `vs`, which begin behind the first `s` values: rounded new values if a job replaces exactly them, `vs` if no job touches them. -/
def Becomes (jobs : List (Job ℚ × Nat)) (s : Nat) (vs out : List ℚ) : Prop :=
  (∀ js ∈ jobs, js.2 = s → js.1.base.length = vs.length → js.1.new.length = vs.length → out = js.1.new.map rounded) ∧
  ((∀ js ∈ jobs, ∀ k < vs.length, ¬ Covers js (s + k)) → out = vs)

/-- The `n` numbers at positions `p`, `p + 1`, ... -/
def reread (t : AceData.Table ℚ) (p n : Nat) : List ℚ := (List.range n).map fun k => (XSS t (p + k)).getD 0

theorem reread_length (t : AceData.Table ℚ) (p n : Nat) : (reread t p n).length = n := by simp [reread]

theorem reread_at {t : AceData.Table ℚ} {p n : Nat} (h : ∀ k < n, (XSS t (p + k)).isSome = true) : At t p (reread t p n) := by
  intro k v hk
  have hkn : k < n := by
    by_contra hc
    rw [List.getElem?_eq_none (by rw [reread_length]; omega)] at hk
    cases hk
  unfold reread at hk
  rw [List.getElem?_map, List.getElem?_range hkn] at hk
  obtain ⟨w, hw⟩ := Option.isSome_iff_exists.mp (h k hkn)
  simp only [Option.map_some, hw, Option.getD_some] at hk
  rw [hw, hk]

theorem reread_eq {t : AceData.Table ℚ} {p : Nat} {vs : List ℚ} (h : At t p vs) : reread t p vs.length = vs := by
  apply List.ext_getElem (reread_length ..)
  intro k h1 h2
  have := h k _ (List.getElem?_eq_getElem h2)
  simp [reread, this]

theorem at_split {t : AceData.Table ℚ} {p : Nat} {u v : List ℚ} (h : At t p (u ++ v)) : At t p u ∧ At t (p + u.length) v := by
  refine ⟨fun k x hk => h k x ?_, fun k x hk => ?_⟩
  · rw [List.getElem?_append_left]
    · exact hk
    · by_contra hc; rw [List.getElem?_eq_none (by omega)] at hk; cases hk
  · rw [Nat.add_assoc]
    refine h _ x ?_
    rw [List.getElem?_append_right (by omega), Nat.add_sub_cancel_left]
    exact hk

theorem at_join {t : AceData.Table ℚ} {p : Nat} {u v : List ℚ} (h1 : At t p u) (h2 : At t (p + u.length) v) : At t p (u ++ v) := by
  intro k x hk
  by_cases hlt : k < u.length
  · rw [List.getElem?_append_left hlt] at hk
    exact h1 k x hk
  · rw [List.getElem?_append_right (by omega)] at hk
    have := h2 _ x hk
    rwa [show p + u.length + (k - u.length) = p + k by omega] at this

section
variable {t : AceData.Table ℚ} {jobs : List (Job ℚ × Nat)} {xss' : List ℚ}

theorem replaced_some (hr : Replaced jobs t.xss xss') {p : Nat} {v : ℚ} (h : XSS t p = some v) : (XSS { t with xss := xss' } p).isSome = true := by
  unfold XSS at h ⊢
  split_ifs at h ⊢ with h0
  have hlt : p - 1 < t.xss.length := by
    by_contra hc; rw [List.getElem?_eq_none (by omega)] at h; cases h
  have hl := hr.1
  simp only
  rw [List.getElem?_eq_getElem (by omega)]
  rfl

theorem replaced_keeps (hr : Replaced jobs t.xss xss') {p : Nat} {v : ℚ} (h : XSS t p = some v) (hn : ∀ js ∈ jobs, ¬ Covers js (p - 1)) :
    XSS { t with xss := xss' } p = some v := by
  unfold XSS at h ⊢
  split_ifs at h ⊢ with h0
  simp only
  rw [hr.2.2 _ hn]
  exact h

/-- Numbers that no job touches. -/
theorem replaced_at (hr : Replaced jobs t.xss xss') {p : Nat} {vs : List ℚ} (h : At t p vs) (hn : ∀ js ∈ jobs, ∀ k < vs.length, ¬ Covers js (p + k - 1)) :
    At { t with xss := xss' } p vs := by
  intro k v hk
  have hkn : k < vs.length := by
    by_contra hc; rw [List.getElem?_eq_none (by omega)] at hk; cases hk
  exact replaced_keeps hr (h k v hk) fun js hjs => hn js hjs k hkn

theorem reread_new (hr : Replaced jobs t.xss xss') {p : Nat} {vs : List ℚ} (h : At t p vs) :
    At { t with xss := xss' } p (reread { t with xss := xss' } p vs.length) :=
  reread_at fun k hk => replaced_some hr (h k _ (List.getElem?_eq_getElem hk))

/-- Values in the table of the sample. -/
theorem becomes (hr : Replaced jobs t.xss xss') {s : Nat} {vs : List ℚ} (h : At t (s + 1) vs) :
    Becomes jobs s vs (reread { t with xss := xss' } (s + 1) vs.length) := by
  refine ⟨?_, ?_⟩
  · rintro js hjs rfl hb hn
    rw [← hn, ← List.length_map (f := rounded) (as := js.1.new)]
    refine reread_eq ?_
    intro k v hk
    have hkn : k < js.1.new.length := by
      by_contra hc; rw [List.getElem?_eq_none (by rw [List.length_map]; omega)] at hk; cases hk
    have := hr.2.1 js hjs (js.2 + k) ⟨by omega, by omega⟩
    unfold XSS
    rw [if_neg (by omega)]
    simp only
    rw [show js.2 + 1 + k - 1 = js.2 + k by omega, this, Nat.add_sub_cancel_left]
    exact hk
  · intro hn
    refine reread_eq (replaced_at hr h ?_)
    intro js hjs k hk
    rw [show s + 1 + k - 1 = s + k by omega]
    exact hn js hjs k hk

end

/-- The content of the table of the sample. -/
def newContent (t' : AceData.Table ℚ) (c : Content ℚ) (j1 j7 : Nat) : Content ℚ where
  energies := c.energies
  total := reread t' (j1 + c.energies.length) c.energies.length
  absorption := reread t' (j1 + 2 * c.energies.length) c.energies.length
  elastic := reread t' (j1 + 3 * c.energies.length) c.energies.length
  reactions := c.reactions.map fun r => { r with vals := reread t' (j7 + r.loc + 1) r.vals.length }

theorem main_parts {t : AceData.Table ℚ} {c : Content ℚ} (hc : Holds t c) {j : Nat} (hj : JXS t 1 = some (j : Int)) :
    At t j c.energies ∧ At t (j + c.energies.length) c.total ∧ At t (j + 2 * c.energies.length) c.absorption ∧ At t (j + 3 * c.energies.length) c.elastic := by
  obtain ⟨j', hj', hm⟩ := hc.main
  rw [hj] at hj'
  simp only [Option.some.injEq, Nat.cast_inj] at hj'
  subst hj'
  obtain ⟨l1, l2, l3⟩ := hc.lengths
  obtain ⟨h123, h4⟩ := at_split hm
  obtain ⟨h12, h3⟩ := at_split h123
  obtain ⟨h1, h2⟩ := at_split h12
  refine ⟨h1, h2, ?_, ?_⟩
  · rwa [List.length_append, l1, show c.energies.length + c.energies.length = 2 * c.energies.length by omega] at h3
  · rwa [List.length_append, List.length_append, l1, l2, show c.energies.length + c.energies.length + c.energies.length = 3 * c.energies.length by omega] at h4

theorem holds_new {t : AceData.Table ℚ} {c : Content ℚ} (hc : Holds t c) {jobs : List (Job ℚ × Nat)} {xss' : List ℚ} (hr : Replaced jobs t.xss xss')
    (hstr : ∀ js ∈ jobs, ∀ i, Covers js i → ¬ Structural t c (i + 1)) {j1 j7 : Nat} (h1 : JXS t 1 = some (j1 : Int)) (h7 : JXS t 7 = some (j7 : Int)) :
    Holds { t with xss := xss' } (newContent { t with xss := xss' } c j1 j7) := by
  obtain ⟨m1, m2, m3, m4⟩ := main_parts hc h1
  obtain ⟨l1, l2, l3⟩ := hc.lengths
  -- numbers of the structure are kept
  have keep : ∀ {p : Nat} {vs : List ℚ}, At t p vs → (∀ k < vs.length, Structural t c (p + k)) → At { t with xss := xss' } p vs := by
    intro p vs hat hs k v hk
    have hkn : k < vs.length := by
      by_contra hc; rw [List.getElem?_eq_none (by omega)] at hk; cases hk
    have hpos : 0 < p + k := by
      have := hat k v hk
      unfold XSS at this
      split_ifs at this
      omega
    refine replaced_keeps hr (hat k v hk) ?_
    intro js hjs hcov
    refine hstr js hjs _ hcov ?_
    rw [Nat.sub_add_cancel hpos]
    exact hs k hkn
  obtain ⟨j3, j6, j7', h3, h6, h7', hat3, hat6, hrs⟩ := hc.lists
  rw [h7] at h7'
  simp only [Option.some.injEq, Nat.cast_inj] at h7'
  subst h7'
  refine ⟨hc.numEnergies, ?_, hc.positive, ⟨j1, h1, ?_⟩, ?_, ⟨j3, j6, j7, h3, h6, h7, ?_, ?_, ?_⟩⟩
  · have := hc.numReactions
    simp only [newContent, List.length_map]
    exact this
  · have e1 := reread_new hr m2
    have e2 := reread_new hr m3
    have e3 := reread_new hr m4
    rw [l1] at e1; rw [l2] at e2; rw [l3] at e3
    refine at_join (at_join (at_join (keep m1 ?_) e1) ?_) ?_
    · intro k hk
      simp only [newContent] at hk
      exact Or.inl ⟨j1, h1, by omega, by omega⟩
    · simp only [newContent, List.length_append, reread_length]
      rwa [show c.energies.length + c.energies.length = 2 * c.energies.length by omega]
    · simp only [newContent, List.length_append, reread_length]
      rwa [show c.energies.length + c.energies.length + c.energies.length = 3 * c.energies.length by omega]
  · simp only [newContent, reread_length, and_self]
  · simp only [newContent, List.map_map, Function.comp_def]
    refine keep hat3 ?_
    intro k hk
    rw [List.length_map] at hk
    exact Or.inr (Or.inl ⟨j3, Or.inl h3, by omega, by omega⟩)
  · simp only [newContent, List.map_map, Function.comp_def]
    refine keep hat6 ?_
    intro k hk
    rw [List.length_map] at hk
    exact Or.inr (Or.inl ⟨j6, Or.inr h6, by omega, by omega⟩)
  · intro r' hr'
    simp only [newContent, List.mem_map] at hr'
    obtain ⟨r, hrm, rfl⟩ := hr'
    obtain ⟨q1, q2, q3, q4, q5⟩ := hrs r hrm
    obtain ⟨a1, a2⟩ := at_split q3
    refine ⟨q1, q2, ?_, q4, by simpa [newContent, reread_length] using q5⟩
    simp only [reread_length]
    refine at_join (keep a1 ?_) ?_
    · intro k hk
      simp only [List.length_cons, List.length_nil] at hk
      refine Or.inr (Or.inr ⟨j7, h7, r, hrm, ?_⟩)
      omega
    · have e : j7 + r.loc - 1 + ([(r.first : ℚ), (r.vals.length : ℚ)] : List ℚ).length = j7 + r.loc + 1 := by
        simp only [List.length_cons, List.length_nil]
        omega
      rw [e] at a2 ⊢
      exact reread_new hr a2

/-- **C87.** Let the table `t` have the content `c`, and let a sample replace some values of it, none of them in the energy grid, the lists of MTs and places or
the numbers in front of the cross sections. If the table of the sample can be loaded, the editor reads from it: for every reaction the original energies; the
sampled values, rounded to twelve digits and with negative ones set to zero, if exactly its values are replaced; its original values (negative ones set to
zero) if none of them are. The same for total, elastic and absorption cross sections, but without the change of negative values for total and absorption. -/
theorem C87_reload [ExpLog ℚ] {t : AceData.Table ℚ} {c : Content ℚ} (hc : Holds t c) {jobs : List (Job ℚ × Nat)} {xss' : List ℚ}
    (hr : Replaced jobs t.xss xss') (hstr : ∀ js ∈ jobs, ∀ i, Covers js i → ¬ Structural t c (i + 1))
    {T : Ace.Table ℚ} (hl : load { t with xss := xss' } = .ok T) {ed : Editor ℚ} (hi : init T none = .ok ed) :
    (∀ i r, c.Last i r → ¬ LeftOut r.mt → r.mt ≠ 101 ∧ r.mt ≠ 452 ∧ r.mt ≠ 1018 → ∀ s, PlaceOf t r s →
      r.mt ∈ ed.allMts ∧ getEnergy ed r.mt = .ok (.arr (c.energiesOf r)) ∧
      ∃ out, Becomes jobs s r.vals out ∧ getSigma ed r.mt none false = .ok (.arr (cleaned out))) ∧
    ((∀ r ∈ c.reactions, r.mt ≠ 1) → ∀ s, MainPlace t c 1 s → 1 ∈ ed.allMts ∧ getEnergy ed 1 = .ok (.arr (c.energies.map (· * 1000000))) ∧
      ∃ out, Becomes jobs s c.total out ∧ getSigma ed 1 none false = .ok (.arr out)) ∧
    ((∀ r ∈ c.reactions, r.mt ≠ 2) → ∀ s, MainPlace t c 3 s → 2 ∈ ed.allMts ∧ getEnergy ed 2 = .ok (.arr (c.energies.map (· * 1000000))) ∧
      ∃ out, Becomes jobs s c.elastic out ∧ getSigma ed 2 none false = .ok (.arr (cleaned out))) ∧
    ((∀ r ∈ c.reactions, r.mt ≠ 101) → ∀ s, MainPlace t c 2 s → ∃ out, Becomes jobs s c.absorption out ∧ ((∃ v ∈ out, v ≠ 0) →
      101 ∈ ed.allMts ∧ getEnergy ed 101 = .ok (.arr (c.energies.map (· * 1000000))) ∧ getSigma ed 101 none false = .ok (.arr out))) := by
  obtain ⟨j1, h1, -⟩ := hc.main
  obtain ⟨j3, j6, j7, h3, h6, h7, -, -, hrs⟩ := hc.lists
  have hc' := holds_new hc hr hstr h1 h7
  obtain ⟨m1, m2, m3, m4⟩ := main_parts hc h1
  obtain ⟨l1, l2, l3⟩ := hc.lengths
  obtain ⟨k1, k2, k3⟩ := C79_main hc' hl hi
  have hmt : ∀ m, (∀ r ∈ c.reactions, r.mt ≠ m) → ∀ r ∈ (newContent { t with xss := xss' } c j1 j7).reactions, r.mt ≠ m := by
    intro m hm r hr
    simp only [newContent, List.mem_map] at hr
    obtain ⟨r0, hr0, rfl⟩ := hr
    exact hm r0 hr0
  have hplace : ∀ q s, MainPlace t c q s → s + 1 = j1 + q * c.energies.length := by
    rintro q s ⟨j, hj, e⟩
    rw [h1] at hj
    simp only [Option.some.injEq, Nat.cast_inj] at hj
    rw [hj]
    exact e
  refine ⟨?_, ?_, ?_, ?_⟩
  · rintro i r hlast hout hne s ⟨j, hj, rfl⟩
    rw [h7] at hj
    simp only [Option.some.injEq, Nat.cast_inj] at hj
    subst hj
    have hlast' : (newContent { t with xss := xss' } c j1 j7).Last i { r with vals := reread { t with xss := xss' } (j7 + r.loc + 1) r.vals.length } := by
      refine ⟨by simp [newContent, hlast.1], ?_⟩
      intro k r' hk hr'
      simp only [newContent, List.getElem?_map, Option.map_eq_some_iff] at hr'
      obtain ⟨r0, hr0, rfl⟩ := hr'
      exact hlast.2 k r0 hk hr0
    obtain ⟨g1, g2, g3⟩ := C78_reactions hc' hl hi hlast' hout hne
    refine ⟨g1, ?_, _, becomes hr ?_, g3⟩
    · rw [g2]
      simp only [Content.energiesOf, newContent, reread_length]
    · obtain ⟨q1, q2, q3, _⟩ := hrs r (List.mem_of_getElem? hlast.1)
      have := (at_split q3).2
      rwa [show j7 + r.loc - 1 + ([(r.first : ℚ), (r.vals.length : ℚ)] : List ℚ).length = j7 + r.loc + 1 by
        simp only [List.length_cons, List.length_nil]; omega] at this
  · intro hm s hs
    obtain ⟨g1, g2, g3⟩ := k1 (hmt 1 hm)
    have e := hplace 1 s hs
    rw [one_mul] at e
    refine ⟨g1, g2, _, becomes (vs := c.total) hr (by rw [e]; exact m2), ?_⟩
    rw [g3]
    simp only [newContent, e, l1]
  · intro hm s hs
    obtain ⟨g1, g2, g3⟩ := k2 (hmt 2 hm)
    have e := hplace 3 s hs
    refine ⟨g1, g2, _, becomes (vs := c.elastic) hr (by rw [e]; exact m4), ?_⟩
    rw [g3]
    simp only [newContent, e, l3]
  · intro hm s hs
    have e := hplace 2 s hs
    refine ⟨_, becomes (vs := c.absorption) hr (by rw [e]; exact m3), ?_⟩
    intro hex
    have e2 : (newContent { t with xss := xss' } c j1 j7).absorption = reread { t with xss := xss' } (s + 1) c.absorption.length := by
      simp only [newContent, e, l2]
    obtain ⟨g1, g2, g3⟩ := k3 (hmt 101 hm) (by rw [e2]; exact hex)
    exact ⟨g1, g2, by rw [g3, e2]⟩

end ASAPy.EndToEnd
