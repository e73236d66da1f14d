import Verif.MapGroups.Lemmas
import Mathlib.Algebra.Order.Field.Rat
import Mathlib.Tactic.NormNum

/-!
# Properties C26-C29 of `map_groups_to_continuous`
-/

set_option linter.unusedSectionVars false

namespace ASAPy.MapGroups
open ASAPy.Np

variable {K : Type*} [Field K] [LinearOrder K]

/-- Sanity of the specification: every energy above `minE` and not above `maxE` is in exactly one
group. -/
theorem C26_every_energy_has_one_group {high : List K} {maxE minE : K}
    (hu : Usable high maxE minE) {e : K} (h1 : minE < e) (h2 : e ≤ maxE) :
    ∃! g, InGroup high maxE minE g e := by
  have hpw := List.pairwise_iff_getElem.mp hu.decreasing
  have hpos : 0 < high.length := List.length_pos_iff.mpr hu.nonempty
  -- the last group whose upper bound is not below `e`
  classical
  have hex : ∃ g, InGroup high maxE minE g e := by
    by_cases hall : ∃ k, ∃ h : k < high.length, 1 ≤ k ∧ high[k] < e
    · let k := Nat.find hall
      obtain ⟨hk, hk1, hke⟩ := Nat.find_spec hall
      refine ⟨k, hk1, hk.le, ⟨high[k], Or.inr ⟨hk, by simp [k]⟩, hke⟩, ?_⟩
      by_cases hk1' : k = 1
      · exact ⟨maxE, Or.inl ⟨hk1', rfl⟩, h2⟩
      · have hk2 : 2 ≤ k := by omega
        have hklt : k < high.length := hk
        have hmin := Nat.find_min hall (m := k - 1) (by omega)
        refine ⟨high[k-1]'(by omega), Or.inr ⟨hk2, by simp⟩, ?_⟩
        by_contra hcon
        exact hmin ⟨by omega, by omega, not_le.mp hcon⟩
    · refine ⟨high.length, hpos, le_rfl, ⟨minE, Or.inl ⟨rfl, rfl⟩, h1⟩, ?_⟩
      by_cases hl1 : high.length = 1
      · exact ⟨maxE, Or.inl ⟨hl1, rfl⟩, h2⟩
      · refine ⟨high[high.length - 1]'(by omega), Or.inr ⟨by omega, by simp⟩, ?_⟩
        by_contra hcon
        exact hall ⟨high.length - 1, by omega, by omega, not_le.mp hcon⟩
  have hmono : ∀ g g', InGroup high maxE minE g e → InGroup high maxE minE g' e → g < g' → False := by
    rintro g g' ⟨hg1, hgN, ⟨l, hl, hle⟩, -⟩ ⟨hg1', hgN', -, ⟨u, hu', hue⟩⟩ hlt
    rcases hl with ⟨rfl, -⟩ | ⟨hg, hl⟩
    · omega
    · rcases hu' with ⟨rfl, -⟩ | ⟨hg', hu'⟩
      · omega
      · rw [List.getElem?_eq_some_iff] at hl hu'
        obtain ⟨_, rfl⟩ := hl
        obtain ⟨_, rfl⟩ := hu'
        have : high[g' - 1] ≤ high[g] := by
          by_cases hgg : g = g' - 1
          · simp [← hgg]
          · exact le_of_lt (hpw g (g' - 1) (by omega) (by omega) (by omega))
        exact absurd (lt_of_lt_of_le hle (le_trans hue this)) (lt_irrefl _)
  obtain ⟨g, hg⟩ := hex
  refine ⟨g, hg, fun g' hg' => ?_⟩
  rcases lt_trichotomy g g' with h | h | h
  · exact (hmono g g' hg hg' h).elim
  · exact h.symm
  · exact (hmono g' g hg' hg h).elim

/-- The group number computed by the code for an energy of group `g` is `g`. -/
theorem groupNum_eq {b : K} {t : List K} {maxE minE : K} (hu : Usable (b :: t) maxE minE)
    {g : Nat} {e : K} (hg : InGroup (b :: t) maxE minE g e) (hlo : minE < e) (hhi : e ≤ maxE) :
    groupNum ((maxE :: t ++ [minE]).reverse) (b :: t).length maxE minE e = g := by
  obtain ⟨hg1, hgN, ⟨l, hl, hle⟩, ⟨u, hu', hue⟩⟩ := hg
  simp only [List.length_cons] at hgN
  have hdec := hu.decreasing
  rw [List.pairwise_cons] at hdec
  have hb : b ≤ maxE := hu.max_above b (by simp)
  have hpw : (maxE :: t ++ [minE]).Pairwise (· > ·) := by
    rw [List.cons_append, List.pairwise_cons, List.pairwise_append]
    refine ⟨?_, hdec.2, by simp, ?_⟩
    · intro a ha
      rw [List.mem_append] at ha
      rcases ha with ha | ha
      · exact lt_of_lt_of_le (hdec.1 a ha) hb
      · simp at ha; subst ha
        exact lt_of_lt_of_le (hu.min_below b (by simp)) hb
    · intro a ha c hc
      simp at hc; subst hc
      exact hu.min_below a (by simp [ha])
  have hlow : (maxE :: t ++ [minE])[g]'(by simp; omega) = l := by
    obtain ⟨k, rfl⟩ : ∃ k, g = k + 1 := ⟨g - 1, by omega⟩
    rcases hl with ⟨hgl, rfl⟩ | ⟨hgl, hl⟩
    · simp at hgl; simp [hgl]
    · simp only [List.length_cons] at hgl
      simp only [List.getElem?_cons_succ] at hl
      rw [List.getElem?_eq_some_iff] at hl
      obtain ⟨hk, rfl⟩ := hl
      simp [List.getElem_append, hk]
  have hupp : (maxE :: t ++ [minE])[g - 1]'(by simp; omega) = u := by
    obtain ⟨k, rfl⟩ : ∃ k, g = k + 1 := ⟨g - 1, by omega⟩
    rcases hu' with ⟨hgl, rfl⟩ | ⟨hgl, hl⟩
    · have : k = 0 := by omega
      subst this; simp
    · obtain ⟨j, rfl⟩ : ∃ j, k = j + 1 := ⟨k - 1, by omega⟩
      simp only [Nat.add_sub_cancel, List.getElem?_cons_succ] at hl
      rw [List.getElem?_eq_some_iff] at hl
      obtain ⟨hk, rfl⟩ := hl
      simp [List.getElem_append, hk]
  have hss := searchsorted_bins hpw hg1 hgN (by rw [hlow]; exact hle) (by rw [hupp]; exact hue)
  unfold groupNum
  rw [hss]
  simp only [not_lt.mpr hlo.le, if_false, gt_iff_lt, not_lt.mpr hhi, List.length_cons]
  push_cast
  omega

/-- One energy different from `minE`: the model's result. -/
theorem mapOne_ok {b : K} {t : List K} {maxE minE : K} (fill : K)
    (hu : Usable (b :: t) maxE minE) (vals : Series K) (v : Nat → K)
    (hv : ∀ g : Nat, 1 ≤ g → g ≤ (b :: t).length → vals.get (g : Int) = some (v g))
    {e : K} (he : e ≠ minE) :
    ∃ r, mapOne ((maxE :: t ++ [minE]).reverse) (b :: t).length maxE minE fill vals e = .ok r ∧
      (∀ g, InGroup (b :: t) maxE minE g e → r = v g) ∧ ((e < minE ∨ maxE < e) → r = fill) := by
  have hmm : minE < maxE :=
    lt_of_lt_of_le (hu.min_below b (by simp)) (hu.max_above b (by simp))
  by_cases hhi : maxE < e
  · have hg : groupNum ((maxE :: t ++ [minE]).reverse) (b :: t).length maxE minE e = ((1 : Nat) : Int) := by
      simp [groupNum, hhi]
    refine ⟨fill, ?_, ?_, fun _ => rfl⟩
    · simp only [mapOne, hg, hv 1 le_rfl (by simp), gt_iff_lt, hhi, if_true]
    · rintro g ⟨hg1, hgN, -, ⟨u, hu', hue⟩⟩
      exfalso
      have : u ≤ maxE := by
        rcases hu' with ⟨_, rfl⟩ | ⟨_, h⟩
        · exact le_rfl
        · exact hu.max_above u (List.mem_of_getElem? h)
      exact absurd (lt_of_lt_of_le hhi (le_trans hue this)) (lt_irrefl _)
  · by_cases hlo : e < minE
    · have hg : groupNum ((maxE :: t ++ [minE]).reverse) (b :: t).length maxE minE e
          = (((b :: t).length : Nat) : Int) := by
        simp [groupNum, hhi, hlo]
      refine ⟨fill, ?_, ?_, fun _ => rfl⟩
      · simp only [mapOne, hg, hv (b :: t).length (by simp) le_rfl, gt_iff_lt, hhi, hlo, if_true,
          if_false]
      · rintro g ⟨hg1, hgN, ⟨l, hl, hle⟩, -⟩
        exfalso
        have : minE ≤ l := by
          rcases hl with ⟨_, rfl⟩ | ⟨_, h⟩
          · exact le_rfl
          · exact (hu.min_below l (List.mem_of_getElem? h)).le
        exact absurd (lt_of_lt_of_le hlo (le_trans this hle.le)) (lt_irrefl _)
    · have hlo' : minE < e := lt_of_le_of_ne (not_lt.mp hlo) (Ne.symm he)
      obtain ⟨g, hg, huniq⟩ := C26_every_energy_has_one_group hu hlo' (not_lt.mp hhi)
      have hgn := groupNum_eq hu hg hlo' (not_lt.mp hhi)
      refine ⟨v g, ?_, ?_, ?_⟩
      · simp only [mapOne, hgn, hv g hg.1 hg.2.1, gt_iff_lt, hhi, hlo, if_false]
      · intro g' hg'; rw [huniq g' hg']
      · rintro (h | h)
        · exact (hlo h).elim
        · exact (hhi h).elim

theorem mapGroups_eq {b : K} {t : List K} {maxE? minE? : Option K} {maxE minE : K} (fill : K)
    (hmax : EffectiveMax (b :: t) maxE? maxE) (hmin : EffectiveMin (b :: t) minE? minE)
    (hu : Usable (b :: t) maxE minE) (vals : Series K) (es : List K) :
    mapGroups es (b :: t) vals maxE? minE? fill =
      es.mapM (mapOne ((maxE :: t ++ [minE]).reverse) (b :: t).length maxE minE fill vals) := by
  simp only [mapGroups, resolveMax_eq hmax, resolveMin_eq hmin, sortedBins_eq hu, bind, Except.bind]

theorem mapGroups_ok {high : List K} {maxE? minE? : Option K} {maxE minE : K} (fill : K)
    (hmax : EffectiveMax high maxE? maxE) (hmin : EffectiveMin high minE? minE)
    (hu : Usable high maxE minE) (vals : Series K) (v : Nat → K)
    (hv : ∀ g : Nat, 1 ≤ g → g ≤ high.length → vals.get (g : Int) = some (v g))
    (es : List K) (hes : ∀ e ∈ es, e ≠ minE) :
    ∃ out, mapGroups es high vals maxE? minE? fill = .ok out ∧
      List.Forall₂ (fun e r => (∀ g, InGroup high maxE minE g e → r = v g) ∧
        ((e < minE ∨ maxE < e) → r = fill)) es out := by
  obtain ⟨b, t, rfl⟩ : ∃ b t, high = b :: t := List.exists_cons_of_ne_nil hu.nonempty
  rw [mapGroups_eq fill hmax hmin hu]
  induction es with
  | nil => exact ⟨[], by simp [pure, Except.pure], List.Forall₂.nil⟩
  | cons e es ih =>
    obtain ⟨out, hout, hf⟩ := ih (fun e he => hes e (by simp [he]))
    obtain ⟨r, hr, hspec⟩ := mapOne_ok fill hu vals v hv (hes e (by simp))
    refine ⟨r :: out, ?_, List.Forall₂.cons hspec hf⟩
    rw [mapM_ok_iff] at hout ⊢
    exact List.Forall₂.cons hr hout

/-- **C26.** On a usable group structure with values for the groups 1..N, every energy in group `g`
is given the value of group `g`, for any number of energies, none of which equals the lower bound
`minE` itself (see C28). The optional bounds may be given or defaulted. -/
theorem C26_energy_gets_its_group_value
    {high : List K} {maxE? minE? : Option K} {maxE minE : K} (fill : K)
    (hmax : EffectiveMax high maxE? maxE) (hmin : EffectiveMin high minE? minE)
    (hu : Usable high maxE minE) (vals : Series K) (v : Nat → K)
    (hv : ∀ g : Nat, 1 ≤ g → g ≤ high.length → vals.get (g : Int) = some (v g))
    (es : List K) (hes : ∀ e ∈ es, e ≠ minE) :
    ∃ out, mapGroups es high vals maxE? minE? fill = .ok out ∧ out.length = es.length ∧
      ∀ (i : Nat) (e r : K), es[i]? = some e → out[i]? = some r →
        ∀ g, InGroup high maxE minE g e → r = v g := by
  obtain ⟨out, hout, hf⟩ := mapGroups_ok fill hmax hmin hu vals v hv es hes
  refine ⟨out, hout, hf.length_eq.symm, ?_⟩
  intro i e r he hr g hg
  rw [List.getElem?_eq_some_iff] at he hr
  obtain ⟨hi, rfl⟩ := he
  obtain ⟨hi', rfl⟩ := hr
  exact (List.forall₂_iff_get.mp hf).2 i hi hi' |>.1 g hg

/-- **C27.** Energies outside `[minE, maxE]` get the fill value whatever the group values are, and the
result has one entry per energy. -/
theorem C27_outside_gets_fill
    {high : List K} {maxE? minE? : Option K} {maxE minE : K} (fill : K)
    (hmax : EffectiveMax high maxE? maxE) (hmin : EffectiveMin high minE? minE)
    (hu : Usable high maxE minE) (vals : Series K)
    (hv : ∀ g : Nat, 1 ≤ g → g ≤ high.length → (vals.get (g : Int)).isSome)
    (es : List K) (hes : ∀ e ∈ es, e ≠ minE) :
    ∃ out, mapGroups es high vals maxE? minE? fill = .ok out ∧ out.length = es.length ∧
      ∀ (i : Nat) (e : K), es[i]? = some e → (e < minE ∨ maxE < e) → out[i]? = some fill := by
  obtain ⟨out, hout, hf⟩ := mapGroups_ok fill hmax hmin hu vals
    (fun g => (vals.get (g : Int)).getD 0)
    (fun g h1 h2 => by
      obtain ⟨x, hx⟩ := Option.isSome_iff_exists.mp (hv g h1 h2)
      simp [hx]) es hes
  refine ⟨out, hout, hf.length_eq.symm, ?_⟩
  intro i e he hout'
  rw [List.getElem?_eq_some_iff] at he
  obtain ⟨hi, rfl⟩ := he
  have hi' : i < out.length := hf.length_eq ▸ hi
  have := (List.forall₂_iff_get.mp hf).2 i hi hi' |>.2 hout'
  rw [List.getElem?_eq_some_iff]
  exact ⟨hi', this⟩

/-- **C28 refuted.** The lower bound itself is never mapped: whenever some energy equals `minE` and
the values carry the labels 1..N only, the call fails with a missing label, although `minE` belongs
to the documented range `[min_e, max_e]`. -/
theorem C28_lower_bound_refuted
    {high : List K} {maxE? minE? : Option K} {maxE minE : K} (fill : K)
    (hmax : EffectiveMax high maxE? maxE) (hmin : EffectiveMin high minE? minE)
    (hu : Usable high maxE minE) (vals : Series K)
    (hv : ∀ g : Nat, high.length < g → vals.get (g : Int) = none)
    (es : List K) (hes : minE ∈ es) :
    ∀ out, mapGroups es high vals maxE? minE? fill ≠ .ok out := by
  intro out hout
  obtain ⟨b, t, rfl⟩ : ∃ b t, high = b :: t := List.exists_cons_of_ne_nil hu.nonempty
  rw [mapGroups_eq fill hmax hmin hu, mapM_ok_iff] at hout
  obtain ⟨i, hi, hie⟩ := List.mem_iff_getElem.mp hes
  have hi' : i < out.length := hout.length_eq ▸ hi
  have h := (List.forall₂_iff_get.mp hout).2 i hi hi'
  simp only [List.get_eq_getElem, hie] at h
  have hmm : minE < maxE :=
    lt_of_lt_of_le (hu.min_below b (by simp)) (hu.max_above b (by simp))
  have hss : searchsortedLeft ((maxE :: t ++ [minE]).reverse) minE = 0 := by
    refine searchsortedLeft_eq _ _ _ (by simp) (by intro i hi; omega) ?_
    intro _; simp
  have hg : groupNum ((maxE :: t ++ [minE]).reverse) (b :: t).length maxE minE minE
      = (((b :: t).length + 1 : Nat) : Int) := by
    simp only [groupNum, hss, lt_irrefl, if_false, gt_iff_lt, not_lt.mpr hmm.le]
    push_cast; omega
  simp only [mapOne, hg, hv _ (Nat.lt_succ_self _)] at h
  cases h

/-- **C29 (partial).** What is rejected: a lower bound equal to the lowest upper bound, or an upper
limit below the first bound. Missing: a lower bound *above* the lowest upper bound is accepted, see
`C29_min_above_lowest_accepted_refuted`. -/
theorem C29_inconsistent_bounds_rejected_partial
    {high : List K} {maxE minE : K} (fill : K) (vals : Series K) (es : List K)
    (h : IsLeast {x | x ∈ high} minE ∨ ∃ b, high.head? = some b ∧ maxE < b) :
    mapGroups es high vals (some maxE) (some minE) fill = .error .exception := by
  have key : sortedBins high maxE minE = .error .exception := by
    unfold sortedBins
    rcases h with h | ⟨b, hb, hlt⟩
    · simp [min?_of_isLeast h]
    · obtain ⟨t, rfl⟩ : ∃ t, high = b :: t := by
        cases high with
        | nil => simp at hb
        | cons a t => simp at hb; exact ⟨t, by rw [hb]⟩
      obtain ⟨lo, hlo⟩ : ∃ lo, (b :: t).min? = some lo := by
        cases h : (b :: t).min? with
        | none => simp at h
        | some lo => exact ⟨lo, rfl⟩
      rw [hlo]
      by_cases hm : minE = lo
      · simp [hm]
      · simp only [hm, if_false, List.cons_append, ne_eq, (ne_of_lt hlt).symm, not_false_eq_true,
          if_true, hlt]
  simp only [mapGroups, resolveMax, resolveMin, key, bind, Except.bind]

/-! ### Concrete cases -/

section Examples

/-- Three groups, 20 MeV > 1 MeV > 1 eV, down to 1e-5 eV. -/
def exHigh : List ℚ := [20000000, 1000000, 1]

def exVals : Series ℚ := [(1, 11/10), (2, 9/10), (3, 7/5)]

theorem exUsable : Usable exHigh (20000000 : ℚ) (1/100000) where
  nonempty := by simp [exHigh]
  decreasing := by simp [exHigh]; norm_num
  min_below := by simp [exHigh]; norm_num
  max_above := by simp [exHigh]; norm_num

example : EffectiveMax exHigh none (20000000 : ℚ) :=
  Or.inr ⟨rfl, by constructor <;> simp [exHigh, upperBounds]; norm_num⟩

/-- C26/C27 are not vacuous: the hypotheses hold for `exHigh`, and the model computes. -/
example : mapGroups [3/2, 1, 30000000, 1000000, 1/1000000] exHigh exVals none (some (1/100000)) 1
    = .ok [9/10, 7/5, 1, 9/10, 1] := by
  decide +kernel

example : InGroup exHigh (20000000 : ℚ) (1/100000) 2 (3/2) :=
  ⟨by norm_num, by simp [exHigh], ⟨1, Or.inr (by simp [exHigh]), by norm_num⟩,
    ⟨1000000, Or.inr (by simp [exHigh]), by norm_num⟩⟩

/-- C28: the lower edge fails on `exHigh`. -/
example : mapGroups [1/100000] exHigh exVals none (some (1/100000)) 1 = .error .keyError := by
  decide +kernel

/-- **C29 refuted.** `min_e = 7` lies above the lowest upper bound 5, yet the call succeeds (and energy
6, which lies inside group 1, is treated as outside the range). -/
theorem C29_min_above_lowest_accepted_refuted :
    mapGroups [6, 8] [10, 5] [(1, 3), (2, 4)] (some 10) (some 7) (1 : ℚ) = .ok [1, 3] := by
  decide +kernel

example : mapGroups [6, 8] [10, 5] [(1, 3), (2, 4)] (some 10) (some 5) (1 : ℚ)
    = .error .exception := by
  decide +kernel

end Examples

end ASAPy.MapGroups
