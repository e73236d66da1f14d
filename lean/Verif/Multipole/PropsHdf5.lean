import Verif.Multipole.ModelHdf5
import Verif.Multipole.Props2

/-! # Properties of the HDF5 form of windowed multipole data -/

namespace ASAPy.Multipole

theorem firstName_none : ∀ l : List (List Char), firstName l = none → l = []
  | [], _ => rfl
  | a :: l, h => by
    unfold firstName at h
    split at h <;> simp at h

theorem firstName_spec : ∀ (l : List (List Char)) (a : List Char), firstName l = some a → a ∈ l ∧ ∀ b ∈ l, a ≤ b
  | [], a, h => by simp [firstName] at h
  | c :: l, a, h => by
    unfold firstName at h
    cases hf : firstName l with
    | none =>
      rw [hf] at h
      simp only [Option.some.injEq] at h
      have := firstName_none l hf
      subst this h
      simp
    | some b =>
      rw [hf] at h
      obtain ⟨h1, h2⟩ := firstName_spec l b hf
      simp only [Option.some.injEq] at h
      by_cases hb : b < c
      · rw [if_pos (by simpa using hb)] at h
        subst h
        refine ⟨by simp [h1], fun x hx => ?_⟩
        rcases List.mem_cons.1 hx with rfl | hx
        · exact List.le_of_lt hb
        · exact h2 x hx
      · rw [if_neg (by simpa using hb)] at h
        subst h
        refine ⟨by simp, fun x hx => ?_⟩
        rcases List.mem_cons.1 hx with rfl | hx
        · exact List.le_refl _
        · exact List.le_trans (List.not_lt.1 hb) (h2 x hx)

/-- Groups come back. -/
theorem fromGroup_toGroup {m : Wmp} (v : m.Valid) (hmax : 0 < m.eMax) : fromGroup m.name (toGroup m) = .ok m := by
  unfold fromGroup toGroup
  simp only [dsetOf, ok_bind, checkPositive, checkNonneg, checkData, checkWindows, checkBroaden, checkCurvefit]
  rw [if_pos v.spacing, ok_bind, if_pos v.awr, ok_bind, if_pos v.emin, ok_bind, if_pos hmax, ok_bind, if_neg (not_not.2 v.cols)]
  simp only [ne_eq, not_true_eq_false, if_false, ok_bind]
  rw [if_neg (by simp [v.broaden]), if_neg (not_not.2 v.channels), ok_bind]
  simp only
  rw [if_neg (by simp [v.curvefit]), if_neg (by have := v.terms; omega)]
  have : (m.broaden.map fun b => if b = true then (1 : Int) else 0).map (fun v => decide (v ≠ 0)) = m.broaden := by
    rw [List.map_map]
    conv_rhs => rw [← List.map_id m.broaden]
    apply List.map_congr_left
    intro b _
    cases b <;> rfl
  simp only [ne_eq] at this
  rw [this]
  rfl

/-- **C191.** What is exported to a new file comes back from it. -/
theorem C191_round_trip {m : Wmp} (v : m.Valid) (hmax : 0 < m.eMax) : ∃ f, exportTo {} m = .ok f ∧ fromFile f = .ok m := by
  refine ⟨_, rfl, ?_⟩
  unfold fromFile checkVersion
  simp only [List.nil_append, List.map_cons, List.map_nil, firstName]
  simp only [ne_eq, not_true_eq_false, if_false, ok_bind]
  have : Dict.get? [(m.name, toGroup m)] m.name = some (toGroup m) := by simp [Dict.get?]
  rw [this]
  exact fromGroup_toGroup v hmax

theorem get?_append {α : Type} (l : List (List Char × α)) (k : List Char) (a : α) (h : Dict.get? l k = none) : Dict.get? (l ++ [(k, a)]) k = some a := by
  induction l with
  | nil => simp [Dict.get?]
  | cons x l ih =>
    simp only [Dict.get?, List.cons_append] at *
    split at h
    · cases h
    · next hk => simp only [hk]; exact ih h

/-- **C191.** The group of a nuclide comes back, whatever else the file holds, and the other groups stay. -/
theorem C191_group {m : Wmp} (v : m.Valid) (hmax : 0 < m.eMax) {f f' : WFile} (h : exportTo f m = .ok f') :
    (∃ g, Dict.get? f'.groups m.name = some g ∧ fromGroup m.name g = .ok m) ∧ (∃ g, f'.groups = f.groups ++ [(m.name, g)]) ∧ checkVersion f' = .ok () := by
  unfold exportTo at h
  split at h
  · cases h
  · next hn =>
    cases h
    have hn' : Dict.get? f.groups m.name = none := by simpa using hn
    exact ⟨⟨_, get?_append _ _ _ hn', fromGroup_toGroup v hmax⟩, ⟨_, rfl⟩, rfl⟩

/-- **C191.** A nuclide that is in the file is not overwritten. -/
theorem C191_taken {m : Wmp} {f : WFile} {g : WGroup} (h : Dict.get? f.groups m.name = some g) : exportTo f m = .error .valueError := by
  unfold exportTo
  rw [h]
  rfl

/-- **C191.** From the name of a file comes the nuclide whose name is first in the alphabet. -/
theorem C191_first {f : WFile} {n : List Char} {g : WGroup} (hv : checkVersion f = .ok ()) (hg : Dict.get? f.groups n = some g) (hn : n ∈ f.groups.map (·.1))
    (hmin : ∀ k ∈ f.groups.map (·.1), n ≤ k) : fromFile f = fromGroup n g := by
  unfold fromFile
  rw [hv, ok_bind]
  cases hf : firstName (f.groups.map (·.1)) with
  | none =>
    have := firstName_none _ hf
    rw [this] at hn
    simp at hn
  | some a =>
    obtain ⟨h1, h2⟩ := firstName_spec _ _ hf
    have : a = n := List.le_antisymm (h2 n hn) (hmin a h1)
    subst this
    simp only [hg]

/-- **C191 (refuted).** From the name of a file with two nuclides comes the one whose name is first in the alphabet, not the one exported last. -/
theorem C191_two_refuted {m n : Wmp} (v : m.Valid) (hmax : 0 < m.eMax) (hlt : m.name < n.name) {f f' : WFile} (h1 : exportTo {} m = .ok f) (h2 : exportTo f n = .ok f') :
    fromFile f' = .ok m := by
  unfold exportTo at h1
  cases h1
  unfold exportTo at h2
  split at h2
  · cases h2
  · cases h2
    unfold fromFile checkVersion
    simp only [List.nil_append, List.map_cons, List.map_nil, firstName, List.cons_append]
    simp only [ne_eq, not_true_eq_false, if_false, ok_bind]
    have : ¬ n.name < m.name := List.not_lt.2 (List.le_of_lt hlt)
    simp only [this, decide_false, Bool.false_eq_true, if_false]
    have e : Dict.get? [(m.name, toGroup m), (n.name, toGroup n)] m.name = some (toGroup m) := by simp [Dict.get?]
    rw [e]
    exact fromGroup_toGroup v hmax

/-- **C192.** Files without a version or of another major version are refused. -/
theorem C192_version (f : WFile) (h : ∀ minor, f.version ≠ some [1, minor]) : ∃ e, fromFile f = .error e := by
  unfold fromFile checkVersion
  split
  · exact ⟨_, rfl⟩
  · next major minor hv =>
    by_cases hm : major = 1
    · subst hm; exact absurd hv (h minor)
    · rw [if_pos hm]; exact ⟨_, rfl⟩
  · exact ⟨_, rfl⟩

theorem bind_inv {α β : Type} {x : Except PyErr α} {f : α → Except PyErr β} {y : β} (h : x >>= f = .ok y) : ∃ a, x = .ok a ∧ f a = .ok y := by
  cases x with
  | error e => cases h
  | ok a => exact ⟨a, rfl, h⟩

/-- The arrays of a group have the shapes they say. -/
structure WGroup.Shaped (g : WGroup) : Prop where
  data : ∀ a, g.data = some a → ∀ n c, a.shape = [n, c] → a.val.length = n ∧ ∀ r ∈ a.val, r.length = c
  windows : ∀ a, g.windows = some a → ∀ n c, a.shape = [n, c] → a.val.length = n ∧ ∀ r ∈ a.val, r.length = c
  broaden : ∀ a, g.broaden = some a → ∀ n, a.shape = [n] → a.val.length = n
  curvefit : ∀ a, g.curvefit = some a → ∀ n t c, a.shape = [n, t, c] → a.val.length = n ∧ ∀ r ∈ a.val, r.length = t ∧ ∀ s ∈ r, s.length = c

/-- **C192 (part).** Of the data that are read the numbers are in range and the arrays fit together, but for the windows and fission. -/
theorem C192_checked_partial {name : List Char} {g : WGroup} (hs : g.Shaped) {m : Wmp} (h : fromGroup name g = .ok m) :
    m.name = name ∧ 0 < m.spacing ∧ 0 < m.sqrtAWR ∧ 0 ≤ m.eMin ∧ 0 < m.eMax ∧ (m.cols = 3 ∨ m.cols = 4) ∧ (∀ r ∈ m.data, r.length = m.cols) ∧ 3 ≤ m.terms ∧
      (m.channels = 2 ∨ m.channels = 3) ∧ m.broaden.length = m.windows.length ∧ m.curvefit.length = m.windows.length ∧
      ∀ c ∈ m.curvefit, c.length = m.terms ∧ ∀ t ∈ c, t.length = m.channels := by
  have dset {α : Type} {o : Option α} {a : α} (h : dsetOf o = .ok a) : o = some a := by
    cases o with
    | none => cases h
    | some b => cases h; rfl
  have pos {x y : ℝ} (h : checkPositive x = .ok y) : 0 < y := by
    unfold checkPositive at h
    split at h
    · next p => cases h; exact p
    · cases h
  have nonneg {x y : ℝ} (h : checkNonneg x = .ok y) : 0 ≤ y := by
    unfold checkNonneg at h
    split at h
    · next p => cases h; exact p
    · cases h
  unfold fromGroup at h
  obtain ⟨sp, h1, h⟩ := bind_inv h
  obtain ⟨aw, h2, h⟩ := bind_inv h
  obtain ⟨lo, h3, h⟩ := bind_inv h
  obtain ⟨hi, h4, h⟩ := bind_inv h
  obtain ⟨da, h5, h⟩ := bind_inv h
  obtain ⟨wi, h6, h⟩ := bind_inv h
  obtain ⟨br, h7, h⟩ := bind_inv h
  obtain ⟨_, _, p1⟩ := bind_inv h1
  obtain ⟨_, _, p2⟩ := bind_inv h2
  obtain ⟨_, _, p3⟩ := bind_inv h3
  obtain ⟨_, _, p4⟩ := bind_inv h4
  obtain ⟨a5, d5, p5⟩ := bind_inv h5
  obtain ⟨a6, d6, p6⟩ := bind_inv h6
  obtain ⟨a7, d7, p7⟩ := bind_inv h7
  split at h
  · cases h
  · next hb =>
    obtain ⟨cu, h8, h⟩ := bind_inv h
    obtain ⟨a8, d8, p8⟩ := bind_inv h8
    split at h
    · cases h
    · next hc =>
      split at h
      · cases h
      · next ht =>
        cases h
        have hb := not_not.1 hb
        have hc := not_not.1 hc
        have q5 : (da.1 = 3 ∨ da.1 = 4) ∧ ∀ r ∈ da.2, r.length = da.1 := by
          unfold checkData at p5
          split at p5
          · next n c hsh =>
            split at p5
            · cases p5
            · next hcc =>
              split at p5
              · cases p5
              · cases p5
                exact ⟨not_not.1 hcc, (hs.data _ (dset d5) _ _ hsh).2⟩
          · cases p5
        have q6 : wi.2.length = wi.1 := by
          unfold checkWindows at p6
          split at p6
          · next n c hsh =>
            split at p6
            · cases p6
            · cases p6
              exact (hs.windows _ (dset d6) _ _ hsh).1
          · cases p6
        have q7 : br.2.length = br.1 := by
          unfold checkBroaden at p7
          split at p7
          · next n hsh =>
            cases p7
            rw [List.length_map]
            exact hs.broaden _ (dset d7) _ hsh
          · cases p7
        have q8 : (cu.1.2.2 = 2 ∨ cu.1.2.2 = 3) ∧ cu.2.length = cu.1.1 ∧ ∀ c ∈ cu.2, c.length = cu.1.2.1 ∧ ∀ t ∈ c, t.length = cu.1.2.2 := by
          unfold checkCurvefit at p8
          split at p8
          · next n t c hsh =>
            split at p8
            · cases p8
            · next hcc =>
              split at p8
              · cases p8
              · cases p8
                exact ⟨not_not.1 hcc, hs.curvefit _ (dset d8) _ _ _ hsh⟩
          · cases p8
        exact ⟨rfl, pos p1, pos p2, nonneg p3, pos p4, q5.1, q5.2, by simp only; omega, q8.1, by simp only; omega, by simp only; omega, q8.2.2⟩

/-- A group with fission residues and without a fission polynomial. -/
noncomputable def mixed : WGroup :=
  { spacing := some 1, sqrtAWR := some 1, eMin := some 1, eMax := some 3, data := some ⟨[0, 4], .complex, []⟩, windows := some ⟨[1, 2], .int, [[1, 0]]⟩,
    broaden := some ⟨[1], .int, [0]⟩, curvefit := some ⟨[1, 3, 2], .float, [[[1, 1], [0, 0], [0, 0]]]⟩ }

/-- **C192 (refuted).** Data with fission residues but without a polynomial for fission are read, and then no cross section within the limits can be had. -/
theorem C192_fission_refuted : mixed.Shaped ∧ ∃ m, fromGroup c!"U235" mixed = .ok m ∧ ∀ E, m.eMin ≤ E → E ≤ m.eMax → evaluate m E 0 = .error .indexError := by
  refine ⟨⟨?_, ?_, ?_, ?_⟩, ?_⟩
  · intro a h n c e
    simp only [mixed, Option.some.injEq] at h
    subst h
    simp at e ⊢; omega
  · intro a h n c e
    simp only [mixed, Option.some.injEq] at h
    subst h
    simp at e ⊢; omega
  · intro a h n e
    simp only [mixed, Option.some.injEq] at h
    subst h
    simp at e ⊢; omega
  · intro a h n t c e
    simp only [mixed, Option.some.injEq] at h
    subst h
    simp at e ⊢; omega
  · have e : fromGroup c!"U235" mixed = .ok ⟨c!"U235", 1, 1, 1, 3, 4, [], [[1, 0]], [false], 3, 2, [[[1, 1], [0, 0], [0, 0]]]⟩ := by
      unfold fromGroup mixed
      simp [dsetOf, ok_bind, checkPositive, checkNonneg, checkData, checkWindows, checkBroaden, checkCurvefit]
    refine ⟨_, e, fun E hl hu => ?_⟩
    simp only at hl hu
    unfold evaluate
    simp only
    rw [if_neg (not_lt.2 hl), if_neg (not_lt.2 hu)]
    unfold within
    rw [sqrt_ok (by simp), ok_bind, sqrt_ok (by linarith), ok_bind, if_neg (by linarith)]
    simp only
    rw [sqrt_ok (by norm_num), ok_bind]
    have h1 : 1 ≤ Real.sqrt E := by rw [Real.one_le_sqrt]; exact hl
    have h2 : Real.sqrt E < 2 := by rw [Real.sqrt_lt' (by norm_num)]; linarith
    have hw : ⌊(Real.sqrt E - Real.sqrt 1) / 1⌋ = 0 := by
      rw [Real.sqrt_one, Int.floor_eq_iff]
      constructor <;> push_cast <;> linarith
    have hc : curve ⟨c!"U235", 1, 1, 1, 3, 4, [], [[1, 0]], [false], 3, 2, [[[1, 1], [0, 0], [0, 0]]]⟩ 0 E (Real.sqrt (boltzmann * 0)) (Real.sqrt E) = .error .indexError := by
      unfold curve
      rw [if_neg (by simp)]
      rfl
    rw [hw, hc]
    rfl

end ASAPy.Multipole
