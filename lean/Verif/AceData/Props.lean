import Verif.AceData.Spec
import Verif.Endf.Props

/-! # Properties of the ACE readers and of nuclide names (C58-C60, C74, C75) -/

set_option linter.unusedSimpArgs false

namespace ASAPy.AceData
open ASAPy.Str ASAPy.Dec ASAPy.Boxer
open ASAPy.Endf (Line pyInt strip readline)

/-! ### C60: names -/

theorem symbols_good : ∀ p ∈ atomicSymbol, ∃ c r, p.2 = c :: r ∧ (isUpper c = true ∨ c = 'n') ∧ ∀ x ∈ r, isLower x = true := by
  have h : ∀ p ∈ atomicSymbol, (match p.2 with | [] => false | c :: r => (isUpper c || decide (c = 'n')) && r.all isLower) = true := by
    decide +kernel
  intro p hp
  have := h p hp
  split at this
  · exact absurd this (by decide)
  · rename_i c r e
    simp only [Bool.and_eq_true, Bool.or_eq_true, decide_eq_true_eq, List.all_eq_true] at this
    exact ⟨c, r, e, this.1, this.2⟩

theorem numbers_nodup : (atomicSymbol.map (·.1)).Nodup := by decide +kernel
theorem symbols_nodup : (atomicSymbol.map (·.2)).Nodup := by decide +kernel

theorem get?_of_mem {κ α : Type} [DecidableEq κ] {d : List (κ × α)} {k : κ} {a : α} (hn : (d.map (·.1)).Nodup) (h : (k, a) ∈ d) :
    Dict.get? d k = some a := by
  induction d with
  | nil => simp at h
  | cons e d ih =>
    obtain ⟨k', a'⟩ := e
    simp only [List.map_cons, List.nodup_cons] at hn
    rcases List.mem_cons.mp h with h | h
    · injection h with h1 h2
      rw [Dict.get?, if_pos h1.symm, h2]
    · rw [Dict.get?, if_neg, ih hn.2 h]
      rintro rfl
      exact hn.1 (List.mem_map.mpr ⟨_, h, rfl⟩)

theorem symbol_of {z : Nat} {sym : Line} (h : Element z sym) : Dict.get? atomicSymbol (z : Int) = some sym := get?_of_mem numbers_nodup h

theorem number_of {z : Nat} {sym : Line} (h : Element z sym) : Dict.get? atomicNumber sym = some (z : Int) := by
  refine get?_of_mem ?_ (List.mem_map.mpr ⟨_, h, rfl⟩)
  simpa [atomicNumber, Function.comp_def] using symbols_nodup

theorem intStr_nat (n : Nat) : intStr (n : Int) = natStr n := by
  unfold intStr
  rw [if_neg (by omega), Int.natAbs_natCast]

theorem digits_append (w s : Line) (h : ∀ c ∈ w, isDigit c = true) (hs : ∀ c ∈ s.head?, isDigit c = false) : digits (w ++ s) = (w, s) := by
  induction w with
  | nil =>
    cases s with
    | nil => rfl
    | cons c s => exact digits_stop (hs c (by simp))
  | cons a w ih => rw [List.cons_append, digits_cons (h a (by simp)), ih (fun c hc => h c (by simp [hc]))]

theorem span_lower (w s : Line) (h : ∀ c ∈ w, isLower c = true) (hs : ∀ c ∈ s.head?, isLower c = false) : (w ++ s).span isLower = (w, s) := by
  induction w with
  | nil =>
    cases s with
    | nil => rfl
    | cons c s =>
      have := hs c (by simp)
      simp [List.span_eq_takeWhile_dropWhile, this]
  | cons a w ih =>
    have ih := ih (fun c hc => h c (by simp [hc]))
    simp only [List.span_eq_takeWhile_dropWhile, Prod.mk.injEq] at ih
    simp [List.span_eq_takeWhile_dropWhile, h a (by simp), ih.1, ih.2]

theorem digit_not_lower {c : Char} (h : isDigit c = true) : isLower c = false := by
  unfold isDigit at h
  unfold isLower
  simp only [Bool.and_eq_true, decide_eq_true_eq] at h
  simp only [Bool.and_eq_false_iff, decide_eq_false_iff_not]
  omega

theorem matchName_name {z : Nat} {sym : Line} (h : Element z sym) (a : Nat) (tail : Line) (ht : ∀ c ∈ tail.head?, isDigit c = false) :
    matchName (sym ++ natStr a ++ tail) = some (sym, natStr a, stateOf tail) := by
  obtain ⟨c, r, e, hc, hr⟩ := symbols_good _ h
  simp only at e
  subst e
  have hd : ∀ x ∈ (natStr a ++ tail).head?, isLower x = false := by
    intro x hx
    cases e : natStr a with
    | nil => exact absurd e (natStr_ne_nil a)
    | cons y ys =>
      rw [e] at hx
      simp only [List.cons_append, List.head?_cons, Option.mem_def, Option.some.injEq] at hx
      subst hx
      exact digit_not_lower (natStr_digits a y (by rw [e]; simp))
  rw [List.append_assoc, List.cons_append, matchName, if_pos hc, span_lower r _ hr hd]
  simp only
  rw [digits_append _ _ (natStr_digits a) ht]
  simp only
  rw [if_neg (natStr_ne_nil a)]

/-- C60: the numbers of a nuclide are read back from its name, for every element, mass number and state. -/
theorem C60_round_trip {z : Nat} {sym : Line} (h : Element z sym) (a m : Nat) :
    ∃ name, gndName z a m = .ok name ∧ zam name = .ok (z, a, m) := by
  unfold gndName
  rw [symbol_of h]
  by_cases hm : m = 0
  · subst hm
    refine ⟨_, rfl, ?_⟩
    have := matchName_name h a [] (by simp)
    rw [List.append_nil] at this
    unfold zam
    simp only [Nat.cast_zero, gt_iff_lt, lt_self_iff_false, if_false, intStr_nat, this, number_of h, natVal_natStr]
    rfl
  · refine ⟨_, rfl, ?_⟩
    have h0 : (0 : Int) < m := by omega
    have hd : digits (natStr m) = (natStr m, []) := by simpa using digits_append (natStr m) [] (natStr_digits m) (by simp)
    have hst : stateOf ('_' :: 'm' :: natStr m) = some (natStr m) := by
      unfold stateOf
      simp only [hd]
      rw [if_pos ⟨trivial, Or.inr trivial, natStr_ne_nil m⟩]
    have := matchName_name h a ('_' :: 'm' :: natStr m) (by simpa using (by decide : isDigit '_' = false))
    unfold zam
    simp only [gt_iff_lt, h0, if_true, intStr_nat, this, number_of h, natVal_natStr, hst]

/-- C60: different nuclides have different names. -/
theorem C60_injective {z z' : Nat} {sym sym' : Line} (h : Element z sym) (h' : Element z' sym') (a m a' m' : Nat)
    (he : gndName z a m = gndName z' a' m') : z = z' ∧ a = a' ∧ m = m' := by
  obtain ⟨n, h1, h2⟩ := C60_round_trip h a m
  obtain ⟨n', h1', h2'⟩ := C60_round_trip h' a' m'
  rw [h1, h1'] at he
  injection he with he
  subst he
  rw [h2] at h2'
  injection h2' with h3
  simp only [Prod.mk.injEq, Nat.cast_inj] at h3
  exact h3

example : Element 95 "Am".toList ∧ gndName 95 242 1 = .ok "Am242_m1".toList ∧ zam "Am242_m1".toList = .ok (95, 242, 1) := by
  refine ⟨by unfold Element; decide +kernel, by decide +kernel, by decide +kernel⟩

/-! ### C58: identifiers -/

theorem strip100_le {z a : Int} (h : a ≤ 3 * z) : strip100 z a = a := by
  rw [strip100, if_neg (by omega)]

theorem strip100_add {z a : Int} (h : a ≤ 3 * z) (h' : 3 * z < a + 100) (k : Nat) : strip100 z (a + 100 * k) = a := by
  induction k with
  | zero => simpa using strip100_le h
  | succ k ih =>
    rw [strip100, if_pos (by push_cast; omega), show a + 100 * ((k + 1 : Nat) : Int) - 100 = a + 100 * k by push_cast; ring, ih]

/-- What is read from an identifier. -/
def Decodes (zaid : Int) (scheme : Scheme) (z a m : Nat) (sym : Line) : Prop :=
  ∃ name, gndName z a m = .ok name ∧ getMetadata zaid scheme = .ok ⟨name, sym, z, a, m⟩

theorem decodes_nndc {z : Nat} {sym : Line} (h : Element z sym) (zaid : Int) (a m : Nat) (e1 : zaid / 1000 = z)
    (e2 : strip100 z (zaid % 1000) = a) (e3 : (if zaid % 1000 > 300 then (1 : Int) else 0) = m) : Decodes zaid .nndc z a m sym := by
  obtain ⟨name, hn, -⟩ := C60_round_trip h a m
  refine ⟨name, hn, ?_⟩
  unfold getMetadata
  simp only [e1, e2, e3, symbol_of h, hn]

theorem decodes_mcnp {z : Nat} {sym : Line} (h : Element z sym) (zaid : Int) (a m : Nat) (h0 : ¬ zaid > 1000000) (e1 : zaid / 1000 = z)
    (e2 : strip100 z (zaid % 1000) = a)
    (e3 : (if zaid = 95242 then (1 : Int) else if zaid = 95642 then 0 else if zaid % 1000 > 300 then 1 else 0) = m) :
    Decodes zaid .mcnp z a m sym := by
  obtain ⟨name, hn, -⟩ := C60_round_trip h a m
  refine ⟨name, hn, ?_⟩
  unfold getMetadata
  simp only [if_neg h0, e1, e2, e3, symbol_of h, hn]

theorem decodes_sza {z : Nat} {sym : Line} (h : Element z sym) (zaid : Int) (a m : Nat) (h0 : zaid > 1000000) (e1 : zaid / 1000 % 1000 = z)
    (e2 : strip100 z (zaid % 1000) = a) (e3 : (if zaid = 1095242 then (0 : Int) else zaid / 1000000) = m) :
    Decodes zaid .mcnp z a m sym := by
  obtain ⟨name, hn, -⟩ := C60_round_trip h a m
  refine ⟨name, hn, ?_⟩
  unfold getMetadata
  simp only [if_pos h0, e1, e2, e3, symbol_of h, hn]

/-- C58, NNDC: ground states and first metastable states are recognised, for every element and every mass number between 3 Z - 100 and 3 Z
(which all nuclides of the libraries meet; the lower bound matters for metastable states only). -/
theorem C58_nndc_partial {z : Nat} {sym : Line} (h : Element z sym) (a m : Nat) (hm : m ≤ 1) (ha : a ≤ 3 * z) (ha' : a ≤ 300)
    (hlow : m = 1 → 3 * z < a + 100) : Decodes (nndcId z a m) .nndc z a m sym := by
  rcases Nat.le_one_iff_eq_zero_or_eq_one.mp hm with rfl | rfl
  · have e : nndcId z a 0 = 1000 * z + a := by simp [nndcId]
    have e2 : (1000 * (z : Int) + a) % 1000 = a := by omega
    rw [e]
    refine decodes_nndc h _ _ _ (by omega) ?_ (by rw [e2, if_neg (by omega)]; rfl)
    rw [e2]
    exact strip100_le (by omega)
  · have e : nndcId z a 1 = 1000 * z + (a + 100 * (4 : Nat)) := by simp [nndcId]; ring
    have hlow := hlow rfl
    have e2 : (1000 * (z : Int) + (a + 100 * (4 : Nat))) % 1000 = a + 100 * (4 : Nat) := by omega
    rw [e]
    refine decodes_nndc h _ _ _ (by omega) ?_ (by rw [e2, if_pos (by omega)]; rfl)
    rw [e2]
    exact strip100_add (by omega) (by omega) 4

/-- C58 is false for higher metastable states: in the NNDC scheme every one is taken for the first (Z, A are right). -/
theorem C58_second_state_refuted {z : Nat} {sym : Line} (h : Element z sym) (a m : Nat) (hm : 2 ≤ m) (ha : a ≤ 3 * z)
    (hlow : 3 * z < a + 100) (hfit : a + 300 + 100 * m < 1000) : Decodes (nndcId z a m) .nndc z a 1 sym := by
  have e : nndcId z a m = 1000 * z + (a + 100 * ((3 + m : Nat) : Int)) := by
    unfold nndcId
    rw [if_neg (by omega)]
    push_cast
    ring
  have e2 : (1000 * (z : Int) + (a + 100 * ((3 + m : Nat) : Int))) % 1000 = a + 100 * ((3 + m : Nat) : Int) := by omega
  rw [e]
  refine decodes_nndc h _ _ _ (by omega) ?_ (by rw [e2, if_pos (by omega)]; rfl)
  rw [e2]
  exact strip100_add (by omega) (by omega) _

example : Decodes (nndcId 51 124 2) .nndc 51 124 1 "Sb".toList :=
  C58_second_state_refuted (by unfold Element; decide +kernel) 124 2 (by decide) (by decide) (by decide) (by decide)

/-- C58 is false for the identifiers of the documentation: metastable Ag-110 would be taken for the ground state. -/
theorem C58_documented_refuted : Decodes (documentedId 47 110 1) .nndc 47 110 0 "Ag".toList :=
  ⟨_, rfl, by
    have e : strip100 47 210 = 110 := by
      rw [strip100, if_pos (by norm_num), strip100_le (by norm_num)]
      norm_num
    unfold getMetadata documentedId
    norm_num [e]
    decide +kernel⟩

/-- C58, MCNP: ground states and first metastable states are recognised, including the exchanged states of Am-242. -/
theorem C58_mcnp {z : Nat} {sym : Line} (h : Element z sym) (a m : Nat) (hm : m ≤ 1) (hz : z < 1000) (ha : a ≤ 3 * z) (ha' : a ≤ 300)
    (hlow : m = 1 → 3 * z < a + 100) : Decodes (mcnpId z a m) .mcnp z a m sym := by
  by_cases ham : z = 95 ∧ a = 242
  · obtain ⟨rfl, rfl⟩ := ham
    rcases Nat.le_one_iff_eq_zero_or_eq_one.mp hm with rfl | rfl
    · refine decodes_mcnp h _ _ _ (by decide) (by decide) ?_ (by decide)
      have := strip100_add (z := 95) (a := 242) (by norm_num) (by norm_num) 4
      norm_num at this
      simpa [mcnpId] using this
    · refine decodes_mcnp h _ _ _ (by decide) (by decide) ?_ (by decide)
      simpa [mcnpId] using strip100_le (z := 95) (a := 242) (by norm_num)
  · have e : mcnpId z a m = 1000 * z + (a + 100 * ((4 * m : Nat) : Int)) := by
      unfold mcnpId
      rw [if_neg ham]
      push_cast
      ring
    have e2 : (1000 * (z : Int) + (a + 100 * ((4 * m : Nat) : Int))) % 1000 = a + 100 * ((4 * m : Nat) : Int) := by omega
    rw [e]
    refine decodes_mcnp h _ _ _ (by omega) (by omega) ?_ ?_
    · rw [e2]
      rcases Nat.le_one_iff_eq_zero_or_eq_one.mp hm with rfl | rfl
      · simpa using strip100_le (z := z) (a := a) (by omega)
      · have := hlow rfl
        exact strip100_add (by omega) (by omega) _
    · rw [if_neg (by omega), if_neg (by omega), e2]
      rcases Nat.le_one_iff_eq_zero_or_eq_one.mp hm with rfl | rfl
      · rw [if_neg (by omega)]; rfl
      · rw [if_pos (by omega)]; rfl

/-- C58, new identifiers of MCNP: every metastable state; and 1095242 is the ground state of Am-242. -/
theorem C58_sza {z : Nat} {sym : Line} (h : Element z sym) (a m : Nat) (hm : 1 ≤ m) (hz : 1 ≤ z ∧ z < 1000) (ha : a ≤ 3 * z) (ha' : a < 1000) :
    Decodes (szaId z a m) .mcnp z a (if z = 95 ∧ a = 242 ∧ m = 1 then 0 else m) sym := by
  have e2 : szaId z a m % 1000 = a := by unfold szaId; omega
  refine decodes_sza h _ _ _ (by unfold szaId; omega) (by unfold szaId; omega) ?_ ?_
  · rw [e2]
    exact strip100_le (by omega)
  · by_cases hs : z = 95 ∧ a = 242 ∧ m = 1
    · rw [if_pos hs, if_pos (by unfold szaId; omega)]; rfl
    · rw [if_neg hs, if_neg (by unfold szaId; omega)]
      unfold szaId
      omega

example : Decodes (nndcId 92 235 0) .nndc 92 235 0 "U".toList ∧ Decodes (mcnpId 95 242 1) .mcnp 95 242 1 "Am".toList ∧
    Decodes (szaId 51 124 2) .mcnp 51 124 2 "Sb".toList :=
  ⟨C58_nndc_partial (by unfold Element; decide +kernel) 235 0 (by decide) (by decide) (by decide) (by decide),
   C58_mcnp (by unfold Element; decide +kernel) 242 1 (by decide) (by decide) (by decide) (by decide) (by decide),
   C58_sza (by unfold Element; decide +kernel) 124 2 (by decide) (by decide) (by decide) (by decide)⟩

end ASAPy.AceData
