import Verif.Decay.Spec
import Mathlib.Tactic.FieldSimp
import Mathlib.Tactic.Linarith

/-!
# Properties of decay modes, daughters and decay constants (C136, C137, C140)
-/

namespace ASAPy.Decay
open ASAPy.Str ASAPy.Dec ASAPy.Endf ASAPy.AceData

theorem code_lt (k : Kind) : k.code < 10 := by cases k <;> decide

theorem code_zero {k : Kind} : k.code = 0 ↔ k = .gamma := by cases k <;> decide

theorem tail_bounds (ks : List Kind) : 0 ≤ tail ks ∧ tail ks < 1 := by
  induction ks with
  | nil => exact ⟨le_refl _, by norm_num [tail]⟩
  | cons k ks ih =>
    have h : (k.code : ℚ) ≤ 9 := by exact_mod_cast Nat.lt_succ_iff.mp (code_lt k)
    have h0 : (0 : ℚ) ≤ k.code := by positivity
    unfold tail
    constructor
    · linarith [ih.1, div_nonneg (add_nonneg h0 ih.1) (by norm_num : (0 : ℚ) ≤ 10)]
    · rw [div_lt_one (by norm_num)]; linarith [ih.2]

theorem tail_ne_zero {ks : List Kind} (hne : ks ≠ []) (hl : ∀ l ∈ ks.getLast?, l ≠ .gamma) : tail ks ≠ 0 := by
  induction ks with
  | nil => exact absurd rfl hne
  | cons k ks ih =>
    unfold tail
    have h0 : (0 : ℚ) ≤ k.code := by positivity
    rcases ks with _ | ⟨k', ks⟩
    · have : k.code ≠ 0 := fun h => hl k (by simp) (code_zero.mp h)
      have : (k.code : ℚ) ≠ 0 := by exact_mod_cast this
      simp [tail, this]
    · have h1 := ih (by simp) (by simpa using hl)
      have h2 := (tail_bounds (k' :: ks)).1
      have : 0 < tail (k' :: ks) := lt_of_le_of_ne h2 (Ne.symm h1)
      have : (k.code : ℚ) + tail (k' :: ks) ≠ 0 := by linarith [this, h0] |> fun h : 0 < (k.code : ℚ) + tail (k' :: ks) => ne_of_gt h
      exact div_ne_zero this (by norm_num)

theorem floor_code (k : Kind) (ks : List Kind) : ⌊(k.code : ℚ) + tail ks⌋ = k.code := by
  rw [Int.floor_eq_iff]
  push_cast
  have := tail_bounds ks
  constructor <;> linarith [this.1, this.2]

theorem fracDigits_tail : ∀ (ks : List Kind) (n : Nat), ks.length ≤ n → (∀ l ∈ ks.getLast?, l ≠ .gamma) →
    fracDigits n (tail ks) = ks.map fun k => digitChar k.code
  | [], n, _, _ => by cases n <;> simp [fracDigits, tail]
  | k :: ks, 0, h, _ => by simp at h
  | k :: ks, n + 1, h, hl => by
    rw [fracDigits, if_neg (tail_ne_zero (by simp) hl)]
    have e : 10 * tail (k :: ks) = k.code + tail ks := by simp only [tail]; ring
    rw [e, floor_code]
    have : ((k.code : ℚ) + tail ks) - ((k.code : Int) : ℚ) = tail ks := by push_cast; ring
    rw [this, fracDigits_tail ks n (by simpa using h)]
    · simp
    · intro l hlast
      apply hl
      cases ks with
      | nil => simp at hlast
      | cons a b => simpa using hlast

theorem digitChar_code (k : Kind) : isDigit (digitChar k.code) = true ∧ modeOf (digitChar k.code) = .ok k.name := by
  cases k <;> decide +kernel

theorem digit_ne_zero {k : Kind} (h : k ≠ .gamma) : digitChar k.code ≠ '0' := by
  cases k <;> first | exact absurd rfl h | decide

theorem digit_ne_point (k : Kind) : digitChar k.code ≠ '.' := by cases k <;> decide

theorem natStr_code {k : Kind} : natStr k.code = [digitChar k.code] := by cases k <;> decide +kernel

theorem mapM_modes (ks : List Kind) : (ks.map fun k => digitChar k.code).mapM modeOf = .ok (ks.map Kind.name) := by
  induction ks with
  | nil => rfl
  | cons k ks ih =>
    rw [List.map_cons, List.mapM_cons, (digitChar_code k).2, ih]
    rfl

theorem strip0_ends {a : Char} {s : Line} (ha : a ≠ '0') {b : Char} (hb : b ≠ '0') : strip0 (a :: s ++ [b]) = a :: s ++ [b] := by
  simp [strip0, ha, hb]

theorem filter_points (ks : List Kind) : (ks.map fun k => digitChar k.code).filter (· ≠ '.') = ks.map fun k => digitChar k.code := by
  rw [List.filter_eq_self]
  intro c hc
  obtain ⟨k, _, rfl⟩ := List.mem_map.mp hc
  simpa using digit_ne_point k

theorem rtyp_bounds {k : Kind} (hk : k ≠ .gamma) (ks : List Kind) : 1 ≤ rtyp k ks ∧ rtyp k ks < 10 := by
  have h0 : 1 ≤ k.code := Nat.one_le_iff_ne_zero.mpr fun h => hk (code_zero.mp h)
  have h1 : (1 : ℚ) ≤ k.code := by exact_mod_cast h0
  have h2 : (k.code : ℚ) ≤ 9 := by exact_mod_cast Nat.lt_succ_iff.mp (code_lt k)
  have := tail_bounds ks
  unfold rtyp
  constructor <;> linarith [this.1, this.2]

theorem floatStr_rtyp {k : Kind} {ks : List Kind} (hk : k ≠ .gamma) (hl : ∀ l ∈ ks.getLast?, l ≠ .gamma) (hn : ks.length ≤ 17) :
    floatStr (rtyp k ks) = digitChar k.code :: '.' :: (if ks = [] then ['0'] else ks.map fun k => digitChar k.code) := by
  have hb := rtyp_bounds hk ks
  have e1 : |rtyp k ks| = rtyp k ks := abs_of_nonneg (by linarith [hb.1])
  have e2 : ⌊rtyp k ks⌋ = k.code := floor_code k ks
  have e3 : rtyp k ks - ((k.code : Int) : ℚ) = tail ks := by unfold rtyp; push_cast; ring
  unfold floatStr
  simp only [e1, e2, e3, fracDigits_tail ks 17 hn hl, if_neg (not_lt.mpr (by linarith [hb.1] : (0 : ℚ) ≤ rtyp k ks)), Int.toNat_natCast, natStr_code,
    List.map_eq_nil_iff]
  rfl

/-- C136 (partial: the first and the last mode are not `gamma`, whose code is 0, and the code 10 for an unknown mode is left out): RTYP of successive modes
gives their names, in their order, for any modes and any number of them. -/
theorem C136_modes_partial (q : ℚ) (names : List Line) (h : Rtyp q names) : decayModes q = .ok names := by
  obtain ⟨k, ks, rfl, rfl, hk, hl, hn⟩ := h
  have hb := rtyp_bounds hk ks
  have e1 : |rtyp k ks| = rtyp k ks := abs_of_nonneg (by linarith [hb.1])
  unfold decayModes
  rw [if_neg, floatStr_rtyp hk hl hn]
  · rcases List.eq_nil_or_concat ks with rfl | ⟨init, l, rfl⟩
    · have : strip0 (digitChar k.code :: '.' :: ['0']) = [digitChar k.code, '.'] := by
        simp [strip0, digit_ne_zero hk]
      simp only [if_true, this]
      have h2 : [digitChar k.code, '.'].filter (· ≠ '.') = [k].map fun k => digitChar k.code := by simp [digit_ne_point]
      rw [h2, mapM_modes]
    · have hne : l ≠ .gamma := hl l (by simp)
      rw [if_neg (by simp)]
      have e : digitChar k.code :: '.' :: ((init ++ [l]).map fun k => digitChar k.code) =
          digitChar k.code :: ('.' :: init.map fun k => digitChar k.code) ++ [digitChar l.code] := by simp
      rw [List.concat_eq_append, e, strip0_ends (digit_ne_zero hk) (digit_ne_zero hne), ← e]
      have h2 : (digitChar k.code :: '.' :: ((init ++ [l]).map fun k => digitChar k.code)).filter (· ≠ '.') =
          (k :: (init ++ [l])).map fun k => digitChar k.code := by
        have := filter_points (k :: (init ++ [l]))
        simp only [List.map_cons] at this ⊢
        rw [← this]
        simp [List.filter_cons]
      rw [h2, mapM_modes]
  · rw [e1]
    push Not
    refine ⟨fun _ => by linarith [hb.1], by linarith [hb.2]⟩

/-- A decay by beta- followed by two neutrons: 1.55. -/
example : Rtyp (31 / 20) [c!"beta-", c!"n", c!"n"] :=
  ⟨.betaMinus, [.neutron, .neutron], by norm_num [rtyp, tail, Kind.code], rfl, by decide, by decide, by decide⟩

/-- C136 (refuted for an unknown mode): its code is 10, which is read as the two modes beta- and gamma; a code of 0, for gamma radiation, is read as
no mode at all. -/
theorem C136_unknown_refuted : decayModes 10 = .ok [c!"beta-", c!"gamma"] ∧ decayModes 0 = .ok [] := by
  constructor <;> decide +kernel

/-! ### C137: daughters -/

theorem table_names_nodup : (decayTable.map (·.2.1)).Nodup := by decide +kernel

theorem times_cons (k : Kind) (j : Kind) (ks : List Kind) : times k (j :: ks) = (if j = k then 1 else 0) + times k ks := by
  unfold times
  by_cases h : j = k
  · simp [h]; ring
  · simp [h]

theorem applyMode_kind (k : Kind) (a z : Int) : applyMode k.name decayTable (a, z) = (massAfter a [k], chargeAfter z [k]) := by
  cases k <;> simp [applyMode, decayTable, Kind.name, massAfter, chargeAfter, times] <;> (try constructor) <;> (try ring)

theorem applyModes_kinds : ∀ (ks : List Kind) (a z : Int), applyModes (ks.map Kind.name) (a, z) = (massAfter a ks, chargeAfter z ks)
  | [], a, z => by simp [applyModes, massAfter, chargeAfter, times]
  | k :: ks, a, z => by
    rw [List.map_cons, applyModes, applyMode_kind, applyModes_kinds ks]
    simp only [massAfter, chargeAfter, times_cons, Prod.mk.injEq]
    have e : ∀ j, times j [k] = if k = j then 1 else 0 := by
      intro j; rw [times_cons]; simp [times]
    simp only [times, List.filter_nil, List.length_nil, Nat.cast_zero, add_zero]
    constructor <;> ring

theorem gndName_nuclide {z : Nat} {sym : Line} (h : Element z sym) (a m : Nat) : gndName z a m = .ok (nuclideName sym a m) := by
  unfold gndName nuclideName
  rw [symbol_of h]
  by_cases hm : m = 0
  · subst hm; simp [intStr_nat]
  · simp [hm, intStr_nat]

theorem matchName_nuclide {z : Nat} {sym : Line} (h : Element z sym) (a m : Nat) : ∃ st, matchName (nuclideName sym a m) = some (sym, natStr a, st) := by
  unfold nuclideName
  by_cases hm : m = 0
  · have := matchName_name h a [] (by simp)
    rw [List.append_nil] at this
    rw [if_pos hm]
    exact ⟨_, this⟩
  · rw [if_neg hm]
    exact ⟨_, matchName_name h a ('_' :: 'm' :: natStr m) (by simpa using (by decide : isDigit '_' = false))⟩

theorem daughter_eq {z : Nat} {sym : Line} (hz : Element z sym) (a m : Nat) (ks : List Kind) (d : Mode) (hp : d.parent = nuclideName sym a m)
    (hm : d.modes = ks.map Kind.name) : daughter d = gndName (chargeAfter z ks) (massAfter a ks) d.state := by
  obtain ⟨st, hmatch⟩ := matchName_nuclide hz a m
  unfold daughter
  rw [hp, hmatch]
  simp only [number_of hz, hm, natVal_natStr, applyModes_kinds]

/-- C137 (partial: without spontaneous fission): the daughter has the charge and the mass number that are left after all of the modes, and the state
of the mode of decay, for every parent (in any state) and any sequence of modes. -/
theorem C137_daughter_partial {z : Nat} {sym : Line} (hz : Element z sym) (a m : Nat) (ks : List Kind) (_hf : Kind.fission ∉ ks) (d : Mode)
    (hp : d.parent = nuclideName sym a m) (hm : d.modes = ks.map Kind.name) {z' : Nat} {sym' : Line} (hz' : Element z' sym') (a' m' : Nat)
    (h1 : chargeAfter z ks = z') (h2 : massAfter a ks = a') (h3 : d.state = m') : daughter d = .ok (nuclideName sym' a' m') := by
  rw [daughter_eq hz a m ks d hp hm, h1, h2, h3, gndName_nuclide hz']

/-- C137: a daughter without a symbol (a charge above 118 or below 0) is a `KeyError`, not another nuclide. -/
theorem C137_no_element {z : Nat} {sym : Line} (hz : Element z sym) (a m : Nat) (ks : List Kind) (d : Mode) (hp : d.parent = nuclideName sym a m)
    (hm : d.modes = ks.map Kind.name) (h : ∀ z' : Nat, ∀ s, Element z' s → chargeAfter z ks ≠ z') : daughter d = .error .keyError := by
  rw [daughter_eq hz a m ks d hp hm]
  unfold gndName
  rw [(Dict.get?_eq_none (d := atomicSymbol)).mpr]
  intro hk
  obtain ⟨⟨k, s⟩, hmem, rfl⟩ := List.mem_map.mp hk
  have hnn : ∀ p ∈ atomicSymbol, 0 ≤ p.1 := by decide +kernel
  have := hnn _ hmem
  refine h (chargeAfter z ks).toNat s ?_ (by simp only at this ⊢; omega)
  unfold Element
  simp only at this
  rw [Int.toNat_of_nonneg this]
  exact hmem

/-- C137 (refuted for spontaneous fission): the daughter of a nuclide that splits is the nuclide itself. -/
theorem C137_fission_refuted {z : Nat} {sym : Line} (hz : Element z sym) (a : Nat) (d : Mode) (hp : d.parent = nuclideName sym a 0)
    (hm : d.modes = [c!"sf"]) (h0 : d.state = 0) : daughter d = .ok d.parent := by
  have h1 : chargeAfter z [Kind.fission] = z := by simp [chargeAfter, times]
  have h2 : massAfter a [Kind.fission] = a := by simp [massAfter, times]
  rw [daughter_eq hz a 0 [.fission] d hp hm, h1, h2, h0, hp]
  exact gndName_nuclide hz a 0

/-- Am242_m1 decays by alpha to Np238; Li11 by beta- and two neutrons to Be9. -/
example : daughter ⟨c!"Am242_m1", [c!"alpha"], 0, ⟨1, 0⟩, ⟨1, 0⟩⟩ = .ok c!"Np238" ∧
    daughter ⟨c!"Li11", [c!"beta-", c!"n", c!"n"], 0, ⟨1, 0⟩, ⟨1, 0⟩⟩ = .ok c!"Be9" := by constructor <;> decide +kernel

example : Element 95 "Am".toList ∧ Element 93 "Np".toList ∧ chargeAfter 95 [.alpha] = 93 ∧ massAfter 242 [.alpha] = 238 ∧
    nuclideName "Am".toList 242 1 = "Am242_m1".toList := by
  refine ⟨by unfold Element; decide +kernel, by unfold Element; decide +kernel, by decide, by decide, by decide +kernel⟩

/-! ### C140: decay constants -/

/-- C140: the decay constant of a positive half-life is the one by which half of the nuclei are left after the half-life, and its relative deviation is
that of the half-life. -/
theorem C140_constant (n s : ℝ) (hn : 0 < n) : ∃ c σ, decayConstant n s = .ok (c, σ) ∧ 0 < c ∧ Real.exp (-(c * n)) = 1 / 2 ∧ σ / c = s / n := by
  have hl : 0 < Real.log 2 := Real.log_pos (by norm_num)
  refine ⟨Real.log 2 / n, |(-Real.log 2) / n ^ 2| * s, ?_, by positivity, ?_, ?_⟩
  · unfold decayConstant
    rw [if_neg (ne_of_gt hn)]
  · rw [div_mul_cancel₀ _ (ne_of_gt hn), Real.exp_neg, Real.exp_log (by norm_num)]
    norm_num
  · have : |(-Real.log 2) / n ^ 2| = Real.log 2 / n ^ 2 := by
      rw [abs_div, abs_neg, abs_of_pos hl, abs_of_pos (by positivity)]
    rw [this]
    field_simp

example : ∃ n : ℝ, 0 < n := ⟨1, one_pos⟩

end ASAPy.Decay
