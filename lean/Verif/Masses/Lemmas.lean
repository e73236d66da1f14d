import Verif.Masses.Spec
import Verif.Endf.Props
import Verif.AceData.Props

namespace ASAPy.Masses
open ASAPy.Endf ASAPy.Dec ASAPy.Boxer
open ASAPy.AceData (intStr intStr_nat)

/-! ### Characters -/

theorem toLower_cases (c : Char) : c.toLower = c ∨ (65 ≤ c.toNat ∧ c.toNat ≤ 90 ∧ c.toLower.toNat = c.toNat + 32) := by
  unfold Char.toLower
  split
  · rename_i h
    right
    refine ⟨by simpa [UInt32.le_iff_toNat_le] using h.1, by simpa [UInt32.le_iff_toNat_le] using h.2, ?_⟩
    have h2 : c.val.toNat ≤ 90 := by simpa [UInt32.le_iff_toNat_le] using h.2
    show (c.val + ('a'.val - 'A'.val)).toNat = c.val.toNat + 32
    rw [UInt32.toNat_add]
    have : ('a'.val - 'A'.val).toNat = 32 := by decide
    rw [this, Nat.mod_eq_of_lt (by omega)]
  · exact .inl rfl

theorem toLower_digit (c : Char) : isDigit c.toLower = isDigit c := by
  rcases toLower_cases c with h | ⟨h1, h2, h3⟩
  · rw [h]
  · unfold isDigit
    rw [h3]
    have a1 : decide (c.toNat + 32 ≤ 57) = false := decide_eq_false (by omega)
    have a2 : decide (c.toNat ≤ 57) = false := decide_eq_false (by omega)
    rw [a1, a2, Bool.and_false, Bool.and_false]

theorem toLower_of_digit {c : Char} (h : isDigit c = true) : c.toLower = c := by
  rcases toLower_cases c with e | ⟨h1, h2, h3⟩
  · exact e
  · simp only [isDigit, Bool.and_eq_true, decide_eq_true_eq] at h
    omega

theorem toLower_under {c : Char} (h : c.toLower = '_') : c = '_' := by
  rcases toLower_cases c with e | ⟨h1, h2, h3⟩
  · rw [← e]; exact h
  · rw [h] at h3
    have : ('_' : Char).toNat = 95 := rfl
    omega

theorem lower_digits {s : Line} (h : ∀ c ∈ s, isDigit c = true) : s.map Char.toLower = s := by
  induction s with
  | nil => rfl
  | cons c s ih => rw [List.map_cons, toLower_of_digit (h c (by simp)), ih (fun x hx => h x (by simp [hx]))]

/-- A text without digits and digits behind it: the parts are found again. -/
theorem parts {s s' d d' : Line} (hs : ∀ c ∈ s, isDigit c = false) (hs' : ∀ c ∈ s', isDigit c = false)
    (hd : ∀ c ∈ d, isDigit c = true) (hd' : ∀ c ∈ d', isDigit c = true) (h : s ++ d = s' ++ d') : s = s' ∧ d = d' := by
  induction s generalizing s' with
  | nil =>
    cases s' with
    | nil => exact ⟨rfl, h⟩
    | cons x s' =>
      have : x ∈ d := by rw [List.nil_append] at h; rw [h]; simp
      have h1 := hd x this
      rw [hs' x (by simp)] at h1
      cases h1
  | cons x s ih =>
    cases s' with
    | nil =>
      have : x ∈ d' := by rw [List.nil_append] at h; rw [← h]; simp
      have h1 := hd' x this
      rw [hs x (by simp)] at h1
      cases h1
    | cons y s' =>
      simp only [List.cons_append, List.cons.injEq] at h
      obtain ⟨e, h⟩ := h
      obtain ⟨e1, e2⟩ := ih (fun c hc => hs c (by simp [hc])) (fun c hc => hs' c (by simp [hc])) h
      exact ⟨by rw [e, e1], e2⟩

theorem lower_nodigit {s : Line} (h : Letters s) : ∀ c ∈ s.map Char.toLower, isDigit c = false := by
  intro c hc
  obtain ⟨x, hx, rfl⟩ := List.mem_map.mp hc
  rw [toLower_digit]
  exact (h.2 x hx).2.1

/-! ### Numbers -/

theorem strip_word (j k : Nat) {s : Line} (hne : s ≠ []) (hs : ∀ c ∈ s, Str.isSpace c = false) :
    strip (List.replicate j ' ' ++ s ++ List.replicate k ' ') = s := by
  obtain ⟨c, r, hc⟩ := List.exists_cons_of_ne_nil hne
  obtain ⟨q, d, hq⟩ : ∃ q d, s = q ++ [d] := by
    rcases List.eq_nil_or_concat s with h | ⟨q, d, h⟩
    · exact absurd h hne
    · exact ⟨q, d, by simpa using h⟩
  exact strip_blanks j k s c d r q hc hq (hs c (by rw [hc]; simp)) (hs d (by rw [hq]; simp))

theorem number_digit {c : Char} (r : Line) (hc : isDigit c = true) : number (c :: r) = unsignedPart (c :: r) := by
  unfold number
  split
  · rename_i e; injection e with e _; subst e; exact absurd hc (by decide)
  · rename_i e; injection e with e _; subst e; exact absurd hc (by decide)
  · rfl

theorem unsigned_int {ip : Line} (hi : ∀ c ∈ ip, isDigit c = true) (hne : ip ≠ []) : unsignedPart ip = some ((natVal ip : ℚ), []) := by
  have h1 : digits ip = (ip, []) := by simpa using digits_run ip [] hi rfl
  unfold unsignedPart
  simp [h1, hne, expPart]

theorem unsigned_dec {ip fp : Line} (hi : ∀ c ∈ ip, isDigit c = true) (hf : ∀ c ∈ fp, isDigit c = true) (hne : ip ≠ []) :
    unsignedPart (ip ++ '.' :: fp) = some ((natVal (ip ++ fp) : ℚ) / 10 ^ fp.length, []) := by
  have h1 : digits (ip ++ '.' :: fp) = (ip, '.' :: fp) := digits_run _ _ hi (digits_stop isDigit_dot)
  have h2 : digits fp = (fp, []) := by simpa using digits_run fp [] hf rfl
  unfold unsignedPart
  simp [h1, h2, hne, expPart, div_eq_mul_inv]

theorem float_int (j k : Nat) {ip : Line} (hi : ∀ c ∈ ip, isDigit c = true) (hne : ip ≠ []) :
    pyFloat (List.replicate j ' ' ++ ip ++ List.replicate k ' ') = .ok (natVal ip : ℚ) := by
  unfold pyFloat
  rw [strip_word j k hne (fun c hc => isDigit_noSpace (hi c hc))]
  have hu := unsigned_int hi hne
  obtain ⟨c, r, rfl⟩ := List.exists_cons_of_ne_nil hne
  rw [number_digit r (hi c (by simp)), hu]

theorem float_dec (k : Nat) {ip fp : Line} (hi : ∀ c ∈ ip, isDigit c = true) (hf : ∀ c ∈ fp, isDigit c = true) (hne : ip ≠ []) :
    pyFloat (ip ++ '.' :: (fp ++ List.replicate k ' ')) = .ok ((natVal (ip ++ fp) : ℚ) / 10 ^ fp.length) := by
  have e : ip ++ '.' :: (fp ++ List.replicate k ' ') = List.replicate 0 ' ' ++ (ip ++ '.' :: fp) ++ List.replicate k ' ' := by simp
  have hsp : ∀ c ∈ ip ++ '.' :: fp, Str.isSpace c = false := by
    intro c hc
    rcases List.mem_append.mp hc with h | h
    · exact isDigit_noSpace (hi c h)
    · rcases List.mem_cons.mp h with h | h
      · subst h; decide
      · exact isDigit_noSpace (hf c h)
  unfold pyFloat
  rw [e, strip_word 0 k (by simp) hsp]
  have hu := unsigned_dec hi hf hne
  obtain ⟨c, r, rfl⟩ := List.exists_cons_of_ne_nil hne
  rw [List.cons_append] at hu ⊢
  rw [number_digit _ (hi c (by simp)), hu]

/-! ### Reading the file -/

/-- The key of an entry. -/
def key (e : Entry) : Line := e.sym.map Char.toLower ++ natStr e.a

theorem lower_name (s : Line) (a : Nat) : lower (s ++ natStr a) = s.map Char.toLower ++ natStr a := by
  unfold lower
  rw [List.map_append, lower_digits (natStr_digits a)]

theorem massEntry_on {e : Entry} {l : Line} (h : e.On l) (he : e.Ok) : massEntry l = .ok (key e, e.mass) := by
  obtain ⟨⟨j, k, ds, h1, hd, hdn, hv⟩, ⟨j2, k2, h2⟩, ⟨j3, k3, h3⟩, h4, ⟨k5, h5⟩⟩ := h
  have hm : e.micro ≠ [] := by
    intro h0; have := he.micro_len; rw [h0] at this; cases this
  have e1 : pyInt (col l 16 19) = .ok (e.a : Int) := by
    have := C56_integer j k none ds hd hdn
    rw [h1, ← hv]
    simpa [signText] using this
  unfold massEntry
  rw [e1, h2, h3, h4, h5, float_int j3 k3 he.whole he.whole_ne, float_dec k5 he.micro he.frac hm,
    strip_word j2 k2 he.sym.1 (fun c hc => (he.sym.2 c hc).1)]
  show Except.ok _ = _
  rw [intStr_nat, lower_name]
  congr 1
  refine Prod.ext rfl ?_
  show (natVal e.whole : ℚ) + (natVal (e.micro ++ e.frac) : ℚ) / 10 ^ e.frac.length / 1000000 = _
  unfold Entry.mass
  rw [pow_add, div_div]
  norm_num [mul_comm]

/-- The table after the entries. -/
def enter (c : Cache) (es : List Entry) : Cache := es.foldl (fun c e => Dict.set c (key e) e.mass) c

theorem readLines_ok {es : List Entry} {ls : List Line} (h : List.Forall₂ Entry.On es ls) (ok : ∀ e ∈ es, e.Ok) :
    ∀ c, readLines ls c = (enter c es, none) := by
  induction h with
  | nil => intro c; rfl
  | cons h1 _ ih =>
    intro c
    rw [readLines, massEntry_on h1 (ok _ (by simp))]
    exact ih (fun e he => ok e (by simp [he])) _

theorem enter_other (es : List Entry) {k : Line} (hk : ∀ e ∈ es, key e ≠ k) : ∀ c, Dict.get? (enter c es) k = Dict.get? c k := by
  induction es with
  | nil => intro c; rfl
  | cons e es ih =>
    intro c
    show Dict.get? (enter (Dict.set c (key e) e.mass) es) k = _
    rw [ih (fun e he => hk e (by simp [he])), Dict.get?_set_ne _ _ (hk e (by simp)).symm]

theorem enter_mem {es : List Entry} (hn : (es.map key).Nodup) {e : Entry} (he : e ∈ es) : ∀ c, Dict.get? (enter c es) (key e) = some e.mass := by
  induction es with
  | nil => cases he
  | cons x es ih =>
    intro c
    rw [List.map_cons, List.nodup_cons] at hn
    show Dict.get? (enter (Dict.set c (key x) x.mass) es) (key e) = _
    rcases List.mem_cons.mp he with rfl | he
    · rw [enter_other es (fun y hy h => hn.1 (List.mem_map.mpr ⟨y, hy, h⟩)), Dict.get?_set_same]
    · exact ih hn.2 he _

/-! ### Isotopes -/

theorem isotopeOf_iff {el s : Line} (a : Nat) (h : ∀ c ∈ el, isDigit c = false) (h' : ∀ c ∈ s, isDigit c = false) :
    isotopeOf el (s ++ natStr a) = true ↔ s = el := by
  induction el generalizing s with
  | nil =>
    cases s with
    | nil =>
      obtain ⟨c, r, hc⟩ := List.exists_cons_of_ne_nil (natStr_ne_nil a)
      have := natStr_digits a c (by rw [hc]; simp)
      simp [hc, isotopeOf, this]
    | cons x s => simp [isotopeOf, h' x (by simp)]
  | cons e el ih =>
    cases s with
    | nil =>
      obtain ⟨c, r, hc⟩ := List.exists_cons_of_ne_nil (natStr_ne_nil a)
      have h1 := natStr_digits a c (by rw [hc]; simp)
      have h2 : e ≠ c := by rintro rfl; rw [h e (by simp)] at h1; cases h1
      simp [hc, isotopeOf, h2]
    | cons x s =>
      have := ih (s := s) (fun c hc => h c (by simp [hc])) (fun c hc => h' c (by simp [hc]))
      show (e == x && isotopeOf el (s ++ natStr a)) = true ↔ _
      rw [Bool.and_eq_true, this, beq_iff_eq, List.cons.injEq]
      exact ⟨fun h => ⟨h.1.symm, h.2⟩, fun h => ⟨h.1.symm, h.2⟩⟩

theorem addIsotopes_ok {el k : Line} (hel : Letters el) (m : Iso → ℚ) : ∀ (isos : List Iso) (c : Cache) (s : ℚ), (∀ i ∈ isos, Letters i.sym) →
    (∀ i ∈ isos, i.sym.map Char.toLower ++ natStr i.a ≠ k) → (∀ i ∈ isos, Dict.get? c (i.sym.map Char.toLower ++ natStr i.a) = some (m i)) →
    Dict.get? c k = some s → ∃ c', addIsotopes el k (table isos) c = (c', none) ∧
      Dict.get? c' k = some (s + ((isotopes isos el).map fun i => i.w * m i).sum) ∧ ∀ k', k' ≠ k → Dict.get? c' k' = Dict.get? c k'
  | [], c, s, _, _, _, hs => ⟨c, rfl, by simp [isotopes, hs], fun _ _ => rfl⟩
  | i :: isos, c, s, hl, hk, hm, hs => by
    have hn : ∀ c ∈ i.sym, isDigit c = false := fun c hc => ((hl i (by simp)).2 c hc).2.1
    have hen : ∀ c ∈ el, isDigit c = false := fun c hc => (hel.2 c hc).2.1
    have hl' : ∀ i ∈ isos, Letters i.sym := fun j hj => hl j (by simp [hj])
    have hk' : ∀ i ∈ isos, i.sym.map Char.toLower ++ natStr i.a ≠ k := fun j hj => hk j (by simp [hj])
    by_cases he : i.sym = el
    · have h1 : isotopeOf el (i.sym ++ natStr i.a) = true := (isotopeOf_iff i.a hen hn).mpr he
      obtain ⟨c', e1, e2, e3⟩ := addIsotopes_ok hel m isos (Dict.set c k (s + i.w * m i)) (s + i.w * m i) hl' hk'
        (fun j hj => by rw [Dict.get?_set_ne _ _ (hk' j hj)]; exact hm j (by simp [hj])) (Dict.get?_set_same _ _ _)
      refine ⟨c', ?_, ?_, fun k' h' => by rw [e3 k' h', Dict.get?_set_ne _ _ h']⟩
      · show addIsotopes el k ((i.sym ++ natStr i.a, i.w) :: table isos) c = _
        rw [addIsotopes, if_pos h1, lower_name, hs, hm i (by simp)]
        exact e1
      · rw [e2]
        simp [isotopes, he, add_assoc]
    · have h1 : ¬ isotopeOf el (i.sym ++ natStr i.a) = true := fun h => he ((isotopeOf_iff i.a hen hn).mp h)
      obtain ⟨c', e1, e2, e3⟩ := addIsotopes_ok hel m isos c s hl' hk' (fun j hj => hm j (by simp [hj])) hs
      refine ⟨c', ?_, ?_, e3⟩
      · show addIsotopes el k ((i.sym ++ natStr i.a, i.w) :: table isos) c = _
        rw [addIsotopes, if_neg h1]
        exact e1
      · rw [e2]
        simp [isotopes, he]

theorem addNaturals_ok (m : Iso → ℚ) (isos : List Iso) (hl : ∀ i ∈ isos, Letters i.sym) : ∀ (els : List Line) (c : Cache),
    (∀ el ∈ els, Letters el) → (els.map fun el => lower el ++ ['0']).Nodup →
    (∀ el ∈ els, ∀ i ∈ isos, i.sym.map Char.toLower ++ natStr i.a ≠ lower el ++ ['0']) →
    (∀ i ∈ isos, Dict.get? c (i.sym.map Char.toLower ++ natStr i.a) = some (m i)) →
    ∃ c', addNaturals (table isos) els c = (c', none) ∧
      (∀ el ∈ els, Dict.get? c' (lower el ++ ['0']) = some ((isotopes isos el).map fun i => i.w * m i).sum) ∧
      ∀ k', (∀ el ∈ els, k' ≠ lower el ++ ['0']) → Dict.get? c' k' = Dict.get? c k'
  | [], c, _, _, _, _ => ⟨c, rfl, by simp, fun _ _ => rfl⟩
  | el :: els, c, hel, hn, hk, hm => by
    rw [List.map_cons, List.nodup_cons] at hn
    obtain ⟨c1, e1, e2, e3⟩ := addIsotopes_ok (k := lower el ++ ['0']) (hel el (by simp)) m isos (Dict.set c (lower el ++ ['0']) 0) 0 hl
      (hk el (by simp)) (fun i hi => by rw [Dict.get?_set_ne _ _ (hk el (by simp) i hi)]; exact hm i hi) (Dict.get?_set_same _ _ _)
    obtain ⟨c2, f1, f2, f3⟩ := addNaturals_ok m isos hl els c1 (fun x hx => hel x (by simp [hx])) hn.2
      (fun x hx => hk x (by simp [hx]))
      (fun i hi => by rw [e3 _ (hk el (by simp) i hi), Dict.get?_set_ne _ _ (hk el (by simp) i hi)]; exact hm i hi)
    refine ⟨c2, ?_, ?_, ?_⟩
    · rw [addNaturals, e1]
      exact f1
    · intro x hx
      rcases List.mem_cons.mp hx with rfl | hx
      · rw [f3 _ (fun y hy h => hn.1 (List.mem_map.mpr ⟨y, hy, h.symm⟩)), e2, zero_add]
      · exact f2 x hx
    · intro k' h'
      rw [f3 k' (fun y hy => h' y (by simp [hy])), e3 k' (h' el (by simp)), Dict.get?_set_ne _ _ (h' el (by simp))]

/-! ### The whole table -/

theorem naturals_letters : ∀ el ∈ naturals, Letters el := by
  intro el h
  simp only [naturals, List.mem_cons, List.not_mem_nil, or_false] at h
  rcases h with rfl | rfl | rfl | rfl | rfl <;> (refine ⟨by simp, ?_⟩; decide)

theorem naturals_keys : (naturals.map fun el => lower el ++ ['0']).Nodup := by decide

theorem zero_key : natStr 0 = ['0'] := by simp [natStr]

theorem key_ne_zero {s el : Line} (hs : Letters s) (hel : Letters el) {a : Nat} (ha : 0 < a) : s.map Char.toLower ++ natStr a ≠ lower el ++ ['0'] := by
  intro h
  rw [← zero_key] at h
  obtain ⟨_, h2⟩ := parts (lower_nodigit hs) (lower_nodigit hel) (natStr_digits a) (natStr_digits 0) h
  have := natStr_injective h2
  omega

theorem keys_nodup {es : List Entry} (ok : ∀ e ∈ es, e.Ok) (h : (es.map fun e => (e.sym.map Char.toLower, e.a)).Nodup) : (es.map key).Nodup := by
  refine List.Nodup.map_on ?_ (List.Nodup.of_map _ h)
  intro x hx y hy hxy
  obtain ⟨h1, h2⟩ := parts (lower_nodigit (ok x hx).sym) (lower_nodigit (ok y hy).sym) (natStr_digits _) (natStr_digits _) hxy
  exact List.inj_on_of_nodup_map h hx hy (by rw [h1, natStr_injective h2])

theorem load_ok {file : List Line} {es : List Entry} {isos : List Iso} (h : FileOk file es isos) (m : Iso → ℚ)
    (hm : ∀ i ∈ isos, HasMass es i (m i)) : ∃ c, load file (table isos) [] = (c, none) ∧ c ≠ [] ∧
      (∀ e ∈ es, Dict.get? c (key e) = some e.mass) ∧
      (∀ el ∈ naturals, Dict.get? c (lower el ++ ['0']) = some ((isotopes isos el).map fun i => i.w * m i).sum) ∧
      ∀ k, (∀ e ∈ es, key e ≠ k) → (∀ el ∈ naturals, lower el ++ ['0'] ≠ k) → Dict.get? c k = none := by
  have hn := keys_nodup h.ok h.once
  have hpos : ∀ i ∈ isos, 0 < i.a := by
    intro i hi
    obtain ⟨e, he, _, ha, _⟩ := hm i hi
    rw [ha]; exact h.pos e he
  obtain ⟨c, e1, e2, e3⟩ := addNaturals_ok m isos h.letters naturals (enter [] es) naturals_letters naturals_keys
    (fun el hel i hi => key_ne_zero (h.letters i hi) (naturals_letters el hel) (hpos i hi))
    (fun i hi => by
      obtain ⟨e, he, hs, ha, hv⟩ := hm i hi
      have : i.sym.map Char.toLower ++ natStr i.a = key e := by
        unfold key; rw [← ha]; congr 1
      rw [this, enter_mem hn he, hv])
  have hes : ∀ e ∈ es, Dict.get? c (key e) = some e.mass := by
    intro e he
    rw [e3 (key e) (fun el hel => key_ne_zero (h.ok e he).sym (naturals_letters el hel) (h.pos e he)), enter_mem hn he]
  refine ⟨c, ?_, ?_, hes, e2, ?_⟩
  · unfold load
    rw [readLines_ok h.lines h.ok]
    exact e1
  · rintro rfl
    obtain ⟨e, r, hr⟩ := List.exists_cons_of_ne_nil h.some
    have := hes e (by rw [hr]; simp)
    simp [Dict.get?] at this
  · intro k h1 h2
    rw [e3 k (fun el hel => (h2 el hel).symm), enter_other es h1]
    rfl

end ASAPy.Masses
