import Verif.Thermal.Spec
import Verif.AceData.Props

/-!
# Names of materials and nuclides
-/

set_option linter.unusedSectionVars false

namespace ASAPy.Thermal

open ASAPy.Hdf5 (Text)
open Dec

/-! ### Materials -/

theorem keyOf_none {n : Text} {l : List (Text × List Text)} (h : keyOf n l = none) : ∀ e ∈ l, n ∉ e.2 := by
  induction l with
  | nil => simp
  | cons e l ih =>
    obtain ⟨k, names⟩ := e
    rw [keyOf] at h
    split at h
    · cases h
    · rename_i hn
      intro e he
      rcases List.mem_cons.1 he with rfl | he
      · exact hn
      · exact ih h e he

theorem keyOf_some {n k : Text} {l : List (Text × List Text)} (h : keyOf n l = some k) : ∃ names, (k, names) ∈ l ∧ n ∈ names := by
  induction l with
  | nil => simp [keyOf] at h
  | cons e l ih =>
    obtain ⟨k', names⟩ := e
    rw [keyOf] at h
    split at h
    · rename_i hn
      injection h with h
      exact ⟨names, by simp [h], hn⟩
    · obtain ⟨ns, h1, h2⟩ := ih h
      exact ⟨ns, by simp [h1], h2⟩

/-- No name is listed twice. -/
theorem names_unique : ((thermalNames.map Prod.snd).flatten).Nodup := by decide +kernel

theorem keys_unique : (thermalNames.map Prod.fst).Nodup := by decide +kernel

/-- No key is, in small letters, in a list. -/
theorem keys_apart : ∀ k ∈ thermalNames.map Prod.fst, lower k ∉ (thermalNames.map Prod.snd).flatten := by decide +kernel

theorem keyOf_mem : ∀ (l : List (Text × List Text)) {k n : Text} {names : List Text}, ((l.map Prod.snd).flatten).Nodup → (k, names) ∈ l → n ∈ names → keyOf n l = some k := by
  intro l
  induction l with
  | nil => simp
  | cons e l ih =>
    obtain ⟨k', names'⟩ := e
    intro k n names hn h hm
    simp only [List.map_cons, List.flatten_cons, List.nodup_append] at hn
    rw [keyOf]
    rcases List.mem_cons.1 h with h | h
    · injection h with h1 h2
      subst h1 h2
      rw [if_pos hm]
    · rw [if_neg, ih hn.2.1 h hm]
      intro hm'
      exact hn.2.2 n hm' n (List.mem_flatten.2 ⟨names, List.mem_map.2 ⟨_, h, rfl⟩, hm⟩) rfl

/-! ### Nuclides -/

/-- Names of natural isotopes are a part without digits and a number. -/
theorem natural_parts : ∀ n ∈ natural, natStr (natVal (n.dropWhile fun c => !isDigit c)) = n.dropWhile fun c => !isDigit c := by
  decide +kernel

theorem upper_noDigit {c : Char} (h : AceData.isUpper c = true ∨ c = 'n' ∨ AceData.isLower c = true) : isDigit c = false := by
  by_contra hd
  simp only [Bool.not_eq_false] at hd
  unfold isDigit at hd
  simp only [Bool.and_eq_true, decide_eq_true_eq] at hd
  rcases h with h | rfl | h
  · unfold AceData.isUpper at h
    simp at h
    omega
  · revert hd; decide
  · unfold AceData.isLower at h
    simp at h
    omega

theorem symbol_noDigit {z : Nat} {sym : Text} (h : AceData.Element z sym) : ∀ c ∈ sym, isDigit c = false := by
  obtain ⟨c, r, e, h1, h2⟩ := AceData.symbols_good _ h
  simp only at e
  rw [e]
  intro x hx
  rcases List.mem_cons.1 hx with rfl | hx
  · exact upper_noDigit (h1.elim Or.inl fun h => Or.inr (Or.inl h))
  · exact upper_noDigit (Or.inr (Or.inr (h2 x hx)))

theorem isotopeOf_iff {z : Nat} {sym n : Text} (h : AceData.Element z sym) (hn : n ∈ natural) : isotopeOf sym n = true ↔ ∃ b : Nat, n = sym ++ natStr b := by
  have hsym := symbol_noDigit h
  constructor
  · intro hi
    simp only [isotopeOf, Bool.and_eq_true, List.isPrefixOf_iff_prefix] at hi
    obtain ⟨⟨r, rfl⟩, hi⟩ := hi
    rw [List.drop_left] at hi
    cases r with
    | nil => simp at hi
    | cons c r =>
      simp only at hi
      have hp := natural_parts _ hn
      have hd : (sym ++ c :: r).dropWhile (fun c => !isDigit c) = c :: r := by
        rw [List.dropWhile_append_of_pos (by intro x hx; simp [hsym x hx])]
        simp [hi]
      rw [hd] at hp
      exact ⟨_, by rw [hp]⟩
  · rintro ⟨b, rfl⟩
    simp only [isotopeOf, Bool.and_eq_true, List.isPrefixOf_iff_prefix]
    refine ⟨⟨_, rfl⟩, ?_⟩
    rw [List.drop_left]
    cases hb : natStr b with
    | nil => exact absurd hb (natStr_ne_nil b)
    | cons c r => exact natStr_digits b c (by simp [hb])

theorem addNew_mem {l : List Text} {x y : Text} : y ∈ addNew l x ↔ y ∈ l ∨ y = x := by
  unfold addNew
  split
  · rename_i h
    constructor
    · exact Or.inl
    · rintro (h' | rfl) <;> assumption
  · simp

theorem foldl_addNew_mem {y : Text} : ∀ (xs l : List Text), y ∈ xs.foldl addNew l ↔ y ∈ l ∨ y ∈ xs := by
  intro xs
  induction xs with
  | nil => simp
  | cons x xs ih =>
    intro l
    rw [List.foldl_cons, ih, addNew_mem, List.mem_cons]
    tauto

theorem addNew_nodup {l : List Text} {x : Text} (h : l.Nodup) : (addNew l x).Nodup := by
  unfold addNew
  split
  · exact h
  · rename_i hx
    rw [List.nodup_append]
    exact ⟨h, by simp, fun a ha b hb => by
      simp only [List.mem_singleton] at hb
      rintro rfl
      exact hx (hb ▸ ha)⟩

theorem foldl_addNew_nodup : ∀ (xs l : List Text), l.Nodup → (xs.foldl addNew l).Nodup := by
  intro xs
  induction xs with
  | nil => intro l h; exact h
  | cons x xs ih => intro l h; exact ih _ (addNew_nodup h)

theorem sortText_mem {l : List Text} {x : Text} : x ∈ sortText l ↔ x ∈ l := by simp [sortText]

variable {K : Type} [Field K] [LinearOrder K] [FloorRing K]

theorem applies_nil (n : Text) : ¬ Applies ([] : List (Int × K)) n := by
  rintro ⟨z, a, sym, w, h, _⟩
  simp at h

theorem applies_cons (p : Int × K) (l : List (Int × K)) (n : Text) : Applies (p :: l) n ↔ Applies [p] n ∨ Applies l n := by
  constructor
  · rintro ⟨z, a, sym, w, h, r⟩
    rcases List.mem_cons.1 h with h | h
    · exact Or.inl ⟨z, a, sym, w, List.mem_singleton.2 h, r⟩
    · exact Or.inr ⟨z, a, sym, w, h, r⟩
  · rintro (⟨z, a, sym, w, h, r⟩ | ⟨z, a, sym, w, h, r⟩)
    · exact ⟨z, a, sym, w, List.mem_cons.2 (Or.inl (List.mem_singleton.1 h)), r⟩
    · exact ⟨z, a, sym, w, List.mem_cons_of_mem _ h, r⟩

theorem element_unique {z : Nat} {s s' : Text} (h : AceData.Element z s) (h' : AceData.Element z s') : s = s' := by
  have h1 := AceData.get?_of_mem AceData.numbers_nodup h
  have h2 := AceData.get?_of_mem AceData.numbers_nodup h'
  rw [h1] at h2
  injection h2

/-- One pair. -/
theorem applies_one {z a : Nat} {sym : Text} {w : K} (hz : 0 < 1000 * z + a) (ha : a < 1000) (hs : AceData.Element z sym) (n : Text) :
    Applies [(((1000 * z + a : Nat) : Int), w)] n ↔ if sym = c!"H" ∨ sym = c!"Fe" then n = sym ++ natStr a else n = sym ++ c!"0" ∨ n ∈ natural ∧ ∃ b : Nat, n = sym ++ natStr b := by
  constructor
  · rintro ⟨z', a', sym', w', h, _, ha', hs', h'⟩
    simp only [List.mem_singleton, Prod.mk.injEq] at h
    have h1 : z' = z := by omega
    have h2 : a' = a := by omega
    subst h1 h2
    rw [element_unique hs hs']
    exact h'
  · intro h
    exact ⟨z, a, sym, w, by simp, hz, ha, hs, h⟩

theorem applies_skip {p : Int × K} (h : ¬ 0 < p.1) (n : Text) : ¬ Applies [p] n := by
  rintro ⟨z, a, sym, w, h', h0, _⟩
  simp only [List.mem_singleton] at h'
  rw [← h'] at h
  exact h (Int.natCast_pos.2 h0)

/-- Every ZAID is that of an element. -/
def Known (pairs : List (Int × K)) : Prop := ∀ p ∈ pairs, 0 < p.1 → ∃ (z a : Nat) (sym : Text), p.1 = ((1000 * z + a : Nat) : Int) ∧ a < 1000 ∧ AceData.Element z sym

theorem nuclidesOf_ok : ∀ (pairs : List (Int × K)) (acc : List Text), Known pairs → ∃ l, nuclidesOf pairs acc = .ok l ∧ ∀ n, n ∈ l ↔ n ∈ acc ∨ Applies pairs n := by
  intro pairs
  induction pairs with
  | nil => intro acc _; exact ⟨acc, rfl, fun n => by simp [applies_nil]⟩
  | cons p pairs ih =>
    intro acc hk
    have hk' : Known pairs := fun q hq => hk q (by simp [hq])
    obtain ⟨zaid, w⟩ := p
    rw [nuclidesOf]
    by_cases h0 : 0 < zaid
    · obtain ⟨z, a, sym, rfl, ha, hs⟩ := hk (zaid, w) (by simp) h0
      have hg : Dict.get? AceData.atomicSymbol (((1000 * z + a : Nat) : Int) / 1000) = some sym := by
        rw [show ((1000 * z + a : Nat) : Int) / 1000 = (z : Int) by omega]
        exact AceData.get?_of_mem AceData.numbers_nodup hs
      have hm : (((1000 * z + a : Nat) : Int) % 1000).toNat = a := by omega
      simp only [if_pos h0, hg, hm]
      have happ := applies_one (w := w) (by omega) ha hs
      by_cases hc : sym = c!"H" ∨ sym = c!"Fe"
      · rw [if_pos hc]
        obtain ⟨l, h1, h2⟩ := ih (acc ++ [sym ++ natStr a]) hk'
        refine ⟨l, h1, fun n => ?_⟩
        rw [h2, applies_cons, happ, if_pos hc, List.mem_append, List.mem_singleton]
        tauto
      · rw [if_neg hc]
        obtain ⟨l, h1, h2⟩ := ih _ hk'
        refine ⟨l, h1, fun n => ?_⟩
        rw [h2, applies_cons, happ, if_neg hc, foldl_addNew_mem, addNew_mem, List.mem_filter, sortText_mem]
        have : (n ∈ natural ∧ isotopeOf sym n = true) ↔ n ∈ natural ∧ ∃ b : Nat, n = sym ++ natStr b := and_congr_right fun hn => isotopeOf_iff hs hn
        rw [this]
        tauto
    · rw [if_neg h0]
      obtain ⟨l, h1, h2⟩ := ih acc hk'
      refine ⟨l, h1, fun n => ?_⟩
      rw [h2, applies_cons]
      have := applies_skip (p := (zaid, w)) h0 n
      tauto

theorem split_name {s s' : Text} {a b : Nat} (hs : ∀ c ∈ s, isDigit c = false) (hs' : ∀ c ∈ s', isDigit c = false) (h : s ++ natStr a = s' ++ natStr b) : s = s' ∧ a = b := by
  have hd : ∀ (s : Text) (a : Nat), (∀ c ∈ s, isDigit c = false) → (s ++ natStr a).takeWhile (fun c => !isDigit c) = s := by
    intro s a hs
    rw [List.takeWhile_append_of_pos (by intro x hx; simp [hs x hx])]
    cases hb : natStr a with
    | nil => exact absurd hb (natStr_ne_nil a)
    | cons c r =>
      have : isDigit c = true := natStr_digits a c (by simp [hb])
      simp [this]
  have h1 : s = s' := by rw [← hd s a hs, h, hd s' b hs']
  subst h1
  exact ⟨rfl, natStr_injective (List.append_cancel_left h)⟩

theorem zero_name (s : Text) : s ++ c!"0" = s ++ natStr 0 := by simp [natStr]

/-- No nuclide is listed twice if no ZAID is. -/
theorem nuclidesOf_nodup : ∀ (pairs : List (Int × K)) (acc : List Text), Known pairs → ((pairs.map Prod.fst).filter fun z => decide (0 < z)).Nodup → acc.Nodup →
    (∀ p ∈ pairs, ∀ (z a : Nat) (sym : Text), p.1 = ((1000 * z + a : Nat) : Int) → 0 < p.1 → a < 1000 → AceData.Element z sym → (sym = c!"H" ∨ sym = c!"Fe") → sym ++ natStr a ∉ acc) →
    ∀ l, nuclidesOf pairs acc = .ok l → l.Nodup := by
  intro pairs
  induction pairs with
  | nil =>
    intro acc _ _ hn _ l hl
    rw [nuclidesOf] at hl
    injection hl with hl
    exact hl ▸ hn
  | cons p pairs ih =>
    intro acc hk hz hn hf l hl
    have hk' : Known pairs := fun q hq => hk q (by simp [hq])
    obtain ⟨zaid, w⟩ := p
    rw [nuclidesOf] at hl
    by_cases h0 : 0 < zaid
    · rw [List.map_cons, List.filter_cons, if_pos (by simpa using h0), List.nodup_cons] at hz
      obtain ⟨z, a, sym, rfl, ha, hs⟩ := hk (zaid, w) (by simp) h0
      have hg : Dict.get? AceData.atomicSymbol (((1000 * z + a : Nat) : Int) / 1000) = some sym := by
        rw [show ((1000 * z + a : Nat) : Int) / 1000 = (z : Int) by omega]
        exact AceData.get?_of_mem AceData.numbers_nodup hs
      have hm : (((1000 * z + a : Nat) : Int) % 1000).toNat = a := by omega
      simp only [if_pos h0, hg, hm] at hl
      by_cases hc : sym = c!"H" ∨ sym = c!"Fe"
      · rw [if_pos hc] at hl
        have hnew := hf (((1000 * z + a : Nat) : Int), w) (List.mem_cons_self ..) z a sym rfl h0 ha hs hc
        refine ih _ hk' hz.2 ?_ ?_ l hl
        · rw [List.nodup_append]
          exact ⟨hn, by simp, fun x hx y hy => by
            simp only [List.mem_singleton] at hy
            rintro rfl
            exact hnew (hy ▸ hx)⟩
        · intro q hq z' a' sym' e h0' ha' hs' hc'
          rw [List.mem_append, not_or]
          refine ⟨hf q (by simp [hq]) z' a' sym' e h0' ha' hs' hc', ?_⟩
          rw [List.mem_singleton]
          intro he
          obtain ⟨e1, e2⟩ := split_name (symbol_noDigit hs') (symbol_noDigit hs) he
          have hzz : z' = z := by
            have h1 : ((z' : Int), sym) ∈ AceData.atomicSymbol := e1 ▸ hs'
            have h2 : ((z : Int), sym) ∈ AceData.atomicSymbol := hs
            have := (List.inj_on_of_nodup_map AceData.symbols_nodup) h1 h2 rfl
            simp only [Prod.mk.injEq, and_true] at this
            omega
          apply hz.1
          rw [List.mem_filter]
          refine ⟨List.mem_map.2 ⟨q, hq, ?_⟩, by simpa using h0⟩
          rw [e, hzz, e2]
      · rw [if_neg hc] at hl
        refine ih _ hk' hz.2 (foldl_addNew_nodup _ _ (addNew_nodup hn)) ?_ l hl
        intro q hq z' a' sym' e h0' ha' hs' hc'
        rw [foldl_addNew_mem, addNew_mem, List.mem_filter, sortText_mem]
        rintro ((h | h) | ⟨h1, h2⟩)
        · exact hf q (by simp [hq]) z' a' sym' e h0' ha' hs' hc' h
        · rw [zero_name] at h
          exact hc ((split_name (symbol_noDigit hs') (symbol_noDigit hs) h).1 ▸ hc')
        · obtain ⟨b, hb⟩ := (isotopeOf_iff hs h1).1 h2
          exact hc ((split_name (symbol_noDigit hs') (symbol_noDigit hs) hb).1 ▸ hc')
    · rw [if_neg h0] at hl
      rw [List.map_cons, List.filter_cons, if_neg (by simpa using h0)] at hz
      exact ih acc hk' hz hn (fun q hq => hf q (by simp [hq])) l hl

end ASAPy.Thermal
