import Verif.WriteAce.Spec
import Mathlib.Tactic.Ring
import Mathlib.Tactic.Linarith

/-! # C19-C25: replacing arrays in an ACE file -/

set_option linter.unusedSimpArgs false

namespace ASAPy.WriteAce
open ASAPy.Str

variable {K : Type*} {fmt : K → List Char}

/-! ### The concrete format -/

theorem digitChar_noSpace (d : Nat) : isSpace (digitChar d) = false := by
  have h : ∀ k, k < 10 → isSpace (Char.ofNat (48 + k)) = false := by decide
  exact h _ (Nat.mod_lt _ (by norm_num))

theorem digitsN_noSpace (n m : Nat) : ∀ c ∈ digitsN n m, isSpace c = false := by
  intro c hc
  simp only [digitsN, List.mem_map] at hc
  obtain ⟨i, _, rfl⟩ := hc
  exact digitChar_noSpace _

theorem length_digitsN (n m : Nat) : (digitsN n m).length = n := by simp [digitsN]

/-- `.11E` never contains blanks and is at most 19 characters wide, so it always fits a 20-column field with a
blank in front. -/
theorem fmtE_word (x : ℚ) : Word (fmtE x) ∧ (fmtE x).length ≤ 19 := by
  have hl : ∀ (neg : Prop) [Decidable neg] (m : Nat) (c : Char) (b : Prop) [Decidable b] (k : Nat), isSpace c = false →
      let s := (if neg then ['-'] else []) ++ (digitsN 12 m).take 1 ++ ['.'] ++ (digitsN 12 m).drop 1 ++
        ['E', c] ++ digitsN (if b then 2 else 3) k
      Word s ∧ s.length ≤ 19 := by
    intro neg _ m c b _ k hc
    refine ⟨⟨by simp, ?_⟩, ?_⟩
    · intro d hd
      simp only [List.mem_append, List.mem_cons, List.not_mem_nil, or_false] at hd
      rcases hd with ((((hd | hd) | hd) | hd) | (hd | hd)) | hd
      · split_ifs at hd
        · simp only [List.mem_singleton] at hd; subst hd; decide
        · simp at hd
      · exact digitsN_noSpace _ _ d (List.mem_of_mem_take hd)
      · subst hd; decide
      · exact digitsN_noSpace _ _ d (List.mem_of_mem_drop hd)
      · subst hd; decide
      · subst hd; exact hc
      · exact digitsN_noSpace _ _ d hd
    · simp only [List.length_append, List.length_take, List.length_drop, length_digitsN]
      split_ifs <;> simp
  unfold fmtE
  simp only
  refine hl _ _ _ _ _ ?_
  split_ifs <;> decide

theorem fmtE_formats : Formats fmtE := fun x => (fmtE_word x).1

/-! ### C19 -/

/-- The number of words only depends on whether a word has been started. -/
theorem length_splitGo_cur (s : List Char) : ∀ a b : List Char, a ≠ [] → b ≠ [] →
    (splitGo a s).length = (splitGo b s).length := by
  induction s with
  | nil => intro a b ha hb; simp [splitGo, flush, ha, hb]
  | cons c s ih =>
    intro a b ha hb
    simp only [splitGo]
    split_ifs
    · simp [flush, ha, hb]
    · exact ih _ _ (by simp) (by simp)

/-- The words of a joined list followed by a text, counted. -/
theorem length_splitGo_join {ws : List (List Char)} (hne : ws ≠ []) (h : ∀ w ∈ ws, Word w) (v : List Char) :
    ∀ cur, (splitGo cur (join ws ++ v)).length = (ws.length - 1) + (splitGo ['x'] v).length := by
  induction ws with
  | nil => exact absurd rfl hne
  | cons w ws ih =>
    intro cur
    have hw := h w (List.mem_cons_self ..)
    cases ws with
    | nil =>
      rw [join_singleton, splitGo_nospace w hw.2]
      simp only [List.length_singleton, Nat.sub_self, Nat.zero_add]
      exact length_splitGo_cur v _ _ (by simp [hw.1]) (by simp)
    | cons w' ws =>
      rw [join_cons_cons, List.append_assoc, List.cons_append, splitGo_append_space _ isSpace_blank,
        splitGo_word hw]
      have := ih (by simp) (fun w hw => h w (List.mem_cons_of_mem _ hw)) []
      simp only [List.length_append, List.length_singleton, split]
      rw [this]
      simp only [List.length_cons]
      omega

theorem length_splitGo_prefix (u : List Char) {w w' : List Char}
    (h : ∀ cur, (splitGo cur w).length = (splitGo cur w').length) :
    ∀ cur, (splitGo cur (u ++ w)).length = (splitGo cur (u ++ w')).length := by
  induction u with
  | nil => exact h
  | cons c u ih =>
    intro cur
    simp only [List.cons_append, splitGo]
    split_ifs
    · rw [List.length_append, List.length_append, ih]
    · exact ih _

/-- Replacing joined words by as many joined words keeps the number of words. -/
theorem length_split_replaceGo {ws ws' : List (List Char)} (hne : ws ≠ []) (hlen : ws.length = ws'.length)
    (h : ∀ w ∈ ws, Word w) (h' : ∀ w ∈ ws', Word w) : ∀ (n : Nat) (s : List Char), s.length ≤ n → ∀ count cur,
    (splitGo cur (replaceGo (join ws) (join ws') 0 count s)).length = (splitGo cur s).length := by
  have hne' : ws' ≠ [] := by rintro rfl; exact hne (List.length_eq_zero_iff.mp hlen)
  have hj := join_ne_nil hne h
  intro n
  induction n with
  | zero =>
    intro s hs count cur
    have : s = [] := List.length_eq_zero_iff.mp (by omega)
    subst this
    simp [replaceGo]
  | succ n ih =>
    intro s hs count cur
    cases s with
    | nil => simp [replaceGo]
    | cons c s =>
      by_cases hp : join ws <+: c :: s
      · cases count with
        | zero => rw [replaceGo_zero]
        | succ count =>
          obtain ⟨v, hv⟩ := hp
          have hvlen : v.length ≤ n := by
            have := congrArg List.length hv
            have hpos : 0 < (join ws).length := List.length_pos_of_ne_nil hj
            simp only [List.length_append, List.length_cons] at this hs
            omega
          rw [← hv, replaceGo_match hj, length_splitGo_join hne' h', length_splitGo_join hne h, ih v hvlen, hlen]
      · rw [replaceGo_step hp]
        simp only [List.length_cons] at hs
        simp only [splitGo]
        split_ifs
        · rw [List.length_append, List.length_append, ih s (by omega)]
        · exact ih s (by omega) _ _

/-- **C19.** `replace_array` never changes the number of values, whatever the text, arrays and count. -/
theorem C19_value_count (hfmt : Formats fmt) (w : Writer) (array new : List K) (n : Int) :
    (replaceArray fmt w array new n).1.values.length = w.values.length := by
  unfold replaceArray
  by_cases hlen : array.length ≠ new.length
  · rw [if_pos hlen]
  · rw [if_neg hlen]
    have hlen := not_not.mp hlen
    cases hi : index (formatMcnp fmt array) w.singleLine with
    | none => simp only [hi]
    | some i =>
      simp only [hi]
      obtain ⟨_, hpre⟩ := index_some hi
      have hfound : (w.singleLine.take (i + (formatMcnp fmt array).length)).drop i = formatMcnp fmt array := by
        obtain ⟨v, hv⟩ := hpre
        rw [List.drop_take, Nat.add_sub_cancel_left, ← hv, List.take_left']
        rfl
      rw [hfound]
      unfold Writer.values Str.replace
      simp only
      by_cases hnil : array = []
      · subst hnil
        have : new = [] := List.length_eq_zero_iff.mp (by simpa using hlen.symm)
        subst this
        have hint : ∀ k (s : List Char), interleave [] k s = s := by
          intro k
          induction k with
          | zero => intro s; rfl
          | succ k ih => intro s; cases s <;> simp [interleave, ih]
        simp [formatMcnp, hint]
      · have hw : ∀ l : List K, ∀ s ∈ l.map fmt, Word s := by
          intro l s hs
          obtain ⟨x, _, rfl⟩ := List.mem_map.mp hs
          exact hfmt x
        have hne : array.map fmt ≠ [] := by simpa using hnil
        rw [if_neg (show ¬ formatMcnp fmt array = [] from join_ne_nil hne (hw array))]
        exact length_split_replaceGo hne (by simpa using hlen) (hw array) (hw new) _ _ le_rfl _ _

/-- A writer for the examples: four values, the third negative. -/
def demo : Writer :=
  { singleLine := "1.00000000000E+00 2.00000000000E+00 -1.00000000000E+00 4 ".toList
    header := List.replicate 12 "92235.71c\n".toList }

example : Formats fmtE ∧ demo.values.length = 4 ∧
    (replaceArray fmtE demo [1, 2] [3, 4] 1).2 = .ok () ∧
    (replaceArray fmtE demo [1, 2] [3, 4] 1).1.values =
      ["3.00000000000E+00".toList, "4.00000000000E+00".toList, "-1.00000000000E+00".toList, "4".toList] :=
  ⟨fmtE_formats, by decide +kernel⟩

/-! ### C24 -/

/-- **C24.** `replace_array` raises exactly when the lengths differ or the formatted array does not occur in the text,
and then the text (and header) are unchanged. -/
theorem C24_failure (w : Writer) (array new : List K) (n : Int) :
    ((∃ e, (replaceArray fmt w array new n).2 = .error e) ↔
      array.length ≠ new.length ∨ ¬ formatMcnp fmt array <:+: w.singleLine) ∧
    ((∃ e, (replaceArray fmt w array new n).2 = .error e) → (replaceArray fmt w array new n).1 = w) := by
  unfold replaceArray
  by_cases hlen : array.length ≠ new.length
  · rw [if_pos hlen]
    simp [hlen]
  · rw [if_neg hlen]
    cases hi : index (formatMcnp fmt array) w.singleLine with
    | none =>
      have := index_none_iff.mp hi
      simp [this, hi]
    | some i =>
      have : formatMcnp fmt array <:+: w.singleLine := by
        by_contra h
        rw [index_none_iff.mpr h] at hi
        cases hi
      simp only [not_not] at hlen
      simp [hlen, this, hi]

example : (replaceArray fmtE demo [7, 8] [3, 4] 1).2 = .error .valueError ∧
    (replaceArray fmtE demo [1, 2] [3] 1).2 = .error .exception := by decide +kernel

/-! ### C22, C23 -/

theorem replaceArray_at (hfmt : Formats fmt) {w : Writer} {array new : List K} {n : Int} (hn : n ≠ 0)
    (hlen : array.length = new.length) (hne : array ≠ []) {u v : List Char}
    (htext : w.singleLine = u ++ formatMcnp fmt array ++ v)
    (hfirst : ∀ u' v', w.singleLine = u' ++ formatMcnp fmt array ++ v' → u.length ≤ u'.length) :
    (replaceArray fmt w array new n).2 = .ok () ∧ (replaceArray fmt w array new n).1.header = w.header ∧
    (replaceArray fmt w array new n).1.singleLine = u ++ formatMcnp fmt new ++
      replaceGo (formatMcnp fmt array) (formatMcnp fmt new) 0 ((if n < 0 then w.singleLine.length + 1 else n.toNat) - 1) v := by
  have hw : ∀ s ∈ array.map fmt, Word s := by
    intro s hs
    obtain ⟨x, _, rfl⟩ := List.mem_map.mp hs
    exact hfmt x
  have hpne : formatMcnp fmt array ≠ [] := join_ne_nil (by simpa using hne) hw
  unfold replaceArray
  rw [if_neg (not_not.mpr hlen)]
  cases hi : index (formatMcnp fmt array) w.singleLine with
  | none =>
    exfalso
    apply index_none_iff.mp hi
    exact ⟨u, v, htext.symm⟩
  | some i =>
    simp only [hi]
    obtain ⟨_, hpre⟩ := index_some hi
    have hfound : (w.singleLine.take (i + (formatMcnp fmt array).length)).drop i = formatMcnp fmt array := by
      obtain ⟨v, hv⟩ := hpre
      rw [List.drop_take, Nat.add_sub_cancel_left, ← hv, List.take_left']
      rfl
    refine ⟨trivial, trivial, ?_⟩
    rw [hfound]
    unfold Str.replace
    simp only
    obtain ⟨k, hk⟩ : ∃ k, (if n < 0 then w.singleLine.length + 1 else n.toNat) = k + 1 := by
      by_cases h : n < 0
      · exact ⟨_, if_pos h⟩
      · exact ⟨n.toNat - 1, by rw [if_neg h]; omega⟩
    rw [if_neg hpne]
    rw [hk, Nat.add_sub_cancel, htext]
    apply replaceGo_first hpne
    intro u' x hu hx hpx
    obtain ⟨t, ht⟩ := hpx
    have hlt := hfirst u' t (by rw [htext, hu, List.append_assoc, List.append_assoc, List.append_assoc,
      ← List.append_assoc x, ← ht])
    have : 0 < x.length := List.length_pos_of_ne_nil hx
    rw [hu, List.length_append] at hlt
    omega

theorem split_ends_clean {u : List Char} (h : EndsClean u) (v : List Char) : split (u ++ v) = split u ++ split v := by
  rcases h with rfl | ⟨c, hc, hs⟩
  · rfl
  · obtain ⟨ys, rfl⟩ := List.getLast?_eq_some_iff.mp hc
    have e1 := split_space ys hs v
    have e2 := split_space ys hs []
    have hn : split ([] : List Char) = [] := rfl
    rw [hn, List.append_nil] at e2
    rw [List.append_assoc, List.singleton_append, e1, e2]

theorem split_starts_clean {v : List Char} (h : StartsClean v) (u : List Char) : split (u ++ v) = split u ++ split v := by
  rcases h with rfl | ⟨c, hc, hs⟩
  · simp [split, splitGo, flush]
  · cases v with
    | nil => simp at hc
    | cons d v =>
      simp only [List.head?_cons, Option.some.injEq] at hc
      subst hc
      have e1 := split_space u hs v
      have e2 := split_space [] hs v
      rw [List.nil_append] at e2
      have hn : split ([] : List Char) = [] := rfl
      rw [e1, e2, hn, List.nil_append]

theorem split_whole (hfmt : Formats fmt) {u v : List Char} (hu : EndsClean u) (hv : StartsClean v) (array : List K) :
    split (u ++ formatMcnp fmt array ++ v) = split u ++ array.map fmt ++ split v := by
  have hw : ∀ s ∈ array.map fmt, Word s := by
    intro s hs
    obtain ⟨x, _, rfl⟩ := List.mem_map.mp hs
    exact hfmt x
  rw [List.append_assoc, split_ends_clean hu, split_starts_clean hv]
  unfold formatMcnp
  rw [split_join hw, List.append_assoc]

/-- **C22.** If the array occurs in the data section exactly once, as whole values, with `s` values before it, then
`replace_array` succeeds, puts the new values there and leaves every other value (and the header) alone. -/
theorem C22_replaces_in_place (hfmt : Formats fmt) {w : Writer} {array new : List K} {n : Int} (hn : n ≠ 0)
    (hlen : array.length = new.length) (hne : array ≠ []) {s : Nat}
    (h : OccursOnceAt fmt w.singleLine array s) :
    ∃ w', replaceArray fmt w array new n = (w', .ok ()) ∧ w'.header = w.header ∧
      w.values = w.values.take s ++ array.map fmt ++ w.values.drop (s + array.length) ∧
      w'.values = w.values.take s ++ new.map fmt ++ w.values.drop (s + array.length) := by
  obtain ⟨u, v, htext, hu, hv, hs, huniq⟩ := h
  obtain ⟨h1, h2, h3⟩ := replaceArray_at hfmt hn hlen hne htext
    (fun u' v' h' => by rw [huniq u' v' h'])
  have hw : ∀ s ∈ array.map fmt, Word s := by
    intro s hs
    obtain ⟨x, _, rfl⟩ := List.mem_map.mp hs
    exact hfmt x
  have hpne : formatMcnp fmt array ≠ [] := join_ne_nil (by simpa using hne) hw
  -- no further occurrence after the first
  have hnone : ¬ formatMcnp fmt array <:+: v := by
    rintro ⟨a, b, hab⟩
    have := huniq (u ++ formatMcnp fmt array ++ a) b (by
      rw [htext, ← hab]; simp [List.append_assoc])
    have := congrArg List.length this
    simp only [List.length_append] at this
    have hpos : 0 < (formatMcnp fmt array).length := List.length_pos_of_ne_nil hpne
    omega
  rw [replaceGo_none _ hnone] at h3
  have hvals : w.values = split u ++ array.map fmt ++ split v := by
    unfold Writer.values; rw [htext, split_whole hfmt hu hv]
  refine ⟨_, Prod.ext rfl h1, h2, ?_, ?_⟩
  · rw [hvals, ← hs]
    simp [List.take_append, List.drop_append, List.append_assoc]
  · unfold Writer.values
    rw [h3, split_whole hfmt hu hv]
    change _ = (w.values).take s ++ _ ++ (w.values).drop _
    rw [hvals, ← hs]
    simp [List.take_append, List.drop_append, List.append_assoc]

/-- **C22, one of several occurrences.** If the array occurs several times and one replacement is asked for, the first occurrence gets the new values and
every other value (and the header) is left alone. -/
theorem C22_first (hfmt : Formats fmt) {w : Writer} {array new : List K} (hlen : array.length = new.length) (hne : array ≠ []) {s : Nat}
    (h : OccursFirstAt fmt w.singleLine array s) :
    ∃ w', replaceArray fmt w array new 1 = (w', .ok ()) ∧ w'.header = w.header ∧
      w.values = w.values.take s ++ array.map fmt ++ w.values.drop (s + array.length) ∧
      w'.values = w.values.take s ++ new.map fmt ++ w.values.drop (s + array.length) := by
  obtain ⟨u, v, htext, hu, hv, hs, hfirst⟩ := h
  obtain ⟨h1, h2, h3⟩ := replaceArray_at hfmt (n := 1) (by decide) hlen hne htext hfirst
  rw [show (if (1 : Int) < 0 then w.singleLine.length + 1 else (1 : Int).toNat) - 1 = 0 from rfl, replaceGo_zero] at h3
  have hvals : w.values = split u ++ array.map fmt ++ split v := by
    unfold Writer.values; rw [htext, split_whole hfmt hu hv]
  refine ⟨_, Prod.ext rfl h1, h2, ?_, ?_⟩
  · rw [hvals, ← hs]
    simp [List.take_append, List.drop_append, List.append_assoc]
  · unfold Writer.values
    rw [h3, split_whole hfmt hu hv]
    change _ = (w.values).take s ++ _ ++ (w.values).drop _
    rw [hvals, ← hs]
    simp [List.take_append, List.drop_append, List.append_assoc]

/-- The first two values of the example occur exactly once. -/
theorem demo_occurs : OccursOnceAt fmtE demo.singleLine [1, 2] 0 := by
  refine ⟨[], " -1.00000000000E+00 4 ".toList, by decide +kernel, Or.inl rfl, Or.inr ⟨' ', rfl, rfl⟩, rfl, ?_⟩
  intro u' v' h
  have hp : ∀ i, i < demo.singleLine.length + 1 → i ≠ 0 →
      ¬ formatMcnp fmtE [1, 2] <+: demo.singleLine.drop i := by decide +kernel
  have hl := congrArg List.length h
  simp only [List.length_append] at hl
  by_contra hne
  have := hp u'.length (by omega) (fun h0 => hne (List.length_eq_zero_iff.mp h0))
  apply this
  rw [h, List.append_assoc, List.drop_left]
  exact List.prefix_append _ _

/-- **C23 (partial).** With `max_replaces = 1` exactly the first textual occurrence is replaced; all text before and
after it is kept. Missing: that the first occurrence is the intended one (see C22 for a sufficient condition). -/
theorem C23_first_occurrence_partial (hfmt : Formats fmt) {w w' : Writer} {array new : List K} (hne : array ≠ [])
    (h : replaceArray fmt w array new 1 = (w', .ok ())) :
    ∃ u v, w.singleLine = u ++ formatMcnp fmt array ++ v ∧ w'.singleLine = u ++ formatMcnp fmt new ++ v ∧
      ∀ u' v', w.singleLine = u' ++ formatMcnp fmt array ++ v' → u.length ≤ u'.length := by
  have hlen : array.length = new.length := by
    by_contra hl
    unfold replaceArray at h
    rw [if_pos hl] at h
    simp at h
  have hin : formatMcnp fmt array <:+: w.singleLine := by
    by_contra hin
    obtain ⟨e, he⟩ := ((C24_failure (fmt := fmt) w array new 1).1).mpr (Or.inr hin)
    rw [h] at he
    cases he
  -- the shortest prefix before an occurrence
  have hex : ∃ m, ∃ u v, u.length = m ∧ w.singleLine = u ++ formatMcnp fmt array ++ v := by
    obtain ⟨u, v, huv⟩ := hin
    exact ⟨_, u, v, rfl, huv.symm⟩
  classical
  obtain ⟨u, v, hu, huv⟩ := Nat.find_spec hex
  have hmin : ∀ u' v', w.singleLine = u' ++ formatMcnp fmt array ++ v' → u.length ≤ u'.length := by
    intro u' v' h'
    rw [hu]
    exact Nat.find_min' hex ⟨u', v', rfl, h'⟩
  obtain ⟨_, _, h3⟩ := replaceArray_at hfmt (n := 1) (by norm_num) hlen hne huv hmin
  rw [h] at h3
  refine ⟨u, v, huv, ?_, hmin⟩
  rw [h3]
  simp [replaceGo_zero]

/-- **C23 is false**: (1) an array that only occurs inside a negative value is found there, and the value changes
sign-and-all although it is not in the array; (2) when two reactions hold the same array, replacing the one of the
second reaction changes the first and leaves the second as it was. -/
theorem C23_other_data_refuted :
    (∃ (w : Writer) (array new : List ℚ), w.values = [fmtE (-1), fmtE 2] ∧ array = [1] ∧ new = [5] ∧
      (∀ x ∈ array, fmtE x ∉ w.values) ∧ (replaceArray fmtE w array new 1).2 = .ok () ∧
      (replaceArray fmtE w array new 1).1.values = [fmtE (-5), fmtE 2]) ∧
    (∃ (w : Writer) (mt16 mt17 new17 : List ℚ), w.values = mt16.map fmtE ++ mt17.map fmtE ∧ mt17 = [1, 2] ∧
      new17 = [3, 4] ∧ (replaceArray fmtE w mt17 new17 1).2 = .ok () ∧
      (replaceArray fmtE w mt17 new17 1).1.values = new17.map fmtE ++ mt17.map fmtE ∧
      (replaceArray fmtE w mt17 new17 1).1.values ≠ mt16.map fmtE ++ new17.map fmtE) := by
  refine ⟨⟨⟨join [fmtE (-1), fmtE 2], []⟩, [1], [5], ?_⟩,
    ⟨⟨join (([1, 2] ++ [1, 2]).map fmtE), []⟩, [1, 2], [1, 2], [3, 4], ?_⟩⟩ <;> decide +kernel

/-! ### C20, C21 -/

theorem linesGo_line (body : List Char) (h : '\n' ∉ body) (rest : List Char) : ∀ cur,
    linesGo cur (body ++ '\n' :: rest) = (cur ++ body ++ ['\n']) :: linesGo [] rest := by
  induction body with
  | nil => intro cur; simp [linesGo]
  | cons c body ih =>
    intro cur
    have hc : c ≠ '\n' := by rintro rfl; exact h (List.mem_cons_self ..)
    simp only [List.cons_append, linesGo, hc, if_false]
    rw [ih (fun hm => h (List.mem_cons_of_mem _ hm))]
    simp

theorem flatten_linesGo (s : List Char) : ∀ cur, (linesGo cur s).flatten = cur ++ s := by
  induction s with
  | nil => intro cur; by_cases h : cur = [] <;> simp [linesGo, flush, h]
  | cons c s ih =>
    intro cur
    simp only [linesGo]
    split_ifs with hc
    · subst hc; simp [ih]
    · rw [ih]; simp

theorem readlines_header {hs : List (List Char)} (h : ∀ l ∈ hs, ∃ body, l = body ++ ['\n'] ∧ '\n' ∉ body)
    (rest : List Char) : readlines (hs.flatten ++ rest) = hs ++ readlines rest := by
  induction hs with
  | nil => rfl
  | cons l hs ih =>
    obtain ⟨body, rfl, hb⟩ := h l (List.mem_cons_self ..)
    unfold readlines at ih ⊢
    rw [List.flatten_cons, List.append_assoc, List.append_assoc, List.singleton_append, linesGo_line body hb]
    rw [ih (fun l hl => h l (List.mem_cons_of_mem _ hl))]
    simp

theorem headerCount_append {hs : List (List Char)} {n : Nat} (h : headerCount hs = .ok n) (rest : List (List Char)) :
    headerCount (hs ++ rest) = .ok n := by
  cases hs with
  | nil => simp [headerCount] at h
  | cons l hs => exact h

/-- Reading a file with proper header lines: the header, and the values of the rest. -/
theorem read_spec {hs : List (List Char)} (hh : HeaderOk hs) (body : List Char) :
    ∃ w, read (hs.flatten ++ body) = .ok w ∧ w.header = hs ∧ w.values = split body := by
  unfold read
  simp only [readlines_header hh.1, headerCount_append hh.2]
  refine ⟨_, rfl, ?_, ?_⟩
  · simp
  · unfold Writer.values
    simp only [List.drop_left]
    rw [split_squeeze]
    have : ((readlines body).flatMap fun l => l.map fun c => if c = '\n' then ' ' else c) =
        body.map fun c => if c = '\n' then ' ' else c := by
      rw [List.flatMap, ← List.map_flatten]
      unfold readlines
      rw [flatten_linesGo, List.nil_append]
    rw [this]
    exact splitGo_newlines body []

theorem split_field {v : List Char} (hv : Word v) (hl : v.length ≤ 19) (s t : List Char) :
    split (s ++ field v ++ t) = split s ++ split (v ++ t) := by
  unfold field rjust
  obtain ⟨k, hk⟩ : ∃ k, 20 - v.length = k + 1 := ⟨19 - v.length, by omega⟩
  rw [hk, List.replicate_succ, List.append_assoc, List.cons_append, List.cons_append,
    split_space _ isSpace_blank, List.append_assoc, split_replicate]

/-- The written values, in any state of the counter. -/
theorem split_writeValues (vs : List (List Char)) (hw : ∀ v ∈ vs, Word v) (hl : ∀ v ∈ vs, v.length ≤ 19) :
    ∀ n, split ((writeValues n vs).1) = vs ∧ (vs = [] ∨ ∀ t, StartsClean t → StartsClean ((writeValues n vs).1 ++ t)) := by
  induction vs with
  | nil => intro n; exact ⟨rfl, Or.inl rfl⟩
  | cons v vs ih =>
    intro n
    have hv := hw v (List.mem_cons_self ..)
    have hvl := hl v (List.mem_cons_self ..)
    have hstart : ∀ t, StartsClean (rjust 20 v ++ t) := by
      intro t
      right
      refine ⟨' ', ?_, isSpace_blank⟩
      unfold rjust
      obtain ⟨k, hk⟩ : ∃ k, 20 - v.length = k + 1 := ⟨19 - v.length, by omega⟩
      rw [hk, List.replicate_succ]
      rfl
    have ih' := ih (fun v hv => hw v (List.mem_cons_of_mem _ hv)) (fun v hv => hl v (List.mem_cons_of_mem _ hv))
    by_cases hn : n + 1 = 4
    · simp only [writeValues, hn, if_true]
      refine ⟨?_, Or.inr (fun t _ => by rw [List.append_assoc]; exact hstart _)⟩
      have := split_field hv hvl [] ('\n' :: (writeValues 0 vs).1)
      simp only [List.nil_append] at this
      unfold field at this
      rw [this, split_space _ isSpace_newline, split_word hv, (ih' 0).1]
      rfl
    · simp only [writeValues, hn, if_false]
      refine ⟨?_, Or.inr (fun t _ => by rw [List.append_assoc]; exact hstart _)⟩
      have := split_field hv hvl [] ((writeValues (n + 1) vs).1)
      simp only [List.nil_append] at this
      unfold field at this
      rw [this]
      have hclean : StartsClean ((writeValues (n + 1) vs).1) := by
        rcases (ih' (n + 1)).2 with h | h
        · subst h; exact Or.inl rfl
        · have := h [] (Or.inl rfl)
          rwa [List.append_nil] at this
      rw [split_starts_clean hclean, split_word hv, (ih' (n + 1)).1]
      rfl

theorem writeValues_layout : ∀ (vs : List (List Char)),
    (writeValues 0 vs).1 ++ (if (writeValues 0 vs).2 < 4 then ['\n'] else []) =
      layout vs ++ (if vs.length % 4 = 0 then ['\n'] else []) := by
  intro vs
  induction vs using layout.induct with
  | case1 a b c d vs ih =>
    have e : writeValues 0 (a :: b :: c :: d :: vs) =
        (rjust 20 a ++ (rjust 20 b ++ (rjust 20 c ++ (rjust 20 d ++ '\n' :: (writeValues 0 vs).1))),
          (writeValues 0 vs).2) := by
      simp [writeValues]
    rw [e]
    have : (a :: b :: c :: d :: vs).length % 4 = vs.length % 4 := by simp only [List.length_cons]; omega
    simp only [this]
    simp only [layout, field, List.append_assoc, List.cons_append, ih]
  | case2 => rfl
  | case3 vs h4 h0 =>
    match vs, h4, h0 with
    | [], _, h0 => exact absurd rfl h0
    | [a], _, _ => simp [writeValues, layout, field]
    | [a, b], _, _ => simp [writeValues, layout, field]
    | [a, b, c], _, _ => simp [writeValues, layout, field]
    | a :: b :: c :: d :: vs, h4, _ => exact absurd rfl (h4 a b c d vs)

/-- **C20.** The written text: the header, then the values in the standard layout, four on every full line (and one
empty line more if the last line is full). -/
theorem C20_written_text (w : Writer) :
    write w = w.header.flatten ++ layout w.values ++ (if w.values.length % 4 = 0 then ['\n'] else []) := by
  unfold write
  simp only
  rw [List.append_assoc, List.append_assoc]
  congr 1
  exact writeValues_layout _

/-- **C20 (partial).** The header and the values read back from the written file are those held in memory, provided
no value is wider than 19 characters. `format(., '.11E')` never is (`fmtE_word`). -/
theorem C20_round_trip_partial {w : Writer} (hh : HeaderOk w.header) (hl : ∀ v ∈ w.values, v.length ≤ 19) :
    ∃ w', read (write w) = .ok w' ∧ w'.header = w.header ∧ w'.values = w.values := by
  unfold write
  simp only
  rw [List.append_assoc]
  obtain ⟨w', h1, h2, h3⟩ := read_spec hh ((writeValues 0 (split w.singleLine)).1 ++
    (if (writeValues 0 (split w.singleLine)).2 < 4 then ['\n'] else []))
  refine ⟨w', h1, h2, ?_⟩
  rw [h3]
  have hs := (split_writeValues (split w.singleLine) (split_words _) hl 0).1
  have hclean : StartsClean (if (writeValues 0 (split w.singleLine)).2 < 4 then ['\n'] else []) := by
    split_ifs
    · exact Or.inr ⟨'\n', rfl, isSpace_newline⟩
    · exact Or.inl rfl
  rw [split_starts_clean hclean, hs]
  have : split (if (writeValues 0 (split w.singleLine)).2 < 4 then ['\n'] else []) = [] := by
    split_ifs <;> rfl
  rw [this, List.append_nil]
  rfl

theorem demo_header : HeaderOk demo.header := by
  refine ⟨?_, rfl⟩
  intro l hl
  have := List.eq_of_mem_replicate hl
  subst this
  exact ⟨"92235.71c".toList, rfl, by decide⟩

example : HeaderOk demo.header ∧ ∀ v ∈ demo.values, v.length ≤ 19 := ⟨demo_header, by decide +kernel⟩

/-- **C20 is false for wide values**: two values of 20 characters become one. -/
theorem C20_wide_values_refuted : ∃ w w' : Writer, HeaderOk w.header ∧ w.values.length = 2 ∧
    read (write w) = .ok w' ∧ w'.values.length = 1 := by
  refine ⟨{ singleLine := join (List.replicate 2 "-1.00000000000000E+00".toList),
            header := List.replicate 12 "92235.71c\n".toList }, _, demo_header, by decide +kernel, rfl,
    by decide +kernel⟩

/-- **C21 (partial).** A file in the standard layout whose last line is not full is reproduced byte for byte. -/
theorem C21_identity_partial {hs vs : List (List Char)} (hh : HeaderOk hs) (hw : ∀ v ∈ vs, Word v)
    (hl : ∀ v ∈ vs, v.length ≤ 19) (h4 : vs.length % 4 ≠ 0) :
    ∃ w, read (hs.flatten ++ layout vs) = .ok w ∧ write w = hs.flatten ++ layout vs := by
  obtain ⟨w, h1, h2, h3⟩ := read_spec hh (layout vs)
  refine ⟨w, h1, ?_⟩
  have hv : split (layout vs) = vs := by
    have := writeValues_layout vs
    rw [if_neg h4, List.append_nil] at this
    rw [← this]
    have hs := (split_writeValues vs hw hl 0).1
    have hclean : StartsClean (if (writeValues 0 vs).2 < 4 then ['\n'] else []) := by
      split_ifs
      · exact Or.inr ⟨'\n', rfl, isSpace_newline⟩
      · exact Or.inl rfl
    rw [split_starts_clean hclean, hs]
    have : split (if (writeValues 0 vs).2 < 4 then ['\n'] else []) = [] := by
      split_ifs <;> rfl
    rw [this, List.append_nil]
  rw [C20_written_text, h2, h3, hv, if_neg h4, List.append_nil]

/-- **C21 is false** for every file in the standard layout whose last line is full: an empty line is appended. -/
theorem C21_identity_refuted {hs vs : List (List Char)} (hh : HeaderOk hs) (hw : ∀ v ∈ vs, Word v)
    (hl : ∀ v ∈ vs, v.length ≤ 19) (h4 : vs.length % 4 = 0) :
    ∃ w, read (hs.flatten ++ layout vs) = .ok w ∧ write w = hs.flatten ++ layout vs ++ ['\n'] := by
  obtain ⟨w, h1, h2, h3⟩ := read_spec hh (layout vs)
  refine ⟨w, h1, ?_⟩
  have hv : split (layout vs) = vs := by
    have h := writeValues_layout vs
    rw [if_pos h4] at h
    have hs := (split_writeValues vs hw hl 0).1
    have hclean : StartsClean (if (writeValues 0 vs).2 < 4 then ['\n'] else []) := by
      split_ifs
      · exact Or.inr ⟨'\n', rfl, isSpace_newline⟩
      · exact Or.inl rfl
    have e1 : split (layout vs ++ ['\n']) = split (layout vs) := by
      have e := split_space (layout vs) isSpace_newline []
      have hn : split ([] : List Char) = [] := rfl
      rw [hn, List.append_nil] at e
      exact e
    rw [← e1, ← h, split_starts_clean hclean, hs]
    have : split (if (writeValues 0 vs).2 < 4 then ['\n'] else []) = [] := by
      split_ifs <;> rfl
    rw [this, List.append_nil]
  rw [C20_written_text, h2, h3, hv, if_pos h4]

example : HeaderOk demo.header ∧ demo.values.length % 4 = 0 ∧ ["1".toList, "2".toList].length % 4 ≠ 0 :=
  ⟨demo_header, by decide +kernel, by decide⟩

/-! ### C25 -/

/-- The job covers the value at position `i`. -/
def Covers (js : Job K × Nat) (i : Nat) : Prop := js.2 ≤ i ∧ i < js.2 + js.1.base.length

theorem runGroup_placed (hfmt : Formats fmt) (jobs : List (Job K × Nat)) : ∀ (w : Writer),
    (∀ js ∈ jobs, js.1.base.length = js.1.new.length ∧ js.1.base ≠ [] ∧ 0 < js.1.maxReplaces) →
    jobs.Pairwise (fun a b => ∀ i, ¬ (Covers a i ∧ Covers b i)) →
    (∀ pre js post, jobs = pre ++ js :: post →
      FoundAt fmt (runGroup fmt w (pre.map Prod.fst)).1.singleLine js.1 js.2) →
    (runGroup fmt w (jobs.map Prod.fst)).2 = .ok () ∧
    (runGroup fmt w (jobs.map Prod.fst)).1.header = w.header ∧
    (runGroup fmt w (jobs.map Prod.fst)).1.values.length = w.values.length ∧
    (∀ js ∈ jobs, ∀ i, Covers js i →
      (runGroup fmt w (jobs.map Prod.fst)).1.values[i]? = (js.1.new.map fmt)[i - js.2]?) ∧
    (∀ i, (∀ js ∈ jobs, ¬ Covers js i) → (runGroup fmt w (jobs.map Prod.fst)).1.values[i]? = w.values[i]?) := by
  induction jobs with
  | nil => intro w _ _ _; simp [runGroup]
  | cons a jobs ih =>
    intro w hok hdis hocc
    rw [List.pairwise_cons] at hdis
    obtain ⟨hlen, hne, hn⟩ := hok a (List.mem_cons_self ..)
    have hocc0 := hocc [] a jobs rfl
    simp only [List.map_nil, runGroup] at hocc0
    obtain ⟨w1, hrep, hhead, hold, hnew⟩ : ∃ w', replaceArray fmt w a.1.base a.1.new a.1.maxReplaces = (w', .ok ()) ∧ w'.header = w.header ∧
        w.values = w.values.take a.2 ++ a.1.base.map fmt ++ w.values.drop (a.2 + a.1.base.length) ∧
        w'.values = w.values.take a.2 ++ a.1.new.map fmt ++ w.values.drop (a.2 + a.1.base.length) := by
      rcases hocc0 with h | ⟨h1, h⟩
      · exact C22_replaces_in_place hfmt hn.ne' hlen hne h
      · rw [h1]
        exact C22_first hfmt hlen hne h
    have hstep : ∀ l, runGroup fmt w (a.1 :: l) = runGroup fmt w1 l := by
      intro l
      simp only [runGroup, hrep]
    have hlen0 : a.2 + a.1.base.length ≤ w.values.length := by
      have := congrArg List.length hold
      simp only [List.length_append, List.length_take, List.length_map, List.length_drop] at this
      have hpos : 0 < a.1.base.length := List.length_pos_of_ne_nil hne
      omega
    have htake : (w.values.take a.2).length = a.2 := by rw [List.length_take]; omega
    have hl1 : w1.values.length = w.values.length := by
      rw [hnew]
      simp only [List.length_append, htake, List.length_map, List.length_drop]
      omega
    have hin : ∀ i, Covers a i → w1.values[i]? = (a.1.new.map fmt)[i - a.2]? := by
      rintro i ⟨h1, h2⟩
      rw [hnew, List.append_assoc, List.getElem?_append_right (by rw [htake]; exact h1), htake,
        List.getElem?_append_left (by rw [List.length_map]; omega)]
    have hout : ∀ i, ¬ Covers a i → w1.values[i]? = w.values[i]? := by
      intro i hi
      by_cases h1 : i < a.2
      · rw [hnew, List.append_assoc, List.getElem?_append_left (by rw [htake]; exact h1), List.getElem?_take_of_lt h1]
      · have h2 : a.2 + a.1.base.length ≤ i := by
          by_contra h; exact hi ⟨by omega, by omega⟩
        rw [hnew, List.getElem?_append_right (by simp only [List.length_append, htake, List.length_map]; omega)]
        simp only [List.length_append, htake, List.length_map, List.getElem?_drop]
        congr 1
        omega
    have hrest := ih w1 (fun js hjs => hok js (List.mem_cons_of_mem _ hjs)) hdis.2 (by
      intro pre js post heq
      have := hocc (a :: pre) js post (by rw [heq]; rfl)
      rwa [List.map_cons, hstep] at this)
    rw [List.map_cons, hstep]
    obtain ⟨r1, r2, r3, r4, r5⟩ := hrest
    refine ⟨r1, r2.trans hhead, r3.trans hl1, ?_, ?_⟩
    · intro js hjs i hi
      rcases List.mem_cons.mp hjs with rfl | hjs
      · rw [r5 i (fun js' hjs' hc => hdis.1 js' hjs' i ⟨hi, hc⟩)]
        exact hin i hi
      · exact r4 js hjs i hi
    · intro i hi
      rw [r5 i (fun js hjs => hi js (List.mem_cons_of_mem _ hjs))]
      exact hout i (hi a (List.mem_cons_self ..))

theorem runGroups_flatten (gs : List (List (Job K))) : ∀ w, (runGroup fmt w gs.flatten).2 = .ok () →
    runGroups fmt w gs = runGroup fmt w gs.flatten := by
  have happ : ∀ (a b : List (Job K)) w, runGroup fmt w (a ++ b) =
      match runGroup fmt w a with
      | (w, .error e) => (w, .error e)
      | (w, .ok ()) => runGroup fmt w b := by
    intro a
    induction a with
    | nil => intro b w; rfl
    | cons j a ih =>
      intro b w
      simp only [List.cons_append, runGroup]
      cases hr : replaceArray fmt w j.base j.new j.maxReplaces with
      | mk w1 o =>
        cases o with
        | error e => rfl
        | ok u => exact ih b w1
  induction gs with
  | nil => intro w _; rfl
  | cons g gs ih =>
    intro w h
    rw [List.flatten_cons, happ] at h ⊢
    simp only [runGroups]
    cases hg : runGroup fmt w g with
    | mk w1 o =>
      rw [hg] at h
      cases o with
      | error e => simp at h
      | ok u => exact ih w1 h

/-- **C25.** Let the writing loop of a sample consist of the replacements `groups` (one group per adjusted MT), `jobs`
the same replacements with the places (numbers of values before them) where their arrays stand, pairwise disjoint. If
at its turn every array occurs in the data section only at its place, as whole values (or first at its place, if one occurrence
is to be replaced, `FoundAt`), then the written file read
back holds the new values at the places and the original values at every other place. -/
theorem C25_sampled_file (hfmt : Formats fmt) (hwide : ∀ x, (fmt x).length ≤ 19) {w : Writer} (hh : HeaderOk w.header)
    (hl : ∀ v ∈ w.values, v.length ≤ 19) (groups : List (List (Job K))) (jobs : List (Job K × Nat))
    (hjobs : jobs.map Prod.fst = groups.flatten)
    (hok : ∀ js ∈ jobs, js.1.base.length = js.1.new.length ∧ js.1.base ≠ [] ∧ 0 < js.1.maxReplaces)
    (hdis : jobs.Pairwise (fun a b => ∀ i, ¬ (Covers a i ∧ Covers b i)))
    (hocc : ∀ pre js post, jobs = pre ++ js :: post →
      FoundAt fmt (runGroup fmt w (pre.map Prod.fst)).1.singleLine js.1 js.2) :
    (runGroups fmt w groups).2 = .ok () ∧
    ∃ w', read (write (runGroups fmt w groups).1) = .ok w' ∧ w'.header = w.header ∧
      w'.values.length = w.values.length ∧
      (∀ js ∈ jobs, ∀ i, Covers js i → w'.values[i]? = (js.1.new.map fmt)[i - js.2]?) ∧
      (∀ i, (∀ js ∈ jobs, ¬ Covers js i) → w'.values[i]? = w.values[i]?) := by
  obtain ⟨h1, h2, h3, h4, h5⟩ := runGroup_placed hfmt jobs w hok hdis hocc
  rw [hjobs] at h1 h2 h3 h4 h5
  have heq := runGroups_flatten (fmt := fmt) groups w h1
  rw [heq]
  refine ⟨h1, ?_⟩
  have hwid : ∀ v ∈ (runGroup fmt w groups.flatten).1.values, v.length ≤ 19 := by
    intro v hv
    obtain ⟨i, hi⟩ := List.mem_iff_getElem?.mp hv
    by_cases hc : ∃ js ∈ jobs, Covers js i
    · obtain ⟨js, hjs, hc⟩ := hc
      rw [h4 js hjs i hc] at hi
      have := List.mem_of_getElem? hi
      obtain ⟨x, _, rfl⟩ := List.mem_map.mp this
      exact hwide x
    · push Not at hc
      rw [h5 i hc] at hi
      exact hl v (List.mem_of_getElem? hi)
  obtain ⟨w', g1, g2, g3⟩ := C20_round_trip_partial (w := (runGroup fmt w groups.flatten).1)
    (by rw [h2]; exact hh) hwid
  refine ⟨w', g1, g2.trans h2, by rw [g3, h3], ?_, ?_⟩
  · intro js hjs i hi; rw [g3]; exact h4 js hjs i hi
  · intro i hi; rw [g3]; exact h5 i hi

/-- One replacement on the example meets the hypotheses, and the loop does replace. -/
example : (runGroups fmtE demo [[⟨[1, 2], [3, 4], 1⟩]]).1.values =
      [fmtE 3, fmtE 4, fmtE (-1), "4".toList] ∧
    ∃ w', read (write (runGroups fmtE demo [[⟨[1, 2], [3, 4], 1⟩]]).1) = .ok w' ∧
      w'.values[1]? = some (fmtE 4) := by
  refine ⟨by decide +kernel, ?_⟩
  obtain ⟨_, w', h1, _, _, h4, _⟩ := C25_sampled_file (w := demo) fmtE_formats (fun x => (fmtE_word x).2) demo_header
    (by decide +kernel) [[⟨[1, 2], [3, 4], 1⟩]] [(⟨[1, 2], [3, 4], 1⟩, 0)] rfl (by simp) (by simp)
    (by
      intro pre js post h
      cases pre with
      | nil => simp only [List.nil_append, List.cons.injEq] at h; obtain ⟨rfl, rfl⟩ := h; exact .inl demo_occurs
      | cons a pre => simp at h)
  exact ⟨w', h1, h4 _ (List.mem_cons_self ..) 1 (by simp [Covers])⟩

/-- A file on which the same two values stand twice, as the equal spectra of two incident energies do. -/
def twice : Writer := { demo with singleLine := join ([1, 2, 1, 2].map fmtE) }

theorem twice_found (pre : List (Job ℚ × Nat)) (js : Job ℚ × Nat) (post : List (Job ℚ × Nat))
    (h : [((⟨[1, 2], [3, 4], 1⟩ : Job ℚ), 0), (⟨[1, 2], [5, 6], 1⟩, 2)] = pre ++ js :: post) :
    FoundAt fmtE (runGroup fmtE twice (pre.map Prod.fst)).1.singleLine js.1 js.2 := by
  match pre, h with
  | [], h =>
    simp only [List.nil_append, List.cons.injEq] at h
    obtain ⟨rfl, -⟩ := h
    exact .inr ⟨rfl, [], _, (by decide +kernel : twice.singleLine = [] ++ formatMcnp fmtE [1, 2] ++ ' ' :: formatMcnp fmtE [1, 2]), Or.inl rfl,
      Or.inr ⟨' ', rfl, rfl⟩, rfl, fun _ _ _ => Nat.zero_le _⟩
  | [a], h =>
    simp only [List.cons_append, List.nil_append, List.cons.injEq] at h
    obtain ⟨rfl, rfl, -⟩ := h
    have hp : ∀ i, i < (formatMcnp fmtE [3, 4] ++ [' ']).length → ¬ formatMcnp fmtE [1, 2] <+:
        (runGroup fmtE twice [⟨[1, 2], [3, 4], 1⟩]).1.singleLine.drop i := by decide +kernel
    refine .inr ⟨rfl, formatMcnp fmtE [3, 4] ++ [' '], [], by decide +kernel, Or.inr ⟨' ', by decide +kernel, rfl⟩, Or.inl rfl, by decide +kernel, ?_⟩
    intro u' v' hu
    by_contra hlt
    refine hp u'.length (not_le.mp hlt) ?_
    rw [List.map_singleton] at hu
    rw [hu, List.append_assoc, List.drop_left]
    exact List.prefix_append _ _
  | a :: b :: pre, h =>
    have := congrArg List.length h
    simp at this

-- Two replacements of the same values reach the two places in turn.
example : ∃ w', read (write (runGroups fmtE twice [[⟨[1, 2], [3, 4], 1⟩, ⟨[1, 2], [5, 6], 1⟩]]).1) = .ok w' ∧
    w'.values[1]? = some (fmtE 4) ∧ w'.values[3]? = some (fmtE 6) := by
  obtain ⟨_, w', h1, _, _, h4, _⟩ := C25_sampled_file (w := twice) fmtE_formats (fun x => (fmtE_word x).2) demo_header
    (by decide +kernel) [[⟨[1, 2], [3, 4], 1⟩, ⟨[1, 2], [5, 6], 1⟩]] [(⟨[1, 2], [3, 4], 1⟩, 0), (⟨[1, 2], [5, 6], 1⟩, 2)] rfl (by simp)
    (by simp [Covers]; omega) twice_found
  exact ⟨w', h1, h4 _ (List.mem_cons_self ..) 1 (by simp [Covers]), h4 _ (List.mem_cons_of_mem _ (List.mem_cons_self ..)) 3 (by simp [Covers])⟩

end ASAPy.WriteAce
