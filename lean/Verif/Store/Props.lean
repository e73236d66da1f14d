import Verif.Components.Props
import Verif.Store.Model
import Verif.Boxer.Props
import Verif.CovCorr.Props
import Mathlib.Tactic.IntervalCases

/-! # C50-C52 and C65-C67: the covariance store -/

namespace ASAPy.Store
open ASAPy.Dec

/-! ### Keys -/

theorem splitSlash_ne_nil (s : List Char) : splitSlash s ≠ [] := by
  cases s with
  | nil => simp [splitSlash]
  | cons c s =>
    simp only [splitSlash]
    split_ifs
    · simp
    · split <;> simp

theorem splitSlash_word (w : List Char) (h : '/' ∉ w) : splitSlash w = [w] := by
  induction w with
  | nil => rfl
  | cons c w ih =>
    have h1 : ¬ c = '/' := fun e => h (by simp [e])
    have h2 : '/' ∉ w := fun e => h (by simp [e])
    simp only [splitSlash, if_neg h1, ih h2]

theorem splitSlash_append (w s : List Char) (h : '/' ∉ w) : splitSlash (w ++ '/' :: s) = w :: splitSlash s := by
  induction w with
  | nil => simp [splitSlash]
  | cons c w ih =>
    have h1 : ¬ c = '/' := fun e => h (by simp [e])
    have h2 : '/' ∉ w := fun e => h (by simp [e])
    simp only [List.cons_append, splitSlash, if_neg h1, ih h2]

theorem slash_natStr (n : Nat) : '/' ∉ natStr n := by
  intro h
  have := natStr_digits n '/' h
  exact absurd this (by decide)

theorem slash_text (k : Kind) : '/' ∉ k.text := by cases k <;> decide

theorem norm_key (a b c d : Nat) (k : Kind) : norm (key a b c d k) = '/' :: key a b c d k := by
  unfold norm
  rw [if_neg]
  intro h
  have hne := natStr_ne_nil a
  unfold key at h
  cases hs : natStr a with
  | nil => exact hne hs
  | cons x xs =>
    rw [hs] at h
    simp only [List.cons_append, List.head?_cons, Option.some.injEq] at h
    exact slash_natStr a (by rw [hs, h]; simp)

theorem splitSlash_key (a b c d : Nat) (k : Kind) :
    splitSlash (norm (key a b c d k)) = [[], natStr a, natStr b, natStr c, natStr d, k.text] := by
  rw [norm_key]
  have h0 : ∀ s, splitSlash ('/' :: s) = [] :: splitSlash s := fun s => by simp [splitSlash]
  unfold key
  simp only [List.append_assoc, List.cons_append]
  rw [h0, splitSlash_append _ _ (slash_natStr a), splitSlash_append _ _ (slash_natStr b), splitSlash_append _ _ (slash_natStr c),
    splitSlash_append _ _ (slash_natStr d), splitSlash_word _ (slash_text k)]

theorem text_injective {k k' : Kind} (h : k.text = k'.text) : k = k' := by
  cases k <;> cases k' <;> first | rfl | exact absurd h (by decide)

/-- **C51, no collisions.** -/
theorem C51_keys_differ {a b c d a' b' c' d' : Nat} {k k' : Kind} (h : norm (key a b c d k) = norm (key a' b' c' d' k')) :
    (a, b, c, d, k) = (a', b', c', d', k') := by
  have := congrArg splitSlash h
  rw [splitSlash_key, splitSlash_key] at this
  simp only [List.cons.injEq, and_true, true_and] at this
  obtain ⟨h1, h2, h3, h4, h5⟩ := this
  rw [natStr_injective h1, natStr_injective h2, natStr_injective h3, natStr_injective h4, text_injective h5]

/-- An addressed frame, as handed to one of the two `add_..._to_store` functions. -/
structure Item where
  mat1 : Nat
  mt1 : Nat
  mat2 : Nat
  mt2 : Nat
  kind : Kind
  frame : Frame

/-- A history of successful puts. -/
def run (s : Store) (items : List Item) : Store :=
  items.foldl (fun s i => put s (key i.mat1 i.mt1 i.mat2 i.mt2 i.kind) i.frame) s

theorem get_put (s : Store) (k k' : List Char) (f : Frame) :
    Dict.get? (put s k f) k' = if norm k = k' then some f else Dict.get? s k' := by
  unfold put
  split_ifs with h
  · rw [← h, Dict.get?_set_same]
  · exact Dict.get?_set_ne s f (fun e => h e.symm)

/-- The frame put last at an address, by specification: the last item with that address. -/
def lastAt (items : List Item) (a b c d : Nat) (k : Kind) : Option Frame :=
  (items.reverse.find? fun i => decide (i.mat1 = a ∧ i.mt1 = b ∧ i.mat2 = c ∧ i.mt2 = d ∧ i.kind = k)).map Item.frame

/-- **C51, what is loaded.** After any history, an address holds what was put there last; addresses never written keep what they
had. -/
theorem C51_history (s : Store) (items : List Item) (a b c d : Nat) (k : Kind) :
    fetch (run s items) (key a b c d k) =
      match lastAt items a b c d k with
      | some f => .ok f
      | none => fetch s (key a b c d k) := by
  unfold fetch
  have main : Dict.get? (run s items) (norm (key a b c d k)) =
      (lastAt items a b c d k).or (Dict.get? s (norm (key a b c d k))) := by
    induction items using List.reverseRecOn with
    | nil => simp [run, lastAt]
    | append_singleton items i ih =>
      have hrun : run s (items ++ [i]) = put (run s items) (key i.mat1 i.mt1 i.mat2 i.mt2 i.kind) i.frame := by
        simp [run]
      rw [hrun, get_put]
      by_cases h : i.mat1 = a ∧ i.mt1 = b ∧ i.mat2 = c ∧ i.mt2 = d ∧ i.kind = k
      · have hl : lastAt (items ++ [i]) a b c d k = some i.frame := by simp [lastAt, h]
        obtain ⟨rfl, rfl, rfl, rfl, rfl⟩ := h
        rw [if_pos rfl, hl]
        rfl
      · have hl : lastAt (items ++ [i]) a b c d k = lastAt items a b c d k := by
          simp only [lastAt, List.reverse_append, List.reverse_singleton, List.singleton_append, List.find?_cons, h,
            decide_false]
        rw [if_neg, ih, hl]
        intro e
        have := C51_keys_differ e
        simp only [Prod.mk.injEq] at this
        exact h this
  rw [main]
  cases lastAt items a b c d k <;> rfl

theorem keys_run (items : List Item) (p : List Char) : p ∈ Dict.keys (run [] items) ↔
    ∃ i ∈ items, p = norm (key i.mat1 i.mt1 i.mat2 i.mt2 i.kind) := by
  induction items using List.reverseRecOn with
  | nil => simp [run, Dict.keys]
  | append_singleton items i ih =>
    have hrun : run [] (items ++ [i]) = put (run [] items) (key i.mat1 i.mt1 i.mat2 i.mt2 i.kind) i.frame := by
      simp [run]
    rw [hrun, put, Dict.mem_keys_set, ih]
    simp only [List.mem_append, List.mem_singleton]
    constructor
    · rintro (h | h)
      · first
          | exact ⟨i, Or.inr rfl, h⟩
          | (obtain ⟨j, hj, e⟩ := h; exact ⟨j, Or.inl hj, e⟩)
      · first
          | exact ⟨i, Or.inr rfl, h⟩
          | (obtain ⟨j, hj, e⟩ := h; exact ⟨j, Or.inl hj, e⟩)
    · rintro ⟨j, hj | rfl, e⟩
      · first
          | exact Or.inr ⟨j, hj, e⟩
          | exact Or.inl ⟨j, hj, e⟩
      · first
          | exact Or.inl e
          | exact Or.inr e

/-- **C51, the MT numbers.** The MTs read from the paths of a store are exactly those of what was put into it. -/
theorem C51_mts (items : List Item) (mt : Nat) : mt ∈ storeMts (run [] items) ↔ ∃ i ∈ items, i.mt1 = mt := by
  unfold storeMts
  rw [List.mem_filterMap]
  constructor
  · rintro ⟨p, hp, e⟩
    obtain ⟨i, hi, rfl⟩ := (keys_run items p).mp hp
    rw [splitSlash_key] at e
    simp only [List.getElem?_cons_succ, List.getElem?_cons_zero, Option.map_some, Option.some.injEq, natVal_natStr] at e
    exact ⟨i, hi, e⟩
  · rintro ⟨i, hi, rfl⟩
    refine ⟨_, (keys_run items _).mpr ⟨i, hi, rfl⟩, ?_⟩
    rw [splitSlash_key]
    simp [natVal_natStr]

/-! ### C52 -/

theorem filter_labels (rows : List Row) : ∀ (k : Nat), rows.map Row.label = List.range' k rows.length →
    (∀ a : Nat, rows.filter (fun r => decide (a ≤ r.label)) = rows.drop (a - k)) ∧
    (∀ b : Int, rows.filter (fun r => decide ((r.label : Int) ≤ b)) = rows.take (b + 1 - k).toNat) := by
  induction rows with
  | nil => intro k _; simp
  | cons r rows ih =>
    intro k h
    simp only [List.map_cons, List.length_cons, List.range'_succ, List.cons.injEq] at h
    obtain ⟨h1, h2⟩ := h
    obtain ⟨i1, i2⟩ := ih (k + 1) h2
    constructor
    · intro a
      simp only [List.filter_cons, h1, decide_eq_true_eq]
      split_ifs with ha
      · rw [i1 a, show a - k = 0 by omega, show a - (k + 1) = 0 by omega]
        simp
      · rw [i1 a, show a - k = (a - (k + 1)) + 1 by omega]
        simp
    · intro b
      simp only [List.filter_cons, h1, decide_eq_true_eq]
      split_ifs with hb
      · rw [i2 b]
        obtain ⟨m, hm⟩ : ∃ m : Nat, b + 1 - (k : Int) = (m : Int) + 1 := ⟨(b - k).toNat, by omega⟩
        rw [show (b + 1 - (k : Int)).toNat = m + 1 by omega, show (b + 1 - ((k + 1 : Nat) : Int)).toNat = m by push_cast; omega]
        simp
      · rw [i2 b, show (b + 1 - (k : Int)).toNat = 0 by omega, show (b + 1 - ((k + 1 : Nat) : Int)).toNat = 0 by push_cast; omega]
        simp

/-- The labels of a frame with `n` groups, as created by `create_stddev_df`. -/
def Labelled (rows : List Row) : Prop := rows.map Row.label = List.range' 1 rows.length

theorem slices {rows : List Row} (h : Labelled rows) :
    locSlice rows 1 (some ((rows.length : Int) - 1)) = rows.dropLast ∧ locSlice rows 2 none = rows.tail := by
  have hf := filter_labels rows 1 h
  constructor
  · unfold locSlice
    have e : ∀ r : Row, r ∈ rows → (decide ((1 : Int) ≤ r.label) &&
        (match some ((rows.length : Int) - 1) with | some b => decide ((r.label : Int) ≤ b) | none => true)) =
        decide ((r.label : Int) ≤ (rows.length : Int) - 1) := by
      intro r hr
      have : r.label ∈ List.range' 1 rows.length := by rw [← h]; exact List.mem_map_of_mem hr
      have h1 : 1 ≤ r.label := (List.mem_range'_1.mp this).1
      have h2 : ((1 : Int) ≤ r.label) := by omega
      simp [h2]
    rw [List.filter_congr e, hf.2, List.dropLast_eq_take]
    congr 1
    omega
  · unfold locSlice
    have e : ∀ r : Row, r ∈ rows → (decide ((2 : Int) ≤ r.label) &&
        (match (none : Option Int) with | some b => decide ((r.label : Int) ≤ b) | none => true)) = decide (2 ≤ r.label) := by
      intro r _
      have : ((2 : Int) ≤ r.label) ↔ 2 ≤ r.label := by omega
      simp [this]
    rw [List.filter_congr e, hf.1]
    simp

theorem zip_all (l : List ℚ) : ((List.zip l.dropLast l.tail).all fun p => decide (p.2 < p.1)) = true ↔ l.Pairwise (· > ·) := by
  induction l with
  | nil => simp
  | cons a l ih =>
    cases l with
    | nil => simp
    | cons b l =>
      rw [List.dropLast_cons_of_ne_nil (by simp), List.tail_cons, List.zip_cons_cons, List.all_cons, Bool.and_eq_true]
      rw [List.tail_cons] at ih
      rw [ih]
      constructor
      · rintro ⟨h1, h2⟩
        refine List.pairwise_cons.mpr ⟨?_, h2⟩
        intro x hx
        have hab : b < a := by simpa using h1
        rcases List.mem_cons.mp hx with rfl | hx
        · exact hab
        · exact lt_trans (List.rel_of_pairwise_cons h2 hx) hab
      · intro h
        exact ⟨by simpa using List.rel_of_pairwise_cons h (List.mem_cons_self ..), (List.pairwise_cons.mp h).2⟩

theorem allGreater_eq (l : List ℚ) : allGreater l.dropLast l.tail = .ok (decide (l.Pairwise (· > ·))) := by
  unfold allGreater
  rw [if_pos (by simp)]
  congr 1
  by_cases h : l.Pairwise (· > ·)
  · rw [(zip_all l).mpr h]; simp [h]
  · rw [decide_eq_false h]
    by_contra hc
    rw [Bool.not_eq_false] at hc
    exact h ((zip_all l).mp hc)

/-- **C52.** A std_dev frame with the labels 1, 2, ..., n is accepted exactly when both bounds decrease from every group to every later
group; otherwise it raises and the store is unchanged. -/
theorem C52_accepted_iff (s : Store) {rows : List Row} (h : Labelled rows) (a b c d : Nat) :
    addStd s rows a b c d =
      if (rows.map Row.lo).Pairwise (· > ·) ∧ (rows.map Row.hi).Pairwise (· > ·) then
        (put s (key a b c d .stdDev) (.std rows), .ok ())
      else (s, .error .assertionError) := by
  have e : checkStd rows = if (rows.map Row.lo).Pairwise (· > ·) ∧ (rows.map Row.hi).Pairwise (· > ·) then .ok ()
      else .error .assertionError := by
    unfold checkStd
    rw [(slices h).1, (slices h).2, List.map_dropLast, List.map_tail, List.map_dropLast, List.map_tail, allGreater_eq, allGreater_eq]
    by_cases h1 : (rows.map Row.lo).Pairwise (· > ·)
    · by_cases h2 : (rows.map Row.hi).Pairwise (· > ·)
      · simp only [h1, h2, decide_true, and_self, if_true]
      · simp only [h1, h2, decide_true, decide_false, and_false, if_false]
    · simp only [h1, decide_false, false_and, if_false]
  unfold addStd
  rw [e]
  split_ifs with h1
  · simp only [h1, if_true]
  · simp only [h1, if_false]

/-- **C52.** A correlation frame is accepted exactly when its columns have the labels of its rows, in the same order; otherwise it raises and the store is unchanged. -/
theorem C52_corr_accepted_iff (s : Store) (f : Corr) (a b c d : Nat) :
    addCorr s f a b c d = if f.columns = f.index then (put s (key a b c d .corr) (.corr f), .ok ()) else (s, .error .assertionError) := by
  unfold addCorr checkCorr
  by_cases h : f.columns = f.index
  · rw [if_pos h, if_pos (by simp [h])]
  · rw [if_neg h, if_neg (by simp [h])]

-- Labels in another order.
example : (addCorr [] ⟨[1, 2], [2, 1], []⟩ 1 2 1 2).2 = .error .assertionError ∧ (addCorr [] ⟨[1, 2], [1, 2], []⟩ 1 2 1 2).2 = .ok () := by
  simp [C52_corr_accepted_iff]

/-- Two groups in decreasing order are accepted, in increasing order not. -/
def demoRow (l : Nat) (hi lo : ℚ) : Row := ⟨l, lo, hi, 1, 1, .fin 1, .fin 1, 1, 1⟩
example : Labelled [demoRow 1 20 10, demoRow 2 10 1] ∧ (checkStd [demoRow 1 20 10, demoRow 2 10 1] = .ok ()) ∧
    checkStd [demoRow 1 10 1, demoRow 2 20 10] = .error .assertionError := by
  refine ⟨rfl, ?_, ?_⟩ <;> decide +kernel

/-! ### C67: the stored std_dev frame -/

/-- **C67, one group.** The row stored for a group with relative deviation `rel` and cross section `xs`: the numbers read if the
cross section is not zero, the replacement values if it is. -/
theorem C67_row (l : Nat) (hi lo xs rel : ℚ) :
    repair (rawRow l hi lo xs (rel * xs)) =
      if xs = 0 then ⟨l, lo, hi, 0, 0, .fin (1 / 10 ^ 7), .fin (1 / 10 ^ 7), 1 / 10 ^ 7, 1 / 10 ^ 7⟩
      else ⟨l, lo, hi, xs, xs, .fin rel, .fin rel, rel * xs, rel * xs⟩ := by
  split_ifs with h
  · subst h
    simp [repair, rawRow, Flt.div, Flt.isNan]
  · have : rel * xs / xs = rel := by field_simp
    simp [repair, rawRow, Flt.div, h, Flt.isNan, this]

/-- **C67.** From a file with `n` cross sections, `n` relative deviations, an `n × n` matrix and `n+1` bounds, the frame stored has the
`n` labels in order; row `i` holds the bounds `i` and `i+1` as upper and lower bound, the cross section and the relative deviation of group
`i`, with the replacement values where the cross section is zero. No NaN or infinity is left. -/
theorem C67_frame (b x r : List ℚ) (m : List (List ℚ)) (hb : b.length = x.length + 1) (hr : r.length = x.length)
    (hm : m.length = x.length) :
    ∃ rows, stdFrame ⟨b, x, List.zipWith (· * ·) r x, m⟩ = .ok rows ∧ Labelled rows ∧ rows.length = x.length ∧
      ∀ i (hi : i < x.length), rows[i]? = some (
        if x[i] = 0 then ⟨i + 1, b[i + 1], b[i], 0, 0, .fin (1 / 10 ^ 7), .fin (1 / 10 ^ 7), 1 / 10 ^ 7, 1 / 10 ^ 7⟩
        else ⟨i + 1, b[i + 1], b[i], x[i], x[i], .fin r[i], .fin r[i], r[i] * x[i], r[i] * x[i]⟩) := by
  have hcond : b.dropLast.length = m.length ∧ b.tail.length = m.length ∧ x.length = m.length ∧
      (List.zipWith (· * ·) r x).length = m.length := by
    simp [hb, hm, hr]
  refine ⟨_, by simp only [stdFrame]; rw [if_pos hcond], ?_, by simp [hm], ?_⟩
  · have hlab : ∀ (l : Nat) (a b c d : ℚ), (repair (rawRow l a b c d)).label = l := by
      intro l a b c d
      unfold repair rawRow
      simp only
      split_ifs <;> rfl
    unfold Labelled
    rw [List.map_map, List.length_map, List.length_range]
    apply List.ext_getElem
    · simp
    · intro i h1 h2
      simp [hlab]
      omega
  · intro i hi
    have hi' : i < m.length := by omega
    rw [List.getElem?_map, List.getElem?_range hi', Option.map_some]
    congr 1
    have e1 : b.dropLast[i]?.getD 0 = b[i] := by
      rw [List.getElem?_eq_getElem (by simp; omega)]; simp
    have e2 : b.tail[i]?.getD 0 = b[i + 1] := by
      rw [List.getElem?_eq_getElem (by simp; omega)]; simp
    have e3 : x[i]?.getD 0 = x[i] := by
      rw [List.getElem?_eq_getElem hi]; rfl
    have e4 : (List.zipWith (· * ·) r x)[i]?.getD 0 = r[i] * x[i] := by
      rw [List.getElem?_eq_getElem (by simp; omega)]; simp
    rw [e1, e2, e3, e4, C67_row]

/-! ### C50 and C65 -/

theorem addCorr_corrFrame (s : Store) (cov : List (List ℚ)) (a b c d : Nat) :
    addCorr s (corrFrame cov) a b c d = (put s (key a b c d .corr) (.corr (corrFrame cov)), .ok ()) := by
  unfold addCorr
  rw [if_pos]
  simp [checkCorr, corrFrame]

/-- Does the store hold something at this address? -/
def Holds (s : Store) (a b c d : Nat) (k : Kind) : Prop := ∃ f, fetch s (key a b c d k) = .ok f

theorem holds_iff (s : Store) (a b c d : Nat) (k : Kind) :
    Holds s a b c d k ↔ (Dict.get? s (norm (key a b c d k))).isSome := by
  unfold Holds fetch
  cases Dict.get? s (norm (key a b c d k)) <;> simp

theorem key_ne_kind (a b c d : Nat) : norm (key a b c d .corr) ≠ norm (key a b c d .stdDev) := by
  intro h
  have := C51_keys_differ h
  simp at this

/-- **C50, what holds.** If a readable file has `n` groups and `n+1` decreasing bounds, then both frames of the same address are
stored; all other addresses keep what they had. -/
theorem C50_complete_partial (s : Store) (zaid mt : Nat) (file : List (List Char)) {d : Boxer.Data} {rows : List Row}
    (h : Boxer.readFile file = .ok d) (hstd : stdFrame d = .ok rows)
    (hdec : (rows.map Row.lo).Pairwise (· > ·) ∧ (rows.map Row.hi).Pairwise (· > ·)) :
    (process s zaid mt file).2 = .ok () ∧
    fetch (final s zaid mt file) (key zaid mt zaid mt .corr) = .ok (.corr (corrFrame d.cov)) ∧
    fetch (final s zaid mt file) (key zaid mt zaid mt .stdDev) = .ok (.std rows) ∧
    ∀ a b c e k, (a, b, c, e) ≠ (zaid, mt, zaid, mt) → fetch (final s zaid mt file) (key a b c e k) = fetch s (key a b c e k) := by
  have hlab : Labelled rows := by
    unfold stdFrame at hstd
    simp only at hstd
    split_ifs at hstd with hc
    have hlab : ∀ (l : Nat) (a b c d : ℚ), (repair (rawRow l a b c d)).label = l := by
      intro l a b c d
      unfold repair rawRow
      simp only
      split_ifs <;> rfl
    rw [← Except.ok.inj hstd]
    unfold Labelled
    rw [List.map_map, List.length_map, List.length_range]
    apply List.ext_getElem
    · simp
    · intro i h1 h2
      simp [hlab]
      omega
  have hp : process s zaid mt file = ([s, put s (key zaid mt zaid mt .corr) (.corr (corrFrame d.cov)),
      put (put s (key zaid mt zaid mt .corr) (.corr (corrFrame d.cov))) (key zaid mt zaid mt .stdDev) (.std rows)], .ok ()) := by
    unfold process
    simp only [h, addCorr_corrFrame, hstd, C52_accepted_iff _ hlab, hdec, and_self, if_true]
  have hf : final s zaid mt file = put (put s (key zaid mt zaid mt .corr) (.corr (corrFrame d.cov)))
      (key zaid mt zaid mt .stdDev) (.std rows) := by
    unfold final
    rw [hp]
    rfl
  refine ⟨by rw [hp], ?_, ?_, ?_⟩
  · rw [hf, fetch, get_put, if_neg (key_ne_kind zaid mt zaid mt).symm, get_put, if_pos rfl]
  · rw [hf, fetch, get_put, if_pos rfl]
  · intro a b c e k hne
    rw [hf, fetch, get_put, if_neg, get_put, if_neg, fetch]
    · intro he
      have := C51_keys_differ he
      simp only [Prod.mk.injEq] at this
      obtain ⟨rfl, rfl, rfl, rfl, _⟩ := this
      exact hne rfl
    · intro he
      have := C51_keys_differ he
      simp only [Prod.mk.injEq] at this
      obtain ⟨rfl, rfl, rfl, rfl, _⟩ := this
      exact hne rfl

/-- **C50, the only exposure.** Whatever the file, every state the store goes through is the initial store, the initial store with
the correlation of this address replaced, or the latter with the std_dev frame replaced too. Other addresses are never touched. -/
theorem C50_states_partial (s : Store) (zaid mt : Nat) (file : List (List Char)) :
    ∀ t ∈ (process s zaid mt file).1, t = s ∨ ∃ c, t = put s (key zaid mt zaid mt .corr) (.corr c) ∨
      ∃ rows, t = put (put s (key zaid mt zaid mt .corr) (.corr c)) (key zaid mt zaid mt .stdDev) (.std rows) := by
  unfold process
  cases hr : Boxer.readFile file with
  | error e =>
    intro t ht
    left
    cases e <;> simpa using ht
  | ok d =>
    simp only [addCorr_corrFrame]
    cases hs : stdFrame d with
    | error e =>
      intro t ht
      simp only [List.mem_cons, List.not_mem_nil, or_false] at ht
      rcases ht with rfl | rfl
      · exact Or.inl rfl
      · exact Or.inr ⟨_, Or.inl rfl⟩
    | ok rows =>
      simp only [addStd]
      cases hc : checkStd rows with
      | error e =>
        intro t ht
        simp only [List.mem_cons, List.not_mem_nil, or_false] at ht
        rcases ht with rfl | rfl | rfl
        · exact Or.inl rfl
        · exact Or.inr ⟨_, Or.inl rfl⟩
        · exact Or.inr ⟨_, Or.inl rfl⟩
      | ok u =>
        intro t ht
        simp only [List.mem_cons, List.not_mem_nil, or_false] at ht
        rcases ht with rfl | rfl | rfl
        · exact Or.inl rfl
        · exact Or.inr ⟨_, Or.inl rfl⟩
        · exact Or.inr ⟨_, Or.inr ⟨rows, rfl⟩⟩

/-- A BOXER file with increasing bounds. -/
def demoFile : List (List Char) := ["0 u235\n", " 1.000E-05 1.000E+00 1.000E+07\n", "1 u235\n", " 2.000E+00 4.000E+00\n",
    "2 u235\n", " 1.000E-01 2.000E-01\n", "3 u235\n", " 1.000E+00-5.000E-01\n", "-5.000E-01 1.000E+00\n"].map String.toList

/-- **C50 fails.** Groups in increasing order are rejected only after the correlation has been stored: the store holds a correlation
without standard deviations. -/
theorem C50_refuted (zaid mt : Nat) :
    (process [] zaid mt demoFile).2 = .error .assertionError ∧
    Holds (final [] zaid mt demoFile) zaid mt zaid mt .corr ∧ ¬ Holds (final [] zaid mt demoFile) zaid mt zaid mt .stdDev := by
  have hr : Boxer.readFile demoFile = .ok ⟨[1 / 100000, 1, 10000000], [2, 4], [1 / 5, 4 / 5], [[1, -1 / 2], [-1 / 2, 1]]⟩ := by
    decide +kernel
  obtain ⟨rows, hs⟩ : ∃ rows, stdFrame ⟨[1 / 100000, 1, 10000000], [2, 4], [1 / 5, 4 / 5], [[1, -1 / 2], [-1 / 2, 1]]⟩ = .ok rows ∧
      checkStd rows = .error .assertionError :=
    ⟨[⟨1, 1, 1 / 100000, 2, 2, .fin (1 / 10), .fin (1 / 10), 1 / 5, 1 / 5⟩,
      ⟨2, 10000000, 1, 4, 4, .fin (1 / 5), .fin (1 / 5), 4 / 5, 4 / 5⟩], by decide +kernel, by decide +kernel⟩
  have hp : process [] zaid mt demoFile = ([[], put [] (key zaid mt zaid mt .corr) (.corr (corrFrame [[1, -1 / 2], [-1 / 2, 1]])),
      put [] (key zaid mt zaid mt .corr) (.corr (corrFrame [[1, -1 / 2], [-1 / 2, 1]]))], .error .assertionError) := by
    unfold process
    simp only [hr, addCorr_corrFrame, hs.1, addStd, hs.2]
  have hf : final [] zaid mt demoFile = put [] (key zaid mt zaid mt .corr) (.corr (corrFrame [[1, -1 / 2], [-1 / 2, 1]])) := by
    unfold final
    rw [hp]
    rfl
  refine ⟨by rw [hp], ?_, ?_⟩
  · rw [holds_iff, hf, get_put, if_pos rfl]
    rfl
  · rw [holds_iff, hf, get_put, if_neg (key_ne_kind zaid mt zaid mt)]
    simp [Dict.get?]

/-- **C50 fails** also without any exception: a run that is stopped between its two puts leaves the correlation without standard
deviations. -/
theorem C50_crash_refuted (zaid mt : Nat) (file : List (List Char)) {d : Boxer.Data} (h : Boxer.readFile file = .ok d) :
    ∃ t ∈ (process [] zaid mt file).1, Holds t zaid mt zaid mt .corr ∧ ¬ Holds t zaid mt zaid mt .stdDev := by
  refine ⟨put [] (key zaid mt zaid mt .corr) (.corr (corrFrame d.cov)), ?_, ?_, ?_⟩
  · unfold process
    simp only [h, addCorr_corrFrame]
    cases stdFrame d with
    | error e => simp
    | ok rows =>
      simp only [addStd]
      cases checkStd rows <;> simp
  · rw [holds_iff, get_put, if_pos rfl]
    rfl
  · rw [holds_iff, get_put, if_neg (key_ne_kind zaid mt zaid mt)]
    simp [Dict.get?]

/-- **C65, what holds.** When the BOXER output has the error marker, the store is unchanged; the MT is skipped if it has a name. -/
theorem C65_skipped_partial (s : Store) (zaid mt : Nat) (file : List (List Char)) (h : ∃ l ∈ file, "***ERROR IN BOXR***".toList <:+: l)
    (hn : named mt = true) : process s zaid mt file = ([s], .ok ()) := by
  have hr : Boxer.readFile file = .error .runtimeError := by
    unfold Boxer.readFile
    rw [Boxer.C48_rejected, if_pos h]
  unfold process
  simp only [hr, hn, if_true]

/-- **C65 fails** for MTs without a name, among them the lumped reactions 851 to 870 of ENDF covariance files: the message about
skipping them raises KeyError. -/
theorem C65_lumped_refuted (s : Store) (zaid mt : Nat) (hmt : 851 ≤ mt ∧ mt ≤ 870) (file : List (List Char))
    (h : ∃ l ∈ file, "***ERROR IN BOXR***".toList <:+: l) : process s zaid mt file = ([s], .error .keyError) := by
  have hr : Boxer.readFile file = .error .runtimeError := by
    unfold Boxer.readFile
    rw [Boxer.C48_rejected, if_pos h]
  have hn : named mt = false := by
    obtain ⟨h1, h2⟩ := hmt
    interval_cases mt <;> rfl
  unfold process
  simp only [hr, hn, Bool.false_eq_true, if_false]

/-- **C65.** Reactions with a name: nubar, the spectrum, and every reaction that is a sum of others or that is part of such a sum. -/
theorem C65_named_partial (mt : Nat) (h : mt = 452 ∨ mt = 1018 ∨ ∃ s c, c ∈ Comp.parts s ∧ (mt = s ∨ mt = c)) : named mt = true := by
  have hall : ∀ e ∈ Comp.sumRules, named e.1 = true ∧ ∀ c ∈ e.2, named c = true := by decide +kernel
  rcases h with rfl | rfl | ⟨s, c, hc, rfl | rfl⟩
  · decide
  · decide
  · exact (hall _ (Comp.parts_mem hc)).1
  · exact (hall _ (Comp.parts_mem hc)).2 _ hc

example : named 452 = true ∧ named 1018 = true ∧ named 102 = true := by decide

/-! ### C66: which MTs are sampled by default -/

/-- A store made by processing files: for every address both frames. -/
def both (zaid mt : Nat) (f g : Frame) : List Item := [⟨zaid, mt, zaid, mt, .corr, f⟩, ⟨zaid, mt, zaid, mt, .stdDev, g⟩]

/-- **C66, what holds.** In a store for a single nuclide, the MTs sampled by default are exactly those that can be loaded. -/
theorem C66_single_nuclide_partial (zaid : Nat) (entries : List (Nat × Frame × Frame)) (mt : Nat) :
    mt ∈ storeMts (run [] (entries.flatMap fun e => both zaid e.1 e.2.1 e.2.2)) ↔
    ∃ p, loadFrames (run [] (entries.flatMap fun e => both zaid e.1 e.2.1 e.2.2)) zaid mt = .ok p := by
  obtain ⟨items, hitems⟩ : ∃ items, items = entries.flatMap fun e => both zaid e.1 e.2.1 e.2.2 := ⟨_, rfl⟩
  rw [← hitems, C51_mts]
  have hold : ∀ k, Holds (run [] items) zaid mt zaid mt k ↔ ∃ i ∈ items, i.mt1 = mt := by
    intro k
    rw [holds_iff, Dict.get?_isSome, keys_run]
    constructor
    · rintro ⟨i, hi, e⟩
      have := C51_keys_differ e
      simp only [Prod.mk.injEq] at this
      exact ⟨i, hi, this.2.1.symm⟩
    · rintro ⟨i, hi, rfl⟩
      rw [hitems, List.mem_flatMap] at hi
      obtain ⟨e, he, hb⟩ := hi
      simp only [both, List.mem_cons, List.not_mem_nil, or_false] at hb
      cases k with
      | stdDev =>
        refine ⟨⟨zaid, e.1, zaid, e.1, .stdDev, e.2.2⟩, ?_, ?_⟩
        · rw [hitems, List.mem_flatMap]; exact ⟨e, he, by simp [both]⟩
        · rcases hb with rfl | rfl <;> rfl
      | corr =>
        refine ⟨⟨zaid, e.1, zaid, e.1, .corr, e.2.1⟩, ?_, ?_⟩
        · rw [hitems, List.mem_flatMap]; exact ⟨e, he, by simp [both]⟩
        · rcases hb with rfl | rfl <;> rfl
  constructor
  · intro h
    obtain ⟨f, hf⟩ := (hold .stdDev).mpr h
    obtain ⟨g, hg⟩ := (hold .corr).mpr h
    exact ⟨(f, g), by simp only [loadFrames, hf, hg]⟩
  · rintro ⟨p, hp⟩
    unfold loadFrames at hp
    cases hf : fetch (run [] items) (key zaid mt zaid mt .stdDev) with
    | error e => rw [hf] at hp; cases hp
    | ok f => exact (hold .stdDev).mp ⟨f, hf⟩

/-- **C66 fails** for a store with two nuclides: MTs of the other nuclide are taken too, and loading them raises KeyError. -/
theorem C66_two_nuclides_refuted (f g : Frame) :
    18 ∈ storeMts (run [] (both 92235 18 f g ++ both 1001 102 f g)) ∧
    loadFrames (run [] (both 92235 18 f g ++ both 1001 102 f g)) 1001 18 = .error .keyError := by
  constructor
  · rw [C51_mts]
    exact ⟨⟨92235, 18, 92235, 18, .corr, f⟩, by simp [both], rfl⟩
  · unfold loadFrames
    rw [C51_history]
    simp [both, lastAt, fetch, Dict.get?]

/-! ### From the BOXER file to the store -/

theorem pairwise_dropLast {l : List ℚ} (h : l.Pairwise (· > ·)) : l.dropLast.Pairwise (· > ·) := h.sublist (List.dropLast_sublist l)
theorem pairwise_tail {l : List ℚ} (h : l.Pairwise (· > ·)) : l.tail.Pairwise (· > ·) := h.sublist (List.tail_sublist l)

/-- **C50 and C67, end to end.** A file with the four blocks as boxer2mat writes them, with `n` cross sections and deviations, an `n × n` matrix
and `n+1` decreasing bounds, is processed without error; afterwards the store holds both frames; the std_dev frame holds in row `i` the
numbers of the file. -/
theorem C67_written_file (s : Store) (zaid mt : Nat) (pre b x r c : List (List Boxer.Fld)) (h0 h1 h2 h3 : List Char)
    (hh : Boxer.isStart h0 = true ∧ Boxer.isStart h1 = true ∧ Boxer.isStart h2 = true ∧ Boxer.isStart h3 = true)
    (he : ∀ h ∈ [h0, h1, h2, h3], ¬ "***ERROR IN BOXR***".toList <:+: h)
    (B X R : List Boxer.Fld) (eB : b.flatten = B) (eX : x.flatten = X) (eR : r.flatten = R)
    (hb : B.length = X.length + 1) (hr : R.length = X.length)
    (hc : c.flatten.length = X.length * X.length)
    (hdec : (B.map Boxer.Fld.value).Pairwise (· > ·)) (file : List (List Char))
    (hfile : file = pre.map Boxer.lineOf ++ h0 :: b.map Boxer.lineOf ++ h1 :: x.map Boxer.lineOf ++ h2 :: r.map Boxer.lineOf ++ h3 :: c.map Boxer.lineOf) :
    (process s zaid mt file).2 = .ok () ∧
    (∃ cf, fetch (final s zaid mt file) (key zaid mt zaid mt .corr) = .ok (.corr cf)) ∧
    ∃ rows, fetch (final s zaid mt file) (key zaid mt zaid mt .stdDev) = .ok (.std rows) ∧
      rows.length = X.length ∧
      ∀ i (hi : i < X.length), rows[i]? = some (
        if X[i].value = 0 then
          ⟨i + 1, B[i + 1].value, B[i].value, 0, 0, .fin (1 / 10 ^ 7), .fin (1 / 10 ^ 7), 1 / 10 ^ 7, 1 / 10 ^ 7⟩
        else ⟨i + 1, B[i + 1].value, B[i].value, X[i].value, X[i].value, .fin R[i].value,
          .fin R[i].value, R[i].value * X[i].value, R[i].value * X[i].value⟩) := by
  subst hfile
  obtain ⟨d, hd, e1, e2, e3, e4, -⟩ := Boxer.C48_written_file pre b x r c h0 h1 h2 h3 hh he (by rw [eR, eX]; exact hr)
    (by rw [eX]; exact hc)
  rw [eB] at e1
  rw [eX] at e2 e4
  rw [eR, eX] at e3
  have hz : d.stdDev = List.zipWith (· * ·) (R.map Boxer.Fld.value) (X.map Boxer.Fld.value) := by
    rw [e3, List.zipWith_map]
  have hd' : d = ⟨B.map Boxer.Fld.value, X.map Boxer.Fld.value,
      List.zipWith (· * ·) (R.map Boxer.Fld.value) (X.map Boxer.Fld.value), d.cov⟩ := by
    obtain ⟨d1, d2, d3, d4⟩ := d
    simp only at e1 e2 hz
    rw [e1, e2, hz]
  obtain ⟨rows, hrows, -, hlen, hget⟩ := C67_frame (B.map Boxer.Fld.value) (X.map Boxer.Fld.value)
    (R.map Boxer.Fld.value) d.cov (by simpa using hb) (by simpa using hr) (by simpa using e4)
  rw [← hd'] at hrows
  simp only [List.length_map] at hlen hget
  have hlo : rows.map Row.lo = (B.map Boxer.Fld.value).tail := by
    apply List.ext_getElem?
    intro i
    by_cases hi : i < X.length
    · rw [List.getElem?_map, hget i hi, List.getElem?_eq_getElem (by simp; omega)]
      simp only [Option.map_some, Option.some.injEq]
      split_ifs <;> simp
    · rw [List.getElem?_eq_none (by simp; omega), List.getElem?_eq_none (by simp; omega)]
  have hhi : rows.map Row.hi = (B.map Boxer.Fld.value).dropLast := by
    apply List.ext_getElem?
    intro i
    by_cases hi : i < X.length
    · rw [List.getElem?_map, hget i hi, List.getElem?_eq_getElem (by simp; omega)]
      simp only [Option.map_some, Option.some.injEq]
      split_ifs <;> simp
    · rw [List.getElem?_eq_none (by simp; omega), List.getElem?_eq_none (by simp; omega)]
  obtain ⟨p1, p2, p3, -⟩ := C50_complete_partial s zaid mt _ hd hrows
    ⟨by rw [hlo]; exact pairwise_tail hdec, by rw [hhi]; exact pairwise_dropLast hdec⟩
  refine ⟨p1, ⟨_, p2⟩, rows, p3, hlen, ?_⟩
  intro i hi
  rw [hget i hi]
  simp

end ASAPy.Store
