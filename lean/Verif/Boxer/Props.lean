import Verif.Boxer.Model
import Verif.Boxer.Spec
import Mathlib.Tactic.FieldSimp
import Mathlib.Tactic.Ring
import Mathlib.Tactic.NormNum
import Mathlib.Tactic.Linarith

/-! # C47 and C48: reading the output of boxer2mat -/

namespace ASAPy.Boxer
open ASAPy.Str ASAPy.Dec

/-! ### Fields -/

theorem splitGo_flatten (s : List Char) : ∀ cur, (∀ c ∈ cur, isSpace c = false) →
    (splitGo cur s).flatten = cur ++ s.filter fun c => !isSpace c := by
  have hf : ∀ cur, (flush cur).flatten = cur := by
    intro cur
    unfold flush
    split_ifs with h <;> simp [h]
  induction s with
  | nil => intro cur _; simp [splitGo, hf]
  | cons c s ih =>
    intro cur hcur
    simp only [splitGo]
    by_cases hc : isSpace c = true
    · rw [if_pos hc, List.flatten_append, hf, ih [] (by simp)]
      simp [hc]
    · rw [if_neg hc, ih]
      · simp only [Bool.not_eq_true] at hc
        simp [hc]
      · intro d hd
        rcases List.mem_append.mp hd with hd | hd
        · exact hcur d hd
        · simp only [List.mem_singleton] at hd
          subst hd
          simpa using hc

theorem split_flatten (s : List Char) : (split s).flatten = s.filter fun c => !isSpace c := by
  simpa [split] using splitGo_flatten s [] (by simp)

/-- A field: blanks replaced by zeros. -/
def zeroFill (f : List Char) : List Char := f.map fun c => if c = ' ' then '0' else c

theorem cleanLine_eq (fs : List (List Char)) (h : ∀ f ∈ fs, ∀ c ∈ f, c = ' ' ∨ isSpace c = false) :
    cleanLine (fs.flatten ++ ['\n']) = (fs.map zeroFill).flatten := by
  unfold cleanLine
  rw [split_flatten, List.map_append, List.filter_append]
  have h1 : List.filter (fun c => !isSpace c) (List.map (fun c => if c = ' ' then '0' else c) ['\n']) = [] := by decide
  rw [h1, List.append_nil, List.filter_eq_self.mpr]
  · induction fs with
    | nil => rfl
    | cons f fs ih =>
      rw [List.flatten_cons, List.map_append, List.map_cons, List.flatten_cons, ih fun g hg => h g (List.mem_cons_of_mem _ hg)]
      rfl
  · intro c hc
    obtain ⟨d, hd, rfl⟩ := List.mem_map.mp hc
    obtain ⟨f, hf, hdf⟩ := List.mem_flatten.mp hd
    split_ifs with hb
    · decide
    · rcases h f hf d hdf with h' | h'
      · exact absurd h' hb
      · simp [h']

theorem piecesGo_flatten (ps : List (List Char)) (h : ∀ p ∈ ps, p.length = 10) : ∀ n, ps.length ≤ n →
    piecesGo n ps.flatten = ps := by
  induction ps with
  | nil => intro n _; cases n <;> simp [piecesGo]
  | cons p ps ih =>
    intro n hn
    have hp := h p (List.mem_cons_self ..)
    cases n with
    | zero => simp at hn
    | succ n =>
      have hne : (p :: ps).flatten ≠ [] := by
        intro h0
        have := congrArg List.length h0
        simp [hp] at this
      rw [piecesGo, if_neg hne, List.flatten_cons]
      rw [List.take_left' hp, List.drop_left' hp, ih (fun q hq => h q (List.mem_cons_of_mem _ hq)) n (by simpa using hn)]

theorem pieces_flatten (ps : List (List Char)) (h : ∀ p ∈ ps, p.length = 10) : pieces ps.flatten = ps := by
  refine piecesGo_flatten ps h _ ?_
  induction ps with
  | nil => simp
  | cons p ps ih =>
    have hp := h p (List.mem_cons_self ..)
    have := ih fun q hq => h q (List.mem_cons_of_mem _ hq)
    simp only [List.flatten_cons, List.length_append, List.length_cons, hp]
    omega

/-- **C47, fields.** Lines of any numbers of 10-character fields (containing no whitespace but blanks), fields touching or not,
are cut into exactly those fields in order, blanks being read as zeros. -/
theorem C47_fields (lines : List (List (List Char)))
    (h : ∀ l ∈ lines, ∀ f ∈ l, f.length = 10 ∧ ∀ c ∈ f, c = ' ' ∨ isSpace c = false) :
    pieces ((lines.map fun l => l.flatten ++ ['\n']).flatMap cleanLine) = lines.flatten.map zeroFill := by
  have e : (lines.map fun l => l.flatten ++ ['\n']).flatMap cleanLine = (lines.flatten.map zeroFill).flatten := by
    induction lines with
    | nil => rfl
    | cons l lines ih =>
      rw [List.map_cons, List.flatMap_cons, ih fun m hm => h m (List.mem_cons_of_mem _ hm),
        cleanLine_eq l fun f hf => (h l (List.mem_cons_self ..) f hf).2]
      simp
  rw [e, pieces_flatten]
  intro p hp
  obtain ⟨f, hf, rfl⟩ := List.mem_map.mp hp
  obtain ⟨l, hl, hfl⟩ := List.mem_flatten.mp hf
  simp [zeroFill, (h l hl f hfl).1]

/-! ### Values -/

theorem digitVal_digitChar (d : Nat) : digitVal (digitChar d) = d % 10 := by
  have h := (digitChar_spec (d % 10) (Nat.mod_lt _ (by norm_num))).2
  have : digitChar (d % 10) = digitChar d := by simp [digitChar]
  rw [← this, h]

theorem isDigit_digitChar (d : Nat) : isDigit (digitChar d) = true := by
  have h := (digitChar_spec (d % 10) (Nat.mod_lt _ (by norm_num))).1
  have : digitChar (d % 10) = digitChar d := by simp [digitChar]
  rw [← this, h]

theorem digitChar_ne {d : Nat} {c : Char} (hc : isDigit c = false) : digitChar d ≠ c := by
  intro h
  have := isDigit_digitChar d
  rw [h, hc] at this
  cases this

theorem isDigit_dot : isDigit '.' = false := by decide
theorem isDigit_E : isDigit 'E' = false := by decide
theorem isDigit_minus : isDigit '-' = false := by decide
theorem isDigit_plus : isDigit '+' = false := by decide

theorem digits_cons {c : Char} {s : List Char} (h : isDigit c = true) : digits (c :: s) = (c :: (digits s).1, (digits s).2) := by
  simp [digits, List.span_eq_takeWhile_dropWhile, h]

theorem digits_stop {c : Char} {s : List Char} (h : isDigit c = false) : digits (c :: s) = ([], c :: s) := by
  simp [digits, List.span_eq_takeWhile_dropWhile, h]

theorem digits_nil : digits [] = ([], []) := rfl

/-- The unsigned part of a field. -/
theorem unsigned_field (lead : List Char) (hlead : ∀ c ∈ lead, c = '0') (m e : Nat) (hm : m < 10000) (he : e < 100) (ne : Bool) :
    unsignedPart (lead ++ [digitChar (m / 1000), '.', digitChar (m / 100), digitChar (m / 10), digitChar m, 'E',
      if ne then '-' else '+', digitChar (e / 10), digitChar e]) =
      some ((m : ℚ) / 1000 * (if ne then 1 / (10 : ℚ) ^ e else (10 : ℚ) ^ e), []) := by
  have hd0 : isDigit '0' = true := by decide
  have hlead' : ∀ t, digits (lead ++ t) = (lead ++ (digits t).1, (digits t).2) := by
    intro t
    induction lead with
    | nil => simp
    | cons c lead ih =>
      have hc := hlead c (List.mem_cons_self ..)
      subst hc
      rw [List.cons_append, digits_cons hd0, ih fun c hc => hlead c (List.mem_cons_of_mem _ hc)]
      rfl
  have hv : ∀ t, natVal (lead ++ t) = natVal t := by
    intro t
    unfold natVal
    rw [List.foldl_append]
    congr 1
    clear hlead'
    induction lead with
    | nil => rfl
    | cons c lead ih =>
      have hc := hlead c (List.mem_cons_self ..)
      subst hc
      have : digitVal '0' = 0 := by decide
      simp only [List.foldl_cons, this, Nat.mul_zero, Nat.add_zero]
      exact ih fun c hc => hlead c (List.mem_cons_of_mem _ hc)
  have hm4 : natVal [digitChar (m / 1000), digitChar (m / 100), digitChar (m / 10), digitChar m] = m := by
    simp only [natVal, List.foldl_cons, List.foldl_nil, digitVal_digitChar]
    omega
  have he2 : natVal [digitChar (e / 10), digitChar e] = e := by
    simp only [natVal, List.foldl_cons, List.foldl_nil, digitVal_digitChar]
    omega
  have hexp : expPart ['E', if ne then '-' else '+', digitChar (e / 10), digitChar e] =
      (if ne then -(e : Int) else (e : Int), []) := by
    have hdd : digits [digitChar (e / 10), digitChar e] = ([digitChar (e / 10), digitChar e], []) := by
      rw [digits_cons (isDigit_digitChar _), digits_cons (isDigit_digitChar _), digits_nil]
    cases ne
    · simp [expPart, hdd, he2]
    · simp [expPart, hdd, he2]
  unfold unsignedPart
  have h1 : digits (lead ++ [digitChar (m / 1000), '.', digitChar (m / 100), digitChar (m / 10), digitChar m, 'E',
      if ne then '-' else '+', digitChar (e / 10), digitChar e]) =
      (lead ++ [digitChar (m / 1000)], ['.', digitChar (m / 100), digitChar (m / 10), digitChar m, 'E',
      if ne then '-' else '+', digitChar (e / 10), digitChar e]) := by
    rw [hlead', digits_cons (isDigit_digitChar _), digits_stop isDigit_dot]
  have h2 : digits [digitChar (m / 100), digitChar (m / 10), digitChar m, 'E',
      if ne then '-' else '+', digitChar (e / 10), digitChar e] =
      ([digitChar (m / 100), digitChar (m / 10), digitChar m], ['E', if ne then '-' else '+', digitChar (e / 10), digitChar e]) := by
    rw [digits_cons (isDigit_digitChar _), digits_cons (isDigit_digitChar _), digits_cons (isDigit_digitChar _),
      digits_stop isDigit_E]
  simp only [h1, h2, hexp]
  rw [if_neg (by simp)]
  have h3 : natVal (lead ++ [digitChar (m / 1000)] ++ [digitChar (m / 100), digitChar (m / 10), digitChar m]) = m := by
    rw [List.append_assoc, hv]
    exact hm4
  rw [h3]
  simp only [List.length_cons, List.length_nil, Option.some.injEq, Prod.mk.injEq, and_true]
  have h10 : (10 : ℚ) ≠ 0 := by norm_num
  cases ne
  · simp only [Bool.false_eq_true, if_false]
    rw [zpow_sub₀ h10, zpow_natCast]
    norm_num
    ring
  · simp only [if_true]
    rw [zpow_sub₀ h10, zpow_neg, zpow_natCast]
    norm_num
    ring

theorem number_field (f : Fld) : number (zeroFill f.text) = some (f.value, []) := by
  obtain ⟨neg, ⟨m, hm⟩, ne, ⟨e, he⟩⟩ := f
  have hb : ∀ d, digitChar d ≠ ' ' := fun d => digitChar_ne (by decide)
  have hs : (if ne then '-' else '+') ≠ ' ' := by cases ne <;> decide
  have hz : zeroFill (Fld.text ⟨neg, ⟨m, hm⟩, ne, ⟨e, he⟩⟩) = (if neg then '-' else '0') ::
      [digitChar (m / 1000), '.', digitChar (m / 100), digitChar (m / 10), digitChar m, 'E',
      if ne then '-' else '+', digitChar (e / 10), digitChar e] := by
    cases neg <;> simp [zeroFill, Fld.text, hb, hs]
  rw [hz]
  cases neg with
  | true =>
    have := unsigned_field [] (by simp) m e hm he ne
    simp only [List.nil_append] at this
    simp only [if_true, number, this, Option.map_some, Fld.value]
    congr 2
    ring
  | false =>
    have := unsigned_field ['0'] (by simp) m e hm he ne
    simp only [List.singleton_append] at this
    have h0 : ∀ r, number ('0' :: r) = unsignedPart ('0' :: r) := fun r => by simp [number]
    simp only [Bool.false_eq_true, if_false]
    rw [h0, this]
    simp only [Fld.value, Bool.false_eq_true, if_false]
    congr 2
    ring

theorem fld_text (f : Fld) : f.text.length = 10 ∧ ∀ c ∈ f.text, c = ' ' ∨ isSpace c = false := by
  have hd : ∀ d, isSpace (digitChar d) = false := fun d => isDigit_noSpace (isDigit_digitChar d)
  obtain ⟨neg, m, ne, e⟩ := f
  refine ⟨rfl, ?_⟩
  unfold Fld.text
  simp only [List.forall_mem_cons]
  refine ⟨?_, Or.inr (hd _), Or.inr (by decide), Or.inr (hd _), Or.inr (hd _), Or.inr (hd _), Or.inr (by decide), ?_,
    Or.inr (hd _), Or.inr (hd _), by simp⟩
  · cases neg
    · left; rfl
    · right; exact (by decide : isSpace '-' = false)
  · cases ne
    · right; exact (by decide : isSpace '+' = false)
    · right; exact (by decide : isSpace '-' = false)

/-- **C47, what holds.** A block of numbers written in the format of boxer2mat, in lines of any lengths, is read as exactly those
numbers in order. -/
theorem C47_values_partial (lines : List (List Fld)) :
    linesToArray (lines.map lineOf) = (lines.flatten).map Fld.value := by
  have h := C47_fields (lines.map fun l => l.map Fld.text) (by
    intro l hl f hf
    obtain ⟨l', _, rfl⟩ := List.mem_map.mp hl
    obtain ⟨f', _, rfl⟩ := List.mem_map.mp hf
    exact fld_text f')
  have e : (lines.map fun l => l.map Fld.text).map (fun l => l.flatten ++ ['\n']) = lines.map lineOf := by
    rw [List.map_map]
    apply List.map_congr_left
    intro l _
    simp [lineOf, List.flatMap]
  unfold linesToArray
  rw [← e, h]
  have e2 : (lines.map fun l => l.map Fld.text).flatten = lines.flatten.map Fld.text := by simp
  rw [e2, List.map_map]
  generalize lines.flatten = fs
  induction fs with
  | nil => rfl
  | cons f fs ih =>
    simp only [List.map_cons, fromPieces, Function.comp, number_field f]
    rw [ih]

/-- **C47 fails** for fields with a three-digit exponent, which Fortran writes without the letter `E`: the reading stops there,
the exponent and all later values are lost. -/
theorem C47_wide_exponent_refuted :
    linesToArray [" 1.000-100 2.000E+00 3.000E+00\n".toList] = [1] := by decide +kernel

/-- Two lines, touching fields and all four sign combinations. -/
example : linesToArray (["-1.234E-01-5.000E+00 2.500E+01\n", " 1.000E-10\n"].map String.toList) =
    [-1234 / 10000, -5, 25, 1 / 10 ^ 10] := by decide +kernel

/-! ### C48 -/

theorem zipIdx_filter_append (l1 l2 : List (List Char)) (k : Nat) :
    (((l1 ++ l2).zipIdx k).filter fun p => isStart p.1).map (·.2) =
      ((l1.zipIdx k).filter fun p => isStart p.1).map (·.2) ++ ((l2.zipIdx (k + l1.length)).filter fun p => isStart p.1).map (·.2) := by
  rw [List.zipIdx_append, List.filter_append, List.map_append]

theorem zipIdx_none (l : List (List Char)) (h : ∀ x ∈ l, isStart x = false) (k : Nat) :
    ((l.zipIdx k).filter fun p => isStart p.1).map (·.2) = [] := by
  rw [List.map_eq_nil_iff, List.filter_eq_nil_iff]
  intro p hp
  rw [h p.1 (List.fst_mem_of_mem_zipIdx hp)]
  simp

/-- **C48.** The block starts are exactly the numbers of the lines whose first word is an integer, in increasing order. -/
theorem C48_starts (lines : List (List Char)) :
    (blockStarts lines).Pairwise (· < ·) ∧
    ∀ k, k ∈ blockStarts lines ↔ ∃ w ws, (lines[k]?).map split = some (w :: ws) ∧ isInt w = true := by
  constructor
  · unfold blockStarts
    have h : (lines.zipIdx.map (·.2)).Pairwise (· < ·) := by
      have : lines.zipIdx.map (·.2) = List.range' 0 lines.length := by
        simp [List.zipIdx_map_snd]
      rw [this]
      exact List.pairwise_lt_range'
    exact h.sublist (List.Sublist.map _ List.filter_sublist)
  · intro k
    unfold blockStarts
    rw [List.mem_map]
    constructor
    · rintro ⟨⟨l, j⟩, hp, rfl⟩
      obtain ⟨h1, h2⟩ := List.mem_filter.mp hp
      rw [List.mem_zipIdx_iff_getElem?] at h1
      simp only at h1 h2 ⊢
      unfold isStart at h2
      cases hs : split l with
      | nil => simp [hs] at h2
      | cons w ws =>
        simp only [hs] at h2
        exact ⟨w, ws, by simp [h1, hs], h2⟩
    · rintro ⟨w, ws, h1, h2⟩
      rw [Option.map_eq_some_iff] at h1
      obtain ⟨l, hl, hs⟩ := h1
      refine ⟨(l, k), List.mem_filter.mpr ⟨List.mem_zipIdx_iff_getElem?.mpr hl, ?_⟩, rfl⟩
      simp [isStart, hs, h2]

/-- **C48.** A file with the error marker is rejected; a file without any block is rejected; any other file is opened. -/
theorem C48_rejected (lines : List (List Char)) :
    openFile lines =
      if ∃ l ∈ lines, "***ERROR IN BOXR***".toList <:+: l then .error .runtimeError
      else if ∀ l ∈ lines, isStart l = false then .error .exception
      else .ok (blockStarts lines) := by
  change openFile lines = if ∃ l ∈ lines, marker <:+: l then .error .runtimeError
      else if ∀ l ∈ lines, isStart l = false then .error .exception
      else .ok (blockStarts lines)
  have h1 : lines.any (contains marker) = true ↔ ∃ l ∈ lines, marker <:+: l := by
    rw [List.any_eq_true]
    have : ∀ l, contains marker l = true ↔ marker <:+: l := by
      intro l
      unfold contains
      rw [Option.isSome_iff_ne_none, ne_eq, index_none_iff, not_not]
    simp only [this]
  have h2 : blockStarts lines = [] ↔ ∀ l ∈ lines, isStart l = false := by
    constructor
    · intro h l hl
      by_contra hc
      rw [Bool.not_eq_false] at hc
      obtain ⟨k, hk, rfl⟩ := List.mem_iff_getElem.mp hl
      have hm : (lines[k], k) ∈ lines.zipIdx := by
        rw [List.mem_zipIdx_iff_getElem?]; simp [hk]
      have : k ∈ blockStarts lines := by
        unfold blockStarts
        exact List.mem_map.mpr ⟨_, List.mem_filter.mpr ⟨hm, hc⟩, rfl⟩
      rw [h] at this
      cases this
    · intro h
      exact zipIdx_none lines h 0
  unfold openFile
  by_cases c1 : ∃ l ∈ lines, marker <:+: l
  · rw [if_pos (h1.mpr c1), if_pos c1]
  · rw [if_neg (fun h => c1 (h1.mp h)), if_neg c1]
    by_cases c2 : ∀ l ∈ lines, isStart l = false
    · rw [if_pos (h2.mpr c2), if_pos c2]
    · rw [if_neg (fun h => c2 (h2.mp h)), if_neg c2]

theorem slice_mid {α : Type*} (a b c : List α) (i j : Nat) (hi : i = a.length) (hj : j = a.length + b.length) :
    slice (a ++ b ++ c) i j = b := by
  subst hi hj
  unfold slice
  rw [List.take_append_of_le_length (by simp), List.take_of_length_le (by simp)]
  simp

/-- **C48.** In a file made of four blocks (each a header line starting with an integer followed by data lines not starting with
an integer, in front of them other lines), the four arrays are read from exactly the data lines of the four blocks: bounds, cross sections, relative
deviations (multiplied by the cross sections) and the matrix, row by row. -/
theorem C48_blocks (pre d0 d1 d2 d3 : List (List Char)) (h0 h1 h2 h3 : List Char)
    (hh : isStart h0 = true ∧ isStart h1 = true ∧ isStart h2 = true ∧ isStart h3 = true)
    (hr : (linesToArray d2).length = (linesToArray d1).length)
    (hd : ∀ l, l ∈ pre ∨ l ∈ d0 ∨ l ∈ d1 ∨ l ∈ d2 ∨ l ∈ d3 → isStart l = false)
    (he : ∀ l, l ∈ pre ++ h0 :: d0 ++ h1 :: d1 ++ h2 :: d2 ++ h3 :: d3 → ¬ "***ERROR IN BOXR***".toList <:+: l) :
    readFile (pre ++ h0 :: d0 ++ h1 :: d1 ++ h2 :: d2 ++ h3 :: d3) =
      if (linesToArray d3).length = (linesToArray d1).length * (linesToArray d1).length then
        .ok ⟨linesToArray d0, linesToArray d1, List.zipWith (· * ·) (linesToArray d2) (linesToArray d1),
          (List.range (linesToArray d1).length).map fun i =>
            ((linesToArray d3).drop (i * (linesToArray d1).length)).take (linesToArray d1).length⟩
      else .error .valueError := by
  obtain ⟨hs0, hs1, hs2, hs3⟩ := hh
  obtain ⟨file, hfile⟩ : ∃ f, pre ++ h0 :: d0 ++ h1 :: d1 ++ h2 :: d2 ++ h3 :: d3 = f := ⟨_, rfl⟩
  have hcons : ∀ (h : List Char) (d : List (List Char)) (k : Nat), isStart h = true → (∀ l ∈ d, isStart l = false) →
      (((h :: d).zipIdx k).filter fun p => isStart p.1).map (·.2) = [k] := by
    intro h d k hs hn
    have := zipIdx_none d hn (k + 1)
    rw [List.zipIdx_cons, List.filter_cons, if_pos hs, List.map_cons, this]
  have hstarts : blockStarts file = [pre.length, pre.length + (d0.length + 1), pre.length + (d0.length + 1) + (d1.length + 1),
      pre.length + (d0.length + 1) + (d1.length + 1) + (d2.length + 1)] := by
    rw [← hfile]
    unfold blockStarts
    rw [zipIdx_filter_append, zipIdx_filter_append, zipIdx_filter_append, zipIdx_filter_append,
      zipIdx_none pre (fun l hl => hd l (Or.inl hl)), hcons h0 d0 _ hs0 (fun l hl => hd l (by tauto)),
      hcons h1 d1 _ hs1 (fun l hl => hd l (by tauto)), hcons h2 d2 _ hs2 (fun l hl => hd l (by tauto)),
      hcons h3 d3 _ hs3 (fun l hl => hd l (by tauto))]
    simp
    omega
  have hopen : openFile file = .ok (blockStarts file) := by
    rw [C48_rejected, if_neg, if_neg]
    · intro hc
      have := hc h0 (by rw [← hfile]; simp)
      rw [hs0] at this
      cases this
    · rintro ⟨l, hl, hm⟩
      exact he l (by rw [hfile]; exact hl) hm
  rw [hfile]
  unfold readFile
  rw [hopen, hstarts]
  simp only [getBlockData]
  have e0 : slice file (pre.length + 1) (pre.length + (d0.length + 1)) = d0 := by
    have : file = (pre ++ [h0]) ++ d0 ++ (h1 :: d1 ++ h2 :: d2 ++ h3 :: d3) := by rw [← hfile]; simp
    rw [this]
    exact slice_mid _ _ _ _ _ (by simp) (by simp; omega)
  have e1 : slice file (pre.length + (d0.length + 1) + 1) (pre.length + (d0.length + 1) + (d1.length + 1)) = d1 := by
    have : file = (pre ++ h0 :: d0 ++ [h1]) ++ d1 ++ (h2 :: d2 ++ h3 :: d3) := by rw [← hfile]; simp
    rw [this]
    exact slice_mid _ _ _ _ _ (by simp; omega) (by simp; omega)
  have e2 : slice file (pre.length + (d0.length + 1) + (d1.length + 1) + 1)
      (pre.length + (d0.length + 1) + (d1.length + 1) + (d2.length + 1)) = d2 := by
    have : file = (pre ++ h0 :: d0 ++ h1 :: d1 ++ [h2]) ++ d2 ++ (h3 :: d3) := by rw [← hfile]; simp
    rw [this]
    exact slice_mid _ _ _ _ _ (by simp; omega) (by simp; omega)
  have e3 : slice file (pre.length + (d0.length + 1) + (d1.length + 1) + (d2.length + 1) + 1) file.length = d3 := by
    have h : file = (pre ++ h0 :: d0 ++ h1 :: d1 ++ h2 :: d2 ++ [h3]) ++ d3 ++ [] := by rw [← hfile]; simp
    rw [h]
    exact slice_mid _ _ _ _ _ (by simp; omega) (by simp; omega)
  rw [e0, e1, e2, e3]
  simp only [times, if_pos hr, reshape]
  split_ifs <;> rfl

/-! ### The two together -/

theorem intGo_dot (w : List Char) (h : '.' ∈ w) : ∀ b, intGo b w = false := by
  induction w with
  | nil => cases h
  | cons c w ih =>
    intro b
    simp only [intGo]
    rcases List.mem_cons.mp h with rfl | h'
    · simp [isDigit_dot]
    · split_ifs
      · exact ih h' _
      · rw [ih h', Bool.and_false]
      · rfl

theorem isInt_dot (w : List Char) (h : '.' ∈ w) : isInt w = false := by
  cases w with
  | nil => rfl
  | cons c w =>
    simp only [isInt]
    split_ifs with hc
    · rcases List.mem_cons.mp h with rfl | h'
      · simp at hc
      · exact intGo_dot w h' _
    · exact intGo_dot _ h _

theorem splitGo_head (s : List Char) : ∀ cur, cur ≠ [] → ∃ t ws, splitGo cur s = (cur ++ t) :: ws := by
  induction s with
  | nil => intro cur h; exact ⟨[], [], by simp [splitGo, flush, h]⟩
  | cons c s ih =>
    intro cur h
    simp only [splitGo]
    split_ifs
    · exact ⟨[], splitGo [] s, by simp [flush, h]⟩
    · obtain ⟨t, ws, e⟩ := ih (cur ++ [c]) (by simp)
      exact ⟨c :: t, ws, by rw [e]; simp⟩

theorem isStart_lineOf (fs : List Fld) : isStart (lineOf fs) = false := by
  cases fs with
  | nil => decide
  | cons f fs =>
    have hd : ∀ d, isSpace (digitChar d) = false := fun d => isDigit_noSpace (isDigit_digitChar d)
    have hdot : isSpace '.' = false := by decide
    have hminus : isSpace '-' = false := by decide
    have hblank : isSpace ' ' = true := by decide
    obtain ⟨t, ht⟩ : ∃ t, lineOf (f :: fs) = (if f.neg then '-' else ' ') :: digitChar (f.mant / 1000) :: '.' :: t :=
      ⟨_, by simp [lineOf, Fld.text]; rfl⟩
    rw [ht]
    unfold isStart split
    cases f.neg
    · simp only [Bool.false_eq_true, if_false, splitGo, hblank, if_true, hd, hdot, flush, List.nil_append]
      obtain ⟨u, ws, e⟩ := splitGo_head t ([digitChar (f.mant / 1000)] ++ ['.']) (by simp)
      rw [e]
      exact isInt_dot _ (by simp)
    · simp only [if_true, splitGo, hminus, Bool.false_eq_true, if_false, hd, hdot, List.nil_append]
      obtain ⟨u, ws, e⟩ := splitGo_head t (['-'] ++ [digitChar (f.mant / 1000)] ++ ['.']) (by simp)
      rw [e]
      exact isInt_dot _ (by simp)

theorem lineOf_no_marker (fs : List Fld) : ¬ marker <:+: lineOf fs := by
  intro h
  have hm : '*' ∈ lineOf fs := h.subset (by decide)
  simp only [lineOf, List.mem_append, List.mem_flatMap, List.mem_singleton] at hm
  have hd : ∀ d, '*' ≠ digitChar d := fun d h => digitChar_ne (d := d) (c := '*') (by decide) h.symm
  rcases hm with ⟨f, _, hf⟩ | h'
  · obtain ⟨neg, m, ne, e⟩ := f
    cases neg <;> cases ne <;> simp [Fld.text, hd] at hf
  · exact absurd h' (by decide)

/-- **C47 and C48, end to end.** A file with the four blocks as boxer2mat writes them, after any header lines beginning with an
integer and with any arrangement of the numbers in lines (including the blank lines before and between the blocks), is read back as the numbers
written: `n` cross sections, the standard deviations `relative * cross section`, and the `n × n` matrix row by row. -/
theorem C48_written_file (pre b x r c : List (List Fld)) (h0 h1 h2 h3 : List Char)
    (hh : isStart h0 = true ∧ isStart h1 = true ∧ isStart h2 = true ∧ isStart h3 = true)
    (he : ∀ h ∈ [h0, h1, h2, h3], ¬ "***ERROR IN BOXR***".toList <:+: h)
    (hr : r.flatten.length = x.flatten.length) (hc : c.flatten.length = x.flatten.length * x.flatten.length) :
    ∃ d, readFile (pre.map lineOf ++ h0 :: b.map lineOf ++ h1 :: x.map lineOf ++ h2 :: r.map lineOf ++ h3 :: c.map lineOf) = .ok d ∧
      d.bounds = b.flatten.map Fld.value ∧ d.xsec = x.flatten.map Fld.value ∧
      d.stdDev = List.zipWith (fun s v => s.value * v.value) r.flatten x.flatten ∧
      d.cov.length = x.flatten.length ∧
      ∀ i j, i < x.flatten.length → j < x.flatten.length →
        (d.cov[i]?.bind (·[j]?)) = (c.flatten[i * x.flatten.length + j]?).map Fld.value := by
  have hl : ∀ l, (∃ fs : List Fld, l = lineOf fs) → isStart l = false ∧ ¬ marker <:+: l := by
    rintro l ⟨fs, rfl⟩
    exact ⟨isStart_lineOf fs, lineOf_no_marker fs⟩
  have hmem : ∀ (g : List (List Fld)) l, l ∈ g.map lineOf → isStart l = false ∧ ¬ marker <:+: l := by
    intro g l h
    obtain ⟨fs, _, rfl⟩ := List.mem_map.mp h
    exact hl _ ⟨fs, rfl⟩
  have hb := C48_blocks (pre.map lineOf) (b.map lineOf) (x.map lineOf) (r.map lineOf) (c.map lineOf) h0 h1 h2 h3 hh
    (by simp only [C47_values_partial, List.length_map]; exact hr)
    (by
      intro l h
      rcases h with h | h | h | h | h
      all_goals exact (hmem _ l h).1)
    (by
      intro l h
      simp only [List.cons_append, List.append_assoc, List.mem_cons, List.mem_append] at h
      rcases h with h | rfl | h | rfl | h | rfl | h | rfl | h
      · exact (hmem _ l h).2
      · exact he _ (by simp)
      · exact (hmem _ l h).2
      · exact he _ (by simp)
      · exact (hmem _ l h).2
      · exact he _ (by simp)
      · exact (hmem _ l h).2
      · exact he _ (by simp)
      · exact (hmem _ l h).2)
  simp only [C47_values_partial, List.length_map] at hb
  rw [if_pos hc] at hb
  refine ⟨_, hb, rfl, rfl, ?_, by simp, ?_⟩
  · rw [List.zipWith_map]
  · intro i j hi hj
    simp only [List.getElem?_map, List.getElem?_range hi, Option.map_some, Option.bind_some]
    rw [List.getElem?_take_of_lt hj, List.getElem?_drop, List.getElem?_map]

/-- The hypotheses are met: a two-group file with blank lines between the blocks. -/
example : readFile (["0u235\n", " 1.000E+07 1.000E+00 1.000E-05\n", "\n", "1u235\n", " 2.000E+00 4.000E+00\n", "\n",
    "2u235\n", " 1.000E-01 2.000E-01\n", "\n", "3u235\n", " 1.000E+00-5.000E-01\n", "-5.000E-01 1.000E+00\n"].map String.toList)
    = .error .exception := by decide +kernel

/-- The header must have a blank after its digit. -/
example : readFile (["0 u235\n", " 1.000E+07 1.000E+00 1.000E-05\n", "\n", "1 u235\n", " 2.000E+00 4.000E+00\n", "\n",
    "2 u235\n", " 1.000E-01 2.000E-01\n", "\n", "3 u235\n", " 1.000E+00-5.000E-01\n", "-5.000E-01 1.000E+00\n"].map String.toList)
    = .ok ⟨[10000000, 1, 1 / 100000], [2, 4], [1 / 5, 4 / 5], [[1, -1 / 2], [-1 / 2, 1]]⟩ := by decide +kernel

/-- Fewer than four blocks are rejected. -/
theorem C48_too_few (lines : List (List Char)) (h : (blockStarts lines).length < 4) : ∃ e, readFile lines = .error e := by
  unfold readFile
  cases ho : openFile lines with
  | error e => exact ⟨e, rfl⟩
  | ok st =>
    have hst : st = blockStarts lines := by
      unfold openFile at ho
      split_ifs at ho
      exact (Except.ok.inj ho).symm
    rw [← hst] at h
    refine ⟨.indexError, ?_⟩
    simp only
    unfold getBlockData
    match st, h with
    | [], _ => rfl
    | [_], _ => rfl
    | [_, _], _ => rfl
    | [_, _, _], _ => rfl
    | _ :: _ :: _ :: _ :: _, h => simp at h; omega

end ASAPy.Boxer
