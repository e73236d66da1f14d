import Mathlib.Data.List.Basic

/-!
# Python string functions used by the code

Text is a list of characters.
-/

namespace ASAPy.Str

/-- `str.isspace` on ASCII characters (ACE, ENDF and NJOY files are ASCII). -/
def isSpace (c : Char) : Bool :=
  c = ' ' || c = '\t' || c = '\n' || c = '\r' || c = '\x0b' || c = '\x0c' || c = '\x1c' || c = '\x1d' ||
    c = '\x1e' || c = '\x1f'

/-- A finished word, unless it is empty. -/
def flush (cur : List Char) : List (List Char) := if cur = [] then [] else [cur]

/-- `str.split()` with the word read so far. -/
def splitGo (cur : List Char) : List Char → List (List Char)
  | [] => flush cur
  | c :: cs => if isSpace c then flush cur ++ splitGo [] cs else splitGo (cur ++ [c]) cs

/-- `s.split()`: the whitespace-separated words. -/
def split (s : List Char) : List (List Char) := splitGo [] s

/-- `' '.join(words)`. -/
def join (words : List (List Char)) : List Char := [' '].intercalate words

/-- `s.index(pat)`: position of the first occurrence; `none` is Python's `ValueError`. -/
def index (pat : List Char) : List Char → Option Nat
  | [] => if pat = [] then some 0 else none
  | c :: cs => if pat <+: c :: cs then some 0 else (index pat cs).map (· + 1)

/-- `s.replace(old, new, count)` for non-empty `old`: from left to right, without overlaps. The first argument
counts characters still to be skipped. -/
def replaceGo (old new : List Char) : Nat → Nat → List Char → List Char
  | _, _, [] => []
  | skip + 1, count, _ :: cs => replaceGo old new skip count cs
  | 0, count, c :: cs =>
    if 0 < count ∧ old <+: c :: cs then new ++ replaceGo old new (old.length - 1) (count - 1) cs
    else c :: replaceGo old new 0 count cs

/-- `s.replace('', new, count)`: `new` before each of the first `count` characters (and at the end). -/
def interleave (new : List Char) : Nat → List Char → List Char
  | 0, s => s
  | _ + 1, [] => new
  | count + 1, c :: cs => new ++ c :: interleave new count cs

/-- `s.replace(old, new, count)`; a negative count means all. -/
def replace (s old new : List Char) (count : Int) : List Char :=
  let n := if count < 0 then s.length + 1 else count.toNat
  if old = [] then interleave new n s else replaceGo old new 0 n s

/-- `f.readlines()`: each line with its newline. -/
def linesGo (cur : List Char) : List Char → List (List Char)
  | [] => flush cur
  | c :: cs => if c = '\n' then (cur ++ ['\n']) :: linesGo [] cs else linesGo (cur ++ [c]) cs

def readlines (s : List Char) : List (List Char) := linesGo [] s

/-- `'{0:>w}'.format(s)`. -/
def rjust (w : Nat) (s : List Char) : List Char := List.replicate (w - s.length) ' ' ++ s

/-- `re.sub(' +', ' ', s)`: runs of blanks become one blank. The flag says that the last character was a blank. -/
def squeezeGo (last : Bool) : List Char → List Char
  | [] => []
  | c :: cs => if c = ' ' then (if last then squeezeGo true cs else ' ' :: squeezeGo true cs)
               else c :: squeezeGo false cs

def squeeze (s : List Char) : List Char := squeezeGo false s

/-! ## Facts -/

/-- A word: not empty, no whitespace. -/
def Word (w : List Char) : Prop := w ≠ [] ∧ ∀ c ∈ w, isSpace c = false

theorem flush_word {w : List Char} (h : w ≠ []) : flush w = [w] := by simp [flush, h]

theorem splitGo_append_space (u : List Char) {c : Char} (hc : isSpace c = true) (v : List Char) :
    ∀ cur, splitGo cur (u ++ c :: v) = splitGo cur u ++ split v := by
  induction u with
  | nil => intro cur; simp [splitGo, hc, split]
  | cons a u ih =>
    intro cur
    simp only [List.cons_append, splitGo]
    split_ifs
    · rw [ih, List.append_assoc]
    · exact ih _

theorem splitGo_nospace (w : List Char) (h : ∀ c ∈ w, isSpace c = false) (v : List Char) :
    ∀ cur, splitGo cur (w ++ v) = splitGo (cur ++ w) v := by
  induction w with
  | nil => intro cur; simp
  | cons a w ih =>
    intro cur
    simp only [List.cons_append, splitGo, h a (List.mem_cons_self ..)]
    rw [if_neg (by simp), ih (fun c hc => h c (List.mem_cons_of_mem _ hc))]
    simp

theorem splitGo_word {w : List Char} (h : Word w) (cur : List Char) : splitGo cur w = [cur ++ w] := by
  have := splitGo_nospace w h.2 [] cur
  rw [List.append_nil] at this
  rw [this]
  simp only [splitGo]
  exact flush_word (by simp [h.1])

theorem split_word {w : List Char} (h : Word w) : split w = [w] := by
  simpa [split] using splitGo_word h []

theorem split_space (u : List Char) {c : Char} (hc : isSpace c = true) (v : List Char) :
    split (u ++ c :: v) = split u ++ split v := splitGo_append_space u hc v []

theorem isSpace_blank : isSpace ' ' = true := by decide
theorem isSpace_newline : isSpace '\n' = true := by decide

theorem split_blank (v : List Char) : split (' ' :: v) = split v := by
  have := split_space [] isSpace_blank v
  simpa [split, splitGo, flush] using this

theorem split_newline (v : List Char) : split ('\n' :: v) = split v := by
  have := split_space [] isSpace_newline v
  simpa [split, splitGo, flush] using this

theorem split_replicate (n : Nat) (v : List Char) : split (List.replicate n ' ' ++ v) = split v := by
  induction n with
  | zero => simp
  | succ n ih => rw [List.replicate_succ, List.cons_append, split_blank, ih]

@[simp] theorem join_nil : join [] = [] := rfl
@[simp] theorem join_singleton (w : List Char) : join [w] = w := by simp [join]
theorem join_cons_cons (w w' : List Char) (ws : List (List Char)) :
    join (w :: w' :: ws) = w ++ ' ' :: join (w' :: ws) := by
  simp [join, List.intercalate, List.intersperse]

theorem join_ne_nil {ws : List (List Char)} (hne : ws ≠ []) (h : ∀ w ∈ ws, Word w) : join ws ≠ [] := by
  cases ws with
  | nil => exact absurd rfl hne
  | cons w ws =>
    have := (h w (List.mem_cons_self ..)).1
    cases ws with
    | nil => simpa using this
    | cons w' ws => rw [join_cons_cons]; simp

theorem split_join {ws : List (List Char)} (h : ∀ w ∈ ws, Word w) : split (join ws) = ws := by
  induction ws with
  | nil => rfl
  | cons w ws ih =>
    cases ws with
    | nil => simpa using split_word (h w (List.mem_cons_self ..))
    | cons w' ws =>
      rw [join_cons_cons, split_space _ isSpace_blank, split_word (h w (List.mem_cons_self ..)),
        ih (fun w hw => h w (List.mem_cons_of_mem _ hw))]
      rfl

/-- Every word of a split is a word. -/
theorem splitGo_words (s : List Char) : ∀ cur, (∀ c ∈ cur, isSpace c = false) → ∀ w ∈ splitGo cur s, Word w := by
  have hflush : ∀ cur, (∀ c ∈ cur, isSpace c = false) → ∀ w ∈ flush cur, Word w := by
    intro cur h w hw
    unfold flush at hw
    split_ifs at hw with hc
    · simp at hw
    · simp only [List.mem_singleton] at hw; subst hw; exact ⟨hc, h⟩
  induction s with
  | nil => intro cur h; exact hflush cur h
  | cons a s ih =>
    intro cur h w hw
    simp only [splitGo] at hw
    split_ifs at hw with ha
    · rcases List.mem_append.mp hw with hw | hw
      · exact hflush cur h w hw
      · exact ih [] (by simp) w hw
    · refine ih (cur ++ [a]) ?_ w hw
      intro c hc
      rcases List.mem_append.mp hc with hc | hc
      · exact h c hc
      · simp only [List.mem_singleton] at hc; subst hc; simpa using ha

theorem split_words (s : List Char) : ∀ w ∈ split s, Word w := splitGo_words s [] (by simp)

/-- Squeezing blanks keeps the words. -/
theorem splitGo_squeeze (s : List Char) :
    (∀ cur, splitGo cur (squeezeGo false s) = splitGo cur s) ∧ splitGo [] (squeezeGo true s) = splitGo [] s := by
  induction s with
  | nil => exact ⟨fun _ => rfl, rfl⟩
  | cons c s ih =>
    by_cases hc : c = ' '
    · subst hc
      refine ⟨fun cur => ?_, ?_⟩
      · simp only [squeezeGo, if_true, Bool.false_eq_true, if_false, splitGo, isSpace_blank]
        rw [ih.2]
      · simp only [squeezeGo, if_true, splitGo, isSpace_blank, ih.2]
        simp [flush]
    · refine ⟨fun cur => ?_, ?_⟩
      · simp only [squeezeGo, hc, if_false, splitGo]
        split_ifs
        · rw [ih.1]
        · rw [ih.1]
      · simp only [squeezeGo, hc, if_false, splitGo]
        split_ifs
        · rw [ih.1]
        · rw [ih.1]

theorem split_squeeze (s : List Char) : split (squeeze s) = split s := (splitGo_squeeze s).1 []

/-- Replacing newlines by blanks keeps the words. -/
theorem splitGo_newlines (s : List Char) : ∀ cur,
    splitGo cur (s.map fun c => if c = '\n' then ' ' else c) = splitGo cur s := by
  induction s with
  | nil => intro cur; rfl
  | cons c s ih =>
    intro cur
    by_cases hc : c = '\n'
    · subst hc
      simp only [List.map_cons, if_true, splitGo, isSpace_blank, isSpace_newline, ih]
    · simp only [List.map_cons, hc, if_false, splitGo, ih]

/-! ### `index` -/

theorem index_some {pat s : List Char} {i : Nat} (h : index pat s = some i) :
    i ≤ s.length ∧ pat <+: s.drop i := by
  induction s generalizing i with
  | nil =>
    simp only [index] at h
    split_ifs at h with hp
    cases h
    subst hp
    simp
  | cons c s ih =>
    simp only [index] at h
    split_ifs at h with hp
    · cases h; exact ⟨by simp, by simpa using hp⟩
    · rw [Option.map_eq_some_iff] at h
      obtain ⟨j, hj, rfl⟩ := h
      obtain ⟨h1, h2⟩ := ih hj
      exact ⟨by simpa using h1, by simpa using h2⟩

theorem index_none_iff {pat s : List Char} : index pat s = none ↔ ¬ pat <:+: s := by
  induction s with
  | nil =>
    simp only [index, List.infix_nil]
    split_ifs with h <;> simp [h]
  | cons c s ih =>
    simp only [index]
    split_ifs with h
    · simp only [false_iff, not_not]
      exact h.isInfix
    · rw [Option.map_eq_none_iff, ih, List.infix_cons_iff]
      simp [h]

/-! ### `replace` -/

theorem replaceGo_skip (old new : List Char) (count : Nat) : ∀ (s : List Char) (skip : Nat),
    replaceGo old new skip count s = replaceGo old new 0 count (s.drop skip) := by
  intro s
  induction s with
  | nil => intro skip; cases skip <;> simp [replaceGo]
  | cons c s ih =>
    intro skip
    cases skip with
    | zero => rfl
    | succ skip =>
      simp only [List.drop_succ_cons]
      rw [← ih skip]
      conv_lhs => unfold replaceGo

theorem replaceGo_match {old new : List Char} (hne : old ≠ []) (count : Nat) (v : List Char) :
    replaceGo old new 0 (count + 1) (old ++ v) = new ++ replaceGo old new 0 count v := by
  cases old with
  | nil => exact absurd rfl hne
  | cons a old =>
    have hp : a :: old <+: a :: (old ++ v) := by
      rw [← List.cons_append]; exact List.prefix_append _ _
    simp only [List.cons_append, replaceGo, Nat.add_sub_cancel, List.length_cons]
    rw [if_pos ⟨by omega, hp⟩, replaceGo_skip]
    simp

theorem replaceGo_zero (old new : List Char) : ∀ s, replaceGo old new 0 0 s = s := by
  intro s
  induction s with
  | nil => rfl
  | cons c s ih => simp [replaceGo, ih]

theorem replaceGo_step {old new : List Char} {c : Char} {s : List Char} (h : ¬ old <+: c :: s) (count : Nat) :
    replaceGo old new 0 count (c :: s) = c :: replaceGo old new 0 count s := by
  simp [replaceGo, h]

/-- Nothing is replaced in a text without an occurrence. -/
theorem replaceGo_none {old new : List Char} (count : Nat) : ∀ {s : List Char}, ¬ old <:+: s →
    replaceGo old new 0 count s = s := by
  intro s
  induction s with
  | nil => intro _; simp [replaceGo]
  | cons c s ih =>
    intro h
    rw [List.infix_cons_iff, not_or] at h
    rw [replaceGo_step h.1, ih h.2]

/-- Everything before the first occurrence is kept. -/
theorem replaceGo_first {old new : List Char} (hne : old ≠ []) (count : Nat) (v : List Char) : ∀ (u : List Char),
    (∀ u' w, u = u' ++ w → w ≠ [] → ¬ old <+: w ++ old ++ v) →
    replaceGo old new 0 (count + 1) (u ++ old ++ v) = u ++ new ++ replaceGo old new 0 count v := by
  intro u
  induction u with
  | nil => intro _; simpa using replaceGo_match hne count v
  | cons c u ih =>
    intro h
    have h0 := h [] (c :: u) rfl (by simp)
    simp only [List.cons_append] at h0 ⊢
    rw [replaceGo_step h0]
    congr 1
    refine ih ?_
    intro u' w hw hwne
    exact h (c :: u') w (by rw [hw]; rfl) hwne

end ASAPy.Str
