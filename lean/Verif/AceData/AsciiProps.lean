import Verif.AceData.BinaryProps
import Mathlib.Data.List.TakeWhile

/-! # C74, C75: ASCII ACE files with several tables -/

set_option linter.unusedSimpArgs false

namespace ASAPy.AceData
open ASAPy.Str ASAPy.Dec ASAPy.Boxer
open ASAPy.Endf (Line pyInt strip readline)

theorem readLines_eq : ∀ (k : Nat) (f : List Line), k ≤ f.length → readLines k f = (f.take k, f.drop k)
  | 0, f, _ => by simp [readLines]
  | k + 1, [], h => by simp at h
  | k + 1, a :: f, h => by
    have := readLines_eq k f (by simpa using h)
    simp [readLines, readline, this]

theorem shift_eq : ∀ (n k : Nat) (f : List Line), n + (k + 1) ≤ f.length →
    shift n (f.take (k + 1)) (f.drop (k + 1)) = ((f.drop n).take (k + 1), f.drop (n + (k + 1)))
  | 0, k, f, _ => by simp [shift]
  | n + 1, k, [], h => by simp at h
  | n + 1, k, a :: f, h => by
    have hk : k < f.length := by simp at h; omega
    have h1 : (f.take k) ++ [(readline (f.drop k)).1] = f.take (k + 1) := by
      rw [List.drop_eq_getElem_cons hk, readline, List.take_succ_eq_append_getElem hk]
    have h2 : (readline (f.drop k)).2 = f.drop (k + 1) := by
      rw [List.drop_eq_getElem_cons hk, readline]
    rw [shift, List.take_succ_cons, List.drop_succ_cons, List.tail_cons, h1, h2, shift_eq n k f (by simp at h; omega)]
    simp only [List.drop_succ_cons, Prod.mk.injEq, true_and]
    rw [show n + 1 + (k + 1) = (n + (k + 1)) + 1 by omega, List.drop_succ_cons]

theorem asciiHeader_ok {t : Table ℚ} {l0 l1 : Line} {n : Nat} (h : AsciiHeader t l0 l1 n) (lines f : List Line) :
    asciiHeader (l0 :: l1 :: lines) f = .ok (t.name, t.awr, t.temperature, (shift n (l0 :: l1 :: lines) f).1, (shift n (l0 :: l1 :: lines) f).2) := by
  rcases h with ⟨rfl, c, c', w, a, b, ws, h0, hc, hn, ha, hb⟩ | ⟨c, w, ws, a, b, x, n', us, h0, h1, ha, hb, hn⟩
  · unfold asciiHeader
    simp only [List.headD_cons, h0]
    simp only [bind, Except.bind, pure, Except.pure, ha, hb, hn, shift]
  · unfold asciiHeader
    simp only [List.headD_cons, h0, List.tail_cons, h1, bind, Except.bind, pure, Except.pure, ha, hb, hn, Int.toNat_natCast]

theorem intPieces_reads {ws : List Line} {vs : List Int} (h : Reads pyInt ws vs) : intPieces ws = vs := by
  induction h with
  | nil => rfl
  | cons h1 _ ih => simp [intPieces, h1, ih]

theorem fromPieces_reads {ws : List Line} {vs : List ℚ} (h : List.Forall₂ (fun w v => number w = some (v, [])) ws vs) : fromPieces ws = vs := by
  induction h with
  | nil => rfl
  | cons h1 _ ih => simp [fromPieces, h1, ih]

theorem split_flatten_words (ls : List Line) (h : ∀ l ∈ ls, l.getLast? = some '\n') : split ls.flatten = words ls := by
  unfold words
  induction ls with
  | nil => rfl
  | cons l ls ih =>
    obtain ⟨q, hq⟩ : ∃ q, l = q ++ ['\n'] := by
      have := h l (by simp)
      rw [List.getLast?_eq_some_iff] at this
      exact this
    subst hq
    rw [List.flatten_cons, List.flatMap_cons, ← ih (fun x hx => h x (by simp [hx])), List.append_assoc]
    have e1 := split_space q isSpace_newline ls.flatten
    have e2 := split_space q isSpace_newline []
    rw [List.singleton_append, e1, e2]
    simp [split, splitGo, flush]

theorem linesUpTo_even (L : Nat) (last : Line) (hlast : 2 ≤ last.length) (rest : List Line) (M : Nat) : ∀ (ls : List Line) (len : Int),
    (∀ x ∈ ls, x.length = L) → len + L * ls.length = L * M →
    linesUpTo (L * M + 1) len (ls ++ last :: rest) = (ls ++ [last], rest) := by
  intro ls
  induction ls with
  | nil =>
    intro len _ hl
    simp only [List.length_nil, Nat.cast_zero, mul_zero, add_zero] at hl
    rw [List.nil_append, linesUpTo, if_pos (by omega)]
    rfl
  | cons l ls ih =>
    intro len hL hl
    have h1 := hL l (by simp)
    simp only [List.length_cons, Nat.cast_add, Nat.cast_one] at hl
    have hl' : len + L + L * ls.length = L * M := by rw [← hl]; ring
    have hpos : 0 ≤ (L : Int) * ls.length := by positivity
    rw [List.cons_append, linesUpTo, if_neg (by rw [h1]; omega), h1, ih (len + L) (fun x hx => hL x (by simp [hx])) hl']
    rfl

theorem strip_words {l : Line} {w : Line} {ws : List Line} (h : split l = w :: ws) : strip l ≠ [] := by
  intro hs
  have hsp : ∀ c ∈ l, isSpace c = true := by
    unfold strip at hs
    rw [List.reverse_eq_nil_iff, List.dropWhile_eq_nil_iff] at hs
    by_contra hcon
    push Not at hcon
    obtain ⟨c, hc, hcs⟩ := hcon
    have hne : l.dropWhile isSpace ≠ [] := by
      rw [Ne, List.dropWhile_eq_nil_iff]
      intro hall
      exact hcs (hall c hc)
    have hh := List.head_dropWhile_not isSpace hne
    have := hs ((l.dropWhile isSpace).head hne) (by simp)
    rw [hh] at this
    exact absurd this (by decide)
  have : split l = [] := by
    clear hs h
    induction l with
    | nil => rfl
    | cons c l ih =>
      have e := split_space [] (hsp c (by simp)) l
      rw [List.nil_append] at e
      rw [e, ih (fun x hx => hsp x (by simp [hx]))]
      rfl
  rw [this] at h
  exact absurd h (by simp)

theorem header_words {t : Table ℚ} {l0 l1 : Line} {n : Nat} (h : AsciiHeader t l0 l1 n) : strip l0 ≠ [] := by
  rcases h with ⟨_, c, c', w, a, b, ws, h0, -⟩ | ⟨c, w, ws, a, b, x, n', us, h0, -⟩ <;> exact strip_words h0

/-- What is known after the header of a table with at least one line of values: the 13 lines kept, and the data in them. -/
theorem after_header {t : Table ℚ} {start : List Line} (hs : AsciiStart t start) (x : Line) (rest : List Line) :
    strip ((readLines 13 (start ++ x :: rest)).1.headD []) ≠ [] ∧
    ∃ u pairs nxs jxs : List Line, u.length = 2 ∧ pairs.length = 4 ∧ nxs.length = 2 ∧ jxs.length = 4 ∧
      asciiHeader (readLines 13 (start ++ x :: rest)).1 (readLines 13 (start ++ x :: rest)).2 =
        .ok (t.name, t.awr, t.temperature, u ++ pairs ++ nxs ++ jxs ++ [x], rest) ∧
      mapE pyInt (evens (words pairs)) = .ok (t.pairs.map (·.1)) ∧ mapE Endf.pyFloat (odds (words pairs)) = .ok (t.pairs.map (·.2)) ∧
      intPieces (words nxs) = t.nxs ∧ intPieces (words jxs) = t.jxs ∧ ∃ ns, t.nxs = (t.xss.length : Int) :: ns := by
  obtain ⟨l0, l1, comments, pairs, nxs, jxs, rfl, hh, lp, ln, lj, ⟨ws, hw, hiz, haw⟩, hnx, hjx, hlen⟩ := hs
  have hlen13 : comments.length + (12 + 1) ≤ (l0 :: l1 :: (comments ++ pairs ++ nxs ++ jxs) ++ x :: rest).length := by
    simp [lp, ln, lj]
    omega
  have e13 : readLines 13 (l0 :: l1 :: (comments ++ pairs ++ nxs ++ jxs) ++ x :: rest) =
      ((l0 :: l1 :: (comments ++ pairs ++ nxs ++ jxs) ++ x :: rest).take 13, (l0 :: l1 :: (comments ++ pairs ++ nxs ++ jxs) ++ x :: rest).drop 13) :=
    readLines_eq 13 _ (by omega)
  rw [e13]
  have etake : (l0 :: l1 :: (comments ++ pairs ++ nxs ++ jxs) ++ x :: rest).take 13 =
      l0 :: l1 :: (comments ++ pairs ++ nxs ++ jxs ++ x :: rest).take 11 := by simp
  refine ⟨by rw [etake]; exact header_words hh, (l0 :: l1 :: comments).drop comments.length, pairs, nxs, jxs, by simp; omega, lp, ln, lj, ?_, ?_, ?_, ?_, ?_, ?_⟩
  · have hsh := shift_eq comments.length 12 _ hlen13
    simp only
    rw [etake, asciiHeader_ok hh, ← etake, hsh]
    have ed : (l0 :: l1 :: (comments ++ pairs ++ nxs ++ jxs) ++ x :: rest).drop comments.length =
        (l0 :: l1 :: comments).drop comments.length ++ pairs ++ nxs ++ jxs ++ [x] ++ rest := by
      have : l0 :: l1 :: (comments ++ pairs ++ nxs ++ jxs) ++ x :: rest = (l0 :: l1 :: comments) ++ (pairs ++ nxs ++ jxs ++ [x] ++ rest) := by simp
      rw [this, List.drop_append_of_le_length (by simp; omega)]
      simp
    have ht : ((l0 :: l1 :: comments).drop comments.length ++ pairs ++ nxs ++ jxs ++ [x]).length = 12 + 1 := by
      simp [lp, ln, lj]
      omega
    rw [← List.drop_drop, ed, List.take_left' ht, List.drop_left' ht]
  · rw [hw, evens_pairs]
    exact mapE_reads hiz
  · rw [hw, odds_pairs]
    exact mapE_reads haw
  · exact intPieces_reads hnx
  · exact intPieces_reads hjx
  · cases e : t.nxs with
    | nil => rw [e] at hlen; simp at hlen
    | cons a l =>
      rw [e] at hlen
      simp only [List.head?_cons, Option.some.injEq] at hlen
      exact ⟨l, by rw [hlen]⟩

theorem zero_numeral : number "0.0".toList = some (0, []) := by decide +kernel

theorem readXss_values {t : Table ℚ} {xss : List Line} (h : AsciiValues t xss) : readXss t.xss.length ("0.0 ".toList ++ xss.flatten) = .ok (0 :: t.xss) := by
  obtain ⟨-, hnl, hv⟩ := h
  have e : npFloats ("0.0 ".toList ++ xss.flatten) = 0 :: t.xss := by
    unfold npFloats
    have : split ("0.0 ".toList ++ xss.flatten) = "0.0".toList :: words xss := by
      have := split_space "0.0".toList isSpace_blank xss.flatten
      rw [split_flatten_words _ hnl] at this
      exact this
    rw [this, fromPieces, zero_numeral, fromPieces_reads hv]
  unfold readXss
  simp only [e]
  rw [if_neg (by simp)]

/-- One step of the reader over a table whose values are read as `v`. -/
theorem readAscii_values {t : Table ℚ} {start xss : List Line} (hs : AsciiStart t start) (hm : xss.length = (t.xss.length + 3) / 4) (he : Even xss)
    {v : List ℚ} (ev : readXss t.xss.length ("0.0 ".toList ++ xss.flatten) = .ok (0 :: v)) (names : Option (List Line)) (seen rest : List Line) (k : Nat)
    (hn : names.elim True fun ns => t.name ∈ ns ∧ (¬ (ns ⊆ seen) ∨ seen ⊆ ns)) :
    readAscii names (k + 1) seen (readLines 13 (start ++ xss ++ rest)).1 (readLines 13 (start ++ xss ++ rest)).2 =
      (readAscii names k (t.name :: seen) (readLines 13 rest).1 (readLines 13 rest).2).map ({ t with xss := v } :: ·) := by
  obtain ⟨x, xs, last, rfl, hL, hlast⟩ := he
  simp only [List.length_cons, List.length_append, List.length_nil] at hm
  have ef : start ++ x :: (xs ++ [last]) ++ rest = start ++ x :: (xs ++ last :: rest) := by simp
  rw [ef]
  obtain ⟨hne, u, pairs, nxs, jxs, lu, lp, ln, lj, hh, hiz, haw, hnx, hjx, ns, hns⟩ := after_header hs x (xs ++ last :: rest)
  have s1 : slice (u ++ pairs ++ nxs ++ jxs ++ [x]) 2 6 = pairs := by
    have := slice_mid u pairs (nxs ++ jxs ++ [x]) 2 6 lu.symm (by simp [lu, lp])
    simpa using this
  have s2 : slice (u ++ pairs ++ nxs ++ jxs ++ [x]) 6 8 = nxs := by
    have := slice_mid (u ++ pairs) nxs (jxs ++ [x]) 6 8 (by simp [lu, lp]) (by simp [lu, lp, ln])
    simpa using this
  have hbytes : ((u ++ pairs ++ nxs ++ jxs ++ [x]).getLastD []) = x := by simp
  have hlines : ((t.xss.length : Int) + 3) / 4 = xs.length + 2 := by omega
  have hup := linesUpTo_even x.length last hlast rest xs.length xs 0 hL (by simp)
  have hhint : readlinesHint (((x.length : Int) * ((xs.length : Int) + 2 - 2)) + 1) (xs ++ last :: rest) = (xs ++ [last], rest) := by
    unfold readlinesHint
    have : (0 : Int) ≤ (x.length : Int) * (xs.length : Int) := by positivity
    rw [show ((xs.length : Int) + 2 - 2) = xs.length by ring, if_neg (by omega), hup]
  have hall : (u ++ pairs ++ nxs ++ jxs ++ [x] ++ (xs ++ [last])).length = 12 + (xs.length + 2) := by
    simp [lu, lp, ln, lj]
    omega
  have s3 : slice (u ++ pairs ++ nxs ++ jxs ++ [x] ++ (xs ++ [last])) 8 12 = jxs := by
    have := slice_mid (u ++ pairs ++ nxs) jxs ([x] ++ (xs ++ [last])) 8 12 (by simp [lu, lp, ln]) (by simp [lu, lp, ln, lj])
    simpa using this
  have s4 : slice (u ++ pairs ++ nxs ++ jxs ++ [x] ++ (xs ++ [last])) 12 (12 + (xs.length + 2)) = x :: (xs ++ [last]) := by
    have := slice_mid (u ++ pairs ++ nxs ++ jxs) (x :: (xs ++ [last])) [] 12 (12 + (xs.length + 2)) (by simp [lu, lp, ln, lj])
      (by simp [lu, lp, ln, lj]; try omega)
    simpa using this
  have ht : (12 + ((xs.length : Int) + 2)).toNat = 12 + (xs.length + 2) := by omega
  rw [readAscii, if_neg hne]
  simp only [bind, Except.bind, pure, Except.pure, hh, s1, split_join_words, hiz, haw, npInts, s2, hnx, hns]
  have hn1 : (names.elim false fun ns => decide (ns.all (· ∈ seen)) && decide (∃ s ∈ seen, s ∉ ns)) = false := by
    cases names with
    | none => rfl
    | some ns =>
      simp only [Option.elim_some] at hn ⊢
      rw [Bool.and_eq_false_iff]
      rcases hn.2 with h | h
      · left
        simp only [decide_eq_false_iff_not, List.all_eq_true, decide_eq_true_eq]
        exact fun hall => h hall
      · right
        simp only [decide_eq_false_iff_not]
        rintro ⟨s, h1, h2⟩
        exact h2 (h h1)
  have hn2 : (names.elim false fun ns => decide (t.name ∉ ns)) = false := by
    cases names with
    | none => rfl
    | some ns =>
      simp only [Option.elim_some] at hn ⊢
      simp [hn.1]
  rw [hn1, hn2]
  simp only [Bool.false_eq_true, if_false, hbytes, hlines, hhint, hall]
  rw [if_neg (by push_cast; omega), if_neg (by push_cast; omega)]
  simp only [s3, ht, s4, split_join_words, hjx, ev, List.tail_cons, zip_map_fst_snd]
  cases readAscii names k (t.name :: seen) (readLines 13 rest).1 (readLines 13 rest).2 with
  | error e => rfl
  | ok ts =>
    simp only [Except.map, ← hns]

theorem readAscii_table {t : Table ℚ} {ls : List Line} (h : AsciiTable t ls) (names : Option (List Line)) (seen rest : List Line) (k : Nat)
    (hn : names.elim True fun ns => t.name ∈ ns ∧ (¬ (ns ⊆ seen) ∨ seen ⊆ ns)) :
    readAscii names (k + 1) seen (readLines 13 (ls ++ rest)).1 (readLines 13 (ls ++ rest)).2 =
      (readAscii names k (t.name :: seen) (readLines 13 rest).1 (readLines 13 rest).2).map (t :: ·) := by
  obtain ⟨start, xss, rfl, hs, hv, he⟩ := h
  exact readAscii_values hs hv.1 he (readXss_values hv) names seen rest k hn

theorem table_length {t : Table ℚ} {ls : List Line} (h : AsciiTable t ls) : 1 ≤ ls.length := by
  obtain ⟨start, xss, rfl, ⟨l0, l1, c, p, n, j, rfl, -⟩, -⟩ := h
  simp

theorem blank_end (names : Option (List Line)) (k : Nat) (seen tail : List Line) (h : strip (tail.headD []) = []) :
    readAscii names k seen (readLines 13 tail).1 (readLines 13 tail).2 = .ok [] := by
  cases k with
  | zero => rfl
  | succ k =>
    rw [readAscii, if_pos]
    cases tail with
    | nil => simp only [readLines, readline, List.headD_cons]; rfl
    | cons a l => simpa [readLines, readline] using h

theorem read_tables (names : Option (List Line)) {ts : List (Table ℚ)} {texts : List (List Line)} (h : List.Forall₂ AsciiTable ts texts) (tail : List Line)
    (ht : strip (tail.headD []) = []) (hn : ∀ ns, names = some ns → ∀ t ∈ ts, t.name ∈ ns) : ∀ (k : Nat) (seen : List Line), ts.length ≤ k →
      (∀ ns, names = some ns → seen ⊆ ns) →
      readAscii names (k + 1) seen (readLines 13 (texts.flatten ++ tail)).1 (readLines 13 (texts.flatten ++ tail)).2 = .ok ts := by
  induction h with
  | nil =>
    intro k seen _ _
    exact blank_end names (k + 1) seen tail ht
  | @cons t ls ts texts h1 _ ih =>
    intro k seen hk hseen
    obtain ⟨k, rfl⟩ : ∃ k', k = k' + 1 := ⟨k - 1, by simp at hk; omega⟩
    have hc : names.elim True fun ns => t.name ∈ ns ∧ (¬ (ns ⊆ seen) ∨ seen ⊆ ns) := by
      cases names with
      | none => trivial
      | some ns => exact ⟨hn ns rfl t (by simp), .inr (hseen ns rfl)⟩
    rw [List.flatten_cons, List.append_assoc, readAscii_table h1 names seen _ (k + 1) hc,
      ih (fun ns e u hu => hn ns e u (by simp [hu])) k _ (by simpa using hk) (fun ns e => by
        intro w hw
        rcases List.mem_cons.1 hw with rfl | hw
        · exact hn ns e t (by simp)
        · exact hseen ns e hw)]
    rfl

theorem texts_length {ts : List (Table ℚ)} {texts : List (List Line)} (h : List.Forall₂ AsciiTable ts texts) : ts.length ≤ texts.flatten.length := by
  induction h with
  | nil => simp
  | cons h1 _ ih =>
    have := table_length h1
    simp only [List.length_cons, List.flatten_cons, List.length_append] at ih ⊢
    omega

/-- C74, the part that holds: an ASCII file of any number of tables with more than four values each, in lines of the same length, with old or new
headers, followed by nothing or by a blank line, is read completely if all tables are asked for, by name or not. -/
theorem C74_all_partial (ts : List (Table ℚ)) (texts : List (List Line)) (h : List.Forall₂ AsciiTable ts texts) (tail : List Line)
    (ht : strip (tail.headD []) = []) (names : Option (List Line)) (hn : ∀ ns, names = some ns → ∀ t ∈ ts, t.name ∈ ns) :
    library names (texts.flatten ++ tail) = .ok ts := by
  refine read_tables names h tail ht hn _ _ ?_ (by simp)
  have := texts_length h
  simp only [List.length_append]
  omega

/-- C74 is false if tables are asked for by name: if the first table of the file is not among them, the reader tries to skip it with a move that text
files do not allow, and raises `ValueError`, whatever follows. -/
theorem C74_names_refuted (t : Table ℚ) (ls rest : List Line) (h : AsciiTable t ls) (ns : List Line) (hn : t.name ∉ ns) :
    library (some ns) (ls ++ rest) = .error .valueError := by
  obtain ⟨start, xss, rfl, hs, hv, x, xs, last, rfl, hL, hlast⟩ := h
  obtain ⟨hm, -, -⟩ := hv
  simp only [List.length_cons, List.length_append, List.length_nil] at hm
  have ef : start ++ x :: (xs ++ [last]) ++ rest = start ++ x :: (xs ++ last :: rest) := by simp
  rw [ef]
  obtain ⟨hne, u, pairs, nxs, jxs, lu, lp, ln, lj, hh, hiz, haw, hnx, hjx, ms, hms⟩ := after_header hs x (xs ++ last :: rest)
  have s1 : slice (u ++ pairs ++ nxs ++ jxs ++ [x]) 2 6 = pairs := by
    have := slice_mid u pairs (nxs ++ jxs ++ [x]) 2 6 lu.symm (by simp [lu, lp])
    simpa using this
  have s2 : slice (u ++ pairs ++ nxs ++ jxs ++ [x]) 6 8 = nxs := by
    have := slice_mid (u ++ pairs) nxs (jxs ++ [x]) 6 8 (by simp [lu, lp]) (by simp [lu, lp, ln])
    simpa using this
  have hbytes : ((u ++ pairs ++ nxs ++ jxs ++ [x]).getLastD []) = x := by simp
  have hlines : ((t.xss.length : Int) + 3) / 4 = xs.length + 2 := by omega
  unfold library
  rw [readAscii, if_neg hne]
  simp only [bind, Except.bind, pure, Except.pure, hh, s1, split_join_words, hiz, haw, npInts, s2, hnx, hms, hbytes, hlines, Option.elim_some]
  have : (0 : Int) ≤ (x.length : Int) * (xs.length : Int) := by positivity
  have hseek : seekCur ((x.length : Int) * ((xs.length : Int) + 2 - 2) + 1) = .error .valueError := by
    unfold seekCur
    rw [show ((xs.length : Int) + 2 - 2) = xs.length by ring, if_neg (by omega)]
  rw [show (decide (t.name ∉ ns)) = true by simpa using hn, hseek]
  simp

/-- C74 is false for small tables too: one with four values or fewer, followed by anything, makes the reader take the whole rest of the file and try to
go back, which text files do not allow. -/
theorem C74_small_refuted (t : Table ℚ) (start : List Line) (x : Line) (hs : AsciiStart t start) (hn : 1 ≤ t.xss.length ∧ t.xss.length ≤ 4)
    (hx : x ≠ []) (l : Line) (hl : l ≠ []) (rest : List Line) : library none (start ++ x :: l :: rest) = .error .valueError := by
  obtain ⟨hne, u, pairs, nxs, jxs, lu, lp, ln, lj, hh, hiz, haw, hnx, hjx, ms, hms⟩ := after_header hs x (l :: rest)
  have s1 : slice (u ++ pairs ++ nxs ++ jxs ++ [x]) 2 6 = pairs := by
    have := slice_mid u pairs (nxs ++ jxs ++ [x]) 2 6 lu.symm (by simp [lu, lp])
    simpa using this
  have s2 : slice (u ++ pairs ++ nxs ++ jxs ++ [x]) 6 8 = nxs := by
    have := slice_mid (u ++ pairs) nxs (jxs ++ [x]) 6 8 (by simp [lu, lp]) (by simp [lu, lp, ln])
    simpa using this
  have hbytes : ((u ++ pairs ++ nxs ++ jxs ++ [x]).getLastD []) = x := by simp
  have hlines : ((t.xss.length : Int) + 3) / 4 = 1 := by omega
  have hxl : 1 ≤ x.length := List.length_pos_of_ne_nil hx
  have hll : 1 ≤ l.length := List.length_pos_of_ne_nil hl
  have hhint : readlinesHint ((x.length : Int) * (1 - 2) + 1) (l :: rest) = (l :: rest, []) := by
    unfold readlinesHint
    rw [if_pos (by omega)]
  have hall : (u ++ pairs ++ nxs ++ jxs ++ [x] ++ l :: rest).length = 14 + rest.length := by
    simp [lu, lp, ln, lj]
    omega
  have hdrop : (u ++ pairs ++ nxs ++ jxs ++ [x] ++ l :: rest).drop (12 + (1 : Int)).toNat = l :: rest := by
    apply List.drop_left'
    simp [lu, lp, ln, lj]
  have hseek : seekCur (-(((l :: rest).map List.length).sum : Int)) = .error .valueError := by
    unfold seekCur
    rw [if_neg]
    simp only [List.map_cons, List.sum_cons]
    push_cast
    have : (0 : Int) ≤ ((rest.map List.length).sum : Nat) := by positivity
    omega
  unfold library
  rw [readAscii, if_neg hne]
  simp only [bind, Except.bind, pure, Except.pure, hh, s1, split_join_words, hiz, haw, npInts, s2, hnx, hms, hbytes, hlines, Option.elim_none,
    Bool.false_eq_true, if_false, hhint, hall, hdrop]
  rw [if_pos (by push_cast; omega), if_pos (by push_cast; omega)]
  simp only [hseek]

/-- C74: the first table with a name, or the first of the file, can be had with `get_table` from a file with any number of tables; a name that is in
none of them raises `ValueError`. -/
theorem C74_get_table (ts : List (Table ℚ)) (texts : List (List Line)) (h : List.Forall₂ AsciiTable ts texts) (tail : List Line)
    (ht : strip (tail.headD []) = []) : ∃ tables, library none (texts.flatten ++ tail) = .ok tables ∧
      (∀ pre t post, ts = pre ++ t :: post → t.name ∉ pre.map (·.name) → getTable tables (some t.name) = .ok t) ∧
      (∀ t post, ts = t :: post → getTable tables none = .ok t) ∧
      ∀ n, n ∉ ts.map (·.name) → getTable tables (some n) = .error .valueError := by
  refine ⟨ts, C74_all_partial ts texts h tail ht none (by simp), ?_, ?_, ?_⟩
  · rintro pre t post rfl hn
    have : (pre ++ t :: post).find? (fun u => decide (u.name = t.name)) = some t := by
      rw [List.find?_append, List.find?_eq_none.2, Option.none_or, List.find?_cons_of_pos (by simp)]
      intro u hu
      simp only [decide_eq_true_eq]
      rintro e
      exact hn (e ▸ List.mem_map_of_mem hu)
    simp only [getTable, this]
  · rintro t post rfl
    rfl
  · intro n hn
    have : ts.find? (fun u => decide (u.name = n)) = none := by
      rw [List.find?_eq_none]
      intro u hu
      simp only [decide_eq_true_eq]
      rintro rfl
      exact hn (List.mem_map_of_mem hu)
    simp only [getTable, this]

theorem convert_blank {pf : Line → Except PyErr Bits} {ts : List (Table Bits)} {texts : List (List Line)} (h : List.Forall₂ (TableText pf) ts texts)
    (l : Line) (hl : split l = []) (rest : List Line) :
    ∀ k, ts.length + 1 ≤ k → asciiToBinary pf k (texts.flatten ++ l :: rest) = .error .indexError := by
  induction h with
  | nil =>
    intro k hk
    obtain ⟨k, rfl⟩ : ∃ k', k = k' + 1 := ⟨k - 1, by simp at hk; omega⟩
    rw [List.flatten_nil, List.nil_append, asciiToBinary, if_neg (by simp)]
    simp [skipHeader, hl, bind, Except.bind]
  | @cons t ls ts texts ht _ ih =>
    intro k hk
    obtain ⟨k, rfl⟩ : ∃ k', k = k' + 1 := ⟨k - 1, by simp at hk; omega⟩
    have hb := ih k (by simpa using hk)
    obtain ⟨hne, body, hs, hbody⟩ := skipHeader_text ht (texts.flatten ++ l :: rest)
    obtain ⟨bs, hc, hL⟩ := convertTable_body hbody (texts.flatten ++ l :: rest)
    rw [List.flatten_cons, List.append_assoc, asciiToBinary, if_neg (by simp)]
    simp only [bind, Except.bind, pure, Except.pure, hs, hc, hb]

/-- C75, the part that holds: a file of any number of tables, with nothing behind them, is converted, and all tables are in the binary file. What is
missing is a blank line at the end. -/
theorem C75_no_blank_partial (pf : Line → Except PyErr Bits) (ts : List (Table Bits)) (texts : List (List Line)) (h : List.Forall₂ (TableText pf) ts texts) :
    ∃ file, binaryOf pf texts.flatten = .ok file ∧ libraryBinary none file = .ok ts := by
  obtain ⟨file, h1, _, h2, _⟩ := C59_round_trip pf ts texts h
  exact ⟨file, h1, h2⟩

/-- C75 is false: a file of any number of tables followed by a blank line, which the reader takes for the end of the file
(`C74_all_partial`), cannot be converted: `IndexError`. -/
theorem C75_blank_refuted (pf : Line → Except PyErr Bits) (ts : List (Table Bits)) (texts : List (List Line)) (h : List.Forall₂ (TableText pf) ts texts)
    (l : Line) (hl : split l = []) (rest : List Line) : binaryOf pf (texts.flatten ++ l :: rest) = .error .indexError := by
  refine convert_blank h l hl rest _ ?_
  induction h with
  | nil => simp
  | cons h1 _ ih =>
    have := body_pos h1
    simp only [List.length_cons, List.flatten_cons, List.length_append] at ih ⊢
    omega

/-! ### A small file -/

theorem reads_of_mapE {α : Type} {f : Line → Except PyErr α} : ∀ {ws : List Line} {vs : List α}, mapE f ws = .ok vs → Reads f ws vs
  | [], vs, h => by
    simp only [mapE, Except.ok.injEq] at h
    subst h
    exact .nil
  | w :: ws, vs, h => by
    rw [mapE] at h
    cases e : f w with
    | error x => rw [e] at h; simp at h
    | ok v =>
      rw [e] at h
      simp only at h
      cases e' : mapE f ws with
      | error x => rw [e'] at h; simp at h
      | ok vs' =>
        rw [e'] at h
        simp only [Except.ok.injEq] at h
        subst h
        exact .cons e (reads_of_mapE e')

/-- The lines of a table with six values. -/
def smallStart : List Line :=
  ["  1001.80c    0.999167  2.5301E-08   12/20/12\n".toList, "H1 ENDF71x (jlconlin)  Ref. see jlconlin (ref 09/10/2012  10:00:53)    mat 125\n".toList] ++
  ["   1001 0.999167      0   0.0       0   0.0       0   0.0\n".toList] ++
  List.replicate 3 "      0   0.0         0   0.0       0   0.0       0   0.0\n".toList ++
  ["        6     1001        0        0        0        0        0        0\n".toList,
   "        0        0        0        0        0        0        0        0\n".toList] ++
  ["        1        0        0        0        0        0        0        0\n".toList] ++
  List.replicate 3 "        0        0        0        0        0        0        0        0\n".toList

def smallXss : List Line :=
  ["  1.00000000000E-11  1.03125000000E-11  1.06250000000E-11  1.09375000000E-11\n".toList,
   "  20.0000000000E+00  -2.5000000000E-01\n".toList]

def small (F : Type) (f : ℚ → F) : Table F :=
  ⟨"1001.80c".toList, f (999167 / 1000000), f (25301 / 1000000000000), (1001, f (999167 / 1000000)) :: List.replicate 15 (0, f 0),
    [6, 1001] ++ List.replicate 14 0, 1 :: List.replicate 31 0,
    [f (1 / 100000000000), f (103125 / 10000000000000000), f (10625 / 1000000000000000), f (109375 / 10000000000000000), f 20, f (-1 / 4)]⟩

/-- The pairs of words of some lines. -/
def wordPairs (ls : List Line) : List (Line × Line) := (evens (words ls)).zip (odds (words ls))

/-- The hypotheses of C74 are met. -/
theorem small_ascii : AsciiTable (small ℚ id) (smallStart ++ smallXss) := by
  refine ⟨smallStart, smallXss, rfl, ⟨smallStart[0]'(by decide), smallStart[1]'(by decide), [], slice smallStart 2 6, slice smallStart 6 8, slice smallStart 8 12,
    by decide +kernel, .inl ⟨rfl, '1', '0', "01.80c".toList, "0.999167".toList, "2.5301E-08".toList, ["12/20/12".toList], by decide +kernel, by decide,
    by decide +kernel, by decide +kernel, by decide +kernel⟩, by decide, by decide, by decide,
    ⟨wordPairs (slice smallStart 2 6), by decide +kernel, reads_of_mapE (by decide +kernel), reads_of_mapE (by decide +kernel)⟩,
    reads_of_mapE (by decide +kernel), reads_of_mapE (by decide +kernel), by decide +kernel⟩,
    ⟨by decide +kernel, by decide +kernel, ?_⟩, ?_⟩
  · have e : words smallXss = ["1.00000000000E-11".toList, "1.03125000000E-11".toList, "1.06250000000E-11".toList, "1.09375000000E-11".toList,
      "20.0000000000E+00".toList, "-2.5000000000E-01".toList] := by decide +kernel
    rw [e]
    exact .cons (by decide +kernel) (.cons (by decide +kernel) (.cons (by decide +kernel) (.cons (by decide +kernel) (.cons (by decide +kernel)
      (.cons (by decide +kernel) .nil)))))
  · exact ⟨smallXss[0]'(by decide), [], smallXss[1]'(by decide), rfl, by simp, by decide⟩

/-- Some numbering of the values as bits, and `float` for it. -/
def someBits (q : ℚ) : Bits := Fin.ofNat _ (q.num.natAbs * 2 ^ 20 + q.den)
def somePf (w : Line) : Except PyErr Bits := (Endf.pyFloat w).map someBits

/-- The hypotheses of C59 are met. -/
theorem small_text : TableText somePf (small Bits someBits) (smallStart ++ smallXss) := by
  refine .inl ⟨⟨smallStart[0]'(by decide), smallStart[1]'(by decide), slice smallStart 2 6, slice smallStart 6 8, slice smallStart 8 12, smallXss,
    by decide +kernel, ⟨⟨'1', '0', "01.80c".toList, ["0.999167".toList, "2.5301E-08".toList, "12/20/12".toList], by decide +kernel, by decide⟩,
    "  1001.80c".toList, "    0.999167".toList, "  2.5301E-08".toList, "   12/20/12\n".toList, by decide +kernel, rfl, rfl, rfl, by decide +kernel,
    by decide +kernel, by decide +kernel, by decide +kernel⟩, by decide, by decide, by decide, by decide +kernel,
    ⟨wordPairs (slice smallStart 2 6), by decide +kernel, reads_of_mapE (by decide +kernel), reads_of_mapE (by decide +kernel)⟩,
    reads_of_mapE (by decide +kernel), reads_of_mapE (by decide +kernel), reads_of_mapE (by decide +kernel)⟩,
    ⟨by decide +kernel, by unfold Int32s; decide +kernel⟩, ⟨by decide +kernel, by unfold Int32s; decide +kernel⟩,
    ⟨by decide +kernel, by unfold Int32s; decide +kernel⟩, by decide +kernel⟩

end ASAPy.AceData
