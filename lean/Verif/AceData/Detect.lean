import Verif.AceData.AsciiProps
import Verif.AceData.BinaryProps

/-!
# C221: `Library` chooses the reader by the first ten lines (ASAPy/data/ace.py 219-248)
-/

namespace ASAPy.AceData
open ASAPy.Str ASAPy.Dec ASAPy.Boxer
open ASAPy.Endf (Line pyInt strip readline)

/-! ### Model -/

/-- Line 232: `b''.join([fh.readline() for i in range(n)])`. -/
def takeLines : Nat → List Byte → List Byte
  | 0, _ => []
  | _ + 1, [] => []
  | n + 1, b :: bs => b :: if b.val = 10 then takeLines n bs else takeLines (n + 1) bs

/-- The lines of a text file, with their newlines. Carriage returns, which Python takes for newlines, are not modelled. -/
def textLines : List Char → List Line
  | [] => []
  | c :: cs => if c = '\n' then ['\n'] :: textLines cs else match textLines cs with
    | [] => [[c]]
    | l :: ls => (c :: l) :: ls

/-- The tables of a library, from an ASCII or a binary file. -/
inductive Tables
  | ascii (ts : List (Table ℚ))
  | binary (ts : List (Table Bits))

/-- Lines 219-248: `Library(filename, table_names).tables` for the bytes of a file. `dec` is the decoding of text files by the locale; `none` if it raises a `UnicodeDecodeError`, which is caught with that of line 235.
Simplified: the text is decoded as a whole, so that no tables have been read before the error. -/
def openLibrary (dec : List Byte → Option Line) (names : Option (List Line)) (file : List Byte) : Except PyErr Tables :=
  if (takeLines 10 file).all fun b => decide (b.val < 128) then match dec file with
    | some text => (library names (textLines text)).map .ascii
    | none => (libraryBinary names file).map .binary
  else (libraryBinary names file).map .binary

/-! ### Specification -/

/-- A decoding as all locales have it: ASCII text is read as it is. -/
def AsciiCompatible (dec : List Byte → Option Line) : Prop := ∀ text : Line, (∀ c ∈ text, c.toNat < 128) → dec (encode text) = some text

/-- A line of ASCII text, with its newline. -/
def TextLine (l : Line) : Prop := (∃ s, l = s ++ ['\n'] ∧ '\n' ∉ s) ∧ ∀ c ∈ l, c.toNat < 128

/-! ### Proofs -/

theorem textLines_line (s : Line) (h : '\n' ∉ s) (rest : List Char) : textLines (s ++ '\n' :: rest) = (s ++ ['\n']) :: textLines rest := by
  induction s with
  | nil => simp [textLines]
  | cons c s ih =>
    simp only [List.mem_cons, not_or] at h
    rw [List.cons_append, textLines, if_neg (Ne.symm h.1), ih h.2]
    rfl

theorem textLines_flatten (ls : List Line) (h : ∀ l ∈ ls, TextLine l) : textLines ls.flatten = ls := by
  induction ls with
  | nil => rfl
  | cons l ls ih =>
    obtain ⟨⟨s, rfl, hs⟩, -⟩ := h l (by simp)
    rw [List.flatten_cons, List.append_assoc, List.singleton_append, textLines_line s hs, ih fun x hx => h x (by simp [hx])]

theorem takeLines_subset (n : Nat) (bs : List Byte) : ∀ b ∈ takeLines n bs, b ∈ bs := by
  induction bs generalizing n with
  | nil => cases n <;> simp [takeLines]
  | cons a bs ih =>
    cases n with
    | zero => simp [takeLines]
    | succ n =>
      intro b hb
      rw [takeLines] at hb
      rcases List.mem_cons.1 hb with rfl | hb
      · simp
      · split_ifs at hb
        · exact List.mem_cons_of_mem _ (ih _ _ hb)
        · exact List.mem_cons_of_mem _ (ih _ _ hb)

theorem encode_low {text : Line} (h : ∀ c ∈ text, c.toNat < 128) : ∀ b ∈ encode text, b.val < 128 := by
  intro b hb
  obtain ⟨c, hc, rfl⟩ := List.mem_map.1 hb
  have := h c hc
  simp only
  omega

/-- The beginning of a file is in its first lines if it has fewer newlines. -/
theorem takeLines_prefix (n : Nat) (a bs : List Byte) (h : (a.filter fun b => decide (b.val = 10)).length < n) : a <+: takeLines n (a ++ bs) := by
  induction a generalizing n with
  | nil => simp
  | cons b a ih =>
    obtain ⟨n, rfl⟩ : ∃ m, n = m + 1 := ⟨n - 1, by omega⟩
    rw [List.cons_append, takeLines]
    refine List.prefix_cons_inj b |>.2 ?_
    by_cases hb : b.val = 10
    · rw [if_pos hb]
      refine ih n ?_
      simp only [List.filter_cons, hb, decide_true, if_true, List.length_cons] at h
      omega
    · rw [if_neg hb]
      refine ih (n + 1) ?_
      simpa [List.filter_cons, hb] using h

/-- **C221, ASCII files:** they are read by the reader of ASCII files, with the tables of C74. -/
theorem C221_ascii {dec : List Byte → Option Line} (hdec : AsciiCompatible dec) (ts : List (Table ℚ)) (texts : List (List Line)) (h : List.Forall₂ AsciiTable ts texts) (tail : List Line)
    (ht : strip (tail.headD []) = []) (names : Option (List Line)) (hn : ∀ ns, names = some ns → ∀ t ∈ ts, t.name ∈ ns) (hl : ∀ l ∈ texts.flatten ++ tail, TextLine l) :
    ∃ tables, openLibrary dec names (encode (texts.flatten ++ tail).flatten) = .ok (.ascii tables) ∧ tables = ts := by
  have hlow : ∀ c ∈ (texts.flatten ++ tail).flatten, c.toNat < 128 := by
    intro c hc
    obtain ⟨l, h1, h2⟩ := List.mem_flatten.1 hc
    exact (hl l h1).2 c h2
  refine ⟨ts, ?_, rfl⟩
  unfold openLibrary
  rw [if_pos (List.all_eq_true.2 fun b hb => by simpa using encode_low hlow b (takeLines_subset _ _ b hb)), hdec _ hlow]
  simp only
  rw [textLines_flatten _ hl, C74_all_partial ts texts h tail ht names hn]
  rfl

/-- **C221, binary files:** a file whose name field has no newline and whose atomic weight ratio has a byte that is not ASCII is read by the reader of binary files. -/
theorem C221_binary (dec : List Byte → Option Line) (names : Option (List Line)) (name awr rest : List Byte) (hn : ∀ b ∈ name, b.val ≠ 10) (ha : awr.length = 8) (hb : ∃ b ∈ awr, 128 ≤ b.val) :
    openLibrary dec names (name ++ awr ++ rest) = (libraryBinary names (name ++ awr ++ rest)).map .binary := by
  have hp := takeLines_prefix 10 (name ++ awr) rest (by
    rw [List.filter_append, List.filter_eq_nil_iff.2 (by simpa using hn), List.nil_append]
    have := List.length_filter_le (fun b : Byte => decide (b.val = 10)) awr
    omega)
  obtain ⟨b, hm, hb⟩ := hb
  unfold openLibrary
  rw [if_neg]
  intro hall
  have := List.all_eq_true.1 hall b (hp.subset (List.mem_append_right _ hm))
  simp only [decide_eq_true_eq] at this
  omega

/-- The bytes of a converted table begin with the name and the atomic weight ratio. -/
theorem convertTable_head {pf : Line → Except PyErr Bits} {l0 : Line} {ls rest : List Line} {bs : List Byte} {x : Bits} (hx : pf (Endf.col l0 10 22) = .ok x) (h : convertTable pf (l0 :: ls) = .ok (bs, rest)) :
    ∃ more, bs = packS 10 (encode (Endf.col l0 0 10)) ++ packD x ++ more := by
  cases ls with
  | nil => cases h
  | cons l1 ls =>
    unfold convertTable at h
    simp only [hx, bind, Except.bind, pure, Except.pure] at h
    repeat' split at h
    all_goals first | cases h; exact ⟨_, by simp only [List.append_assoc]; rfl⟩ | cases h

/-- **C221, converted files:** what `ascii_to_binary` makes of a file is read by the reader of binary files, with the tables of C59, if the atomic weight ratio of the first table has a byte that is not ASCII. -/
theorem C221_converted_partial (dec : List Byte → Option Line) (pf : Line → Except PyErr Bits) (t : Table Bits) (ts : List (Table Bits)) (texts : List (List Line)) (h : List.Forall₂ (TableText pf) (t :: ts) texts)
    (hl : ∀ l ∈ texts.flatten, TextLine l) (hb : ∃ b ∈ packD t.awr, 128 ≤ b.val) :
    ∃ file, binaryOf pf texts.flatten = .ok file ∧ openLibrary dec none file = .ok (.binary (t :: ts)) ∧
      ∀ names, openLibrary dec (some names) file = .ok (.binary ((t :: ts).filter fun t => decide (t.name ∈ names))) := by
  obtain ⟨file, h1, -, h2, h3⟩ := C59_round_trip pf (t :: ts) texts h
  have hfile : ∃ (name : List Byte) (rest : List Byte), (∀ b ∈ name, b.val ≠ 10) ∧ file = name ++ packD t.awr ++ rest := by
    cases h with
    | @cons _ text _ texts ht _ =>
      obtain ⟨hne, body, hs, hbody⟩ := skipHeader_text ht texts.flatten
      have hmem : ∀ l ∈ body, l ∈ (text :: texts).flatten := by
        intro l hm
        rw [List.flatten_cons]
        refine List.mem_append_left _ ?_
        rcases ht with hB | ⟨h0, h1, h2, body', rfl, hb', hw, h3⟩
        · obtain ⟨l0, l1, pairs, nxs, jxs, xss, e, ⟨⟨c, c', w, ws, hw, hc⟩, -⟩, -⟩ := hB.lines
          rw [e] at hs
          simp only [List.cons_append, skipHeader, hw] at hs
          have := List.append_cancel_right (show (l0 :: l1 :: (pairs ++ nxs ++ jxs ++ xss)) ++ texts.flatten = body ++ texts.flatten from Except.ok.inj hs)
          rw [e, this]
          exact hm
        · obtain ⟨c, w, ws, hw⟩ := hw
          simp only [List.cons_append, skipHeader, hw, h3, if_true, List.drop_succ_cons, List.drop_zero] at hs
          rw [List.append_cancel_right (Except.ok.inj hs)]
          simp [hm]
      obtain ⟨bs, hc, -⟩ := convertTable_body hbody texts.flatten
      obtain ⟨l0, l1, pairs, nxs, jxs, xss, e, ⟨-, name, awr, temp, tail, el, n1, n2, n3, hascii, hname, hawr, htemp⟩, -⟩ := hbody.lines
      have e0 : Endf.col l0 0 10 = name := by
        rw [el]
        have := slice_mid [] name (awr ++ temp ++ tail) 0 10 rfl (by simp [n1])
        simpa [Endf.col] using this
      have e1 : Endf.col l0 10 22 = awr := by
        rw [el]
        have := slice_mid name awr (temp ++ tail) 10 22 (by simp [n1]) (by simp [n1, n2])
        simpa [Endf.col] using this
      rw [e, List.cons_append] at hc
      obtain ⟨more, hbs⟩ := convertTable_head (by rw [e1]; exact hawr) hc
      have hfl : ∃ r, file = bs ++ r := by
        unfold binaryOf at h1
        obtain ⟨k, hk⟩ : ∃ k, (text :: texts).flatten.length = k + 1 := by
          have := body_pos ht
          exact ⟨(text :: texts).flatten.length - 1, by simp only [List.flatten_cons, List.length_append]; omega⟩
        rw [hk, List.flatten_cons, asciiToBinary, if_neg (by simp [hne])] at h1
        rw [e, List.cons_append] at hs
        simp only [bind, Except.bind, pure, Except.pure, hs, hc] at h1
        split at h1
        · cases h1
        · exact ⟨_, (Except.ok.inj h1).symm⟩
      obtain ⟨r, rfl⟩ := hfl
      refine ⟨packS 10 (encode name), more ++ r, ?_, by rw [hbs, e0]; simp⟩
      have hnl : '\n' ∉ name := by
        obtain ⟨⟨s, hs', hns⟩, -⟩ := hl l0 (hmem l0 (by rw [e]; simp))
        rw [el] at hs'
        have hp : name <+: s ++ ['\n'] := by rw [← hs', List.append_assoc, List.append_assoc]; exact List.prefix_append ..
        have hlen := congrArg List.length hs'
        simp only [List.length_append, List.length_singleton, n1, n2, n3] at hlen
        have hp2 : name <+: s := List.prefix_of_prefix_length_le hp (List.prefix_append ..) (by omega)
        exact fun hm => hns (hp2.subset hm)
      intro b hb
      have hlen : (encode name).length = 10 := by simp [encode, n1]
      rw [packS, hlen, Nat.sub_self, List.replicate_zero, List.append_nil, List.take_of_length_le (by omega)] at hb
      obtain ⟨c, hcm, rfl⟩ := List.mem_map.1 hb
      have h128 := hascii c hcm
      simp only
      rw [Nat.mod_eq_of_lt (by omega)]
      intro h10
      exact hnl (by
        have : c = '\n' := by
          apply Char.ext
          apply UInt32.toNat_inj.1
          exact h10
        rwa [this] at hcm)
  obtain ⟨name, rest, hn, rfl⟩ := hfile
  have hp8 : (packD t.awr).length = 8 := leBytes_length _ _
  refine ⟨_, h1, ?_, fun names => ?_⟩
  · rw [C221_binary dec none name (packD t.awr) rest hn hp8 hb, h2]; rfl
  · rw [C221_binary dec (some names) name (packD t.awr) rest hn hp8 hb, h3]; rfl

/-- Behind the first line there are only empty ones. -/
theorem shift_blank (n : Nat) (lines : List Line) (h : ∀ l ∈ lines.tail, l = []) : ∀ l ∈ (shift n lines []).1.tail, l = [] := by
  induction n generalizing lines with
  | zero => exact h
  | succ n ih =>
    rw [shift]
    have hr : readline ([] : List Line) = ([], []) := rfl
    rw [hr]
    refine ih _ fun l hl => ?_
    have : l ∈ lines.tail ++ [[]] := List.mem_of_mem_tail hl
    rcases List.mem_append.1 this with h1 | h1
    · exact h l h1
    · simpa using h1

theorem asciiHeader_blank {lines lines' f' : List Line} {name : Line} {a t : ℚ} (h : ∀ l ∈ lines.tail, l = []) (e : asciiHeader lines [] = .ok (name, a, t, lines', f')) : ∀ l ∈ lines'.tail, l = [] := by
  have h1 : split (lines.tail.headD []) = [] := by
    cases ht : lines.tail with
    | nil => rfl
    | cons l ls => rw [List.headD_cons, h l (by rw [ht]; simp)]; rfl
  unfold asciiHeader at e
  simp only [h1, bind, Except.bind, pure, Except.pure] at e
  repeat' split at e
  all_goals first
    | (cases e; done)
    | (simp only [Except.ok.injEq, Prod.mk.injEq] at e
       obtain ⟨-, -, -, rfl, -⟩ := e
       exact h)

theorem join_blank {ls : List Line} (h : ∀ l ∈ ls, l = []) : split (join ls) = [] := by
  rw [split_join_words, words, List.flatMap_eq_nil_iff]
  intro l hl
  rw [h l hl]
  rfl

theorem library_line (l : Line) (hl : strip l ≠ []) : ∃ e, library none [l] = .error e := by
  have hr : readLines 13 [l] = (l :: List.replicate 12 [], []) := rfl
  unfold library
  rw [hr]
  rw [readAscii, if_neg (by simpa using hl)]
  cases ha : asciiHeader (l :: List.replicate 12 []) [] with
  | error e => exact ⟨e, rfl⟩
  | ok r =>
    obtain ⟨name, a, t, lines, f⟩ := r
    have hb := asciiHeader_blank (lines := l :: List.replicate 12 []) (fun x hx => List.eq_of_mem_replicate hx) ha
    have hs : ∀ i j, 1 ≤ i → ∀ x ∈ slice lines i j, x = [] := by
      intro i j hi x hx
      obtain ⟨k, hk⟩ := List.mem_iff_getElem?.1 hx
      rw [slice, List.getElem?_drop, List.getElem?_take] at hk
      split_ifs at hk
      refine hb x (List.mem_iff_getElem?.2 ⟨i + k - 1, ?_⟩)
      rw [List.getElem?_tail, show i + k - 1 + 1 = i + k by omega]
      exact hk
    have h1 : split (join (slice lines 2 6)) = [] := join_blank (hs 2 6 (by decide))
    have h2 : npInts (join (slice lines 6 8)) = [] := by rw [npInts, join_blank (hs 6 8 (by decide))]; rfl
    simp only [bind, Except.bind, h1, h2]
    exact ⟨_, rfl⟩

/-- **C221 as stated is false:** a file without newlines whose bytes are all ASCII is never read by the reader of binary files, and an exception is raised. -/
theorem C221_plain_refuted {dec : List Byte → Option Line} (hdec : AsciiCompatible dec) (text : Line) (h : ∀ c ∈ text, c.toNat < 128 ∧ c ≠ '\n') (hs : strip text ≠ []) :
    ∃ e, openLibrary dec none (encode text) = .error e := by
  have hlow : ∀ c ∈ text, c.toNat < 128 := fun c hc => (h c hc).1
  have hne : text ≠ [] := by rintro rfl; exact hs rfl
  have hl : ∀ t : Line, t ≠ [] → '\n' ∉ t → textLines t = [t] := by
    intro t
    induction t with
    | nil => exact fun h => absurd rfl h
    | cons c t ih =>
      intro _ hn
      simp only [List.mem_cons, not_or] at hn
      rw [textLines, if_neg (Ne.symm hn.1)]
      cases t with
      | nil => rfl
      | cons d t => rw [ih (by simp) hn.2]
  unfold openLibrary
  rw [if_pos (List.all_eq_true.2 fun b hb => by simpa using encode_low hlow b (takeLines_subset _ _ b hb)), hdec _ hlow]
  simp only
  rw [hl text hne fun hm => (h _ hm).2 rfl]
  obtain ⟨e, he⟩ := library_line text hs
  exact ⟨e, by rw [he]; rfl⟩

/-- The bytes of ASCII text, and nothing else. -/
def asciiDec (bs : List Byte) : Option Line := (decode bs).toOption

theorem asciiDec_compatible : AsciiCompatible asciiDec := by
  intro text h
  have h1 : (encode text).all (fun b => decide (b.val < 128)) = true := List.all_eq_true.2 fun b hb => by simpa using encode_low h b hb
  unfold asciiDec decode
  rw [if_pos h1]
  show some _ = some _
  congr 1
  unfold encode
  rw [List.map_map]
  refine (List.map_congr_left fun c hc => ?_).trans (List.map_id _)
  have := h c hc
  show Char.ofNat (c.toNat % 256) = c
  rw [Nat.mod_eq_of_lt (by omega), Char.ofNat_toNat]

theorem small_lines : ∀ l ∈ smallStart ++ smallXss, TextLine l := by
  have h : ∀ l ∈ smallStart ++ smallXss, l = l.dropLast ++ ['\n'] ∧ '\n' ∉ l.dropLast ∧ ∀ c ∈ l, c.toNat < 128 := by decide +kernel
  exact fun l hl => ⟨⟨l.dropLast, (h l hl).1, (h l hl).2.1⟩, (h l hl).2.2⟩

/-- C221 applies to an ASCII file and to the binary file made from it. -/
example : openLibrary asciiDec none (encode (smallStart ++ smallXss).flatten) = .ok (.ascii [small ℚ id]) ∧
    ∃ file, binaryOf somePf (smallStart ++ smallXss) = .ok file ∧ openLibrary asciiDec none file = .ok (.binary [small Bits someBits]) := by
  constructor
  · obtain ⟨ts, h1, rfl⟩ := C221_ascii asciiDec_compatible [small ℚ id] [smallStart ++ smallXss] (.cons small_ascii .nil) [] rfl none (by simp) (by simpa using small_lines)
    simpa using h1
  · obtain ⟨file, h1, h2, -⟩ := C221_converted_partial asciiDec somePf (small Bits someBits) [] [smallStart ++ smallXss] (.cons small_text .nil) (by simpa using small_lines) (by decide +kernel)
    exact ⟨file, by simpa using h1, h2⟩

theorem toNat_ofNat_low {n : Nat} (h : n < 128) : (Char.ofNat n).toNat = n := by
  have : ∀ n < 128, (Char.ofNat n).toNat = n := by decide
  exact this n h

/-- The same for the bytes of a file. -/
theorem plain_bytes {dec : List Byte → Option Line} (hdec : AsciiCompatible dec) (file : List Byte) (h : (file.all fun b => decide (b.val < 128) && decide (b.val ≠ 10)) = true)
    (hs : strip (file.map fun b => Char.ofNat b.val) ≠ []) : ∃ e, openLibrary dec none file = .error e := by
  have hb : ∀ b ∈ file, b.val < 128 ∧ b.val ≠ 10 := fun b hm => by simpa using List.all_eq_true.1 h b hm
  have he : encode (file.map fun b => Char.ofNat b.val) = file := by
    unfold encode
    rw [List.map_map]
    refine (List.map_congr_left fun b hm => ?_).trans (List.map_id _)
    apply Fin.ext
    simp only [Function.comp_apply, id_eq, toNat_ofNat_low (hb b hm).1]
    exact Nat.mod_eq_of_lt b.isLt
  have := C221_plain_refuted hdec (file.map fun b => Char.ofNat b.val) (fun c hc => ?_) hs
  · rwa [he] at this
  · obtain ⟨b, hm, rfl⟩ := List.mem_map.1 hc
    refine ⟨by rw [toNat_ofNat_low (hb b hm).1]; exact (hb b hm).1, fun h => (hb b hm).2 ?_⟩
    rw [← toNat_ofNat_low (hb b hm).1, h]
    rfl

/-- The text of a table of U-235 with the atomic weight ratio 233. -/
def plainLines : List Line :=
  [" 92235.00c       233.0         0.0   01/01/01\n".toList, "U235".toList ++ List.replicate 76 ' ' ++ ['\n']] ++ List.replicate 4 "      0   0.0         0   0.0       0   0.0       0   0.0\n".toList ++
  ["        6    92235        0        0        0        0        0        0\n".toList, "        0        0        0        0        0        0        0        0\n".toList] ++
  ["        1        0        0        0        0        0        0        0\n".toList] ++ List.replicate 3 "        0        0        0        0        0        0        0        0\n".toList ++
  ["  2.0  2.0  2.0  2.0\n".toList, "  2.0  2.0\n".toList]

/-- `float` for 0, 2 and 233. -/
def plainPf (w : Line) : Except PyErr Bits := (Endf.pyFloat w).map fun q => if q = 0 then 0 else if q = 2 then 0x4000000000000000 else 0x406D200000000000

/-- The binary file made from it. -/
def plainFile : List Byte := ((binaryOf plainPf plainLines).toOption).getD []

/-- `C221_plain_refuted` applies to a file that `ascii_to_binary` writes: the reader of binary files finds the table in it, but `Library` raises an exception. -/
example : binaryOf plainPf plainLines = .ok plainFile ∧ (∃ t, libraryBinary none plainFile = .ok [t]) ∧ ∃ e, openLibrary asciiDec none plainFile = .error e := by
  have h0 : (binaryOf plainPf plainLines).toOption.isSome = true := by decide +kernel
  have h1 : (libraryBinary none plainFile).toOption.elim false (fun ts => ts.length == 1) = true := by decide +kernel
  have h2 : (plainFile.all fun b => decide (b.val < 128) && decide (b.val ≠ 10)) = true := by decide +kernel
  have h3 : decide (strip (plainFile.map fun b => Char.ofNat b.val) ≠ []) = true := by decide +kernel
  refine ⟨?_, ?_, ?_⟩
  · unfold plainFile
    cases h : binaryOf plainPf plainLines with
    | error e => rw [h] at h0; cases h0
    | ok f => rfl
  · cases h : libraryBinary none plainFile with
    | error e => rw [h] at h1; cases h1
    | ok ts =>
      rw [h] at h1
      obtain ⟨t, rfl⟩ := List.length_eq_one_iff.1 (by simpa [Except.toOption] using h1 : ts.length = 1)
      exact ⟨t, rfl⟩
  · exact plain_bytes asciiDec_compatible plainFile h2 (of_decide_eq_true h3)

end ASAPy.AceData
