import Verif.Files.Chain

/-!
# The chain NJOY, boxer2mat without a temporary directory, as the main program of EndfToCov runs it (EndfToCov.py 539-543)

Everything happens in the output directory: NJOY reads and leaves its tapes there, the copies of the tapes, `fort.20`, `fort.21` and the matrix files are there.
-/

namespace ASAPy.Files

/-! ### Specification -/

/-- NJOY makes of its commands and of tape 20 the tapes `tapesOf`; tapes it does not make, and `fort.21`, it does not touch. It may do anything else in its directory. -/
structure NjoyMakes (njoy : Prog) (tapesOf : Text → Text → Nat → Option Text) : Prop where
  makes : ∀ c d fs e n t, fs (join d (tape 20)) = some e → tapesOf c e n = some t → (njoy c d fs).1 (join d (tape n)) = some t
  leaves : ∀ c d fs e n, fs (join d (tape 20)) = some e → tapesOf c e n = none → (njoy c d fs).1 (join d (tape n)) = fs (join d (tape n))
  noFort : ∀ c d fs, (njoy c d fs).1 (join d c!"fort.21") = fs (join d c!"fort.21")

/-- boxer2mat writes what it makes of its commands and of `fort.20` to `fort.21`, and changes no other file. -/
structure BoxerMakes (boxer : Prog) (matrixOf : Text → Text → Option Text) : Prop where
  writes : ∀ c d fs t m, fs (join d c!"fort.20") = some t → matrixOf c t = some m → (boxer c d fs).1 (join d c!"fort.21") = some m
  leaves : ∀ c d fs t, fs (join d c!"fort.20") = some t → matrixOf c t = none → (boxer c d fs).1 (join d c!"fort.21") = fs (join d c!"fort.21")
  only : ∀ c d fs t p, fs (join d c!"fort.20") = some t → p ≠ join d c!"fort.21" → (boxer c d fs).1 p = fs p

/-- No tapes and no `fort.21` of an earlier run in the directory. -/
def Clean (out : Path) (fs : FS) : Prop := fs (join out c!"fort.21") = none ∧ ∀ n, fs (join out (tape n)) = none

/-- A name that is not a tape or `fort.21`. -/
def Harmless (f : Path) : Prop := '/' ∉ f ∧ f ≠ c!"fort.21" ∧ ∀ n, f ≠ tape n

/-! ### Lemmas -/

theorem Harmless.ne_tape {f : Path} (h : Harmless f) (d : Path) (n : Nat) : join d (tape n) ≠ join d f := fun e => h.2.2 n (join_inj (tape_slash n) h.1 e).2.symm

theorem Harmless.ne_fort {f : Path} (h : Harmless f) (d : Path) : join d c!"fort.21" ≠ join d f := fun e => h.2.1 (join_inj (by decide) h.1 e).2.symm

theorem last_tape (n : Nat) : ∃ c, (tape n).getLast? = some c ∧ Dec.isDigit c = true := by
  have hne : Dec.natStr n ≠ [] := Dec.natStr_ne_nil n
  refine ⟨(Dec.natStr n).getLast hne, ?_, Dec.natStr_digits n _ (List.getLast_mem hne)⟩
  unfold tape
  rw [List.getLast?_append_of_ne_nil _ hne, List.getLast?_eq_some_getLast hne]

/-- Names that end in `.txt` are harmless. -/
theorem harmless_txt {f : Path} (h : '/' ∉ f) (hl : f.getLast? = some 't') : Harmless f := by
  refine ⟨h, ?_, fun n e => ?_⟩
  · rintro rfl
    exact absurd hl (by decide)
  · obtain ⟨c, h1, h2⟩ := last_tape n
    rw [e, h1] at hl
    obtain rfl := Option.some.inj hl
    exact absurd h2 (by decide)

theorem harmless_matrix {f : Path} (h : '/' ∉ f) (mt : Nat) : Harmless (matrixName f mt) := by
  refine harmless_txt (matrixName_slash h mt) ?_
  unfold matrixName
  rw [List.getLast?_append_of_ne_nil _ (by decide)]
  decide

theorem harmless_boxer {f : Path} (h : '/' ∉ f) : Harmless (f ++ c!"boxer.txt") := by
  refine harmless_txt (boxerName_slash h) ?_
  rw [List.getLast?_append_of_ne_nil _ (by decide)]
  decide

variable {boxer njoy : Prog} {matrixOf : Text → Text → Option Text} {bc : Nat → Text} {tmp out inputFile : Path}

/-- One matrix. -/
theorem matrix_here (hb : BoxerMakes boxer matrixOf) (hi : '/' ∉ inputFile) {e : (Nat × Path) × Nat} (he : '/' ∉ e.1.2) {h : FS} (hf : h (join out c!"fort.21") = none)
    (hr : (matrix boxer bc out out inputFile e h).2 = none) :
    (∃ t m, h (join out (tape e.1.1)) = some t ∧ matrixOf (bc (if e.2 = 1018 then 18 else e.2)) t = some m ∧
      (matrix boxer bc out out inputFile e h).1 (join out (matrixName e.1.2 e.2)) = some m) ∧
    (matrix boxer bc out out inputFile e h).1 (join out c!"fort.21") = none ∧
    (∀ n, (matrix boxer bc out out inputFile e h).1 (join out (tape n)) = h (join out (tape n))) ∧
    (∀ p, p ≠ join out c!"fort.20" → p ≠ join out c!"fort.21" → p ≠ join out (inputFile ++ c!"boxer.txt") → p ≠ join out (matrixName e.1.2 e.2) →
      (matrix boxer bc out out inputFile e h).1 p = h p) := by
  have hm0 := harmless_matrix he e.2
  have hb0 := harmless_boxer hi
  unfold matrix at hr ⊢
  generalize hc : bc (if e.2 = 1018 then 18 else e.2) = c at hr ⊢
  obtain ⟨h1, h2, e1⟩ := andThen_ok hr
  obtain ⟨h3, h4, e2⟩ := andThen_ok h1
  rw [e2] at h2
  rw [e1, e2]
  obtain ⟨t, ht, e3⟩ := copy_ok h3
  rw [e3] at h2 h4 ⊢
  obtain ⟨m, hm, e4⟩ := move_ok h2
  rw [e4]
  -- the files before boxer2mat
  generalize hg : addInput (join out (inputFile ++ c!"boxer.txt")) c (put h (join out c!"fort.20") (some t)) = g at *
  have hgp : ∀ p, p ≠ join out (inputFile ++ c!"boxer.txt") → p ≠ join out c!"fort.20" → g p = h p := by
    intro p hp hp'
    rw [← hg, addInput, put_ne hp, put_ne hp']
  have h20 : join out c!"fort.20" ≠ join out (inputFile ++ c!"boxer.txt") := by
    intro e
    have := congrArg List.getLast? (join_inj (by decide) hb0.1 e).2
    rw [List.getLast?_append_of_ne_nil _ (by decide)] at this
    exact absurd this (by decide)
  have hg20 : g (join out c!"fort.20") = some t := by rw [← hg, addInput, put_ne h20, put_same]
  have hg21 : g (join out c!"fort.21") = none := by rw [hgp _ (hb0.ne_fort out) (fort_ne out), hf]
  have hrun : runProgram boxer c out (join out (inputFile ++ c!"boxer.txt")) (put h (join out c!"fort.20") (some t)) = exec boxer c out g := by rw [← hg]; rfl
  rw [hrun] at hm ⊢
  have hm' : (boxer c out g).1 (join out c!"fort.21") = some m := hm
  refine ⟨⟨t, m, ht, ?_, put_same _ _ _⟩, ?_, fun n => ?_, fun p p1 p2 p3 p4 => ?_⟩
  · cases hx : matrixOf c t with
    | some m' =>
      rw [hb.writes c out g t m' hg20 hx] at hm'
      exact hm'
    | none =>
      rw [hb.leaves c out g t hg20 hx, hg21] at hm'
      cases hm'
  · rw [put_ne (hm0.ne_fort out), put_same]
  · rw [put_ne (hm0.ne_tape out n), put_ne (tape_ne_fort21 out n)]
    refine (hb.only c out g t _ hg20 (tape_ne_fort21 out n)).trans ?_
    rw [hgp _ (hb0.ne_tape out n) (tape_ne_fort20 out n)]
  · rw [put_ne p4, put_ne p2]
    refine (hb.only c out g t p hg20 p2).trans ?_
    rw [hgp p p3 p1]

/-- All matrices. -/
theorem matrices_here (hb : BoxerMakes boxer matrixOf) (hi : '/' ∉ inputFile) (l : List ((Nat × Path) × Nat)) (hs : ∀ e ∈ l, '/' ∉ e.1.2)
    (hd : ∀ e ∈ l, ∀ e' ∈ l, matrixName e.1.2 e.2 = matrixName e'.1.2 e'.2 → e = e') : ∀ h : FS, h (join out c!"fort.21") = none →
    (each (matrix boxer bc out out inputFile) l h).2 = none →
    (∀ e ∈ l, ∃ t m, h (join out (tape e.1.1)) = some t ∧ matrixOf (bc (if e.2 = 1018 then 18 else e.2)) t = some m ∧
      (each (matrix boxer bc out out inputFile) l h).1 (join out (matrixName e.1.2 e.2)) = some m) ∧
    (∀ p, p ≠ join out c!"fort.20" → p ≠ join out c!"fort.21" → p ≠ join out (inputFile ++ c!"boxer.txt") → (∀ e ∈ l, p ≠ join out (matrixName e.1.2 e.2)) →
      (each (matrix boxer bc out out inputFile) l h).1 p = h p) := by
  induction l with
  | nil => intro h _ _; simp [each]
  | cons e l ih =>
    intro h hf hr
    obtain ⟨h1, h2, e1⟩ := andThen_ok (r := matrix boxer bc out out inputFile e h) hr
    have e1' : each (matrix boxer bc out out inputFile) (e :: l) h = each (matrix boxer bc out out inputFile) l (matrix boxer bc out out inputFile e h).1 := e1
    obtain ⟨⟨t, m, m1, m2, m3⟩, m4, m5, m6⟩ := matrix_here hb hi (hs e (by simp)) hf h1
    obtain ⟨i1, i2⟩ := ih (fun e' h => hs e' (by simp [h])) (fun a ha b hb => hd a (by simp [ha]) b (by simp [hb])) _ m4 h2
    rw [e1']
    refine ⟨fun e' he' => ?_, fun p p1 p2 p3 p4 => ?_⟩
    · by_cases hin : e' ∈ l
      · obtain ⟨t', m', q1, q2, q3⟩ := i1 e' hin
        exact ⟨t', m', by rw [← q1, m5], q2, q3⟩
      · obtain rfl : e' = e := by simpa [hin] using he'
        have hm0 := harmless_matrix (hs e' (by simp)) e'.2
        refine ⟨t, m, m1, m2, ?_⟩
        rw [i2 _ ?_ (hm0.ne_fort out).symm ?_ ?_, m3]
        · intro h
          have := congrArg List.getLast? (join_inj hm0.1 (by decide) h).2
          unfold matrixName at this
          rw [List.getLast?_append_of_ne_nil _ (by decide)] at this
          exact absurd this (by decide)
        · intro h
          exact matrixName_ne_boxer _ _ _ (join_inj hm0.1 (boxerName_slash hi) h).2
        · intro e2 he2 h
          have := hd e' (by simp) e2 (by simp [he2]) (join_inj hm0.1 (matrixName_slash (hs _ (by simp [he2])) _) h).2
          exact hin (this ▸ he2)
    · rw [i2 p p1 p2 p3 fun e' he' => p4 e' (by simp [he']), m6 p p1 p2 p3 (p4 e (by simp))]

/-- Copying tapes to harmless names leaves tapes and `fort.21`. -/
theorem copyOut_here (l : List (Nat × Path)) (hs : ∀ e ∈ l, Harmless e.2) : ∀ h : FS,
    (each (copyOut out out) l h).1 (join out c!"fort.21") = h (join out c!"fort.21") ∧ ∀ n, (each (copyOut out out) l h).1 (join out (tape n)) = h (join out (tape n)) := by
  have key : ∀ p, (∀ e ∈ l, p ≠ join out e.2) → Keeps (· = p) (each (copyOut out out) l) := by
    intro p hp
    refine Keeps.each l fun e he fs q hq => ?_
    unfold copyOut
    cases fs (join out (tape e.1)) with
    | none => rfl
    | some t => exact keeps_copy (P := (· = p)) (Ne.symm (hp e he)) fs q hq
  exact fun h => ⟨key _ (fun e he => (hs e he).ne_fort out) h _ rfl, fun n => key _ (fun e he => (hs e he).ne_tape out n) h _ rfl⟩

variable {commands : Text} {tapeout cover : List (Nat × Path)} {mts : List Nat} {fs : FS} {endf : Path} {tapesOf : Text → Text → Nat → Option Text}

/-- If the chain returns, then for every tape of matrices and every MT the file `<name>_<mt>_matrix.txt` is what boxer2mat makes for that MT of the tape NJOY makes in this run of the commands
and the ENDF file, or else of the tape that was in the directory before. -/
theorem chain_any (hn : NjoyMakes njoy tapesOf) (hb : BoxerMakes boxer matrixOf) (hclean : fs (join out c!"fort.21") = none) (ho : out ≠ tmp) (hi : Harmless inputFile)
    (hout : ∀ e ∈ tapeout, Harmless e.2) (hcover : ∀ e ∈ cover, '/' ∉ e.2 ∧ e.1 ≠ 20)
    (hd : ∀ e ∈ cover, ∀ m ∈ mts, ∀ e' ∈ cover, ∀ m' ∈ mts, matrixName e.2 m = matrixName e'.2 m' → e = e' ∧ m = m')
    (h : (runCoverChain njoy boxer bc commands [(20, endf)] tapeout cover mts inputFile out tmp false fs).2 = none) :
    ∃ text, fs endf = some text ∧ ∀ n f, (n, f) ∈ cover → ∀ mt ∈ mts, ∃ t m, ((tapesOf commands text n).orElse fun _ => fs (join out (tape n))) = some t ∧ matrixOf (bc (if mt = 1018 then 18 else mt)) t = some m ∧
      (runCoverChain njoy boxer bc commands [(20, endf)] tapeout cover mts inputFile out tmp false fs).1 (join out (matrixName f mt)) = some m := by
  unfold runCoverChain at h ⊢
  simp only [Bool.false_eq_true, if_false] at h ⊢
  have h' : (chainIn njoy boxer bc commands [(20, endf)] tapeout cover mts inputFile out out fs).2 = none := h
  unfold chainIn at h' ⊢
  obtain ⟨a1, a2, e1⟩ := andThen_ok h'
  obtain ⟨b1, b2, e2⟩ := andThen_ok a1
  obtain ⟨c1, c2, e3⟩ := andThen_ok b1
  obtain ⟨d1, d2, e4⟩ := andThen_ok c1
  rw [e1]
  -- the tape 20
  have hti : tapesIn out [(20, endf)] fs = (copy endf (join out (tape 20)) fs).andThen fun fs => (fs, none) := rfl
  rw [hti] at d1
  obtain ⟨d1, -, e0⟩ := andThen_ok d1
  obtain ⟨text, htext, e5⟩ := copy_ok d1
  rw [e0] at hti
  simp only [e5] at hti
  refine ⟨text, htext, ?_⟩
  rw [e2, e3, e4, hti] at a2 ⊢
  rw [e4, hti] at c2
  have hprog : runProgram njoy commands out (join out inputFile) (put fs (join out (tape 20)) (some text)) =
    exec njoy commands out (addInput (join out inputFile) commands (put fs (join out (tape 20)) (some text))) := rfl
  simp only [hprog] at a2 c2 ⊢
  generalize hg : addInput (join out inputFile) commands (put fs (join out (tape 20)) (some text)) = g at *
  obtain ⟨listing, -, e6⟩ := copy_ok c2
  rw [e6] at a2 ⊢
  have hno : Harmless c!"njoy_output.txt" := harmless_txt (by decide) (by decide)
  have hg20 : g (join out (tape 20)) = some text := by rw [← hg, addInput, put_ne (hi.ne_tape out 20), put_same]
  have hgt : ∀ n, n ≠ 20 → g (join out (tape n)) = fs (join out (tape n)) := by
    intro n hn
    rw [← hg, addInput, put_ne (hi.ne_tape out n), put_ne (join_tape_ne hn)]
  have hg21 : g (join out c!"fort.21") = none := by
    rw [← hg, addInput, put_ne (hi.ne_fort out), put_ne (tape_ne_fort21 out 20).symm, hclean]
  obtain ⟨k1, k2⟩ := copyOut_here (out := out) tapeout hout (put (exec njoy commands out g).1 (join out c!"njoy_output.txt") (some listing))
  rw [put_ne (hno.ne_fort out)] at k1
  have k1' := k1.trans ((hn.noFort commands out g).trans hg21)
  have hs : ∀ e ∈ cover.flatMap fun e => mts.map fun mt => (e, mt), '/' ∉ e.1.2 := by
    rintro ⟨e, m⟩ hm
    simp only [List.mem_flatMap, List.mem_map, Prod.mk.injEq] at hm
    obtain ⟨_, a1, _, _, rfl, rfl⟩ := hm
    exact (hcover _ a1).1
  have hdist : ∀ e ∈ cover.flatMap (fun e => mts.map fun mt => (e, mt)), ∀ e' ∈ cover.flatMap (fun e => mts.map fun mt => (e, mt)),
      matrixName e.1.2 e.2 = matrixName e'.1.2 e'.2 → e = e' := by
    rintro ⟨e, m⟩ h ⟨e', m'⟩ h' heq
    simp only [List.mem_flatMap, List.mem_map, Prod.mk.injEq] at h h'
    obtain ⟨_, a1, _, a2, rfl, rfl⟩ := h
    obtain ⟨_, b1, _, b2, rfl, rfl⟩ := h'
    obtain ⟨r1, r2⟩ := hd _ a1 _ a2 _ b1 _ b2 heq
    rw [r1, r2]
  obtain ⟨i1, -⟩ := matrices_here hb hi.1 _ hs hdist _ k1' a2
  intro n f hm mt hmt
  obtain ⟨t, m, q1, q2, q3⟩ := i1 ((n, f), mt) (List.mem_flatMap.2 ⟨(n, f), hm, List.mem_map.2 ⟨mt, hmt, rfl⟩⟩)
  refine ⟨t, m, ?_, q2, ?_⟩
  · rw [k2, put_ne (hno.ne_tape out n)] at q1
    have q1 : (njoy commands out g).1 (join out (tape n)) = some t := q1
    cases hx : tapesOf commands text n with
    | some t' => rw [hn.makes commands out g text n t' hg20 hx] at q1; exact q1
    | none => rw [hn.leaves commands out g text n hg20 hx, hgt n (hcover _ hm).2] at q1; exact q1
  · rw [cleanUp_outside]
    · exact q3
    · exact not_inside (matrixName_slash (hcover _ hm).1 mt) ho

/-- The same in a directory without tapes of an earlier run: all comes from this run. -/
theorem chain_here (hn : NjoyMakes njoy tapesOf) (hb : BoxerMakes boxer matrixOf) (hclean : Clean out fs) (ho : out ≠ tmp) (hi : Harmless inputFile)
    (hout : ∀ e ∈ tapeout, Harmless e.2) (hcover : ∀ e ∈ cover, '/' ∉ e.2 ∧ e.1 ≠ 20)
    (hd : ∀ e ∈ cover, ∀ m ∈ mts, ∀ e' ∈ cover, ∀ m' ∈ mts, matrixName e.2 m = matrixName e'.2 m' → e = e' ∧ m = m')
    (h : (runCoverChain njoy boxer bc commands [(20, endf)] tapeout cover mts inputFile out tmp false fs).2 = none) :
    ∃ text, fs endf = some text ∧ ∀ n f, (n, f) ∈ cover → ∀ mt ∈ mts, ∃ t m, tapesOf commands text n = some t ∧ matrixOf (bc (if mt = 1018 then 18 else mt)) t = some m ∧
      (runCoverChain njoy boxer bc commands [(20, endf)] tapeout cover mts inputFile out tmp false fs).1 (join out (matrixName f mt)) = some m := by
  obtain ⟨text, h1, h2⟩ := chain_any hn hb hclean.1 ho hi hout hcover hd h
  refine ⟨text, h1, fun n f hm mt hmt => ?_⟩
  obtain ⟨t, m, q1, q2, q3⟩ := h2 n f hm mt hmt
  refine ⟨t, m, ?_, q2, q3⟩
  rw [hclean.2] at q1
  cases hx : tapesOf commands text n with
  | some t' => rw [hx] at q1; exact q1
  | none => rw [hx] at q1; cases q1

/-! ### The chain returns -/

theorem andThen_returns {r : Res} {k : FS → Res} (h1 : r.2 = none) (h2 : (k r.1).2 = none) : (r.andThen k).2 = none := by rw [andThen_none h1]; exact h2

/-- Programs that end with return code 0, boxer2mat for the commands and tapes named; NJOY leaves its listing. -/
structure Succeeds (njoy boxer : Prog) (P : Text → Text → Prop) : Prop where
  njoy : ∀ c d fs, (njoy c d fs).2 = 0 ∧ ∃ t, (njoy c d fs).1 (join d c!"output") = some t
  boxer : ∀ c d fs t, fs (join d c!"fort.20") = some t → P c t → (boxer c d fs).2 = 0

theorem matrices_return (hb : BoxerMakes boxer matrixOf) {P : Text → Text → Prop} (hs : Succeeds njoy boxer P) (hi : '/' ∉ inputFile) (l : List ((Nat × Path) × Nat)) (hl : ∀ e ∈ l, '/' ∉ e.1.2)
    (hm : ∀ c t, P c t → ∃ m, matrixOf c t = some m) : ∀ h : FS, (∀ e ∈ l, ∃ t, h (join out (tape e.1.1)) = some t ∧ P (bc (if e.2 = 1018 then 18 else e.2)) t) → h (join out c!"fort.21") = none →
    (each (matrix boxer bc out out inputFile) l h).2 = none := by
  induction l with
  | nil => intro h _ _; rfl
  | cons e l ih =>
    intro h ht hf
    have h1 : (matrix boxer bc out out inputFile e h).2 = none := by
      obtain ⟨t, ht, hP⟩ := ht e (by simp)
      have h20 : join out c!"fort.20" ≠ join out (inputFile ++ c!"boxer.txt") := by
        intro e
        have := congrArg List.getLast? (join_inj (by decide) (boxerName_slash hi) e).2
        rw [List.getLast?_append_of_ne_nil _ (by decide)] at this
        exact absurd this (by decide)
      have hc : copy (join out (tape e.1.1)) (join out c!"fort.20") h = (put h (join out c!"fort.20") (some t), none) := by unfold copy; rw [ht]
      unfold matrix
      rw [hc]
      refine andThen_returns (andThen_returns rfl ?_) ?_
      · show (if _ then none else some _) = _
        rw [if_pos (hs.boxer _ _ _ t (by rw [addInput, put_ne h20]; exact put_same _ _ _) hP)]
      · rw [andThen_none rfl]
        obtain ⟨m, hm⟩ := hm (bc (if e.2 = 1018 then 18 else e.2)) t hP
        have h2 := hb.writes (bc (if e.2 = 1018 then 18 else e.2)) out
          (addInput (join out (inputFile ++ c!"boxer.txt")) (bc (if e.2 = 1018 then 18 else e.2)) (put h (join out c!"fort.20") (some t))) t m
          (by rw [addInput, put_ne h20, put_same]) hm
        unfold move
        have h3 : (runProgram boxer (bc (if e.2 = 1018 then 18 else e.2)) out (join out (inputFile ++ c!"boxer.txt")) (put h (join out c!"fort.20") (some t))).1 (join out c!"fort.21") = some m := h2
        simp only [h3]
    obtain ⟨-, m4, m5, -⟩ := matrix_here hb hi (hl e (by simp)) hf h1
    exact andThen_returns h1 (ih (fun e' h => hl e' (by simp [h])) _ (fun e' he' => by rw [m5]; exact ht e' (by simp [he'])) m4)

theorem chain_returns (hn : NjoyMakes njoy tapesOf) (hb : BoxerMakes boxer matrixOf) {P : Text → Text → Prop} (hs : Succeeds njoy boxer P) (hclean : fs (join out c!"fort.21") = none) (hi : Harmless inputFile)
    (hout : ∀ e ∈ tapeout, Harmless e.2) (hcover : ∀ e ∈ cover, '/' ∉ e.2 ∧ e.1 ≠ 20) (hm : ∀ c t, P c t → ∃ m, matrixOf c t = some m) {text : Text} (htext : fs endf = some text)
    (ht : ∀ e ∈ cover, ∃ t, ((tapesOf commands text e.1).orElse fun _ => fs (join out (tape e.1))) = some t ∧ ∀ m ∈ mts, P (bc (if m = 1018 then 18 else m)) t) :
    (runCoverChain njoy boxer bc commands [(20, endf)] tapeout cover mts inputFile out tmp false fs).2 = none := by
  show (chainIn njoy boxer bc commands [(20, endf)] tapeout cover mts inputFile out out fs).2 = none
  have hti : tapesIn out [(20, endf)] fs = (put fs (join out (tape 20)) (some text), none) := by
    show (copy endf (join out (tape 20)) fs).andThen _ = _
    have : copy endf (join out (tape 20)) fs = (put fs (join out (tape 20)) (some text), none) := by unfold copy; rw [htext]
    rw [this]
    rfl
  unfold chainIn
  rw [hti, andThen_none (r := (put fs (join out (tape 20)) (some text), none)) rfl]
  have hprog : runProgram njoy commands out (join out inputFile) (put fs (join out (tape 20)) (some text)) =
    exec njoy commands out (addInput (join out inputFile) commands (put fs (join out (tape 20)) (some text))) := rfl
  simp only [hprog]
  generalize hg : addInput (join out inputFile) commands (put fs (join out (tape 20)) (some text)) = g
  have hno : Harmless c!"njoy_output.txt" := harmless_txt (by decide) (by decide)
  have hg20 : g (join out (tape 20)) = some text := by rw [← hg, addInput, put_ne (hi.ne_tape out 20), put_same]
  have hgt : ∀ n, n ≠ 20 → g (join out (tape n)) = fs (join out (tape n)) := by
    intro n hn
    rw [← hg, addInput, put_ne (hi.ne_tape out n), put_ne (join_tape_ne hn)]
  have hg21 : g (join out c!"fort.21") = none := by
    rw [← hg, addInput, put_ne (hi.ne_fort out), put_ne (tape_ne_fort21 out 20).symm, hclean]
  obtain ⟨hrc, listing, hl⟩ := hs.njoy commands out g
  have hex : (exec njoy commands out g).2 = none := by unfold exec; rw [if_pos hrc]
  have hcopy : copy (join out c!"output") (join out c!"njoy_output.txt") (exec njoy commands out g).1 =
      (put (exec njoy commands out g).1 (join out c!"njoy_output.txt") (some listing), none) := by
    unfold copy
    have : (exec njoy commands out g).1 (join out c!"output") = some listing := hl
    rw [this]
  rw [andThen_none hex, hcopy, andThen_none (r := (put (exec njoy commands out g).1 (join out c!"njoy_output.txt") (some listing), none)) rfl]
  obtain ⟨k1, k2⟩ := copyOut_here (out := out) tapeout hout (put (exec njoy commands out g).1 (join out c!"njoy_output.txt") (some listing))
  rw [put_ne (hno.ne_fort out)] at k1
  have k1' := k1.trans ((hn.noFort commands out g).trans hg21)
  refine andThen_returns ?_ (matrices_return hb hs hi.1 _ ?_ hm _ ?_ k1')
  · clear * -
    show (each (copyOut out out) tapeout (put (exec njoy commands out g).1 (join out c!"njoy_output.txt") (some listing))).2 = none
    generalize put (exec njoy commands out g).1 (join out c!"njoy_output.txt") (some listing) = h
    induction tapeout generalizing h with
    | nil => rfl
    | cons e l ih =>
      refine andThen_returns ?_ (ih _)
      unfold copyOut
      cases hx : h (join out (tape e.1)) with
      | none => rfl
      | some t => simp only [copy, hx]
  · rintro ⟨e, m⟩ hm
    simp only [List.mem_flatMap, List.mem_map, Prod.mk.injEq] at hm
    obtain ⟨_, a1, _, _, rfl, rfl⟩ := hm
    exact (hcover _ a1).1
  · rintro ⟨e, m⟩ hm
    simp only [List.mem_flatMap, List.mem_map, Prod.mk.injEq] at hm
    obtain ⟨e, a1, _, a2, rfl, rfl⟩ := hm
    obtain ⟨t, ht, hP⟩ := ht _ a1
    refine ⟨t, ?_, hP _ a2⟩
    rw [k2, put_ne (hno.ne_tape out _)]
    show (njoy commands out g).1 _ = _
    cases hx : tapesOf commands text e.1 with
    | some t' =>
      rw [hx] at ht
      rw [hn.makes commands out g text _ t' hg20 hx]
      exact ht
    | none =>
      rw [hx] at ht
      rw [hn.leaves commands out g text _ hg20 hx, hgt _ (hcover _ a1).2]
      exact ht

end ASAPy.Files
