import Verif.Files.Props

/-!
# C120: each matrix file of the chain NJOY, boxer2mat comes from the tape NJOY wrote in this run
-/

namespace ASAPy.Files

/-! ### Specification -/

/-- What is assumed of boxer2mat: it writes the matrix in `fort.20` to `fort.21` if it finds it, and else does not touch `fort.21`; it changes no tape and nothing outside its
directory. -/
structure Boxer (boxer : Prog) (matrixOf : Text → Text → Option Text) : Prop where
  loc : Local boxer
  writes : ∀ c d fs t m, fs (join d c!"fort.20") = some t → matrixOf c t = some m → (boxer c d fs).1 (join d c!"fort.21") = some m
  leaves : ∀ c d fs, (fs (join d c!"fort.20")).bind (matrixOf c) = none → (boxer c d fs).1 (join d c!"fort.21") = fs (join d c!"fort.21")
  tapes : ∀ c d fs n, (boxer c d fs).1 (join d (tape n)) = fs (join d (tape n))

/-- What is assumed of NJOY: it changes nothing outside its directory and does not write a file `fort.21`. -/
structure Njoy (njoy : Prog) : Prop where
  loc : Local njoy
  noFort : ∀ c d fs, (njoy c d fs).1 (join d c!"fort.21") = fs (join d c!"fort.21")

/-- How the chain is called: a new temporary directory that is not the output directory; names without a directory; different matrix files. -/
structure ChainCall (tapein tapeout cover : List (Nat × Path)) (mts : List Nat) (inputFile out tmp : Path) (fs : FS) : Prop where
  fresh : ∀ p, Inside tmp p → fs p = none
  other : out ≠ tmp
  inputTapes : (tapein.map Prod.fst).Nodup
  inputPaths : ∀ e ∈ tapein, ¬ Inside tmp e.2
  input : '/' ∉ inputFile
  outNames : ∀ e ∈ tapeout, '/' ∉ e.2
  coverNames : ∀ e ∈ cover, '/' ∉ e.2
  distinct : ∀ e ∈ cover, ∀ m ∈ mts, ∀ e' ∈ cover, ∀ m' ∈ mts, e.2 ++ '_' :: Dec.natStr m = e'.2 ++ '_' :: Dec.natStr m' → e = e' ∧ m = m'

/-! ### Lemmas -/

theorem ne_of_inside {d p q : Path} (hp : Inside d p) (hq : ¬ Inside d q) : p ≠ q := fun h => hq (h ▸ hp)

theorem matrixName_slash {f : Path} (h : '/' ∉ f) (mt : Nat) : '/' ∉ matrixName f mt := by
  unfold matrixName
  intro hm
  rcases List.mem_append.1 hm with hm | hm
  · rcases List.mem_append.1 hm with hm | hm
    · exact h hm
    · rcases List.mem_cons.1 hm with hm | hm
      · revert hm; decide
      · have := Dec.natStr_digits mt _ hm
        revert this; decide
  · revert hm; decide

theorem boxerName_slash {f : Path} (h : '/' ∉ f) : '/' ∉ f ++ c!"boxer.txt" := by
  intro hm
  rcases List.mem_append.1 hm with hm | hm
  · exact h hm
  · revert hm; decide

theorem matrixName_ne_boxer (f g : Path) (mt : Nat) : matrixName f mt ≠ g ++ c!"boxer.txt" := by
  intro h
  have := congrArg (fun l => (l.reverse.drop 4).head?) h
  simp [matrixName] at this

theorem matrixName_ne_output (f : Path) (mt : Nat) : matrixName f mt ≠ c!"njoy_output.txt" := by
  intro h
  have := congrArg (fun l => (l.reverse.drop 4).head?) h
  simp [matrixName] at this

theorem inside_fort20 (d : Path) : Inside d (join d c!"fort.20") := ⟨_, by decide, rfl⟩
theorem inside_fort21 (d : Path) : Inside d (join d c!"fort.21") := ⟨_, by decide, rfl⟩

theorem tape_ne_fort20 (d : Path) (n : Nat) : join d (tape n) ≠ join d c!"fort.20" := by
  intro h
  have := (join_inj (tape_slash n) (by decide) h).2
  simp [tape] at this

theorem tape_ne_fort21 (d : Path) (n : Nat) : join d (tape n) ≠ join d c!"fort.21" := by
  intro h
  have := (join_inj (tape_slash n) (by decide) h).2
  simp [tape] at this

theorem fort_ne (d : Path) : join d c!"fort.21" ≠ join d c!"fort.20" := by
  intro h
  exact absurd (join_inj (by decide) (by decide) h).2 (by decide)

theorem copy_ok {src dst : Path} {fs : FS} (h : (copy src dst fs).2 = none) : ∃ t, fs src = some t ∧ (copy src dst fs).1 = put fs dst (some t) := by
  unfold copy at h ⊢
  cases hs : fs src with
  | none => rw [hs] at h; cases h
  | some t => exact ⟨t, rfl, rfl⟩

theorem move_ok {src dst : Path} {fs : FS} (h : (move src dst fs).2 = none) : ∃ t, fs src = some t ∧ (move src dst fs).1 = put (put fs src none) dst (some t) := by
  unfold move at h ⊢
  cases hs : fs src with
  | none => rw [hs] at h; cases h
  | some t => exact ⟨t, rfl, rfl⟩

variable {boxer njoy : Prog} {matrixOf : Text → Text → Option Text} {bc : Nat → Text} {tmp out inputFile : Path}

/-- One matrix. -/
theorem matrix_ok (hb : Boxer boxer matrixOf) (ho : out ≠ tmp) (hi : '/' ∉ inputFile) {e : (Nat × Path) × Nat} (he : '/' ∉ e.1.2) {h : FS} (hf : h (join tmp c!"fort.21") = none)
    (hr : (matrix boxer bc tmp out inputFile e h).2 = none) :
    (∃ t m, h (join tmp (tape e.1.1)) = some t ∧ matrixOf (bc (if e.2 = 1018 then 18 else e.2)) t = some m ∧
      (matrix boxer bc tmp out inputFile e h).1 (join out (matrixName e.1.2 e.2)) = some m) ∧
    (matrix boxer bc tmp out inputFile e h).1 (join tmp c!"fort.21") = none ∧
    (∀ n, (matrix boxer bc tmp out inputFile e h).1 (join tmp (tape n)) = h (join tmp (tape n))) ∧
    (∀ p, ¬ Inside tmp p → p ≠ join out (inputFile ++ c!"boxer.txt") → p ≠ join out (matrixName e.1.2 e.2) → (matrix boxer bc tmp out inputFile e h).1 p = h p) := by
  unfold matrix at hr ⊢
  generalize hc : bc (if e.2 = 1018 then 18 else e.2) = c at hr ⊢
  obtain ⟨h1, h2, e1⟩ := andThen_ok hr
  obtain ⟨h3, h4, e2⟩ := andThen_ok h1
  rw [e2] at h2
  rw [e1, e2]
  obtain ⟨t, ht, e3⟩ := copy_ok h3
  rw [e3] at h2 h4 ⊢
  obtain ⟨m, hm, e4⟩ := move_ok h2
  rw [e4]
  have hboxOut : ¬ Inside tmp (join out (inputFile ++ c!"boxer.txt")) := not_inside (boxerName_slash hi) ho
  have hmatOut : ¬ Inside tmp (join out (matrixName e.1.2 e.2)) := not_inside (matrixName_slash he _) ho
  -- the files before boxer2mat
  generalize hg : addInput (join out (inputFile ++ c!"boxer.txt")) c (put h (join tmp c!"fort.20") (some t)) = g at *
  have hgp : ∀ p, p ≠ join out (inputFile ++ c!"boxer.txt") → p ≠ join tmp c!"fort.20" → g p = h p := by
    intro p hp hp'
    rw [← hg, addInput, put_ne hp, put_ne hp']
  have hg20 : g (join tmp c!"fort.20") = some t := by
    rw [← hg, addInput, put_ne (ne_of_inside (inside_fort20 tmp) hboxOut), put_same]
  have hg21 : g (join tmp c!"fort.21") = none := by
    rw [hgp _ (fun h => hboxOut (h ▸ inside_fort21 tmp)) (fort_ne tmp), hf]
  have hrun : runProgram boxer c tmp (join out (inputFile ++ c!"boxer.txt")) (put h (join tmp c!"fort.20") (some t)) = exec boxer c tmp g := by rw [← hg]; rfl
  rw [hrun] at hm ⊢
  have hm' : (boxer c tmp g).1 (join tmp c!"fort.21") = some m := hm
  refine ⟨⟨t, m, ht, ?_, put_same _ _ _⟩, ?_, fun n => ?_, fun p hp hpb hpm => ?_⟩
  · cases hx : matrixOf c t with
    | some m' =>
      rw [hb.writes c tmp g t m' hg20 hx] at hm'
      exact hm'
    | none =>
      rw [hb.leaves c tmp g (by rw [hg20]; exact hx), hg21] at hm'
      cases hm'
  · rw [put_ne (ne_of_inside (inside_fort21 tmp) hmatOut), put_same]
  · rw [put_ne (ne_of_inside (inside_tape tmp n) hmatOut), put_ne (tape_ne_fort21 tmp n)]
    refine (hb.tapes c tmp g n).trans ?_
    rw [hgp _ (fun h => hboxOut (h ▸ inside_tape tmp n)) (tape_ne_fort20 tmp n)]
  · rw [put_ne hpm, put_ne fun h : p = join tmp c!"fort.21" => hp (h ▸ inside_fort21 tmp)]
    refine (hb.loc c tmp g p hp).trans ?_
    rw [hgp p hpb fun h => hp (h ▸ inside_fort20 tmp)]

/-- All matrices. -/
theorem matrices_ok (hb : Boxer boxer matrixOf) (ho : out ≠ tmp) (hi : '/' ∉ inputFile) (l : List ((Nat × Path) × Nat)) (hs : ∀ e ∈ l, '/' ∉ e.1.2)
    (hd : (l.map fun e => matrixName e.1.2 e.2).Nodup) : ∀ h : FS, h (join tmp c!"fort.21") = none → (each (matrix boxer bc tmp out inputFile) l h).2 = none →
    (∀ e ∈ l, ∃ t m, h (join tmp (tape e.1.1)) = some t ∧ matrixOf (bc (if e.2 = 1018 then 18 else e.2)) t = some m ∧
      (each (matrix boxer bc tmp out inputFile) l h).1 (join out (matrixName e.1.2 e.2)) = some m) ∧
    (∀ p, ¬ Inside tmp p → p ≠ join out (inputFile ++ c!"boxer.txt") → (∀ e ∈ l, p ≠ join out (matrixName e.1.2 e.2)) → (each (matrix boxer bc tmp out inputFile) l h).1 p = h p) := by
  induction l with
  | nil => intro h _ _; simp [each]
  | cons e l ih =>
    intro h hf hr
    have hd' := List.nodup_cons.1 hd
    obtain ⟨h1, h2, e1⟩ := andThen_ok (r := matrix boxer bc tmp out inputFile e h) hr
    have e1' : each (matrix boxer bc tmp out inputFile) (e :: l) h = each (matrix boxer bc tmp out inputFile) l (matrix boxer bc tmp out inputFile e h).1 := e1
    obtain ⟨⟨t, m, m1, m2, m3⟩, m4, m5, m6⟩ := matrix_ok hb ho hi (hs e (by simp)) hf h1
    obtain ⟨i1, i2⟩ := ih (fun e' h => hs e' (by simp [h])) hd'.2 _ m4 h2
    rw [e1']
    refine ⟨fun e' he' => ?_, fun p hp hpb hpn => ?_⟩
    · rcases List.mem_cons.1 he' with rfl | he'
      · refine ⟨t, m, m1, m2, ?_⟩
        rw [i2 _ (not_inside (matrixName_slash (hs _ (by simp)) _) ho) ?_ ?_, m3]
        · intro h
          exact matrixName_ne_boxer _ _ _ (join_inj (matrixName_slash (hs _ (by simp)) _) (boxerName_slash hi) h).2
        · intro e2 he2 h
          have := (join_inj (matrixName_slash (hs _ (by simp)) _) (matrixName_slash (hs _ (by simp [he2])) _) h).2
          exact hd'.1 (List.mem_map.2 ⟨e2, he2, this.symm⟩)
      · obtain ⟨t', m', q1, q2, q3⟩ := i1 e' he'
        exact ⟨t', m', by rw [← q1, m5], q2, q3⟩
    · rw [i2 p hp hpb fun e' he' => hpn e' (by simp [he']), m6 p hp hpb (hpn e (by simp))]

/-- Copying tapes out leaves the directory as it is. -/
theorem copyOut_inside (ho : out ≠ tmp) (l : List (Nat × Path)) (hs : ∀ e ∈ l, '/' ∉ e.2) : ∀ h : FS, ∀ p, Inside tmp p → (each (copyOut tmp out) l h).1 p = h p := by
  induction l with
  | nil => intro h p _; rfl
  | cons e l ih =>
    intro h p hp
    have key : (copyOut tmp out e h).1 p = h p := by
      unfold copyOut
      cases hc : h (join tmp (tape e.1)) with
      | none => rfl
      | some t =>
        simp only [copy, hc]
        exact put_ne fun h => not_inside (hs e (by simp)) ho (h ▸ hp)
    have : each (copyOut tmp out) (e :: l) h = (copyOut tmp out e h).andThen (each (copyOut tmp out) l) := rfl
    rw [this]
    cases h2 : (copyOut tmp out e h).2 with
    | none => rw [andThen_none h2, ih (fun e' h => hs e' (by simp [h])) _ p hp, key]
    | some x => rw [andThen_some h2, key]

variable {commands : Text} {tapein tapeout cover : List (Nat × Path)} {mts : List Nat} {fs : FS}

theorem names_nodup (hc : ChainCall tapein tapeout cover mts inputFile out tmp fs) (h1 : cover.Nodup) (h2 : mts.Nodup) :
    ((cover.flatMap fun e => mts.map fun mt => (e, mt)).map fun e => matrixName e.1.2 e.2).Nodup := by
  refine List.Nodup.map_on ?_ ?_
  · rintro ⟨e, m⟩ h ⟨e', m'⟩ h' heq
    simp only [List.mem_flatMap, List.mem_map, Prod.mk.injEq] at h h'
    obtain ⟨_, a1, _, a2, rfl, rfl⟩ := h
    obtain ⟨_, b1, _, b2, rfl, rfl⟩ := h'
    have := List.append_cancel_right (show (_ ++ '_' :: Dec.natStr _) ++ c!"_matrix.txt" = (_ ++ '_' :: Dec.natStr _) ++ c!"_matrix.txt" from heq)
    obtain ⟨r1, r2⟩ := hc.distinct _ a1 _ a2 _ b1 _ b2 this
    rw [r1, r2]
  · have : (cover.flatMap fun e => mts.map fun mt => (e, mt)) = cover ×ˢ mts := rfl
    rw [this]
    exact h1.product h2

/-- C120, the part that holds: with the temporary directory (the default), if the chain returns, NJOY ran with return code 0 on the input tapes in an empty directory, and for
every tape of matrices and every MT the file `<name>_<mt>_matrix.txt` is what boxer2mat makes for that MT of the tape NJOY wrote in this run: whatever was in the output directory
before. (For MT 1018, the spectrum, boxer2mat is asked for MT 18.) -/
theorem C120_matrices_partial (hn : Njoy njoy) (hb : Boxer boxer matrixOf) (hc : ChainCall tapein tapeout cover mts inputFile out tmp fs) (h1 : cover.Nodup) (h2 : mts.Nodup)
    (h : (runCoverChain njoy boxer bc commands tapein tapeout cover mts inputFile out tmp true fs).2 = none) :
    ∃ g, Prepared tmp tapein fs g ∧
      let g' := put g (join out inputFile) (some ((g (join out inputFile)).getD [] ++ commands ++ ['\n']))
      (njoy commands tmp g').2 = 0 ∧
      ∀ n f, (n, f) ∈ cover → ∀ mt ∈ mts, ∃ t m, (njoy commands tmp g').1 (join tmp (tape n)) = some t ∧ matrixOf (bc (if mt = 1018 then 18 else mt)) t = some m ∧
        (runCoverChain njoy boxer bc commands tapein tapeout cover mts inputFile out tmp true fs).1 (join out (f ++ '_' :: Dec.natStr mt ++ c!"_matrix.txt")) = some m := by
  unfold runCoverChain at h ⊢
  simp only [if_true] at h ⊢
  have h' : (chainIn njoy boxer bc commands tapein tapeout cover mts inputFile tmp out fs).2 = none := h
  unfold chainIn at h' ⊢
  obtain ⟨a1, a2, e1⟩ := andThen_ok h'
  obtain ⟨b1, b2, e2⟩ := andThen_ok a1
  obtain ⟨c1, c2, e3⟩ := andThen_ok b1
  obtain ⟨d1, d2, e4⟩ := andThen_ok c1
  rw [e1]
  have hp := prepared_of hc.inputTapes hc.inputPaths hc.fresh d1
  generalize hg : (tapesIn tmp tapein fs).1 = g at *
  have hprog : runProgram njoy commands tmp (join out inputFile) g = exec njoy commands tmp (put g (join out inputFile) (some ((g (join out inputFile)).getD [] ++ commands ++ ['\n']))) := rfl
  generalize hg' : put g (join out inputFile) (some ((g (join out inputFile)).getD [] ++ commands ++ ['\n'])) = g' at *
  refine ⟨g, hp, ?_⟩
  rw [hg']
  show (njoy commands tmp g').2 = 0 ∧ _
  have hrc : (njoy commands tmp g').2 = 0 := by
    by_contra hne
    rw [hprog] at d2
    simp [exec, hne] at d2
  have hin : ¬ Inside tmp (join out inputFile) := not_inside hc.input hc.other
  have hno : ¬ Inside tmp (join out c!"njoy_output.txt") := not_inside (by decide) hc.other
  -- the directory before boxer2mat
  rw [e2, e3, e4, hprog] at a2 ⊢
  rw [e4, hprog] at c2
  obtain ⟨t, -, e5⟩ := copy_ok c2
  have hdir : ∀ p, Inside tmp p → (each (copyOut tmp out) tapeout ((copy (join tmp c!"output") (join out c!"njoy_output.txt") (exec njoy commands tmp g').1).1)).1 p = (njoy commands tmp g').1 p := by
    intro p hp'
    rw [copyOut_inside hc.other tapeout hc.outNames _ p hp', e5, put_ne fun h : p = join out c!"njoy_output.txt" => hno (h ▸ hp')]
    rfl
  have h21 : (njoy commands tmp g').1 (join tmp c!"fort.21") = none := by
    rw [hn.noFort, ← hg', put_ne fun h : join tmp c!"fort.21" = join out inputFile => hin (h ▸ inside_fort21 tmp)]
    exact hp.only _ (inside_fort21 tmp) fun e _ h => tape_ne_fort21 tmp e.1 h.symm
  have hs : ∀ e ∈ cover.flatMap fun e => mts.map fun mt => (e, mt), '/' ∉ e.1.2 := by
    rintro ⟨e, m⟩ hm
    simp only [List.mem_flatMap, List.mem_map, Prod.mk.injEq] at hm
    obtain ⟨_, a1, _, _, rfl, rfl⟩ := hm
    exact hc.coverNames _ a1
  obtain ⟨i1, -⟩ := matrices_ok hb hc.other hc.input (cover.flatMap fun e => mts.map fun mt => (e, mt)) hs (names_nodup hc h1 h2) _ ((hdir _ (inside_fort21 tmp)).trans h21) a2
  refine ⟨hrc, fun n f hm mt hmt => ?_⟩
  obtain ⟨t, m, q1, q2, q3⟩ := i1 ((n, f), mt) (List.mem_flatMap.2 ⟨(n, f), hm, List.mem_map.2 ⟨mt, hmt, rfl⟩⟩)
  refine ⟨t, m, by rw [← q1, hdir _ (inside_tape tmp n)], q2, ?_⟩
  rw [cleanUp_outside]
  · exact q3
  · exact not_inside (matrixName_slash (hc.coverNames _ hm) mt) hc.other

/-! ### Nothing else changes -/

/-- The files with `P` are as before, whatever happens. -/
def Keeps (P : Path → Prop) (f : FS → Res) : Prop := ∀ fs p, P p → (f fs).1 p = fs p

theorem Keeps.andThen {P : Path → Prop} {f : FS → Res} {k : FS → Res} (hf : Keeps P f) (hk : Keeps P k) : Keeps P fun fs => (f fs).andThen k := by
  intro fs p hp
  show ((f fs).andThen k).1 p = _
  cases h : (f fs).2 with
  | none => rw [andThen_none h, hk _ p hp, hf _ p hp]
  | some e => rw [andThen_some h, hf _ p hp]

theorem Keeps.each {α : Type} {P : Path → Prop} {f : α → FS → Res} (l : List α) (h : ∀ a ∈ l, Keeps P (f a)) : Keeps P (each f l) := by
  induction l with
  | nil => intro fs p _; rfl
  | cons a l ih => exact (h a (by simp)).andThen (ih fun a' ha => h a' (by simp [ha]))

theorem keeps_copy {P : Path → Prop} {src dst : Path} (h : ¬ P dst) : Keeps P (copy src dst) := by
  intro fs p hp
  unfold copy
  cases fs src with
  | none => rfl
  | some t => exact put_ne fun e => h (e ▸ hp)

theorem keeps_move {P : Path → Prop} {src dst : Path} (h : ¬ P dst) (h' : ¬ P src) : Keeps P (move src dst) := by
  intro fs p hp
  unfold move
  cases fs src with
  | none => rfl
  | some t => exact (put_ne fun e : p = dst => h (e ▸ hp)).trans (put_ne fun e : p = src => h' (e ▸ hp))

theorem keeps_runProgram {P : Path → Prop} {prog : Prog} {c : Text} {d f : Path} (hl : Local prog) (hd : ∀ p, P p → ¬ Inside d p) (hf : ¬ P f) : Keeps P (runProgram prog c d f) := by
  intro fs p hp
  exact (hl c d _ p (hd p hp)).trans (put_ne fun e => hf (e ▸ hp))

/-- The chain, whether it returns or raises, changes in the output directory only the NJOY input, the listing of NJOY, the tapes asked for, the input of boxer2mat and the matrix
files; nothing elsewhere, and nothing is left in the temporary directory. -/
theorem C120_others (hn : Local njoy) (hb : Local boxer) (h : FS) :
    (∀ p, ¬ Inside tmp p → p ≠ join out inputFile → p ≠ join out c!"njoy_output.txt" → (∀ e ∈ tapeout, p ≠ join out e.2) → p ≠ join out (inputFile ++ c!"boxer.txt") →
      (∀ e ∈ cover, ∀ mt ∈ mts, p ≠ join out (e.2 ++ '_' :: Dec.natStr mt ++ c!"_matrix.txt")) →
      (runCoverChain njoy boxer bc commands tapein tapeout cover mts inputFile out tmp true h).1 p = h p) ∧
    ∀ p, Inside tmp p → (runCoverChain njoy boxer bc commands tapein tapeout cover mts inputFile out tmp true h).1 p = none := by
  refine ⟨fun p h1 h2 h3 h4 h5 h6 => ?_, fun p hp => cleanUp_inside _ hp⟩
  unfold runCoverChain
  rw [cleanUp_outside _ h1]
  simp only [if_true]
  have tapes : ∀ n, ¬ (join tmp (tape n) = p) := fun n e => h1 (e ▸ inside_tape tmp n)
  have hd : ∀ q, q = p → ¬ Inside tmp q := fun q e => e ▸ h1
  refine (Keeps.andThen (P := fun q => q = p) (f := fun fs => (((tapesIn tmp tapein fs).andThen (runProgram njoy commands tmp (join out inputFile))).andThen
    (copy (join tmp c!"output") (join out c!"njoy_output.txt"))).andThen (each (copyOut tmp out) tapeout))
    (((Keeps.andThen (f := tapesIn tmp tapein) (Keeps.each _ fun e _ => keeps_copy (tapes e.1)) (keeps_runProgram hn hd (Ne.symm h2))).andThen
      (keeps_copy (Ne.symm h3))).andThen (Keeps.each _ fun e he => ?_)) (Keeps.each _ fun e he => ?_)) h p rfl
  · intro fs q hq
    unfold copyOut
    cases fs (join tmp (tape e.1)) with
    | none => rfl
    | some t => exact keeps_copy (P := fun q => q = p) (Ne.symm (h4 e he)) fs q hq
  · obtain ⟨e, mt⟩ := e
    simp only [List.mem_flatMap, List.mem_map, Prod.mk.injEq] at he
    obtain ⟨_, a1, _, a2, rfl, rfl⟩ := he
    exact (Keeps.andThen (P := fun q => q = p) (f := copy _ _) (keeps_copy fun e => h1 (e ▸ inside_fort20 tmp)) (keeps_runProgram hb hd (Ne.symm h5))).andThen
      (keeps_move (Ne.symm (h6 _ a1 _ a2)) fun e => h1 (e ▸ inside_fort21 tmp))

/-! ### Examples -/

/-- A NJOY that writes its listing and, if it finds tape 20, tape 30. -/
def njoyCov : Prog := fun _ d fs => (put (put fs (join d c!"output") (some c!"listing")) (join d (tape 30)) ((fs (join d (tape 20))).orElse fun _ => fs (join d (tape 30))), 0)

/-- A boxer2mat that copies. -/
def boxerCopy : Prog := fun _ d fs => (put fs (join d c!"fort.21") ((fs (join d c!"fort.20")).orElse fun _ => fs (join d c!"fort.21")), 0)

theorem inside_output (d : Path) : Inside d (join d c!"output") := ⟨_, by decide, rfl⟩

theorem njoyCov_spec : Njoy njoyCov where
  loc := fun _ d _ p hp => (put_ne fun h : p = join d (tape 30) => hp (h ▸ inside_tape d 30)).trans (put_ne fun h : p = join d c!"output" => hp (h ▸ inside_output d))
  noFort := fun c d fs => by
    refine (put_ne fun h => tape_ne_fort21 d 30 h.symm).trans (put_ne fun h => ?_)
    exact absurd (join_inj (by decide) (by decide) h).2 (by decide)

theorem boxerCopy_spec : Boxer boxerCopy fun _ t => some t where
  loc := fun _ d _ p hp => put_ne fun h : p = join d c!"fort.21" => hp (h ▸ inside_fort21 d)
  writes := fun c d fs t m ht hm => by
    refine (put_same _ _ _).trans ?_
    rw [ht]
    exact hm
  leaves := fun c d fs h => by
    refine (put_same _ _ _).trans ?_
    cases hf : fs (join d c!"fort.20") with
    | none => rfl
    | some t => rw [hf] at h; cases h
  tapes := fun c d fs n => put_ne (tape_ne_fort21 d n)

theorem exChain : ChainCall [(20, c!"/u/endf")] [(30, c!"covr.txt")] [(30, c!"covr.txt")] [2, 18] c!"njoy.txt" c!"/u" c!"/tmp" exFiles where
  fresh := fun p h => exFiles_none h
  other := by decide
  inputTapes := by simp
  inputPaths := (exCall 30).inputPaths
  input := by decide
  outNames := by simp
  coverNames := by simp
  distinct := by
    intro e he m hm e' he' m' hm' h
    obtain rfl : e = _ := by simpa using he
    obtain rfl : e' = _ := by simpa using he'
    refine ⟨rfl, ?_⟩
    have := List.append_cancel_left h
    simp only [List.cons.injEq, true_and] at this
    exact Dec.natStr_injective this

/-- The hypotheses of `C120_matrices_partial` hold: the chain returns. -/
theorem exChain_returns : (runCoverChain njoyCov boxerCopy (fun _ => []) c!"stop" [(20, c!"/u/endf")] [(30, c!"covr.txt")] [(30, c!"covr.txt")] [2, 18] c!"njoy.txt" c!"/u" c!"/tmp" true exFiles).2
    = none := by
  show (chainIn njoyCov boxerCopy (fun _ => []) c!"stop" [(20, c!"/u/endf")] [(30, c!"covr.txt")] [(30, c!"covr.txt")] [2, 18] c!"njoy.txt" c!"/tmp" c!"/u" exFiles).2 = none
  decide +kernel

example : ∃ m, (runCoverChain njoyCov boxerCopy (fun _ => []) c!"stop" [(20, c!"/u/endf")] [(30, c!"covr.txt")] [(30, c!"covr.txt")] [2, 18] c!"njoy.txt" c!"/u" c!"/tmp" true exFiles).1
    (join c!"/u" (c!"covr.txt" ++ '_' :: Dec.natStr 18 ++ c!"_matrix.txt")) = some m := by
  obtain ⟨g, -, -, h⟩ := C120_matrices_partial njoyCov_spec boxerCopy_spec exChain (by simp) (by simp) exChain_returns
  obtain ⟨t, m, -, -, h⟩ := h 30 c!"covr.txt" (by simp) 18 (by simp)
  exact ⟨m, h⟩

/-- A NJOY that writes its listing only and ends with return code 0. -/
def njoyIdle : Prog := fun _ d fs => (put fs (join d c!"output") (some c!"listing"), 0)

theorem njoyIdle_spec : Njoy njoyIdle where
  loc := fun _ d _ p hp => put_ne fun h : p = join d c!"output" => hp (h ▸ inside_output d)
  noFort := fun c d fs => put_ne fun h => absurd (join_inj (by decide) (by decide) h).2 (by decide)

/-- A directory of an earlier run. -/
def exStale : FS := fun p => if p = c!"/u/endf" then some c!"endf" else if p = c!"/u/tape30" then some c!"old" else none

theorem exStale_none {p : Path} (h : Inside c!"/tmp" p) : exStale p = none := by
  obtain ⟨n, hn, rfl⟩ := h
  unfold exStale join
  simp

/-- C120 as stated is false without the temporary directory: NJOY has written no tape 30, but the tape of an earlier run is in the output directory; the chain returns, and the
matrix file is made from the old tape. -/
theorem C120_stale_refuted : Njoy njoyIdle ∧ (Boxer boxerCopy fun _ t => some t) ∧
    ChainCall [(20, c!"/u/endf")] [] [(30, c!"covr.txt")] [18] c!"njoy.txt" c!"/u" c!"/tmp" exStale ∧
    (runCoverChain njoyIdle boxerCopy (fun _ => []) c!"stop" [(20, c!"/u/endf")] [] [(30, c!"covr.txt")] [18] c!"njoy.txt" c!"/u" c!"/tmp" false exStale).2 = none ∧
    (runCoverChain njoyIdle boxerCopy (fun _ => []) c!"stop" [(20, c!"/u/endf")] [] [(30, c!"covr.txt")] [18] c!"njoy.txt" c!"/u" c!"/tmp" false exStale).1
      c!"/u/covr.txt_18_matrix.txt" = some c!"old" := by
  refine ⟨njoyIdle_spec, boxerCopy_spec, ⟨fun p h => exStale_none h, by decide, by simp, (exCall 30).inputPaths, by decide, by simp, by simp, ?_⟩, ?_, ?_⟩
  · intro e he m hm e' he' m' hm' _
    simp only [List.mem_singleton] at he hm he' hm'
    exact ⟨he.trans he'.symm, hm.trans hm'.symm⟩
  · show (chainIn njoyIdle boxerCopy (fun _ => []) c!"stop" [(20, c!"/u/endf")] [] [(30, c!"covr.txt")] [18] c!"njoy.txt" c!"/u" c!"/u" exStale).2 = none
    decide +kernel
  · unfold runCoverChain
    refine (cleanUp_outside _ (not_inside (tmp := c!"/tmp") (out := c!"/u") (a := c!"covr.txt_18_matrix.txt") (by decide) (by decide))).trans ?_
    show (chainIn njoyIdle boxerCopy (fun _ => []) c!"stop" [(20, c!"/u/endf")] [] [(30, c!"covr.txt")] [18] c!"njoy.txt" c!"/u" c!"/u" exStale).1 _ = _
    decide +kernel

end ASAPy.Files
