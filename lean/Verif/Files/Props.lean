import Verif.Files.Model
import Mathlib.Tactic.SplitIfs
import Mathlib.Data.List.Nodup
import Mathlib.Tactic.Tauto

/-!
# C119, C120: the files before and after the runs of NJOY and boxer2mat
-/

namespace ASAPy.Files

/-! ### Specification -/

/-- A program changes only files in the directory it runs in. -/
def Local (prog : Prog) : Prop := ∀ commands d fs p, ¬ Inside d p → (prog commands d fs).1 p = fs p

/-- The directory `d` holds exactly the tapes `tapein`, with the contents the files of these names have in `fs`; elsewhere `g` is `fs`. -/
structure Prepared (d : Path) (tapein : List (Nat × Path)) (fs g : FS) : Prop where
  tapes : ∀ e ∈ tapein, g (join d (tape e.1)) = fs e.2 ∧ (fs e.2).isSome
  only : ∀ p, Inside d p → (∀ e ∈ tapein, p ≠ join d (tape e.1)) → g p = none
  outside : ∀ p, ¬ Inside d p → g p = fs p

/-- With the commands in the input file, if one is asked for. -/
def withInput (fs : FS) (commands : Text) : Option Path → FS
  | none => fs
  | some f => put fs f (some commands)

/-! ### Lemmas -/

theorem split_last {a b : List Char} {d e : List Char} (ha : '/' ∉ a) (hb : '/' ∉ b) (h : d ++ '/' :: a = e ++ '/' :: b) : d = e ∧ a = b := by
  induction d generalizing e with
  | nil =>
    cases e with
    | nil => simp at h; exact ⟨rfl, h⟩
    | cons c e =>
      simp only [List.nil_append, List.cons_append, List.cons.injEq] at h
      exact absurd (h.2 ▸ (by simp : '/' ∈ e ++ '/' :: b)) ha
  | cons c d ih =>
    cases e with
    | nil =>
      simp only [List.nil_append, List.cons_append, List.cons.injEq] at h
      exact absurd (h.2 ▸ (by simp : '/' ∈ d ++ '/' :: a)) hb
    | cons c' e =>
      simp only [List.cons_append, List.cons.injEq] at h
      obtain ⟨h1, h2⟩ := ih h.2
      exact ⟨by rw [h.1, h1], h2⟩

theorem join_inj {a b d e : Path} (ha : '/' ∉ a) (hb : '/' ∉ b) (h : join d a = join e b) : d = e ∧ a = b := split_last ha hb h

theorem tape_slash (n : Nat) : '/' ∉ tape n := by
  unfold tape
  intro h
  rcases List.mem_append.1 h with h | h
  · revert h; decide
  · have := Dec.natStr_digits n _ h
    revert this; decide

theorem tape_inj {m n : Nat} (h : tape m = tape n) : m = n := Dec.natStr_injective (List.append_cancel_left h)

theorem inside_tape (d : Path) (n : Nat) : Inside d (join d (tape n)) := ⟨_, tape_slash n, rfl⟩

theorem join_tape_ne {d : Path} {m n : Nat} (h : m ≠ n) : join d (tape m) ≠ join d (tape n) := fun e =>
  h (tape_inj (join_inj (tape_slash m) (tape_slash n) e).2)

theorem not_inside {tmp out a : Path} (ha : '/' ∉ a) (h : out ≠ tmp) : ¬ Inside tmp (join out a) := by
  rintro ⟨n, hn, e⟩
  exact h (join_inj ha hn e).1

@[simp] theorem put_same (fs : FS) (p : Path) (t : Option Text) : put fs p t p = t := by simp [put]

theorem put_ne {fs : FS} {p q : Path} {t : Option Text} (h : q ≠ p) : put fs p t q = fs q := by simp [put, h]

theorem andThen_none {r : Res} {k : FS → Res} (h : r.2 = none) : r.andThen k = k r.1 := by unfold Res.andThen; rw [h]

theorem andThen_some {r : Res} {k : FS → Res} {e : Err} (h : r.2 = some e) : r.andThen k = r := by unfold Res.andThen; rw [h]

theorem andThen_ok {r : Res} {k : FS → Res} (h : (r.andThen k).2 = none) : r.2 = none ∧ (k r.1).2 = none ∧ r.andThen k = k r.1 := by
  cases e : r.2 with
  | none => rw [andThen_none e] at h; exact ⟨rfl, h, andThen_none e⟩
  | some x => rw [andThen_some e, e] at h; cases h

/-- The input tapes. -/
theorem tapesIn_spec (d : Path) (l : List (Nat × Path)) (hk : (l.map Prod.fst).Nodup) (hf : ∀ e ∈ l, ¬ Inside d e.2) : ∀ fs : FS,
    (∀ p, ¬ Inside d p → (tapesIn d l fs).1 p = fs p) ∧
    (∀ p, (∀ e ∈ l, p ≠ join d (tape e.1)) → (tapesIn d l fs).1 p = fs p) ∧
    ((tapesIn d l fs).2 = none ↔ ∀ e ∈ l, (fs e.2).isSome) ∧ ((tapesIn d l fs).2 = none ∨ (tapesIn d l fs).2 = some .fileNotFound) ∧
    ((tapesIn d l fs).2 = none → ∀ e ∈ l, (tapesIn d l fs).1 (join d (tape e.1)) = fs e.2) := by
  induction l with
  | nil => intro fs; simp [tapesIn, each]
  | cons e l ih =>
    intro fs
    have hk' := List.nodup_cons.1 hk
    cases hc : fs e.2 with
    | none =>
      have h1 : tapesIn d (e :: l) fs = (fs, some .fileNotFound) := by
        show (copy e.2 _ fs).andThen _ = _
        simp [copy, hc, Res.andThen]
      rw [h1]
      refine ⟨fun _ _ => rfl, fun _ _ => rfl, ?_, .inr rfl, fun h => by cases h⟩
      simp [hc]
    | some t =>
      have h1 : tapesIn d (e :: l) fs = tapesIn d l (put fs (join d (tape e.1)) (some t)) := by
        show (copy e.2 _ fs).andThen _ = _
        simp only [copy, hc, Res.andThen]
        rfl
      obtain ⟨i1, i2, i3, i4, i5⟩ := ih hk'.2 (fun e' h => hf e' (by simp [h])) (put fs (join d (tape e.1)) (some t))
      have hput : ∀ e' ∈ l, put fs (join d (tape e.1)) (some t) e'.2 = fs e'.2 := by
        intro e' he'
        exact put_ne fun h => hf e' (by simp [he']) (h ▸ inside_tape d e.1)
      rw [h1]
      refine ⟨fun p hp => ?_, fun p hp => ?_, ?_, i4, fun h => ?_⟩
      · rw [i1 p hp, put_ne fun h : p = join d (tape e.1) => hp (h ▸ inside_tape d e.1)]
      · rw [i2 p fun e' he' => hp e' (by simp [he']), put_ne (hp e (by simp))]
      · rw [i3]
        constructor
        · intro h e' he'
          rcases List.mem_cons.1 he' with rfl | he'
          · simp [hc]
          · rw [← hput e' he']; exact h e' he'
        · intro h e' he'
          rw [hput e' he']; exact h e' (by simp [he'])
      · intro e' he'
        rcases List.mem_cons.1 he' with rfl | he'
        · rw [i2 _ fun e2 h2 => join_tape_ne fun h3 : e'.1 = e2.1 => hk'.1 (h3 ▸ List.mem_map_of_mem h2), put_same, hc]
        · rw [i5 h e' he', hput e' he']

theorem prepared_of {d : Path} {l : List (Nat × Path)} {fs : FS} (hk : (l.map Prod.fst).Nodup) (hf : ∀ e ∈ l, ¬ Inside d e.2) (hfresh : ∀ p, Inside d p → fs p = none)
    (h : (tapesIn d l fs).2 = none) : Prepared d l fs (tapesIn d l fs).1 := by
  obtain ⟨i1, i2, i3, -, i5⟩ := tapesIn_spec d l hk hf fs
  exact ⟨fun e he => ⟨i5 h e he, i3.1 h e he⟩, fun p hp hn => by rw [i2 p hn, hfresh p hp], i1⟩

theorem prepared_unique {d : Path} {l : List (Nat × Path)} {fs g g' : FS} (h : Prepared d l fs g) (h' : Prepared d l fs g') : g = g' := by
  funext p
  by_cases hp : Inside d p
  · by_cases hn : ∀ e ∈ l, p ≠ join d (tape e.1)
    · rw [h.only p hp hn, h'.only p hp hn]
    · push Not at hn
      obtain ⟨e, he, rfl⟩ := hn
      rw [(h.tapes e he).1, (h'.tapes e he).1]
  · rw [h.outside p hp, h'.outside p hp]

/-- The output tapes. -/
theorem moveOut_spec (d : Path) (l : List (Nat × Path)) (hk : (l.map Prod.fst).Nodup) (hn : (l.map Prod.snd).Nodup) (hf : ∀ e ∈ l, ¬ Inside d e.2) : ∀ h : FS,
    (each (moveOut d) l h).2 = none ∧ (∀ e ∈ l, (each (moveOut d) l h).1 e.2 = (h (join d (tape e.1))).orElse fun _ => h e.2) ∧
    ∀ p, ¬ Inside d p → p ∉ l.map Prod.snd → (each (moveOut d) l h).1 p = h p := by
  induction l with
  | nil => intro h; simp [each]
  | cons e l ih =>
    intro h
    have hk' := List.nodup_cons.1 hk
    have hn' := List.nodup_cons.1 hn
    have he := hf e (by simp)
    cases hc : h (join d (tape e.1)) with
    | none =>
      have h1 : each (moveOut d) (e :: l) h = each (moveOut d) l h := by
        show (moveOut d e h).andThen _ = _
        simp only [moveOut, hc, Res.andThen]
      obtain ⟨i1, i2, i3⟩ := ih hk'.2 hn'.2 (fun e' h => hf e' (by simp [h])) h
      rw [h1]
      refine ⟨i1, fun e' he' => ?_, fun p hp hpn => i3 p hp fun hm => hpn (by simp only [List.map_cons, List.mem_cons]; exact .inr hm)⟩
      rcases List.mem_cons.1 he' with rfl | he'
      · rw [hc, i3 _ he hn'.1]; rfl
      · exact i2 e' he'
    | some t =>
      have h1 : each (moveOut d) (e :: l) h = each (moveOut d) l (put (put h (join d (tape e.1)) none) e.2 (some t)) := by
        show (moveOut d e h).andThen _ = _
        simp only [moveOut, move, hc, Res.andThen]
      obtain ⟨i1, i2, i3⟩ := ih hk'.2 hn'.2 (fun e' h => hf e' (by simp [h])) (put (put h (join d (tape e.1)) none) e.2 (some t))
      rw [h1]
      refine ⟨i1, fun e' he' => ?_, fun p hp hpn => ?_⟩
      · rcases List.mem_cons.1 he' with rfl | he'
        · rw [hc, i3 _ he hn'.1, put_same]; rfl
        · have a1 : join d (tape e'.1) ≠ e.2 := fun h => he (h ▸ inside_tape d e'.1)
          have a2 : join d (tape e'.1) ≠ join d (tape e.1) := join_tape_ne fun h => hk'.1 (h ▸ List.mem_map_of_mem he')
          have a3 : e'.2 ≠ e.2 := fun h => hn'.1 (h ▸ List.mem_map_of_mem he')
          have a4 : e'.2 ≠ join d (tape e.1) := fun h => hf e' (by simp [he']) (h ▸ inside_tape d e.1)
          rw [i2 e' he', put_ne a1, put_ne a2, put_ne a3, put_ne a4]
      · simp only [List.map_cons, List.mem_cons, not_or] at hpn
        rw [i3 p hp hpn.2, put_ne hpn.1, put_ne fun h : p = join d (tape e.1) => hp (h ▸ inside_tape d e.1)]

theorem cleanUp_outside {tmp p : Path} (r : Res) (h : ¬ Inside tmp p) : (cleanUp tmp r).1 p = r.1 p := by
  unfold cleanUp; simp [h]

theorem cleanUp_inside {tmp p : Path} (r : Res) (h : Inside tmp p) : (cleanUp tmp r).1 p = none := by
  unfold cleanUp; simp [h]

/-! ## C119 -/

section
variable {njoy : Prog} {tmp : Path} {commands : Text} {tapein tapeout : List (Nat × Path)} {input : Option Path} {fs : FS}

/-- How `run` is called: the temporary directory is new, the files named are not in it, tape numbers and output files are different. -/
structure Call (tmp : Path) (tapein tapeout : List (Nat × Path)) (input : Option Path) (fs : FS) : Prop where
  fresh : ∀ p, Inside tmp p → fs p = none
  inputTapes : (tapein.map Prod.fst).Nodup
  outputTapes : (tapeout.map Prod.fst).Nodup
  outputFiles : (tapeout.map Prod.snd).Nodup
  inputPath : ∀ f, input = some f → ¬ Inside tmp f
  inputPaths : ∀ e ∈ tapein, ¬ Inside tmp e.2
  outputPaths : ∀ e ∈ tapeout, ¬ Inside tmp e.2

theorem withInput_fresh (hc : Call tmp tapein tapeout input fs) : ∀ p, Inside tmp p → withInput fs commands input p = none := by
  intro p hp
  unfold withInput
  cases hi : input with
  | none => exact hc.fresh p hp
  | some f => exact (put_ne fun h : p = f => hc.inputPath f hi (h ▸ hp)).trans (hc.fresh p hp)

theorem run_eq : run njoy tmp commands tapein tapeout input fs =
    cleanUp tmp (((tapesIn tmp tapein (withInput fs commands input)).andThen (exec njoy commands tmp)).andThen (each (moveOut tmp) tapeout)) := by
  unfold run withInput
  cases input <;> rfl

/-- C119, the part that holds: if `run` returns, NJOY ran with return code 0 in a directory with exactly the input tapes; each output file holds the tape NJOY wrote, and is as it
was if NJOY did not write that tape; no other file has changed, and the temporary directory is empty again. -/
theorem C119_success_partial (hl : Local njoy) (hc : Call tmp tapein tapeout input fs) (h : (run njoy tmp commands tapein tapeout input fs).2 = none) :
    ∃ g, Prepared tmp tapein (withInput fs commands input) g ∧ (njoy commands tmp g).2 = 0 ∧
      (∀ n f, (n, f) ∈ tapeout → ∀ t, (njoy commands tmp g).1 (join tmp (tape n)) = some t → (run njoy tmp commands tapein tapeout input fs).1 f = some t) ∧
      (∀ n f, (n, f) ∈ tapeout → (njoy commands tmp g).1 (join tmp (tape n)) = none → (run njoy tmp commands tapein tapeout input fs).1 f = withInput fs commands input f) ∧
      (∀ p, ¬ Inside tmp p → p ∉ tapeout.map Prod.snd → (run njoy tmp commands tapein tapeout input fs).1 p = withInput fs commands input p) ∧
      (∀ p, Inside tmp p → (run njoy tmp commands tapein tapeout input fs).1 p = none) := by
  rw [run_eq] at h ⊢
  generalize hfs : withInput fs commands input = fs' at h ⊢
  have h' : (((tapesIn tmp tapein fs').andThen (exec njoy commands tmp)).andThen (each (moveOut tmp) tapeout)).2 = none := h
  obtain ⟨h1, -, e1⟩ := andThen_ok h'
  obtain ⟨h2, h3, e2⟩ := andThen_ok h1
  have hp : Prepared tmp tapein fs' (tapesIn tmp tapein fs').1 := prepared_of hc.inputTapes hc.inputPaths (hfs ▸ withInput_fresh hc) h2
  have hrc : (njoy commands tmp (tapesIn tmp tapein fs').1).2 = 0 := by
    by_contra hne
    simp [exec, hne] at h3
  obtain ⟨-, m2, m3⟩ := moveOut_spec tmp tapeout hc.outputTapes hc.outputFiles hc.outputPaths (njoy commands tmp (tapesIn tmp tapein fs').1).1
  have hout : ∀ p, ¬ Inside tmp p → (njoy commands tmp (tapesIn tmp tapein fs').1).1 p = fs' p := fun p hp' => by rw [hl _ _ _ _ hp', hp.outside p hp']
  rw [e1, e2]
  refine ⟨_, hp, hrc, fun n f hm t ht => ?_, fun n f hm ht => ?_, fun p hp' hpn => ?_, fun p hp' => cleanUp_inside _ hp'⟩
  · rw [cleanUp_outside _ (hc.outputPaths _ hm)]
    have := m2 _ hm
    simp only [ht, Option.orElse_some] at this
    simpa [exec] using this
  · rw [cleanUp_outside _ (hc.outputPaths _ hm)]
    have := m2 _ hm
    simp only [ht] at this
    rw [← hout f (hc.outputPaths _ hm)]
    simpa [exec] using this
  · rw [cleanUp_outside _ hp']
    exact (m3 p hp' hpn).trans (hout p hp')

/-- `run` returns exactly if all input files are there and NJOY ends with return code 0. -/
theorem C119_returns (hc : Call tmp tapein tapeout input fs) : (run njoy tmp commands tapein tapeout input fs).2 = none ↔
    ∃ g, Prepared tmp tapein (withInput fs commands input) g ∧ (njoy commands tmp g).2 = 0 := by
  rw [run_eq]
  generalize hfs : withInput fs commands input = fs'
  show (((tapesIn tmp tapein fs').andThen (exec njoy commands tmp)).andThen (each (moveOut tmp) tapeout)).2 = none ↔ _
  constructor
  · intro h
    obtain ⟨h1, -, e1⟩ := andThen_ok h
    obtain ⟨h2, h3, e2⟩ := andThen_ok h1
    refine ⟨_, prepared_of hc.inputTapes hc.inputPaths (hfs ▸ withInput_fresh hc) h2, ?_⟩
    by_contra hne
    simp [exec, hne] at h3
  · rintro ⟨g, hp, hrc⟩
    have h2 := ((tapesIn_spec tmp tapein hc.inputTapes hc.inputPaths fs').2.2.1).2 fun e he => (hp.tapes e he).2
    obtain rfl := prepared_unique hp (prepared_of hc.inputTapes hc.inputPaths (hfs ▸ withInput_fresh hc) h2)
    rw [andThen_none (r := (tapesIn tmp tapein fs').andThen _), andThen_none h2]
    · exact (moveOut_spec tmp tapeout hc.outputTapes hc.outputFiles hc.outputPaths _).1
    · rw [andThen_none h2]; simp [exec, hrc]

/-- If `run` raises, no file but the input file has changed: nothing is left of a failed run. -/
theorem C119_failed (hl : Local njoy) (hc : Call tmp tapein tapeout input fs) {e : Err} (h : (run njoy tmp commands tapein tapeout input fs).2 = some e) :
    (∀ p, ¬ Inside tmp p → (run njoy tmp commands tapein tapeout input fs).1 p = withInput fs commands input p) ∧
    ∀ p, Inside tmp p → (run njoy tmp commands tapein tapeout input fs).1 p = none := by
  rw [run_eq] at h ⊢
  generalize withInput fs commands input = fs' at h ⊢
  refine ⟨fun p hp => ?_, fun p hp => cleanUp_inside _ hp⟩
  rw [cleanUp_outside _ hp]
  have h' : (((tapesIn tmp tapein fs').andThen (exec njoy commands tmp)).andThen (each (moveOut tmp) tapeout)).2 = some e := h
  obtain ⟨i1, -, -, -, -⟩ := tapesIn_spec tmp tapein hc.inputTapes hc.inputPaths fs'
  cases h1 : (tapesIn tmp tapein fs').2 with
  | some x =>
    rw [andThen_some (r := (tapesIn tmp tapein fs').andThen _) (e := x) (by rw [andThen_some h1, h1]), andThen_some h1]
    exact i1 p hp
  | none =>
    rw [andThen_none h1] at h' ⊢
    cases h2 : (exec njoy commands tmp (tapesIn tmp tapein fs').1).2 with
    | some x =>
      rw [andThen_some h2]
      exact (hl _ _ _ _ hp).trans (i1 p hp)
    | none =>
      rw [andThen_none h2] at h'
      rw [(moveOut_spec tmp tapeout hc.outputTapes hc.outputFiles hc.outputPaths _).1] at h'
      cases h'

end

/-- A NJOY that writes tape 30 with the first input tape in it, and nothing else. -/
def njoy30 : Prog := fun _ d fs => (put fs (join d (tape 30)) (fs (join d (tape 20))), 0)

theorem njoy30_local : Local njoy30 := fun _ d _ _ hp => put_ne fun h => hp (h ▸ inside_tape d 30)

/-- There is an ENDF file and an ACE file from an earlier run. -/
def exFiles : FS := fun p => if p = c!"/u/endf" then some c!"endf" else if p = c!"/u/ace" then some c!"old" else none

theorem exFiles_none {p : Path} (h : Inside c!"/tmp" p) : exFiles p = none := by
  obtain ⟨n, hn, rfl⟩ := h
  unfold exFiles join
  simp

theorem exCall (n : Nat) : Call c!"/tmp" [(20, c!"/u/endf")] [(n, c!"/u/ace")] (some c!"/u/in") exFiles where
  fresh := fun p h => exFiles_none h
  inputTapes := by simp
  outputTapes := by simp
  outputFiles := by simp
  inputPath := by
    rintro f hf ⟨m, hm, e⟩
    obtain rfl : c!"/u/in" = f := by simpa using hf
    simp [join] at e
  inputPaths := by
    rintro e he ⟨m, hm, h⟩
    obtain rfl : e = (20, c!"/u/endf") := by simpa using he
    simp [join] at h
  outputPaths := by
    rintro e he ⟨m, hm, h⟩
    obtain rfl : e = (n, c!"/u/ace") := by simpa using he
    simp [join] at h

theorem exTapes : (tapesIn c!"/tmp" [(20, c!"/u/endf")] (withInput exFiles c!"stop" (some c!"/u/in"))).2 = none :=
  ((tapesIn_spec c!"/tmp" [(20, c!"/u/endf")] (by simp) (exCall 30).inputPaths _).2.2.1).2 (by simp [withInput, put, exFiles])

theorem exReturns (n : Nat) : (run njoy30 c!"/tmp" c!"stop" [(20, c!"/u/endf")] [(n, c!"/u/ace")] (some c!"/u/in") exFiles).2 = none :=
  (C119_returns (exCall n)).2 ⟨_, prepared_of (exCall n).inputTapes (exCall n).inputPaths (withInput_fresh (exCall n)) exTapes, rfl⟩

/-- The hypotheses of `C119_success_partial` hold; the new ACE file replaces the old one. -/
example : (run njoy30 c!"/tmp" c!"stop" [(20, c!"/u/endf")] [(30, c!"/u/ace")] (some c!"/u/in") exFiles).1 c!"/u/ace" = some c!"endf" := by
  obtain ⟨g, hp, -, h, -⟩ := C119_success_partial njoy30_local (exCall 30) (exReturns 30)
  refine h 30 c!"/u/ace" (by simp) c!"endf" ?_
  have := (hp.tapes (20, c!"/u/endf") (by simp)).1
  simp only [njoy30, put_same]
  rw [this]
  simp [withInput, put, exFiles]

/-- C119 as stated is false: NJOY ends with return code 0 and has not written tape 31; `run` returns, and the file asked for is that of an earlier run. -/
theorem C119_stale_refuted : Local njoy30 ∧ Call c!"/tmp" [(20, c!"/u/endf")] [(31, c!"/u/ace")] (some c!"/u/in") exFiles ∧
    (run njoy30 c!"/tmp" c!"stop" [(20, c!"/u/endf")] [(31, c!"/u/ace")] (some c!"/u/in") exFiles).2 = none ∧
    (run njoy30 c!"/tmp" c!"stop" [(20, c!"/u/endf")] [(31, c!"/u/ace")] (some c!"/u/in") exFiles).1 c!"/u/ace" = some c!"old" := by
  refine ⟨njoy30_local, exCall 31, exReturns 31, ?_⟩
  obtain ⟨g, hp, -, -, h, -⟩ := C119_success_partial njoy30_local (exCall 31) (exReturns 31)
  rw [h 31 c!"/u/ace" (by simp) ?_]
  · simp [withInput, put, exFiles]
  · show put g (join c!"/tmp" (tape 30)) (g (join c!"/tmp" (tape 20))) (join c!"/tmp" (tape 31)) = none
    refine (put_ne (join_tape_ne (m := 31) (n := 30) (by decide))).trans ?_
    refine hp.only _ (inside_tape _ _) ?_
    intro e he
    obtain rfl : e = (20, c!"/u/endf") := by simpa using he
    exact join_tape_ne (by decide)

/-- A NJOY that fails: the hypotheses of `C119_failed` hold. -/
example : ∃ e, (run (fun _ _ fs => (fs, 1)) c!"/tmp" c!"stop" [(20, c!"/u/endf")] [(30, c!"/u/ace")] (some c!"/u/in") exFiles).2 = some e := by
  have : ¬ (run (fun _ _ fs => (fs, 1)) c!"/tmp" c!"stop" [(20, c!"/u/endf")] [(30, c!"/u/ace")] (some c!"/u/in") exFiles).2 = none := by
    rw [C119_returns (exCall 30)]
    rintro ⟨g, -, h⟩
    exact absurd h (by simp)
  exact Option.ne_none_iff_exists'.1 this

end ASAPy.Files
