import Verif.CovRun.Whole

/-!
# C228: a case that meets the hypotheses, and what goes wrong in a directory with old tapes
-/

namespace ASAPy.CovRun
open ASAPy.Store
open ASAPy.Files (FS Path Text Prog NjoyMakes BoxerMakes Clean)

/-- The answer of boxer2mat in `demo` as one text. -/
def demoText : Text := demo.flatten

theorem demoText_lines : Str.readlines demoText = demo := by decide +kernel

/-- NJOY that writes its listing and a text on the tapes 25, 32 and 36. -/
def njoyWith (t : Text) : Prog := fun _ d fs => (Files.put (Files.put (Files.put (Files.put fs (Files.join d c!"output") (some c!"listing")) (Files.join d (Files.tape 25)) (some t))
  (Files.join d (Files.tape 32)) (some t)) (Files.join d (Files.tape 36)) (some t), 0)

def tapesWith (t : Text) : Text → Text → Nat → Option Text := fun _ _ n => if n = 25 ∨ n = 32 ∨ n = 36 then some t else none

theorem output_ne_tape (d : Path) (n : Nat) : Files.join d (Files.tape n) ≠ Files.join d c!"output" := by
  intro h
  have := (Files.join_inj (Files.tape_slash n) (by decide) h).2
  simp [Files.tape] at this

theorem output_ne_fort (d : Path) : Files.join d c!"fort.21" ≠ Files.join d c!"output" := fun h => absurd (Files.join_inj (by decide) (by decide) h).2 (by decide)

theorem njoyWith_makes (text : Text) : NjoyMakes (njoyWith text) (tapesWith text) where
  makes := by
    intro c d fs e n t _ h
    simp only [tapesWith] at h
    split_ifs at h with hn
    unfold njoyWith
    rcases hn with rfl | rfl | rfl
    · simp only
      rw [Files.put_ne (Files.join_tape_ne (by decide)), Files.put_ne (Files.join_tape_ne (by decide)), Files.put_same]
      exact h
    · simp only
      rw [Files.put_ne (Files.join_tape_ne (by decide)), Files.put_same]
      exact h
    · simp only
      rw [Files.put_same]
      exact h
  leaves := by
    intro c d fs e n _ h
    simp only [tapesWith] at h
    split_ifs at h with hn
    push Not at hn
    unfold njoyWith
    simp only
    rw [Files.put_ne (Files.join_tape_ne hn.2.2), Files.put_ne (Files.join_tape_ne hn.2.1), Files.put_ne (Files.join_tape_ne hn.1), Files.put_ne (output_ne_tape d n)]
  noFort := by
    intro c d fs
    unfold njoyWith
    simp only
    rw [Files.put_ne (Files.tape_ne_fort21 d 36).symm, Files.put_ne (Files.tape_ne_fort21 d 32).symm, Files.put_ne (Files.tape_ne_fort21 d 25).symm, Files.put_ne (output_ne_fort d)]

/-- NJOY that writes its listing and nothing else, and returns 0. -/
theorem njoyIdle_makes : NjoyMakes Files.njoyIdle fun _ _ _ => none where
  makes := fun _ _ _ _ _ _ _ h => by cases h
  leaves := fun c d fs e n _ _ => Files.put_ne (output_ne_tape d n)
  noFort := fun c d fs => Files.put_ne (output_ne_fort d)

theorem boxerCopy_makes : BoxerMakes Files.boxerCopy fun _ t => some t where
  writes := Files.boxerCopy_spec.writes
  leaves := fun c d fs t _ h => by cases h
  only := fun c d fs t p _ hp => Files.put_ne hp

theorem njoyWith_listing (text c : Text) (d : Path) (fs : FS) : (njoyWith text c d fs).2 = 0 ∧ ∃ t, (njoyWith text c d fs).1 (Files.join d c!"output") = some t := by
  refine ⟨rfl, c!"listing", ?_⟩
  unfold njoyWith
  simp only
  rw [Files.put_ne (output_ne_tape d 36).symm, Files.put_ne (output_ne_tape d 32).symm, Files.put_ne (output_ne_tape d 25).symm, Files.put_same]

theorem demo_succeeds : Files.Succeeds (njoyWith demoText) Files.boxerCopy fun _ _ => True where
  njoy := njoyWith_listing demoText
  boxer := fun _ _ _ _ _ _ => rfl

theorem idle_succeeds : Files.Succeeds Files.njoyIdle Files.boxerCopy fun _ _ => True where
  njoy := fun c d fs => ⟨rfl, c!"listing", Files.put_same _ _ _⟩
  boxer := fun _ _ _ _ _ _ => rfl

/-- A fissionable target with covariances for fission and capture. -/
def demoEval : Eval := ⟨9228, c!"ENDF/B-7.1", c!" 92-U -235 ", [(1, 451), (3, 18), (31, 452), (33, 18), (33, 102)], true, 92, 235⟩

/-- Capture is asked for. -/
def demoCmd : Cmd := ⟨c!"/u/u235", c!"/u/out", [102], ⟨c!"300", c!"300.0"⟩, [c!"1e-05", c!"1.0", c!"10000000.0"], 9⟩

theorem demo_writable : (deckOpts demoCmd demoEval [] true true).Writable where
  temps := by simp [deckOpts]
  temp := by
    intro t ht
    simp only [deckOpts, demoCmd, List.mem_cons, List.not_mem_nil, or_false] at ht
    subst ht; exact Deck.plain_of (by decide) (by decide)
  error := (Deck.plain_of (by decide) (by decide) : Deck.Plain c!"0.001")
  library := (by decide : '\'' ∉ c!"ENDF/B-7.1")
  zsymam := (by decide : '\'' ∉ c!" 92-U -235 ")
  groups := fun _ => ⟨[c!"1e-05", c!"1.0", c!"10000000.0"], rfl, by decide, by
    intro w hw
    simp only [List.mem_cons, List.not_mem_nil, or_false] at hw
    rcases hw with rfl | rfl | rfl <;> exact Deck.plain_of (by decide) (by decide)⟩
  flux := fun _ h => absurd h (by decide)
  broadr := fun _ => rfl

theorem demo_met : CanBeMet (argsOf demoCmd demoEval) := ⟨⟨18, by simp [argsOf, demoEval]⟩, by simp [argsOf, demoEval, demoCmd]⟩

/-- The ENDF file in an empty output directory. -/
def demoFiles : FS := fun p => if p = c!"/u/u235" then some c!"endf" else none

theorem demoFiles_clean : Clean c!"/u/out" demoFiles := by
  have h : ∀ n, Files.join c!"/u/out" n ≠ c!"/u/u235" := by
    intro n h
    have := congrArg (fun l => l[3]?) h
    simp [Files.join] at this
  exact ⟨if_neg (h _), fun n => if_neg (h _)⟩

/-- The hypotheses of `C228_returns` and of `C228_stored_partial` hold, and the store gets the data. -/
example (ss : Stores) : ∃ mts commands, 102 ∈ mts ∧ Deck.Reads commands (Deck.asked (deckOpts demoCmd demoEval mts true true)) ∧
    ∃ corr, fetch ((main (fun _ => .ok demoEval) (njoyWith demoText) Files.boxerCopy c!"/tmp" demoCmd demoFiles ss).1.2 2) (key 92235 102 92235 102 .corr) = .ok (.corr corr) := by
  obtain ⟨corr, rows, hg⟩ := demo_good
  have h33 : (33, 452) ∉ demoEval.reactions ∧ (33, 1018) ∉ demoEval.reactions := by decide
  have hreq : Requested (argsOf demoCmd demoEval) 102 := Or.inl (by simp [argsOf, demoCmd])
  have hok := C228_returns (evaluation := fun _ => .ok demoEval) (tmp := c!"/tmp") (c := demoCmd) (ss := ss) (text := c!"endf") (njoyWith_makes demoText) boxerCopy_makes demo_succeeds
    demoFiles_clean.1 (by decide) (by decide) rfl rfl h33 demo_writable (by decide) demo_met
    (fun commands n hn => ⟨demoText, by simp [tapesWith, hn], fun _ _ _ _ => trivial⟩) (fun com t _ => ⟨t, rfl⟩) (by
      intro commands n t com m mt hr h1 _ h2
      obtain rfl := Option.some.inj h2
      rw [show demoFiles (Files.join demoCmd.out (Files.tape n)) = none from demoFiles_clean.2 n] at h1
      simp only [tapesWith] at h1
      split_ifs at h1 with hn
      · obtain rfl := Option.some.inj h1
        rw [demoText_lines]
        exact Or.inl ⟨2, corr, rows, hg⟩
      · cases h1)
  obtain ⟨mts, commands, h1, h2, h3, -⟩ := C228_stored_partial (fs := demoFiles) (evaluation := fun _ => .ok demoEval) (tmp := c!"/tmp") (c := demoCmd) (ss := ss) (text := c!"endf") (ev := demoEval) (njoyWith_makes demoText) boxerCopy_makes demoFiles_clean (by decide) (by decide) rfl rfl (by decide) h33 demo_writable (by decide) hok
  refine ⟨mts, commands, (h1 102).2 (Or.inl ⟨hreq, by decide, by decide⟩), h2, ?_⟩
  obtain ⟨n, t, com, m, -, q2, -, q3, q4⟩ := h3 102 hreq
  obtain rfl := Option.some.inj q3
  simp only [tapesWith] at q2
  split_ifs at q2 with hn
  obtain rfl := Option.some.inj q2
  rw [demoText_lines] at q4
  rcases q4 with q4 | ⟨k, corr', rows', hg', q4, -⟩
  · exact absurd q4 hg.not_noData
  · obtain ⟨rfl, rfl, rfl⟩ := hg.unique hg'
    exact ⟨corr, q4⟩

/-- Tapes of an earlier run in the output directory. -/
def staleFiles : FS := fun p => if p = c!"/u/u235" then some c!"endf" else if p = c!"/u/out/tape25" ∨ p = c!"/u/out/tape32" ∨ p = c!"/u/out/tape36" then some demoText else none

/-- **C228 is false** if there are tapes of an earlier run, of whatever nuclide, in the output directory: NJOY makes nothing of this ENDF file, the program returns without error, and the old covariances are
stored as those of the nuclide of this file. -/
theorem C228_stale_refuted (ss : Stores) : ∃ corr rows, NjoyMakes Files.njoyIdle (fun _ _ _ => none) ∧ BoxerMakes Files.boxerCopy (fun _ t => some t) ∧
    (main (fun _ => .ok demoEval) Files.njoyIdle Files.boxerCopy c!"/tmp" demoCmd staleFiles ss).2 = .ok () ∧
    Good (Str.readlines demoText) 2 corr rows ∧ staleFiles c!"/u/out/tape25" = some demoText ∧
    fetch ((main (fun _ => .ok demoEval) Files.njoyIdle Files.boxerCopy c!"/tmp" demoCmd staleFiles ss).1.2 2) (key 92235 102 92235 102 .corr) = .ok (.corr corr) ∧
    fetch ((main (fun _ => .ok demoEval) Files.njoyIdle Files.boxerCopy c!"/tmp" demoCmd staleFiles ss).1.2 2) (key 92235 102 92235 102 .stdDev) = .ok (.std rows) := by
  obtain ⟨corr, rows, hg⟩ := demo_good
  have h33 : (33, 452) ∉ demoEval.reactions ∧ (33, 1018) ∉ demoEval.reactions := by decide
  have hreq : Requested (argsOf demoCmd demoEval) 102 := Or.inl (by simp [argsOf, demoCmd])
  have hold : ∀ n t, staleFiles (Files.join demoCmd.out (Files.tape n)) = some t → t = demoText := by
    intro n t h
    unfold staleFiles at h
    have h1 : Files.join demoCmd.out (Files.tape n) ≠ c!"/u/u235" := by
      intro h
      have := congrArg (fun l => l[3]?) h
      simp [Files.join, demoCmd] at this
    rw [if_neg h1] at h
    split_ifs at h
    exact (Option.some.inj h).symm
  have hok := C228_returns (evaluation := fun _ => .ok demoEval) (tmp := c!"/tmp") (c := demoCmd) (fs := staleFiles) (ss := ss) (text := c!"endf") njoyIdle_makes boxerCopy_makes idle_succeeds
    (by decide +kernel) (by decide) (by decide) rfl rfl h33 demo_writable (by decide) demo_met
    (fun commands n hn => ⟨demoText, by rcases hn with rfl | rfl | rfl <;> decide +kernel, fun _ _ _ _ => trivial⟩) (fun com t _ => ⟨t, rfl⟩) (by
      intro commands n t com m mt hr h1 _ h2
      obtain rfl := Option.some.inj h2
      obtain rfl := hold n _ h1
      rw [demoText_lines]
      exact Or.inl ⟨2, corr, rows, hg⟩)
  refine ⟨corr, rows, njoyIdle_makes, boxerCopy_makes, hok, by rw [demoText_lines]; exact hg, by decide +kernel, ?_⟩
  obtain ⟨mts, commands, -, -, h3, -⟩ := stored_any (fs := staleFiles) (evaluation := fun _ => .ok demoEval) (tmp := c!"/tmp") (c := demoCmd) (ss := ss) (text := c!"endf") (ev := demoEval) njoyIdle_makes boxerCopy_makes (by decide +kernel) (by decide) (by decide) rfl rfl (by decide) h33 demo_writable (by decide) hok
  obtain ⟨n, t, m, -, q2, q3, q4⟩ := h3 102 hreq
  obtain rfl := Option.some.inj q3
  obtain rfl := hold n _ q2
  rw [demoText_lines] at q4
  rcases q4 with q4 | ⟨k, corr', rows', hg', q4⟩
  · exact absurd q4 hg.not_noData
  · obtain ⟨rfl, rfl, rfl⟩ := hg.unique hg'
    exact q4

end ASAPy.CovRun
