import Verif.CovRun.WholeModel
import Verif.CovRun.Props
import Verif.Files.Here
import Verif.Deck.Props
import Verif.Run.Props

/-!
# C228: from the ENDF file to the store
-/

namespace ASAPy.CovRun
open ASAPy.Store
open ASAPy.Files (FS Path Text Prog NjoyMakes BoxerMakes Clean Harmless)

/-! ### Specification -/

/-- The covariance file of the evaluation that has the covariances: MF 31 for nu-bar, 35 for the spectrum, 33 for cross sections. -/
def mfOf (mt : Nat) : Nat := if mt = 452 then 31 else if mt = 1018 then 35 else 33

/-- The MT under which NJOY has the data: the covariances of the spectrum are under 18. -/
def njoyMt (mt : Nat) : Nat := if mt = 1018 then 18 else mt

/-- A text has these lines, numbers with commas between them. -/
def HasLines (text : Text) (rows : List (List Nat)) : Prop := text = rows.flatMap fun r => List.intercalate [','] (r.map Dec.natStr) ++ ['\n']

/-- The input with which boxer2mat writes the bounds, the values, the standard deviations and the correlations of a reaction with itself (blocks 0 to 3), and then ends (boxer2mat.f 47-49). -/
def Asks (text : Text) (mat mt : Nat) : Prop := HasLines text [[0, mat, mt, mat, mt], [1, mat, mt, mat, mt], [2, mat, mt, mat, mt], [3, mat, mt, mat, mt], [0, 0]]

/-! ### Lemmas -/

theorem boxerText_asks (mat mt : Nat) : Asks (boxerText mat mt) mat mt := by
  have h0 : ∀ n, n < 4 → Dec.natStr n = [Dec.digitChar n] := by decide
  unfold Asks HasLines boxerText
  simp only [List.flatMap_cons, List.flatMap_nil, List.map_cons, List.map_nil, List.intercalate, List.intersperse, List.flatten_cons, List.flatten_nil, h0 0 (by decide), h0 1 (by decide), h0 2 (by decide),
    h0 3 (by decide)]
  simp [Dec.digitChar]

theorem labelled_stdFrame {d : Boxer.Data} {rows : List Row} (hstd : stdFrame d = .ok rows) : Labelled rows := by
  unfold stdFrame at hstd
  simp only at hstd
  split_ifs at hstd with hc
  have hlab : ∀ (l : Nat) (a b c d : ℚ), (repair (rawRow l a b c d)).label = l := by
    intro l a b c d
    unfold repair rawRow
    simp only
    split_ifs <;> rfl
  rw [← Except.ok.inj hstd]
  unfold Labelled
  rw [List.map_map, List.length_map, List.length_range]
  apply List.ext_getElem
  · simp
  · intro i h1 h2
    simp [hlab]
    omega

/-- A file that is processed without error is good, or has no data for a reaction with a name. -/
theorem processFile_fine (ss : Stores) (zaid mt : Nat) (x : Option (List (List Char))) (h : (processFile ss zaid mt x).2 = .ok ()) :
    ∃ file, x = some file ∧ ((∃ n c rows, Good file n c rows) ∨ NoData file mt) := by
  cases x with
  | none => cases h
  | some file =>
    refine ⟨file, rfl, ?_⟩
    simp only [processFile] at h
    generalize ss _ = s at h
    unfold process at h
    cases hr : Boxer.readFile file with
    | error e =>
      rw [hr] at h
      right
      have hopen : Boxer.readFile file = .error .runtimeError → ∃ l ∈ file, "***ERROR IN BOXR***".toList <:+: l := by
        intro hr
        by_contra hno
        unfold Boxer.readFile at hr
        rw [Boxer.C48_rejected, if_neg hno] at hr
        split_ifs at hr with h2
        · cases hr
        · simp only at hr
          unfold Boxer.getBlockData at hr
          split at hr
          · rename_i s0 s1 s2 s3 _ _
            simp only at hr
            cases ht : Boxer.times (Boxer.linesToArray (Boxer.slice file (s2 + 1) s3)) (Boxer.linesToArray (Boxer.slice file (s1 + 1) s2)) with
            | error e =>
              rw [ht] at hr
              simp only [Except.error.injEq] at hr
              subst hr
              unfold Boxer.times at ht
              split_ifs at ht
              split at ht <;> cases ht
            | ok sd =>
              rw [ht] at hr
              simp only at hr
              cases hs : Boxer.reshape (Boxer.linesToArray (Boxer.slice file (s1 + 1) s2)).length (Boxer.linesToArray (Boxer.slice file (s3 + 1) file.length)) with
              | error e =>
                rw [hs] at hr
                simp only [Except.error.injEq] at hr
                subst hr
                unfold Boxer.reshape at hs
                split_ifs at hs
                cases hs
              | ok cov => rw [hs] at hr; cases hr
          · cases hr
      cases e with
      | runtimeError =>
        refine ⟨hopen hr, ?_⟩
        simp only at h
        split_ifs at h with hn
        exact hn
      | _ => cases h
    | ok d =>
      left
      rw [hr] at h
      simp only [addCorr_corrFrame] at h
      cases hs : stdFrame d with
      | error e => rw [hs] at h; cases h
      | ok rows =>
        rw [hs] at h
        simp only at h
        rw [C52_accepted_iff _ (labelled_stdFrame hs)] at h
        split_ifs at h with hp
        exact ⟨d.cov.length, corrFrame d.cov, rows, ⟨d, hr, rfl, rfl, hs⟩, hp.1, hp.2⟩

theorem processAll_fine (zaid : Nat) (dir : List Char → Option (List (List Char))) (items : List (List Char × Nat)) (ss : Stores)
    (h : (processAll zaid dir items ss).2 = .ok ()) : AllFine dir items := by
  induction items generalizing ss with
  | nil => intro i hi; cases hi
  | cons i rest ih =>
    obtain ⟨name, mt⟩ := i
    simp only [processAll] at h
    have hf := processFile_fine ss zaid mt (dir name)
    generalize processFile ss zaid mt (dir name) = r at h hf
    obtain ⟨ss', r⟩ := r
    cases r with
    | error e => cases h
    | ok u =>
      intro i hi
      rcases List.mem_cons.1 hi with rfl | hi
      · exact hf rfl
      · exact ih ss' h i hi

/-- The tapes of a run for one temperature. -/
def tapeout (t : Njoy.Temp) (f : Bool) : List (Nat × List Char) :=
  [(25, Njoy.fname "covr" t ".txt"), (27, Njoy.fname "viewr" t ".eps")] ++
  (if f then [(32, Njoy.fname "covr_nu" t ".txt"), (31, Njoy.fname "viewr_nu" t ".eps"), (36, Njoy.fname "covr_chi" t ".txt"), (35, Njoy.fname "viewr_chi" t ".eps")] else [])

def cover (t : Njoy.Temp) (f : Bool) : List (Nat × List Char) :=
  [(25, Njoy.fname "covr" t ".txt")] ++ (if f then [(32, Njoy.fname "covr_nu" t ".txt"), (36, Njoy.fname "covr_chi" t ".txt")] else [])

theorem everyOther_tapeout (t : Njoy.Temp) (f : Bool) : Njoy.everyOther (tapeout t f) = cover t f := by cases f <;> rfl

theorem makeNjoyRun_one (o : Deck.Opts) (t : Njoy.Temp) (f : Bool) (hb : o.broadr = true) (hh : o.heatr = false) (hp : o.purr = false) (ha : o.acer = false) (he : o.errorr = true)
    (hg : o.groups.isSome = true) (hi : o.iwt ≠ 1) (hm : o.mts ≠ []) (hn : o.nu = f) (hc : o.chi = f) :
    ∃ mods, Njoy.makeNjoyRun (o.njoy c!"ace" c!"xsdir") [t] = .ok (mods, tapeout t f) ∧
      Njoy.boxerTapes mods = [(25, .boxer 33)] ++ (if f then [(32, .boxer 31), (36, .boxer 35)] else []) := by
  unfold Deck.Opts.njoy
  simp only [hb, hh, hp, ha, he, hg, hi, hm, hn, hc, ne_eq, not_false_eq_true, decide_true, Bool.true_or]
  cases f
  · exact ⟨_, rfl, rfl⟩
  · exact ⟨_, rfl, rfl⟩

theorem temp_slash {t : Njoy.Temp} (h : Deck.Plain t.str) : '/' ∉ t.str := fun hm => (h.2 _ hm).2.1 rfl

theorem fname_slash {t : Njoy.Temp} (h : '/' ∉ t.str) {a e : String} (ha : '/' ∉ a.toList) (he : '/' ∉ e.toList) : '/' ∉ Njoy.fname a t e := by
  unfold Njoy.fname
  simp only [List.mem_append, List.mem_cons, not_or]
  exact ⟨⟨ha, by decide, h⟩, he⟩

theorem last_fname (t : Njoy.Temp) (a e : String) {c : Char} (he : e.toList.getLast? = some c) : (Njoy.fname a t e).getLast? = some c := by
  unfold Njoy.fname
  have hne : e.toList ≠ [] := by rintro h; rw [h] at he; cases he
  rw [List.getLast?_append_of_ne_nil _ hne, he]

theorem harmless_eps {f : Path} (h : '/' ∉ f) (hl : f.getLast? = some 's') : Harmless f := by
  refine ⟨h, ?_, fun n e => ?_⟩
  · rintro rfl
    exact absurd hl (by decide)
  · obtain ⟨c, h1, h2⟩ := Files.last_tape n
    rw [e, h1] at hl
    obtain rfl := Option.some.inj hl
    exact absurd h2 (by decide)

theorem tapeout_harmless {t : Njoy.Temp} (h : '/' ∉ t.str) (f : Bool) : ∀ e ∈ tapeout t f, Harmless e.2 := by
  intro e he
  have hcov : ∀ a : String, '/' ∉ a.toList → Harmless (Njoy.fname a t ".txt") := fun a ha => Files.harmless_txt (fname_slash h ha (by decide)) (last_fname t a ".txt" (by decide))
  have heps : ∀ a : String, '/' ∉ a.toList → Harmless (Njoy.fname a t ".eps") := fun a ha => harmless_eps (fname_slash h ha (by decide)) (last_fname t a ".eps" (by decide))
  cases f
  · simp only [tapeout, Bool.false_eq_true, if_false, List.append_nil, List.mem_cons, List.not_mem_nil, or_false] at he
    rcases he with rfl | rfl
    · exact hcov _ (by decide)
    · exact heps _ (by decide)
  · simp only [tapeout, if_true, List.mem_append, List.mem_cons, List.not_mem_nil, or_false] at he
    rcases he with (rfl | rfl) | rfl | rfl | rfl | rfl
    · exact hcov _ (by decide)
    · exact heps _ (by decide)
    · exact hcov _ (by decide)
    · exact heps _ (by decide)
    · exact hcov _ (by decide)
    · exact heps _ (by decide)

theorem cover_mem {t : Njoy.Temp} {f : Bool} {e : Nat × List Char} (he : e ∈ cover t f) :
    e = (25, Njoy.fname "covr" t ".txt") ∨ e = (32, Njoy.fname "covr_nu" t ".txt") ∨ e = (36, Njoy.fname "covr_chi" t ".txt") := by
  cases f
  · simp only [cover, Bool.false_eq_true, if_false, List.append_nil, List.mem_cons, List.not_mem_nil, or_false] at he
    exact Or.inl he
  · simpa [cover] using he

theorem cover_ok {t : Njoy.Temp} (h : '/' ∉ t.str) (f : Bool) : ∀ e ∈ cover t f, '/' ∉ e.2 ∧ e.1 ≠ 20 := by
  intro e he
  rcases cover_mem he with rfl | rfl | rfl
  · exact ⟨fname_slash h (by decide) (by decide), by simp⟩
  · exact ⟨fname_slash h (by decide) (by decide), by simp⟩
  · exact ⟨fname_slash h (by decide) (by decide), by simp⟩

theorem cover_distinct {t : Njoy.Temp} (f : Bool) {e e' : Nat × List Char} (he : e ∈ cover t f) (he' : e' ∈ cover t f) {m m' : Nat}
    (h : Files.matrixName e.2 m = Files.matrixName e'.2 m') : e = e' ∧ m = m' := by
  obtain ⟨h1, h2⟩ := Njoy.natStr_suffix_inj (show e.2 ++ '_' :: Dec.natStr m ++ "_matrix.txt".toList = e'.2 ++ '_' :: Dec.natStr m' ++ "_matrix.txt".toList from h)
  refine ⟨?_, h2⟩
  have hl := congrArg List.length h1
  rcases cover_mem he with rfl | rfl | rfl <;> rcases cover_mem he' with rfl | rfl | rfl <;> first
    | rfl
    | (exfalso; simp [Njoy.fname] at hl)

/-- The matrix file that is read for a reaction is one of those that are written. -/
theorem fileName_eq (a : Args) (mt : Nat) (h : mt = 452 ∨ mt = 1018 → a.fissionable = true) :
    ∃ n f, (n, f) ∈ cover a.temp a.fissionable ∧ Files.matrixName f mt = fileName a mt ∧
      (n, Njoy.Kind.boxer (mfOf mt)) ∈ [(25, Njoy.Kind.boxer 33)] ++ (if a.fissionable then [(32, .boxer 31), (36, .boxer 35)] else []) := by
  by_cases h1 : mt = 452
  · subst h1
    refine ⟨32, Njoy.fname "covr_nu" a.temp ".txt", ?_, ?_, ?_⟩
    · simp [cover, h]
    · simp [Files.matrixName, fileName, Njoy.fname]
    · simp [h, mfOf]
  · by_cases h2 : mt = 1018
    · subst h2
      refine ⟨36, Njoy.fname "covr_chi" a.temp ".txt", ?_, ?_, ?_⟩
      · simp [cover, h]
      · simp [Files.matrixName, fileName, Njoy.fname]
      · simp [h, mfOf]
    · refine ⟨25, Njoy.fname "covr" a.temp ".txt", ?_, ?_, ?_⟩
      · simp [cover]
      · simp [Files.matrixName, fileName, Njoy.fname, h1, h2]
      · simp [mfOf, h1, h2]

theorem join_ne_input (out n : Path) : Files.join out n ≠ c!"njoy_in.txt" := by
  intro h
  have : '/' ∈ Files.join out n := by simp [Files.join]
  rw [h] at this
  revert this
  decide

variable {evaluation : Text → Except PyErr Eval} {njoy boxer : Prog} {tmp : Path} {c : Cmd} {fs : FS} {ss : Stores} {tapesOf : Text → Text → Nat → Option Text}
  {matrixOf : Text → Text → Option Text} {text : Text} {ev : Eval}

/-- `run_cover_chain` for a file that can be evaluated and a request that can be written down. -/
theorem coverChain_eq (htext : fs c.endf = some text) (hev : evaluation text = .ok ev) (mts : List Nat) (hne : mts ≠ []) (f useTemp : Bool)
    (hw : (deckOpts c ev (if f = true ∧ 18 ∉ mts then mts ++ [18] else mts) f f).Writable) (hiwt : c.iwt ≠ 4) :
    ∃ commands, Deck.makeDeck (deckOpts c ev (if f = true ∧ 18 ∉ mts then mts ++ [18] else mts) f f) = .ok commands ∧
      Deck.Reads commands (Deck.asked (deckOpts c ev (if f = true ∧ 18 ∉ mts then mts ++ [18] else mts) f f)) ∧
      Njoy.boxerTapes (Deck.modsOf 0 (Deck.asked (deckOpts c ev (if f = true ∧ 18 ∉ mts then mts ++ [18] else mts) f f))) =
        [(25, .boxer 33)] ++ (if f then [(32, .boxer 31), (36, .boxer 35)] else []) ∧
      coverChain evaluation njoy boxer tmp c useTemp mts f f fs =
        let r := Files.runCoverChain njoy boxer (boxerText ev.material) commands [(20, c.endf)] (tapeout c.temp f) (cover c.temp f)
          ((if f = true ∧ 18 ∉ mts then mts ++ [18] else mts) ++ (if f then [452] else []) ++ (if f then [1018] else [])) c!"testing_chain.txt" c.out tmp useTemp
          (Files.put fs c!"njoy_in.txt" (some commands))
        (r.1, match r.2 with | none => .ok () | some _ => .error .exception) := by
  have hm : (if f = true ∧ 18 ∉ mts then mts ++ [18] else mts) ≠ [] := by
    split_ifs
    · simp
    · exact hne
  generalize hmts : (if f = true ∧ 18 ∉ mts then mts ++ [18] else mts) = mts' at *
  have h1 : c.iwt ≠ 1 := by
    intro h
    obtain ⟨v, hv, -⟩ := hw.flux rfl h
    cases hv
  obtain ⟨g, hg, hgne, -⟩ := hw.groups rfl
  obtain rfl : c.groups = g := Option.some.inj hg
  obtain ⟨commands, hd, hr, -⟩ := Deck.C116_deck_partial hw fun _ => ⟨hiwt, fun h => absurd h h1⟩
  obtain ⟨mods, hrun, hbox⟩ := makeNjoyRun_one (deckOpts c ev mts' f f) c.temp f rfl rfl rfl rfl rfl rfl h1 hm rfl rfl
  obtain ⟨out, hok⟩ := Deck.njoy_ok (a := c!"ace") (x := c!"xsdir") hw
  have hok' : Njoy.makeNjoyRun ((deckOpts c ev mts' f f).njoy c!"ace" c!"xsdir") [c.temp] = .ok (Deck.modsOf 0 (Deck.asked (deckOpts c ev mts' f f)), out) := hok
  rw [hrun] at hok'
  obtain ⟨rfl, -⟩ := Prod.mk.inj (Except.ok.inj hok')
  refine ⟨commands, hd, hr, hbox, ?_⟩
  unfold coverChain
  have he : evaluationOf evaluation fs c.endf = .ok ev := by unfold evaluationOf; rw [htext]; exact hev
  rw [if_neg hgne]
  simp only [getMat, he, hmts, hd, hrun, everyOther_tapeout]
  rfl

theorem writable_mts {mts : List Nat} {f : Bool} (hw : (deckOpts c ev mts f f).Writable) (mts' : List Nat) : (deckOpts c ev mts' f f).Writable :=
  ⟨hw.temps, hw.temp, hw.error, hw.library, hw.zsymam, hw.groups, hw.flux, hw.broadr⟩

/-- What is stored, if there may be tapes of an earlier run in the directory: a tape that NJOY does not make is the old one. -/
theorem stored_any (hn : NjoyMakes njoy tapesOf) (hb : BoxerMakes boxer matrixOf) (hclean : fs (Files.join c.out c!"fort.21") = none) (ho : c.out ≠ tmp) (hin : c.endf ≠ c!"njoy_in.txt")
    (htext : fs c.endf = some text) (hev : evaluation text = .ok ev) (ha : ev.a < 1000) (h33 : (33, 452) ∉ ev.reactions ∧ (33, 1018) ∉ ev.reactions)
    (hw : (deckOpts c ev [] ev.fissionable ev.fissionable).Writable) (hiwt : c.iwt ≠ 4)
    (hok : (main evaluation njoy boxer tmp c fs ss).2 = .ok ()) :
    ∃ mts commands, (∀ mt, mt ∈ mts ↔ Requested (argsOf c ev) mt ∧ mt ≠ 452 ∧ mt ≠ 1018 ∨ mt = 18 ∧ ev.fissionable = true) ∧
      Deck.Reads commands (Deck.asked (deckOpts c ev mts ev.fissionable ev.fissionable)) ∧
      (∀ mt, Requested (argsOf c ev) mt → ∃ n t m,
        (n, Njoy.Kind.boxer (mfOf mt)) ∈ Njoy.boxerTapes (Deck.modsOf 0 (Deck.asked (deckOpts c ev mts ev.fissionable ev.fissionable))) ∧
        ((tapesOf commands text n).orElse fun _ => fs (Files.join c.out (Files.tape n))) = some t ∧ matrixOf (boxerText ev.material (njoyMt mt)) t = some m ∧
        (NoData (Str.readlines m) mt ∨ ∃ k corr rows, Good (Str.readlines m) k corr rows ∧
          fetch ((main evaluation njoy boxer tmp c fs ss).1.2 k) (key (1000 * ev.z + ev.a) mt (1000 * ev.z + ev.a) mt .corr) = .ok (.corr corr) ∧
          fetch ((main evaluation njoy boxer tmp c fs ss).1.2 k) (key (1000 * ev.z + ev.a) mt (1000 * ev.z + ev.a) mt .stdDev) = .ok (.std rows))) ∧
      ∀ k x y z w kind, (∀ mt, Requested (argsOf c ev) mt → (x, y, z, w) ≠ (1000 * ev.z + ev.a, mt, 1000 * ev.z + ev.a, mt)) →
        fetch ((main evaluation njoy boxer tmp c fs ss).1.2 k) (key x y z w kind) = fetch (ss k) (key x y z w kind) := by
  have hz : (argsOf c ev).zaid = 1000 * ev.z + ev.a := by
    show Dec.natVal (Dec.natStr ev.z ++ Run.zfill3 ev.a) = _
    obtain ⟨z1, z2, -⟩ := Run.zfill3_spec ha
    rw [Run.natVal_append, z1, z2, Dec.natVal_natStr]
    ring
  have he : evaluationOf evaluation fs c.endf = .ok ev := by unfold evaluationOf; rw [htext]; exact hev
  have hsel : ∃ mts, select (argsOf c ev) = .ok mts := by
    cases hs : select (argsOf c ev) with
    | ok mts => exact ⟨mts, rfl⟩
    | error e => simp only [main, he, hs] at hok; cases hok
  obtain ⟨mts, hs⟩ := hsel
  have hmet : CanBeMet (argsOf c ev) := by
    by_contra hno
    have hr := (C99_rejected (argsOf c ev) (fun _ _ _ => .error .keyError) ss).1 hno
    simp [run, hs] at hr
  obtain ⟨mts', hs', hne, hmem⟩ := select_ok _ hmet
  rw [hs] at hs'
  obtain rfl := Except.ok.inj hs'
  obtain ⟨commands, hdeck, hreads, hbox, hchain⟩ := coverChain_eq (njoy := njoy) (boxer := boxer) (tmp := tmp) htext hev mts hne ev.fissionable false (writable_mts hw _) hiwt
  generalize hm' : (if ev.fissionable = true ∧ 18 ∉ mts then mts ++ [18] else mts) = mts' at *
  have hmain : main evaluation njoy boxer tmp c fs ss = match coverChain evaluation njoy boxer tmp c false mts ev.fissionable ev.fissionable fs with
      | (fs', .error e) => ((fs', ss), .error e)
      | (fs', .ok ()) => ((fs', (run (argsOf c ev) (fun _ _ _ => .ok fun name => (fs' (Files.join c.out name)).map Str.readlines) ss).1),
          (run (argsOf c ev) (fun _ _ _ => .ok fun name => (fs' (Files.join c.out name)).map Str.readlines) ss).2) := by
    simp only [main, he, hs, run]
    rfl
  have hclean' : Files.put fs c!"njoy_in.txt" (some commands) (Files.join c.out c!"fort.21") = none := (Files.put_ne (join_ne_input _ _)).trans hclean
  have hslash : '/' ∉ c.temp.str := temp_slash (hw.temp c.temp (by simp [deckOpts]))
  have hhere := Files.chain_any (bc := boxerText ev.material) (commands := commands) (endf := c.endf) (tapeout := tapeout c.temp ev.fissionable) (cover := cover c.temp ev.fissionable)
    (mts := mts' ++ (if ev.fissionable then [452] else []) ++ (if ev.fissionable then [1018] else [])) (inputFile := c!"testing_chain.txt") hn hb hclean' ho
    (Files.harmless_txt (by decide) (by decide)) (tapeout_harmless hslash _) (cover_ok hslash _) fun e h1 m _ e' h2 m' _ h => cover_distinct _ h1 h2 h
  generalize Files.runCoverChain njoy boxer (boxerText ev.material) commands [(20, c.endf)] (tapeout c.temp ev.fissionable) (cover c.temp ev.fissionable)
    (mts' ++ (if ev.fissionable then [452] else []) ++ (if ev.fissionable then [1018] else [])) c!"testing_chain.txt" c.out tmp false (Files.put fs c!"njoy_in.txt" (some commands)) = r at hchain hhere
  obtain ⟨fs', r⟩ := r
  simp only at hchain
  cases r with
  | some e =>
    simp only at hchain
    rw [hmain, hchain] at hok
    cases hok
  | none =>
    simp only at hchain
    rw [hchain] at hmain
    simp only at hmain
    obtain ⟨text', ht', hfiles⟩ := hhere rfl
    rw [Files.put_ne hin, htext] at ht'
    obtain rfl := Option.some.inj ht'
    generalize hdir : (fun name => (fs' (Files.join c.out name)).map Str.readlines) = dir at hmain
    rw [hmain] at hok ⊢
    simp only at hok ⊢
    have hfine : AllFine dir (Njoy.asked mts (argsOf c ev).temp (argsOf c ev).fissionable (argsOf c ev).fissionable) := by
      refine processAll_fine (argsOf c ev).zaid dir _ ss ?_
      simp only [run, hs] at hok
      exact hok
    have hno : 452 ∉ mts ∧ 1018 ∉ mts := by
      constructor
      · intro h
        rw [hmem] at h
        split_ifs at h with he
        · exact h33.1 h
        · exact h33.1 (hmet.2 _ h)
      · intro h
        rw [hmem] at h
        split_ifs at h with he
        · exact h33.2 h
        · exact h33.2 (hmet.2 _ h)
    have hreq : ∀ mt, Requested (argsOf c ev) mt → ∃ file, dir (fileName (argsOf c ev) mt) = some file ∧ ((∃ n c rows, Good file n c rows) ∨ NoData file mt) := by
      intro mt hr
      exact hfine (fileName (argsOf c ev) mt, mt) ((asked_iff (argsOf c ev) mts hno _ _).mpr ⟨by rw [hmem]; exact hr, rfl⟩)
    obtain ⟨-, hstored, hother⟩ := C98_stored_partial (argsOf c ev) (fun _ _ _ => .ok dir) ss hmet h33 (fun _ => rfl) hreq
    have hmem' : ∀ mt, mt ∈ mts' ↔ Requested (argsOf c ev) mt ∧ mt ≠ 452 ∧ mt ≠ 1018 ∨ mt = 18 ∧ ev.fissionable = true := by
      intro mt
      have hmts : mt ∈ mts ↔ Requested (argsOf c ev) mt ∧ mt ≠ 452 ∧ mt ≠ 1018 := by
        unfold Requested
        rw [hmem]
        constructor
        · intro h
          have h' := (hmem mt).2 h
          exact ⟨Or.inl h, fun e => hno.1 (e ▸ h'), fun e => hno.2 (e ▸ h')⟩
        · rintro ⟨h | ⟨-, h | h⟩, h1, h2⟩
          · exact h
          · exact absurd h h1
          · exact absurd h h2
      rw [← hm', ← hmts]
      split_ifs with h18
      · simp [h18.1]
      · constructor
        · exact Or.inl
        · rintro (h | ⟨rfl, h⟩)
          · exact h
          · by_contra hx
            exact h18 ⟨h, hx⟩
    refine ⟨mts', commands, hmem', hreads, ?_, ?_⟩
    · intro mt hr
      have hf : mt = 452 ∨ mt = 1018 → (argsOf c ev).fissionable = true := by
        intro h
        rcases hr with h' | ⟨h', -⟩
        · exfalso
          have := (hmem mt).2 h'
          rcases h with rfl | rfl
          · exact hno.1 this
          · exact hno.2 this
        · exact h'
      obtain ⟨n, f, hc, hname, htape⟩ := fileName_eq (argsOf c ev) mt hf
      have hin' : mt ∈ mts' ++ (if ev.fissionable then [452] else []) ++ (if ev.fissionable then [1018] else []) := by
        by_cases h1 : mt = 452
        · have : ev.fissionable = true := hf (Or.inl h1)
          simp [this, h1]
        · by_cases h2 : mt = 1018
          · have : ev.fissionable = true := hf (Or.inr h2)
            simp [this, h2]
          · rw [List.mem_append, List.mem_append]
            exact Or.inl (Or.inl ((hmem' mt).2 (Or.inl ⟨hr, h1, h2⟩)))
      obtain ⟨t, m, q1, q2, q3⟩ := hfiles n f hc mt hin'
      have hd : dir (fileName (argsOf c ev) mt) = some (Str.readlines m) := by
        rw [← hdir, ← hname]
        have q3 : fs' (Files.join c.out (Files.matrixName f mt)) = some m := q3
        show Option.map Str.readlines (fs' (Files.join c.out (Files.matrixName f mt))) = _
        rw [q3]
        rfl
      rw [Files.put_ne (join_ne_input _ _)] at q1
      refine ⟨n, t, m, by rw [hbox]; exact htape, q1, q2, ?_⟩
      obtain ⟨file, h1, h2⟩ := hreq mt hr
      rw [hd] at h1
      obtain rfl := Option.some.inj h1
      rcases h2 with ⟨k, corr, rows, hg⟩ | h2
      · right
        have := hstored mt hr _ k corr rows hd hg
        rw [hz] at this
        exact ⟨k, corr, rows, hg, this⟩
      · exact Or.inl h2
    · intro k x y z w kind hx
      refine hother k x y z w kind fun mt hr he => ?_
      rw [hz] at he
      exact absurd he (hx mt hr)

/-- **C228** (part). Let NJOY and boxer2mat be programs that make of their commands and input files what `tapesOf` and `matrixOf` say, let the ENDF file be there, and let there be no tapes of an earlier
run in the output directory. If the program returns, then NJOY has been run on commands that it reads as the processing of this material, at this temperature, with these groups and
weights; for each reaction asked for, and nu-bar and the spectrum of fissionable targets, boxer2mat has been run for this material and reaction on the covariance tape of the right kind that NJOY made of
the ENDF file; and either it found no data, or the correlation and the standard deviations in its answer are in the store under 1000 Z + A and the reaction. Everything else in the stores is as it was.
Missing, and false: the same with tapes of an earlier run in the directory. -/
theorem C228_stored_partial (hn : NjoyMakes njoy tapesOf) (hb : BoxerMakes boxer matrixOf) (hclean : Clean c.out fs) (ho : c.out ≠ tmp) (hin : c.endf ≠ c!"njoy_in.txt")
    (htext : fs c.endf = some text) (hev : evaluation text = .ok ev) (ha : ev.a < 1000) (h33 : (33, 452) ∉ ev.reactions ∧ (33, 1018) ∉ ev.reactions)
    (hw : (deckOpts c ev [] ev.fissionable ev.fissionable).Writable) (hiwt : c.iwt ≠ 4)
    (hok : (main evaluation njoy boxer tmp c fs ss).2 = .ok ()) :
    ∃ mts commands, (∀ mt, mt ∈ mts ↔ Requested (argsOf c ev) mt ∧ mt ≠ 452 ∧ mt ≠ 1018 ∨ mt = 18 ∧ ev.fissionable = true) ∧
      Deck.Reads commands (Deck.asked (deckOpts c ev mts ev.fissionable ev.fissionable)) ∧
      (∀ mt, Requested (argsOf c ev) mt → ∃ n t com m,
        (n, Njoy.Kind.boxer (mfOf mt)) ∈ Njoy.boxerTapes (Deck.modsOf 0 (Deck.asked (deckOpts c ev mts ev.fissionable ev.fissionable))) ∧
        tapesOf commands text n = some t ∧ Asks com ev.material (njoyMt mt) ∧ matrixOf com t = some m ∧
        (NoData (Str.readlines m) mt ∨ ∃ k corr rows, Good (Str.readlines m) k corr rows ∧
          fetch ((main evaluation njoy boxer tmp c fs ss).1.2 k) (key (1000 * ev.z + ev.a) mt (1000 * ev.z + ev.a) mt .corr) = .ok (.corr corr) ∧
          fetch ((main evaluation njoy boxer tmp c fs ss).1.2 k) (key (1000 * ev.z + ev.a) mt (1000 * ev.z + ev.a) mt .stdDev) = .ok (.std rows))) ∧
      ∀ k x y z w kind, (∀ mt, Requested (argsOf c ev) mt → (x, y, z, w) ≠ (1000 * ev.z + ev.a, mt, 1000 * ev.z + ev.a, mt)) →
        fetch ((main evaluation njoy boxer tmp c fs ss).1.2 k) (key x y z w kind) = fetch (ss k) (key x y z w kind) := by
  obtain ⟨mts, commands, h1, h2, h3, h4⟩ := stored_any (ss := ss) hn hb hclean.1 ho hin htext hev ha h33 hw hiwt hok
  refine ⟨mts, commands, h1, h2, fun mt hr => ?_, h4⟩
  obtain ⟨n, t, m, q1, q2, q3⟩ := h3 mt hr
  refine ⟨n, t, _, m, q1, ?_, boxerText_asks _ _, q3⟩
  rw [hclean.2] at q2
  cases hx : tapesOf commands text n with
  | some t' => rw [hx] at q2; exact q2
  | none => rw [hx] at q2; cases q2

/-- The program returns if the request can be met, NJOY and boxer2mat succeed (the latter at least for the reactions asked for, fission and nu-bar on each tape), the covariance tapes are there after NJOY, and the answers of boxer2mat for the reactions asked for are good or say that there are no
data for a reaction with a name. -/
theorem C228_returns (hn : NjoyMakes njoy tapesOf) (hb : BoxerMakes boxer matrixOf) {P : Text → Text → Prop} (hs : Files.Succeeds njoy boxer P) (hclean : fs (Files.join c.out c!"fort.21") = none) (ho : c.out ≠ tmp)
    (hin : c.endf ≠ c!"njoy_in.txt") (htext : fs c.endf = some text) (hev : evaluation text = .ok ev) (h33 : (33, 452) ∉ ev.reactions ∧ (33, 1018) ∉ ev.reactions)
    (hw : (deckOpts c ev [] ev.fissionable ev.fissionable).Writable) (hiwt : c.iwt ≠ 4) (hmet : CanBeMet (argsOf c ev))
    (htapes : ∀ commands n, n = 25 ∨ n = 32 ∨ n = 36 → ∃ t, ((tapesOf commands text n).orElse fun _ => fs (Files.join c.out (Files.tape n))) = some t ∧
      ∀ com mt, Requested (argsOf c ev) mt ∨ mt = 18 ∨ mt = 452 → Asks com ev.material (njoyMt mt) → P com t)
    (hm : ∀ com t, P com t → ∃ m, matrixOf com t = some m)
    (hfine : ∀ commands n t com m mt, Requested (argsOf c ev) mt → ((tapesOf commands text n).orElse fun _ => fs (Files.join c.out (Files.tape n))) = some t →
      Asks com ev.material (njoyMt mt) → matrixOf com t = some m → (∃ k corr rows, Good (Str.readlines m) k corr rows) ∨ NoData (Str.readlines m) mt) :
    (main evaluation njoy boxer tmp c fs ss).2 = .ok () := by
  have he : evaluationOf evaluation fs c.endf = .ok ev := by unfold evaluationOf; rw [htext]; exact hev
  obtain ⟨mts, hsel, hne, hmem⟩ := select_ok _ hmet
  have hno : 452 ∉ mts ∧ 1018 ∉ mts := by
    constructor
    · intro h
      rw [hmem] at h
      split_ifs at h with he
      · exact h33.1 h
      · exact h33.1 (hmet.2 _ h)
    · intro h
      rw [hmem] at h
      split_ifs at h with he
      · exact h33.2 h
      · exact h33.2 (hmet.2 _ h)
  obtain ⟨commands, hdeck, hreads, hbox, hchain⟩ := coverChain_eq (njoy := njoy) (boxer := boxer) (tmp := tmp) htext hev mts hne ev.fissionable false (writable_mts hw _) hiwt
  generalize hm' : (if ev.fissionable = true ∧ 18 ∉ mts then mts ++ [18] else mts) = mts' at *
  have hclean' : Files.put fs c!"njoy_in.txt" (some commands) (Files.join c.out c!"fort.21") = none := (Files.put_ne (join_ne_input _ _)).trans hclean
  have hslash : '/' ∉ c.temp.str := temp_slash (hw.temp c.temp (by simp [deckOpts]))
  have hret := Files.chain_returns (tmp := tmp) (bc := boxerText ev.material) (commands := commands) (endf := c.endf) (tapeout := tapeout c.temp ev.fissionable) (cover := cover c.temp ev.fissionable)
    (mts := mts' ++ (if ev.fissionable then [452] else []) ++ (if ev.fissionable then [1018] else [])) (inputFile := c!"testing_chain.txt") hn hb hs hclean'
    (Files.harmless_txt (by decide) (by decide)) (tapeout_harmless hslash _) (cover_ok hslash _) hm ((Files.put_ne hin).trans htext) (by
      intro e he
      rw [Files.put_ne (join_ne_input _ _)]
      obtain ⟨t, t1, t2⟩ := htapes commands e.1 (by rcases cover_mem he with rfl | rfl | rfl <;> simp)
      refine ⟨t, t1, fun m hmm => t2 _ m ?_ (boxerText_asks _ _)⟩
      rw [List.mem_append, List.mem_append, ← hm'] at hmm
      rcases hmm with (h | h) | h
      · have h' : m ∈ mts ∨ m = 18 := by
          split_ifs at h
          · simpa using h
          · exact Or.inl h
        rcases h' with h' | h'
        · exact Or.inl (Or.inl ((hmem m).1 h'))
        · exact Or.inr (Or.inl h')
      · split_ifs at h with hf
        · exact Or.inr (Or.inr (by simpa using h))
        · cases h
      · split_ifs at h with hf
        · exact Or.inl (Or.inr ⟨hf, Or.inr (by simpa using h)⟩)
        · cases h)
  obtain ⟨text', ht', hfiles⟩ := Files.chain_any (bc := boxerText ev.material) (commands := commands) (endf := c.endf) (tapeout := tapeout c.temp ev.fissionable) (cover := cover c.temp ev.fissionable)
    (mts := mts' ++ (if ev.fissionable then [452] else []) ++ (if ev.fissionable then [1018] else [])) (inputFile := c!"testing_chain.txt") hn hb hclean' ho
    (Files.harmless_txt (by decide) (by decide)) (tapeout_harmless hslash _) (cover_ok hslash _) (fun e h1 m _ e' h2 m' _ h => cover_distinct _ h1 h2 h) hret
  rw [Files.put_ne hin, htext] at ht'
  obtain rfl := Option.some.inj ht'
  generalize Files.runCoverChain njoy boxer (boxerText ev.material) commands [(20, c.endf)] (tapeout c.temp ev.fissionable) (cover c.temp ev.fissionable)
    (mts' ++ (if ev.fissionable then [452] else []) ++ (if ev.fissionable then [1018] else [])) c!"testing_chain.txt" c.out tmp false (Files.put fs c!"njoy_in.txt" (some commands)) = r at hchain hret hfiles
  obtain ⟨fs', r⟩ := r
  simp only at hret
  subst hret
  simp only at hchain
  simp only [main, he, hsel]
  show (match coverChain evaluation njoy boxer tmp c false mts ev.fissionable ev.fissionable fs with
      | (fs', .error e) => ((fs', ss), Except.error e)
      | (fs', .ok ()) => ((fs', (processAll (argsOf c ev).zaid (fun name => (fs' (Files.join c.out name)).map Str.readlines) (Njoy.asked mts (argsOf c ev).temp ev.fissionable ev.fissionable) ss).1),
        (processAll (argsOf c ev).zaid (fun name => (fs' (Files.join c.out name)).map Str.readlines) (Njoy.asked mts (argsOf c ev).temp ev.fissionable ev.fissionable) ss).2)).2 = .ok ()
  rw [hchain]
  refine processAll_ok _ _ _ _ ?_
  rintro ⟨name, mt⟩ hi
  obtain ⟨hr, rfl⟩ := (asked_iff (argsOf c ev) mts hno name mt).mp hi
  have hf : mt = 452 ∨ mt = 1018 → (argsOf c ev).fissionable = true := by
    intro h
    rcases hr with h' | ⟨h', -⟩
    · rcases h with rfl | rfl
      · exact absurd h' hno.1
      · exact absurd h' hno.2
    · exact h'
  obtain ⟨n, f, hc, hname, -⟩ := fileName_eq (argsOf c ev) mt hf
  have hin' : mt ∈ mts' ++ (if ev.fissionable then [452] else []) ++ (if ev.fissionable then [1018] else []) := by
    rw [List.mem_append, List.mem_append]
    rcases hr with h' | ⟨h', rfl | rfl⟩
    · refine Or.inl (Or.inl ?_)
      rw [← hm']
      split_ifs
      · exact List.mem_append_left _ h'
      · exact h'
    · have : ev.fissionable = true := h'
      simp [this]
    · have : ev.fissionable = true := h'
      simp [this]
  obtain ⟨t, m, q1, q2, q3⟩ := hfiles n f hc mt hin'
  rw [Files.put_ne (join_ne_input _ _)] at q1
  have q3 : fs' (Files.join c.out (Files.matrixName f mt)) = some m := q3
  refine ⟨Str.readlines m, ?_, hfine commands n t _ m mt ?_ q1 (boxerText_asks _ _) q2⟩
  · rw [← hname]
    show Option.map Str.readlines (fs' (Files.join c.out (Files.matrixName f mt))) = _
    rw [q3]
    rfl
  · unfold Requested
    rw [← hmem]
    exact hr

end ASAPy.CovRun
