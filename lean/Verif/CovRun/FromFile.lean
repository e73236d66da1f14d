import Verif.CovRun.WholeExample
import Verif.Endf.Props
import Verif.AceData.Model

/-!
# C228 from the text of the ENDF file

In `Verif/CovRun/WholeModel` the reading of the ENDF file is a parameter. Here it is that of `Evaluation` (`Verif/Endf`).
-/

namespace ASAPy.CovRun
open ASAPy.Store ASAPy.Endf
open ASAPy.Files (FS Path Text Prog NjoyMakes BoxerMakes Clean)

/-! ### Model -/

/-- `LIBRARIES`, ASAPy/endf.py 43-46, with the name for the others (385-386). -/
def libraryName : Int → Text
  | 0 => c!"ENDF/B" | 1 => c!"ENDF/A" | 2 => c!"JEFF" | 3 => c!"EFF" | 4 => c!"ENDF/B High Energy" | 5 => c!"CENDL" | 6 => c!"JENDL"
  | 31 => c!"INDL/V" | 32 => c!"INDL/A" | 33 => c!"FENDL" | 34 => c!"IRDF" | 35 => c!"BROND" | 36 => c!"INGDB-90" | 37 => c!"FENDL/A" | 41 => c!"BROND"
  | _ => c!"Unknown"

/-- What the program takes from an evaluation with this header (ASAPy/endf.py 374-444, njoy.py 482-487). A file with fewer than five text records has no `zsymam`, and `make_njoy_run` raises `KeyError`;
here that is an error of the reading. Numbers below 0 do not occur for materials, charges and reactions and are not kept. -/
def evalOf (s : Ev) (h : Header) : Except PyErr Eval :=
  match h.text with
  | t0 :: _ :: _ :: _ :: _ :: _ => .ok {
      material := s.material.toNat
      library := libraryName h.libraryCode ++ '-' :: AceData.intStr h.version ++ '.' :: AceData.intStr h.release
      zsymam := t0.take 11
      reactions := h.reactions.map fun e => (e.1.toNat, e.2.1.toNat)
      fissionable := h.fissionable
      z := (h.za / 1000).toNat
      a := (h.za % 1000).toNat }
  | _ => .error .keyError

open Classical in
/-- `Evaluation(filename)` on the text of a file, ASAPy/endf.py 321-444. That it does not end (`Verif/Endf`, C57) counts as an error here: the program does not return. -/
noncomputable def evaluate (text : Text) : Except PyErr Eval :=
  if h : ∃ s, Ends (evStart (Str.readlines text)) (.done s) then
    match headerOf h.choose with
    | .error e => .error e
    | .ok hd => evalOf h.choose hd
  else .error .exception

/-! ### Specification -/

/-- The libraries that have a code, ENDF-6 formats manual, NLIB. -/
def libraryCodes : List (Int × Text) :=
  [(0, c!"ENDF/B"), (1, c!"ENDF/A"), (2, c!"JEFF"), (3, c!"EFF"), (4, c!"ENDF/B High Energy"), (5, c!"CENDL"), (6, c!"JENDL"), (31, c!"INDL/V"), (32, c!"INDL/A"), (33, c!"FENDL"), (34, c!"IRDF"),
    (35, c!"BROND"), (36, c!"INGDB-90"), (37, c!"FENDL/A"), (41, c!"BROND")]

/-- What is on the file: material number, name of the library with version and release, name of the target, the directory, whether it is fissionable, charge and mass number. -/
structure IsOf (m : Mate) (ev : Eval) : Prop where
  material : (ev.material : Int) = m.mat
  za : (1000 * ev.z + ev.a : Nat) = m.header.za
  small : ev.a < 1000
  fissionable : ev.fissionable = m.header.fissionable
  directory : ev.reactions.map (fun r => ((r.1 : Int), (r.2 : Int))) = m.header.reactions.map fun e => (e.1, e.2.1)
  library : ∃ n, ((m.header.libraryCode, n) ∈ libraryCodes ∨ (∀ p ∈ libraryCodes, p.1 ≠ m.header.libraryCode) ∧ n = c!"Unknown") ∧ ev.library = n ++ c!"-" ++ AceData.intStr m.header.version ++ c!"." ++ AceData.intStr m.header.release
  name : ∃ t ts, m.header.text = t :: ts ∧ ev.zsymam = t.take 11

/-- The numbers that cannot be negative are not. -/
structure Natural (m : Mate) : Prop where
  material : 0 ≤ m.mat
  za : 0 ≤ m.header.za
  directory : ∀ e ∈ m.header.reactions, 0 ≤ e.1 ∧ 0 ≤ e.2.1

theorem evaluate_done {text : Text} {s : Ev} {h : Header} (he : Ends (evStart (Str.readlines text)) (.done s)) (hh : headerOf s = .ok h) : evaluate text = evalOf s h := by
  have hex : ∃ s, Ends (evStart (Str.readlines text)) (.done s) := ⟨s, he⟩
  have hs : hex.choose = s := by
    have := Ends.unique hex.choose_spec he
    exact Turn.done.inj this
  unfold evaluate
  rw [dif_pos hex, hs, hh]

theorem libraryName_spec (k : Int) : (k, libraryName k) ∈ libraryCodes ∨ (∀ p ∈ libraryCodes, p.1 ≠ k) ∧ libraryName k = c!"Unknown" := by
  by_cases h : ∃ p ∈ libraryCodes, p.1 = k
  · obtain ⟨p, hp, rfl⟩ := h
    left
    revert p
    decide
  · right
    refine ⟨fun p hp he => h ⟨p, hp, he⟩, ?_⟩
    have hall : ∀ p ∈ libraryCodes, p.1 ≠ k := fun p hp he => h ⟨p, hp, he⟩
    simp only [libraryCodes, List.mem_cons, List.not_mem_nil, or_false, forall_eq_or_imp, forall_eq] at hall
    unfold libraryName
    split <;> first | rfl | (exfalso; revert hall; simp)

/-- `Evaluation` reads from the file what is on it. -/
theorem evaluate_mate {text : Text} {m : Mate} {rest : List Line} (hm : m.Ok) (hnat : Natural m) (htext : Str.readlines text = m.text ++ rest) (h5 : 5 ≤ m.header.text.length) :
    ∃ ev, evaluate text = .ok ev ∧ IsOf m ev := by
  have he := C70_sections m.mat m.pre m.secs m.mend rest hm.1
  have hh := headerOf_ok m hm rest
  rw [show materialText m.pre m.secs m.mend ++ rest = Str.readlines text from htext.symm] at he
  rw [evaluate_done (s := (m.result rest).1) he hh]
  obtain ⟨t0, t1, t2, t3, t4, ts, ht⟩ : ∃ t0 t1 t2 t3 t4 ts, m.header.text = t0 :: t1 :: t2 :: t3 :: t4 :: ts := by
    match m.header.text, h5 with
    | t0 :: t1 :: t2 :: t3 :: t4 :: ts, _ => exact ⟨t0, t1, t2, t3, t4, ts, rfl⟩
  unfold evalOf
  rw [ht]
  refine ⟨_, rfl, ?_, ?_, ?_, rfl, ?_, ⟨libraryName m.header.libraryCode, libraryName_spec _, by simp⟩, t0, _, ht, rfl⟩
  · exact Int.toNat_of_nonneg hnat.material
  · have := hnat.za
    simp only
    push_cast
    rw [Int.toNat_of_nonneg (by omega), Int.toNat_of_nonneg (by omega)]
    omega
  · have := hnat.za
    simp only
    omega
  · simp only [List.map_map]
    apply List.map_congr_left
    intro e h
    have := hnat.directory e h
    simp only [Function.comp]
    rw [Int.toNat_of_nonneg this.1, Int.toNat_of_nonneg this.2]

theorem IsOf.mem {m : Mate} {ev : Eval} (his : IsOf m ev) (mf mt : Nat) : (mf, mt) ∈ ev.reactions ↔ ∃ e ∈ m.header.reactions, e.1 = mf ∧ e.2.1 = mt := by
  have h1 : (mf, mt) ∈ ev.reactions ↔ ((mf : Int), (mt : Int)) ∈ ev.reactions.map (fun r => ((r.1 : Int), (r.2 : Int))) := by
    rw [List.mem_map]
    constructor
    · intro h; exact ⟨_, h, rfl⟩
    · rintro ⟨⟨x, y⟩, h, he⟩
      simp only [Prod.mk.injEq, Nat.cast_inj] at he
      rw [← he.1, ← he.2]; exact h
  rw [h1, his.directory, List.mem_map]
  simp [Prod.ext_iff]

theorem IsOf.no33 {m : Mate} {ev : Eval} (his : IsOf m ev) (h33 : ∀ e ∈ m.header.reactions, e.1 = 33 → e.2.1 ≠ 452 ∧ e.2.1 ≠ 1018) : (33, 452) ∉ ev.reactions ∧ (33, 1018) ∉ ev.reactions := by
  constructor <;> intro h <;> obtain ⟨e, he, h1, h2⟩ := (his.mem _ _).mp h
  · exact (h33 e he h1).1 h2
  · exact (h33 e he h1).2 h2

theorem IsOf.requested {m : Mate} {ev : Eval} (his : IsOf m ev) {c : Cmd} {mt : Nat}
    (hmt : (if c.mts = [] then ∃ e ∈ m.header.reactions, e.1 = 33 ∧ e.2.1 = mt else mt ∈ c.mts) ∨ m.header.fissionable = true ∧ (mt = 452 ∨ mt = 1018)) : Requested (argsOf c ev) mt := by
  unfold Requested argsOf
  simp only
  rw [his.fissionable]
  rcases hmt with h | h
  · left
    split_ifs at h ⊢ with he
    · exact (his.mem 33 mt).mpr h
    · exact h
  · exact Or.inr h

variable {njoy boxer : Prog} {tmp : Path} {c : Cmd} {tapesOf : Text → Text → Nat → Option Text} {matrixOf : Text → Text → Option Text} {fs : FS} {ss : Stores} {text : Text}

/-- **C228** from the text of the ENDF file (part): the file starts with a well formed evaluation `m` with at least five text records, NJOY and boxer2mat make of their input what `tapesOf` and `matrixOf`
say, and there are no tapes of an earlier run in the output directory. If the program returns, then for each reaction asked for, or, if none is asked for, each MT of MF 33 in the directory of the file,
and 452 and 1018 if the file says that the target is fissionable, boxer2mat has been run for the material and the reaction on a tape that NJOY made of the file, and either it found no data, or
the correlation and the standard deviations of its answer are in the store under the ZA number of the file. Everything else in the stores is as it was. -/
theorem C228_file_partial {m : Mate} {rest : List Line} (hn : NjoyMakes njoy tapesOf) (hb : BoxerMakes boxer matrixOf) (hclean : Clean c.out fs) (ho : c.out ≠ tmp) (hin : c.endf ≠ c!"njoy_in.txt")
    (htext : fs c.endf = some text) (hm : m.Ok) (hnat : Natural m) (hlines : Str.readlines text = m.text ++ rest) (h5 : 5 ≤ m.header.text.length)
    (h33 : ∀ e ∈ m.header.reactions, e.1 = 33 → e.2.1 ≠ 452 ∧ e.2.1 ≠ 1018)
    (hw : ∀ ev, evaluate text = .ok ev → (deckOpts c ev [] ev.fissionable ev.fissionable).Writable) (hiwt : c.iwt ≠ 4)
    (hok : (main evaluate njoy boxer tmp c fs ss).2 = .ok ()) :
    ∃ ev mts commands, IsOf m ev ∧
      Deck.Reads commands (Deck.asked (deckOpts c ev mts m.header.fissionable m.header.fissionable)) ∧
      (∀ mt : Nat, ((if c.mts = [] then ∃ e ∈ m.header.reactions, e.1 = 33 ∧ e.2.1 = mt else mt ∈ c.mts) ∨ m.header.fissionable = true ∧ (mt = 452 ∨ mt = 1018)) → ∃ n t com a,
        (n, Njoy.Kind.boxer (mfOf mt)) ∈ Njoy.boxerTapes (Deck.modsOf 0 (Deck.asked (deckOpts c ev mts m.header.fissionable m.header.fissionable))) ∧
        tapesOf commands text n = some t ∧ Asks com m.mat.toNat (njoyMt mt) ∧ matrixOf com t = some a ∧
        (NoData (Str.readlines a) mt ∨ ∃ k corr rows, Good (Str.readlines a) k corr rows ∧
          fetch ((main evaluate njoy boxer tmp c fs ss).1.2 k) (key m.header.za.toNat mt m.header.za.toNat mt .corr) = .ok (.corr corr) ∧
          fetch ((main evaluate njoy boxer tmp c fs ss).1.2 k) (key m.header.za.toNat mt m.header.za.toNat mt .stdDev) = .ok (.std rows))) ∧
      ∀ k x y z w kind, (∀ mt, (x, y, z, w) ≠ (m.header.za.toNat, mt, m.header.za.toNat, mt)) →
        fetch ((main evaluate njoy boxer tmp c fs ss).1.2 k) (key x y z w kind) = fetch (ss k) (key x y z w kind) := by
  obtain ⟨ev, hev, his⟩ := evaluate_mate hm hnat hlines h5
  have hza : 1000 * ev.z + ev.a = m.header.za.toNat := by have := his.za; omega
  have hmat : ev.material = m.mat.toNat := by have := his.material; omega
  obtain ⟨mts, commands, -, h2, h3, h4⟩ := C228_stored_partial hn hb hclean ho hin htext hev his.small (his.no33 h33) (hw _ hev) hiwt hok
  rw [his.fissionable] at h2 h3
  refine ⟨ev, mts, commands, his, h2, ?_, ?_⟩
  · intro mt hmt
    rw [hza, hmat] at h3
    exact h3 mt (his.requested hmt)
  · intro k x y z w kind hx
    refine h4 k x y z w kind fun mt _ => ?_
    rw [hza]
    exact hx mt

/-! ### A case -/

def uA1 : Line := c!" 9.223500+4 2.330248+2          1          1          0          09228 1451    1\n"
def uA2 : Line := c!" 0.000000+0 0.000000+0          0          0          0          69228 1451    2\n"
def uA3 : Line := c!" 1.000000+0 2.000000+7          1          0         10          79228 1451    3\n"
def uA4 : Line := c!" 0.000000+0 0.000000+0          0          0          5          29228 1451    4\n"
def uA5 : Line := c!" 92-U -235 LANL       EVAL-SEP06                                  9228 1451    5\n"
def uA6 : Line := c!" text                                                             9228 1451    6\n"
def uA7 : Line := c!" text                                                             9228 1451    7\n"
def uA8 : Line := c!" text                                                             9228 1451    8\n"
def uA9 : Line := c!" text                                                             9228 1451    9\n"
def uA10 : Line := c!"                                1        451         11          79228 1451   10\n"
def uA11 : Line := c!"                               33        102          1          79228 1451   11\n"
def uTape : Line := c!" tape                                                             9228 0  0    0\n"
def uSend1 : Line := c!"                                                                  9228 1  099999\n"
def uFend : Line := c!"                                                                  9228 0  0    0\n"
def uX : Line := c!" 9.223500+4 2.330248+2          0          0          0          1922833102    1\n"
def uSend33 : Line := c!"                                                                  922833  099999\n"
def uMend : Line := c!"                                                                     0 0  0    0\n"

def uHeader : Header := ⟨92235, 2330248 / 10000, 1, true, 0, 0, 0, true, 0, 0, 1, 20000000, 1, 10, 7, 0, false, [uA5.take 66, uA6.take 66, uA7.take 66, uA8.take 66, uA9.take 66],
  [(1, 451, 11, 7), (33, 102, 1, 7)]⟩

/-- A short evaluation of U-235 with a header and covariances for capture. -/
def uMate : Mate := ⟨9228, [uTape], [⟨1, 451, uA1, [uA2, uA3, uA4, uA5, uA6, uA7, uA8, uA9, uA10, uA11], uSend1, [uFend]⟩, ⟨33, 102, uX, [], uSend33, [uFend]⟩], uMend, uHeader⟩

theorem uMate_ok : uMate.Ok := by
  have hf : ∃ mat' mf' mt', Tag mat' mf' mt' uFend ∧ mat' ≠ 0 ∧ mt' ≤ 0 := ⟨9228, 0, 0, ⟨by decide +kernel, by decide +kernel, by decide +kernel⟩, by decide, by decide⟩
  refine ⟨⟨by decide, by simp [uMate], by decide +kernel, ?_, by decide, 0, 0, by decide +kernel, by decide +kernel, by decide +kernel⟩, ?_,
    ⟨1, 451, uA1, [uA2, uA3, uA4, uA5, uA6, uA7, uA8, uA9, uA10, uA11], uSend1, [uFend]⟩, by simp [uMate], rfl, rfl, by decide +kernel⟩
  · intro s hs
    simp only [uMate, List.mem_cons, List.not_mem_nil, or_false] at hs
    rcases hs with rfl | rfl
    · refine ⟨by decide, by decide, ⟨by decide +kernel, by decide +kernel, by decide +kernel⟩, by decide +kernel, by decide +kernel, ?_⟩
      intro l hl
      rw [List.mem_singleton] at hl
      exact hl ▸ hf
    · refine ⟨by decide, by decide, ⟨by decide +kernel, by decide +kernel, by decide +kernel⟩, by decide +kernel, by decide +kernel, ?_⟩
      intro l hl
      rw [List.mem_singleton] at hl
      exact hl ▸ hf
  · intro l hl
    have : l = uTape := by simpa [Mate.text, materialText, uMate] using hl.symm
    subst this
    decide +kernel

theorem uMate_natural : Natural uMate := ⟨by decide, by decide, by decide⟩

/-- Its text on a file. -/
def uText : Text := uMate.text.flatten

theorem uText_lines : Str.readlines uText = uMate.text ++ [] := by decide +kernel

def uFiles : FS := fun p => if p = c!"/u/u235" then some uText else none

theorem uFiles_clean : Clean c!"/u/out" uFiles := by
  have h : ∀ n, Files.join c!"/u/out" n ≠ c!"/u/u235" := by
    intro n h
    have := congrArg (fun l => l[3]?) h
    simp [Files.join] at this
  exact ⟨if_neg (h _), fun n => if_neg (h _)⟩

def uEval : Eval := ⟨9228, c!"ENDF/B-7.1", c!" 92-U -235 ", [(1, 451), (33, 102)], true, 92, 235⟩

theorem uEval_of : evaluate uText = .ok uEval := by
  have he := C70_sections uMate.mat uMate.pre uMate.secs uMate.mend [] uMate_ok.1
  rw [show materialText uMate.pre uMate.secs uMate.mend ++ [] = Str.readlines uText from uText_lines.symm] at he
  rw [evaluate_done (s := (uMate.result []).1) he (headerOf_ok uMate uMate_ok [])]
  rfl

theorem u_writable : (deckOpts demoCmd uEval [] true true).Writable := { demo_writable with }

/-- The hypotheses of `C228_file_partial` hold, and capture is in the store. -/
example (ss : Stores) : ∃ corr, fetch ((main evaluate (njoyWith demoText) Files.boxerCopy c!"/tmp" demoCmd uFiles ss).1.2 2) (key 92235 102 92235 102 .corr) = .ok (.corr corr) := by
  obtain ⟨corr, rows, hg⟩ := demo_good
  have h33 : (33, 452) ∉ uEval.reactions ∧ (33, 1018) ∉ uEval.reactions := by decide
  have hok := C228_returns (evaluation := evaluate) (tmp := c!"/tmp") (c := demoCmd) (ss := ss) (text := uText) (ev := uEval) (njoyWith_makes demoText) boxerCopy_makes demo_succeeds
    uFiles_clean.1 (by decide) (by decide) rfl uEval_of h33 u_writable (by decide) ⟨⟨102, by simp [argsOf, uEval]⟩, by simp [argsOf, uEval, demoCmd]⟩
    (fun commands n hn => ⟨demoText, by simp [tapesWith, hn], fun _ _ _ _ => trivial⟩) (fun com t _ => ⟨t, rfl⟩) (by
      intro commands n t com m mt hr h1 _ h2
      obtain rfl := Option.some.inj h2
      rw [show uFiles (Files.join demoCmd.out (Files.tape n)) = none from uFiles_clean.2 n] at h1
      simp only [tapesWith] at h1
      split_ifs at h1 with hn
      · obtain rfl := Option.some.inj h1
        rw [demoText_lines]
        exact Or.inl ⟨2, corr, rows, hg⟩
      · cases h1)
  obtain ⟨ev, mts, commands, -, -, h3, -⟩ := C228_file_partial (fs := uFiles) (tmp := c!"/tmp") (c := demoCmd) (ss := ss) (text := uText) (m := uMate) (njoyWith_makes demoText) boxerCopy_makes uFiles_clean
    (by decide) (by decide) rfl uMate_ok uMate_natural uText_lines (by decide) (by decide) (by intro ev h; rw [uEval_of] at h; obtain rfl := Except.ok.inj h; exact u_writable) (by decide) hok
  obtain ⟨n, t, com, a, -, q2, -, q3, q4⟩ := h3 102 (Or.inl (by decide))
  obtain rfl := Option.some.inj q3
  simp only [tapesWith] at q2
  split_ifs at q2 with hn
  obtain rfl := Option.some.inj q2
  rw [demoText_lines] at q4
  rcases q4 with q4 | ⟨k, corr', rows', hg', q4, -⟩
  · exact absurd q4 hg.not_noData
  · obtain ⟨rfl, rfl, rfl⟩ := hg.unique hg'
    exact ⟨corr, q4⟩

end ASAPy.CovRun
