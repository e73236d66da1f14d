import Verif.DataNjoy.Props
import Verif.Deck.ThermalExample
import Verif.AceData.Props

/-!
# C209, C210, C213: when `make_ace` returns, the nuclides of its files, PENDF and thermal files
-/

namespace ASAPy.DNjoy
open Files
open Deck (W Opts Run num Plain Quotable suffix Reads)

set_option maxRecDepth 100000

section
variable {njoy : Prog} {tmp : Path} {c : Call} {fs : FS}

theorem makeAce_eq (hw : CanWrite c.opts) (ha : c.opts.acer = true) : ∃ text, Reads text (askedAce c.opts) ∧ makeText c.opts = .ok text ∧
    makeAce njoy tmp c fs = (run njoy tmp text [(20, c.filename)] ((match c.pendf with | none => [] | some p => [(21, p)]) ++
      acerTapes c.ace c.xsdir (afterPurr c.opts) 0 c.opts.temps) c.input fs).andThen (finish c.isomer c.ace c.xsdir c.opts.temps) := by
  obtain ⟨text, ht, hr⟩ := makeText_ok hw
  refine ⟨text, hr, ht, ?_⟩
  unfold makeAce Call.tapeout
  simp only [ht, ha, if_true]
  rfl

/-- `make_ace` returns if NJOY ends with return code 0 and has written the two tapes of each ACER run, provided the tables begin with an identifier. -/
theorem C209_returns (hl : Local njoy) (hw : CanWrite c.opts) (ha : c.opts.acer = true) (hn : Names tmp c fs) :
    ∃ text, Reads text (askedAce c.opts) ∧ ∀ g, Prepared tmp [(20, c.filename)] (withInput fs text c.input) g → (njoy text tmp g).2 = 0 →
      (∀ T inp n s, Run.acer [num 20, inp, c!"0", num n, num (n + 1)] s (num c.opts.mat) T ∈ askedAce c.opts →
        (∃ z a t, 1 ≤ z ∧ a < 300 ∧ Named (1000 * z + a) t ∧ (njoy text tmp g).1 (join tmp (tape n)) = some t) ∧ ((njoy text tmp g).1 (join tmp (tape (n + 1)))).isSome) →
      (makeAce njoy tmp c fs).2 = none := by
  obtain ⟨text, hr, ht, e⟩ := makeAce_eq (njoy := njoy) (tmp := tmp) (fs := fs) hw ha
  refine ⟨text, hr, fun g hg hrc hall => ?_⟩
  have hc := hn.call
  have et : c.tapeout = (match c.pendf with | none => [] | some p => [(21, p)]) ++ acerTapes c.ace c.xsdir (afterPurr c.opts) 0 c.opts.temps := by
    unfold Call.tapeout; simp only [ha, if_true]; rfl
  rw [et] at hc
  rw [e]
  refine run_finish_returns hl hc hn.outputs hg hrc fun i T hT => ?_
  obtain ⟨⟨z, a, t, hz, ha', hN, htape⟩, hs⟩ := hall T.str (num (afterPurr c.opts)) (afterPurr c.opts + 1 + 2 * i) (suffix i) (by
    unfold askedAce
    simp only [ha, if_true]
    refine List.mem_append_right _ (List.mem_map.2 ⟨(T, i), List.mem_zipIdx_iff_getElem?.2 (by simpa using hT), ?_⟩)
    rw [show afterPurr c.opts + 1 + 2 * i + 1 = afterPurr c.opts + 2 + 2 * i by ring]
    rfl)
  refine ⟨?_, hs⟩
  by_cases hi : 0 < c.isomer
  · obtain ⟨t', ht', -⟩ := mark_named hi hz ha' hN
    exact ⟨t, t', htape, ht'⟩
  · exact ⟨t, t, htape, by unfold mark; rw [if_neg hi]⟩

/-- If the run of NJOY fails, `make_ace` raises and no file has changed but the input file: an ACE file of an earlier run is still there. -/
theorem C209_failed (hl : Local njoy) (hw : CanWrite c.opts) (ha : c.opts.acer = true) (hn : Names tmp c fs) :
    ∃ text, Reads text (askedAce c.opts) ∧ ((∀ g, Prepared tmp [(20, c.filename)] (withInput fs text c.input) g → (njoy text tmp g).2 ≠ 0) →
      (makeAce njoy tmp c fs).2 ≠ none ∧ (∀ p, ¬ Inside tmp p → (makeAce njoy tmp c fs).1 p = withInput fs text c.input p)) := by
  obtain ⟨text, hr, ht, e⟩ := makeAce_eq (njoy := njoy) (tmp := tmp) (fs := fs) hw ha
  refine ⟨text, hr, fun hrc => ?_⟩
  have hc := hn.call
  have et : c.tapeout = (match c.pendf with | none => [] | some p => [(21, p)]) ++ acerTapes c.ace c.xsdir (afterPurr c.opts) 0 c.opts.temps := by
    unfold Call.tapeout; simp only [ha, if_true]; rfl
  rw [et] at hc
  rw [e]
  have h1 : (run njoy tmp text [(20, c.filename)] ((match c.pendf with | none => [] | some p => [(21, p)]) ++ acerTapes c.ace c.xsdir (afterPurr c.opts) 0 c.opts.temps) c.input fs).2 ≠ none := by
    intro h
    obtain ⟨g, hg, hz⟩ := (C119_returns hc).1 h
    exact hrc g hg hz
  obtain ⟨err, he⟩ := Option.ne_none_iff_exists'.1 h1
  rw [andThen_some he]
  exact ⟨h1, (C119_failed hl hc he).1⟩

/-- C209 as stated is false: with two temperatures that are the same to one decimal place, `make_ace` raises, whatever NJOY does. -/
theorem C209_equal_refuted {i j : Nat} {S T : Njoy.Temp} (hw : CanWrite c.opts) (ha : c.opts.acer = true) (hij : i < j) (hi : c.opts.temps[i]? = some S) (hj : c.opts.temps[j]? = some T)
    (hST : S.fmt1 = T.fmt1) : (makeAce njoy tmp c fs).2 ≠ none := by
  intro h
  obtain ⟨text, hr, ht, e⟩ := makeAce_eq (njoy := njoy) (tmp := tmp) (fs := fs) hw ha
  rw [e] at h
  obtain ⟨-, h2, -⟩ := andThen_ok h
  have hn := finish_nodup h2
  have hf := (List.nodup_flatMap.1 hn).2
  obtain ⟨hli, hi⟩ := List.getElem?_eq_some_iff.1 hi
  obtain ⟨hlj, hj⟩ := List.getElem?_eq_some_iff.1 hj
  have := List.pairwise_iff_getElem.1 hf i j hli hlj hij
  rw [hi, hj] at this
  exact this (a := fname c.ace S) (by simp) (by simp [fname, hST])

end

/-! ### Examples -/

/-- Neutrons on U-235 at two temperatures. -/
def exOpts : Opts := {
  mat := 9228
  library := c!"ENDFB-7.1"
  zsymam := c!" 92-U -235 "
  temps := [⟨c!"293.6", c!"293.6"⟩, ⟨c!"600", c!"600.0"⟩] }

theorem plain_ok {w : W} (h : w ≠ []) (h' : (w.all fun c => decide (Str.isSpace c = false ∧ c ≠ '/' ∧ c ≠ '\'' ∧ c ≠ '{' ∧ c ≠ '}')) = true) : Plain w :=
  ⟨h, fun c hc => of_decide_eq_true (List.all_eq_true.1 h' c hc)⟩

theorem exOpts_can (temps : List Njoy.Temp) (h : temps ≠ []) (h' : ∀ t ∈ temps, Plain t.str) : CanWrite { exOpts with temps := temps } where
  temps := h
  temp := h'
  error := plain_ok (w := c!"0.001") (by decide) (by decide)
  library := show '\'' ∉ c!"ENDFB-7.1" by decide
  zsymam := show '\'' ∉ c!" 92-U -235 " by decide

def exCallAce (isomer : Int) : Call := ⟨c!"/u/endf", exOpts, isomer, c!"/u/ace", c!"/u/xsdir", some c!"/u/pendf", none⟩

theorem exOpts_can2 : CanWrite exOpts := exOpts_can _ (by decide) (by
  intro t ht
  rcases List.mem_cons.1 ht with rfl | ht
  · exact plain_ok (by decide) (by decide)
  · obtain rfl := List.mem_singleton.1 ht
    exact plain_ok (by decide) (by decide))

theorem not_in_tmp {p : Path} (h : p.take 3 = c!"/u/") : ¬ Inside c!"/tmp" p := by
  rintro ⟨n, -, rfl⟩
  simp [join] at h

/-- There is an evaluation, and an ACE file from an earlier run. -/
def exFs : FS := fun p => if p = c!"/u/endf" then some c!"endf" else if p = c!"/u/ace" then some c!"old" else none

theorem exFs_none {p : Path} (h : Inside c!"/tmp" p) : exFs p = none := by
  obtain ⟨n, hn, rfl⟩ := h
  unfold exFs join
  simp

theorem exNames (isomer : Int) : Names c!"/tmp" (exCallAce isomer) exFs where
  fresh := fun p h => exFs_none h
  distinct := by
    show ([c!"/u/pendf"] ++ c!"/u/ace" :: c!"/u/xsdir" :: [c!"/u/ace_293.6", c!"/u/xsdir_293.6", c!"/u/ace_600.0", c!"/u/xsdir_600.0"]).Nodup
    decide
  outside := fun p hp => not_in_tmp (by
    have : p ∈ [c!"/u/endf", c!"/u/pendf", c!"/u/ace", c!"/u/xsdir", c!"/u/ace_293.6", c!"/u/xsdir_293.6", c!"/u/ace_600.0", c!"/u/xsdir_600.0"] := hp
    simp only [List.mem_cons, List.not_mem_nil, or_false] at this
    rcases this with rfl | rfl | rfl | rfl | rfl | rfl | rfl | rfl <;> rfl)

/-- A NJOY that writes a PENDF tape, two tables and their entries. -/
def njoyAce : Prog := fun _ d fs => (put (put (put (put (put fs (join d (tape 21)) (some c!"pendf"))
  (join d (tape 25)) (some c!" 92235.01c table 1")) (join d (tape 26)) (some c!"entry 1"))
  (join d (tape 27)) (some c!" 92235.02c table 2")) (join d (tape 28)) (some c!"entry 2"), 0)

theorem njoyAce_local : Local njoyAce := fun _ d fs p hp => by
  have h : ∀ n, p ≠ join d (tape n) := fun n e => hp (e ▸ inside_tape d n)
  simp only [njoyAce]
  rw [put_ne (h _), put_ne (h _), put_ne (h _), put_ne (h _), put_ne (h _)]

theorem njoyAce_tapes (text : Text) (d : Path) (fs : FS) : (njoyAce text d fs).1 (join d (tape 25)) = some c!" 92235.01c table 1" ∧
    (njoyAce text d fs).1 (join d (tape 26)) = some c!"entry 1" ∧ (njoyAce text d fs).1 (join d (tape 27)) = some c!" 92235.02c table 2" ∧
    (njoyAce text d fs).1 (join d (tape 28)) = some c!"entry 2" := by
  have h : ∀ {m n : Nat}, m ≠ n → join d (tape m) ≠ join d (tape n) := fun h => join_tape_ne h
  refine ⟨?_, ?_, ?_, put_same ..⟩
  · exact (put_ne (h (by decide))).trans ((put_ne (h (by decide))).trans ((put_ne (h (by decide))).trans (put_same ..)))
  · exact (put_ne (h (by decide))).trans ((put_ne (h (by decide))).trans (put_same ..))
  · exact (put_ne (h (by decide))).trans (put_same ..)

theorem ex_named (rest : Text) : Named (1000 * 92 + 235) (c!" 92235" ++ '.' :: rest) :=
  ⟨'.', rest, by decide, by decide +kernel, by rw [show Dec.natStr (1000 * 92 + 235) = c!"92235" by decide +kernel]; rfl⟩

/-- `make_ace` returns for these files. -/
theorem ex_returns (isomer : Int) : (makeAce njoyAce c!"/tmp" (exCallAce isomer) exFs).2 = none := by
  have hn := exNames isomer
  obtain ⟨text, hr, h⟩ := C209_returns (c := exCallAce isomer) njoyAce_local exOpts_can2 rfl hn
  have h2 := ((tapesIn_spec c!"/tmp" [(20, c!"/u/endf")] hn.call.inputTapes hn.call.inputPaths (withInput exFs text none)).2.2.1).2 (by simp [withInput, exFs])
  refine h _ (prepared_of hn.call.inputTapes hn.call.inputPaths (withInput_fresh hn.call) h2) rfl fun T inp n s hm => ?_
  have ht := njoyAce_tapes text c!"/tmp" (tapesIn c!"/tmp" [(20, c!"/u/endf")] (withInput exFs text none)).1
  have hcases : n = 25 ∨ n = 27 := by
    simp only [askedAce, exCallAce, exOpts, if_true, List.mem_append, List.mem_singleton, List.mem_map, reduceCtorEq, false_or, Run.acer.injEq, List.cons.injEq, List.zipIdx_cons, List.zipIdx_nil,
      List.mem_cons, List.not_mem_nil, or_false, exists_eq_or_imp, exists_eq_left] at hm
    rcases hm with hm | hm
    · exact Or.inl (Dec.natStr_injective hm.1.2.2.2.1).symm
    · exact Or.inr (Dec.natStr_injective hm.1.2.2.2.1).symm
  rcases hcases with rfl | rfl
  · exact ⟨⟨92, 235, _, by decide, by decide, ex_named c!"01c table 1", ht.1⟩, (congrArg Option.isSome ht.2.1).trans rfl⟩
  · exact ⟨⟨92, 235, _, by decide, by decide, ex_named c!"02c table 2", ht.2.2.1⟩, (congrArg Option.isSome ht.2.2.2).trans rfl⟩

/-- C209 applies: the metastable U-235 at two temperatures. -/
example : ∃ tables' : List Text, tables'.length = 2 ∧ (makeAce njoyAce c!"/tmp" (exCallAce 1) exFs).1 c!"/u/ace" = some tables'.flatten ∧
    ∀ t ∈ tables', Named (1000 * 92 + 235 + 400) t := by
  obtain ⟨text, g, -, -, -, ts, ts', es, h1, -, h2, h3, h4, -⟩ := C209_files_partial njoyAce_local exOpts_can2 rfl (exNames 1) (by
    intro p hp
    have : p ∈ [c!"/u/pendf", c!"/u/ace_293.6", c!"/u/xsdir_293.6", c!"/u/ace_600.0", c!"/u/xsdir_600.0"] := hp
    simp only [List.mem_cons, List.not_mem_nil, or_false] at this
    rcases this with rfl | rfl | rfl | rfl | rfl <;> rfl) (ex_returns 1)
  refine ⟨ts', h3.length_eq.symm.trans h1, h4, ?_⟩
  have ht := njoyAce_tapes text c!"/tmp" g
  have hts : ∀ t ∈ ts, Named (1000 * 92 + 235) t := by
    intro t hm
    obtain ⟨i, hi⟩ := List.mem_iff_getElem?.1 hm
    have hlt := (List.getElem?_eq_some_iff.1 hi).1
    rw [h1] at hlt
    have hT : ∃ T, (exCallAce 1).opts.temps[i]? = some T := ⟨_, List.getElem?_eq_getElem hlt⟩
    obtain ⟨T, hT⟩ := hT
    obtain ⟨inp, n, hm', e1, -⟩ := h2 i T hT
    rw [hi] at e1
    have hcases : n = 25 ∨ n = 27 := by
      simp only [askedAce, exCallAce, exOpts, if_true, List.mem_append, List.mem_singleton, List.mem_map, reduceCtorEq, false_or, Run.acer.injEq, List.cons.injEq, List.zipIdx_cons, List.zipIdx_nil,
        List.mem_cons, List.not_mem_nil, or_false, exists_eq_or_imp, exists_eq_left] at hm'
      rcases hm' with hm | hm
      · exact Or.inl (Dec.natStr_injective hm.1.2.2.2.1).symm
      · exact Or.inr (Dec.natStr_injective hm.1.2.2.2.1).symm
    rcases hcases with rfl | rfl
    · rw [ht.1] at e1; cases e1; exact ex_named _
    · rw [ht.2.2.1] at e1; cases e1; exact ex_named _
  intro t' hm
  obtain ⟨i, hi⟩ := List.mem_iff_getElem.1 hm
  obtain ⟨hlt, rfl⟩ := hi
  have hlt' : i < ts.length := by rw [h3.length_eq]; exact hlt
  exact ((List.forall₂_iff_get.1 h3).2 i hlt' hlt).named (by decide) 92 235 (by decide) (by decide) (by decide) (hts _ (List.getElem_mem hlt'))

/-- C209 as stated is false: 293.61 K and 293.64 K, say, are one file. -/
example (njoy : Prog) (fs : FS) :
    (makeAce njoy c!"/tmp" ⟨c!"/u/endf", { exOpts with temps := [⟨c!"293.61", c!"293.6"⟩, ⟨c!"293.64", c!"293.6"⟩] }, 0, c!"/u/ace", c!"/u/xsdir", none, none⟩ fs).2 ≠ none :=
  C209_equal_refuted (i := 0) (j := 1) (exOpts_can _ (by decide) (by
    intro t ht
    rcases List.mem_cons.1 ht with rfl | ht
    · exact plain_ok (by decide) (by decide)
    · obtain rfl := List.mem_singleton.1 ht
      exact plain_ok (by decide) (by decide))) rfl (by decide) rfl rfl rfl

/-- A NJOY that writes nothing. -/
def njoyNone : Prog := fun _ _ fs => (fs, 0)

/-- There are files of single temperatures from an earlier run. -/
def exOld : FS := fun p => if p = c!"/u/endf" then some c!"endf" else if p = c!"/u/ace_293.6" then some c!"old table" else if p = c!"/u/xsdir_293.6" then some c!"old entry" else none

theorem exOld_none {p : Path} (h : Inside c!"/tmp" p) : exOld p = none := by
  obtain ⟨n, hn, rfl⟩ := h
  unfold exOld join
  simp

def exCallOld : Call := ⟨c!"/u/endf", { exOpts with temps := [⟨c!"293.6", c!"293.6"⟩] }, 0, c!"/u/ace", c!"/u/xsdir", none, none⟩

theorem exNamesOld : Names c!"/tmp" exCallOld exOld where
  fresh := fun p h => exOld_none h
  distinct := by
    show ([] ++ c!"/u/ace" :: c!"/u/xsdir" :: [c!"/u/ace_293.6", c!"/u/xsdir_293.6"]).Nodup
    decide
  outside := fun p hp => not_in_tmp (by
    have : p ∈ [c!"/u/endf", c!"/u/ace", c!"/u/xsdir", c!"/u/ace_293.6", c!"/u/xsdir_293.6"] := hp
    simp only [List.mem_cons, List.not_mem_nil, or_false] at this
    rcases this with rfl | rfl | rfl | rfl | rfl <;> rfl)

/-- C209 as stated is false: if NJOY writes no table but a file of the name for the temperature is there from an earlier run, that old table is in the ACE file, and nothing is raised. -/
theorem C209_leftover_refuted : Names c!"/tmp" exCallOld exOld ∧ (makeAce njoyNone c!"/tmp" exCallOld exOld).2 = none ∧
    (makeAce njoyNone c!"/tmp" exCallOld exOld).1 c!"/u/ace" = some c!"old table" := by
  have hn := exNamesOld
  refine ⟨hn, ?_⟩
  obtain ⟨text, hr, ht, e⟩ := makeAce_eq (njoy := njoyNone) (tmp := c!"/tmp") (c := exCallOld) (fs := exOld) (exOpts_can _ (by decide) (by
    intro t ht
    obtain rfl := List.mem_singleton.1 ht
    exact plain_ok (by decide) (by decide))) rfl
  have hl : Local njoyNone := fun _ _ _ _ _ => rfl
  have hc : Files.Call c!"/tmp" [(20, c!"/u/endf")] ([] ++ acerTapes c!"/u/ace" c!"/u/xsdir" (afterPurr exCallOld.opts) 0 exCallOld.opts.temps) none exOld := hn.call
  have h2 := ((tapesIn_spec c!"/tmp" [(20, c!"/u/endf")] hc.inputTapes hc.inputPaths (withInput exOld text none)).2.2.1).2 (by simp [withInput, exOld])
  have hp := prepared_of hc.inputTapes hc.inputPaths (withInput_fresh hc (commands := text)) h2
  have hret : (run njoyNone c!"/tmp" text [(20, c!"/u/endf")] ([] ++ acerTapes c!"/u/ace" c!"/u/xsdir" (afterPurr exCallOld.opts) 0 exCallOld.opts.temps) none exOld).2 = none :=
    (C119_returns hc).2 ⟨_, hp, rfl⟩
  obtain ⟨g, q1, -, q3, q4, -⟩ := C119_success_partial hl hc hret
  obtain ⟨m1, m2⟩ := acerTapes_mem (ace := c!"/u/ace") (xsdir := c!"/u/xsdir") (k := afterPurr exCallOld.opts) exCallOld.opts.temps 0 0 ⟨c!"293.6", c!"293.6"⟩ rfl
  have hnone : ∀ n, n ≠ 20 → (njoyNone text c!"/tmp" g).1 (join c!"/tmp" (tape n)) = none := fun n hn =>
    q1.only _ (inside_tape _ _) fun e he => by
      obtain rfl : e = (20, c!"/u/endf") := by simpa using he
      exact join_tape_ne hn
  have k24 : afterPurr exCallOld.opts = 24 := rfl
  rw [k24] at m1 m2 q4
  have a1 := q4 _ _ m1 (hnone _ (by decide))
  have a2 := q4 _ _ m2 (hnone _ (by decide))
  have e1 : exOld c!"/u/ace_293.6" = some c!"old table" := by decide
  have e2 : exOld c!"/u/xsdir_293.6" = some c!"old entry" := by decide
  generalize hfs : (run njoyNone c!"/tmp" text [(20, c!"/u/endf")] ([] ++ acerTapes c!"/u/ace" c!"/u/xsdir" 24 0 exCallOld.opts.temps) none exOld).1 = fs' at a1 a2
  have e' : makeAce njoyNone c!"/tmp" exCallOld exOld = finish 0 c!"/u/ace" c!"/u/xsdir" exCallOld.opts.temps fs' := by
    rw [e, ← hfs]
    exact andThen_none hret
  have f1 : fs' (fname c!"/u/ace" ⟨c!"293.6", c!"293.6"⟩) = some c!"old table" := a1.trans e1
  have f2 : fs' (fname c!"/u/xsdir" ⟨c!"293.6", c!"293.6"⟩) = some c!"old entry" := a2.trans e2
  have hd := hn.outputs
  have hfin : (finish 0 c!"/u/ace" c!"/u/xsdir" exCallOld.opts.temps fs').2 = none := finish_returns hd fun t ht => by
    obtain rfl := List.mem_singleton.1 ht
    exact ⟨⟨_, _, f1, rfl⟩, by rw [f2]; rfl⟩
  obtain ⟨ts, ms, xs, j1, j2, -, j4, -⟩ := finish_ok hd hfin
  rw [e']
  refine ⟨hfin, j4.trans ?_⟩
  have hts : ts = [c!"old table"] := by
    have : [fs' (fname c!"/u/ace" ⟨c!"293.6", c!"293.6"⟩)] = ts.map some := j1
    rw [f1] at this
    cases ts with
    | nil => cases this
    | cons a l => cases l with
      | nil => simpa using this.symm
      | cons b l => simp at this
  rw [hts] at j2
  cases ms with
  | nil => cases j2
  | cons a l => cases l with
    | nil =>
      have : a = c!"old table" := by
        have := (List.cons.inj j2).1
        exact (Except.ok.inj this).symm
      simp [this]
    | cons b l => simp at j2

/-! ## C210 -/

section
open AceData
variable {z a : Nat} {sym : Endf.Line} {isomer : Int} {t t' : Text}

/-- C210, the part that holds: NJOY labels a table with 1000 Z + A for every state of a nuclide. In the ACE file the label is that of the ground state or of the first metastable
state, also when it is read by the other scheme; unless the nuclide is Am-242. -/
theorem C210_names_partial (h : Element z sym) (m : Nat) (hm : m ≤ 1) (hz : 1 ≤ z ∧ z < 1000) (ha : a ≤ 3 * z) (ha' : a < 300) (hlow : m = 1 → 3 * z < a + 100)
    (ham : ¬ (z = 95 ∧ a = 242)) (hN : Named (1000 * z + a) t) (hr : Relabelled m t t') :
    ∃ za, Named za t' ∧ Decodes za .mcnp z a m sym ∧ Decodes za .nndc z a m sym := by
  have d1 := C58_mcnp h a m hm hz.2 ha (by omega) hlow
  have d2 := C58_nndc_partial h a m hm ha (by omega) hlow
  rw [mcnpId, if_neg ham] at d1
  rcases Nat.le_one_iff_eq_zero_or_eq_one.1 hm with rfl | rfl
  · refine ⟨1000 * z + a, ?_, ?_, ?_⟩
    · rw [hr.ground (by simp)]; exact hN
    · convert d1 using 1; push_cast; ring
    · rw [nndcId, if_pos rfl] at d2; convert d2 using 1; push_cast; ring
  · refine ⟨1000 * z + a + 400, hr.named (by simp) z a hz.1 hz.2 ha' hN, ?_, ?_⟩
    · convert d1 using 1; push_cast; ring
    · rw [nndcId, if_neg (by norm_num)] at d2; convert d2 using 1; push_cast; ring

theorem strip_am : strip100 95 642 = 242 := by
  have := strip100_add (z := 95) (a := 242) (by norm_num) (by norm_num) 4
  norm_num at this
  simpa using this

/-- C210 as stated is false for Am-242: in the scheme of MCNP, the ground state is read as the metastable state and the metastable state as the ground state. -/
theorem C210_am242_refuted (h : Element 95 sym) (hN : Named 95242 t) :
    (Relabelled 0 t t' → ∃ za, Named za t' ∧ Decodes za .mcnp 95 242 1 sym) ∧ (Relabelled 1 t t' → ∃ za, Named za t' ∧ Decodes za .mcnp 95 242 0 sym) := by
  refine ⟨fun hr => ⟨95242, ?_, ?_⟩, fun hr => ⟨95642, hr.named (by decide) 95 242 (by decide) (by decide) (by decide) hN, ?_⟩⟩
  · rw [hr.ground le_rfl]; exact hN
  · have := C58_mcnp h 242 1 le_rfl (by decide) (by decide) (by decide) (by decide)
    rwa [mcnpId, if_pos ⟨rfl, rfl⟩, if_neg (by decide)] at this
  · have := C58_mcnp h 242 0 (by decide) (by decide) (by decide) (by decide) (by decide)
    rwa [mcnpId, if_pos ⟨rfl, rfl⟩, if_pos rfl] at this

/-- C210 as stated is false for a second metastable state: it is read as the first one. -/
theorem C210_second_refuted (h : Element z sym) (m : Nat) (hm : 2 ≤ m) (hz : 1 ≤ z ∧ z < 1000) (ha : a ≤ 3 * z) (ha' : a < 300) (hlow : 3 * z < a + 100)
    (ham : ¬ (z = 95 ∧ a = 242)) (hN : Named (1000 * z + a) t) (hr : Relabelled m t t') : ∃ za, Named za t' ∧ Decodes za .mcnp z a 1 sym := by
  have d1 := C58_mcnp h a 1 le_rfl hz.2 ha (by omega) (fun _ => hlow)
  rw [mcnpId, if_neg ham] at d1
  refine ⟨1000 * z + a + 400, hr.named (by omega) z a hz.1 hz.2 ha' hN, ?_⟩
  convert d1 using 1; push_cast; ring

end

/-- C210 applies: Ag-110m, 400 more than 47110. -/
example : ∃ t', mark 1 c!" 47110.01c" = .ok t' ∧ t' = c!" 47510.01c" ∧ ∃ za, Named za t' ∧ AceData.Decodes za .mcnp 47 110 1 "Ag".toList := by
  refine ⟨_, rfl, by decide +kernel, ?_⟩
  have hN : Named (1000 * 47 + 110) c!" 47110.01c" := ⟨'.', c!"01c", by decide, by decide +kernel, by decide +kernel⟩
  obtain ⟨za, h1, h2, -⟩ := C210_names_partial (m := 1) (sym := "Ag".toList) (by unfold AceData.Element; decide +kernel) le_rfl (by decide) (by decide) (by decide) (by decide) (by decide) hN
    (mark_relabelled (isomer := 1) rfl)
  exact ⟨za, h1, h2⟩

/-! ## C213 -/

section
variable {njoy : Prog} {tmp : Path} {fs : FS}

/-- The run of `make_pendf`. -/
theorem makePendf_eq {o : Opts} {filename pendf : Path} (isomer : Int) (he : Plain o.error) (hlib : Quotable o.library) (hz : Quotable o.zsymam) :
    ∃ text, Reads text [.reconr [num 20, num 21] (num o.mat) o.error] ∧ ∀ (njoy : Prog) (tmp : Path) (fs : FS),
      makePendf njoy tmp filename pendf o isomer fs = run njoy tmp text [(20, filename)] [(21, pendf)] none fs := by
  have hw : CanWrite { o with temps := [⟨c!"293.6", c!"293.6"⟩], broadr := false, heatr := false, purr := false, acer := false } :=
    ⟨by simp, fun t ht => by obtain rfl := List.mem_singleton.1 ht; exact plain_ok (by decide) (by decide), he, hlib, hz⟩
  obtain ⟨text, ht, hr⟩ := makeText_ok hw
  refine ⟨text, hr, fun njoy tmp fs => ?_⟩
  have e : makePendf njoy tmp filename pendf o isomer fs = (run njoy tmp text [(20, filename)] [(21, pendf)] none fs).andThen fun fs => (fs, none) := by
    unfold makePendf makeAce
    simp only [ht]
    rfl
  have e' : ∀ r : Res, (r.andThen fun fs => (fs, none)) = r := fun r => by
    cases h : r.2 with
    | none => rw [andThen_none h]; exact Prod.ext rfl h.symm
    | some x => rw [andThen_some h]
  exact e.trans (e' _)

theorem pendf_call {tmp : Path} {fs : FS} {filename pendf : Path} (hfresh : ∀ p, Inside tmp p → fs p = none) (h1 : ¬ Inside tmp filename) (h2 : ¬ Inside tmp pendf) :
    Files.Call tmp [(20, filename)] [(21, pendf)] none fs :=
  ⟨hfresh, by simp, by simp, by simp, by simp, by simpa using h1, by simpa using h2⟩

/-- `make_pendf`: if it returns, NJOY has read one RECONR run with the error given, on the evaluation, and the PENDF file holds what it wrote (or is as it was, if NJOY wrote none);
no other file has changed. -/
theorem C213_pendf (hl : Local njoy) {o : Opts} {filename pendf : Path} (isomer : Int) (he : Plain o.error) (hlib : Quotable o.library) (hz : Quotable o.zsymam)
    (hfresh : ∀ p, Inside tmp p → fs p = none) (h1 : ¬ Inside tmp filename) (h2 : ¬ Inside tmp pendf)
    (h : (makePendf njoy tmp filename pendf o isomer fs).2 = none) :
    ∃ text g, Reads text [.reconr [num 20, num 21] (num o.mat) o.error] ∧ Prepared tmp [(20, filename)] fs g ∧ (njoy text tmp g).2 = 0 ∧
      (makePendf njoy tmp filename pendf o isomer fs).1 pendf = ((njoy text tmp g).1 (join tmp (tape 21))).orElse (fun _ => fs pendf) ∧
      ∀ p, ¬ Inside tmp p → p ≠ pendf → (makePendf njoy tmp filename pendf o isomer fs).1 p = fs p := by
  obtain ⟨text, hr, e⟩ := makePendf_eq (filename := filename) (pendf := pendf) isomer he hlib hz
  rw [e] at h ⊢
  have hc := pendf_call hfresh h1 h2
  obtain ⟨g, p1, p2, p3, p4, p5, -⟩ := C119_success_partial hl hc h
  refine ⟨text, g, hr, p1, p2, ?_, fun p hp hp' => p5 p hp (by simpa using hp')⟩
  cases hq : (njoy text tmp g).1 (join tmp (tape 21)) with
  | none => exact p4 21 pendf (by simp) hq
  | some x => exact p3 21 pendf (by simp) x hq

/-- `make_pendf` returns if the evaluation is there and NJOY succeeds. -/
theorem C213_pendf_returns {o : Opts} {filename pendf : Path} (isomer : Int) (he : Plain o.error) (hlib : Quotable o.library) (hz : Quotable o.zsymam)
    (hfresh : ∀ p, Inside tmp p → fs p = none) (h1 : ¬ Inside tmp filename) (h2 : ¬ Inside tmp pendf) (hf : (fs filename).isSome) (hrc : ∀ text g, (njoy text tmp g).2 = 0) :
    (makePendf njoy tmp filename pendf o isomer fs).2 = none := by
  obtain ⟨text, -, e⟩ := makePendf_eq (filename := filename) (pendf := pendf) isomer he hlib hz
  have hc := pendf_call hfresh h1 h2
  have ht := ((tapesIn_spec tmp [(20, filename)] hc.inputTapes hc.inputPaths fs).2.2.1).2 (by simpa using hf)
  rw [e]
  exact (C119_returns hc).2 ⟨_, prepared_of hc.inputTapes hc.inputPaths hfresh ht, hrc _ _⟩

theorem says_temps {sh : Deck.Show} {i : Deck.Thermal} {x : Deck.Scatterer} (h : i.Says sh x) : Deck.tempsOf sh i = .ok x.temps := by
  obtain ⟨b, t0, ts, n, h74, hb3, hb5, hn, htemps⟩ := h.constants
  unfold Deck.tempsOf
  rcases htemps with e | ⟨e, e'⟩
  · rw [e]
  · rw [e]
    simp only [Deck.fileTemps_ok h74, bind, Except.bind, e']
    rfl

/-- The run of `make_ace_thermal`. -/
theorem makeAceThermal_eq {sh : Deck.Show} {i : Deck.Thermal} {x : Deck.Scatterer} (hx : i.Says sh x) {filename filenameThermal ace xsdir : Path} {input : Option Path} :
    ∃ text, Reads text (Deck.thermalAsked sh i x (x.zaids.take 3)) ∧ ∀ (njoy : Prog) (tmp : Path) (fs : FS), makeAceThermal njoy tmp sh i filename filenameThermal ace xsdir input fs =
      (run njoy tmp text [(20, filename), (21, filenameThermal)] ([] ++ acerTapes ace xsdir 25 0 x.temps) input fs).andThen (finish 0 ace xsdir x.temps) := by
  obtain ⟨text, ht, hr, -⟩ := Deck.C118_thermal hx
  refine ⟨text, hr, fun njoy tmp fs => ?_⟩
  unfold makeAceThermal
  simp only [says_temps hx, ht, List.nil_append]

theorem thermal_call {x : Deck.Scatterer} {filename filenameThermal ace xsdir : Path} {input : Option Path}
    (hfresh : ∀ p, Inside tmp p → fs p = none) (hd : (input.toList ++ ace :: xsdir :: x.temps.flatMap fun t => [ace ++ '_' :: t.fmt1, xsdir ++ '_' :: t.fmt1]).Nodup)
    (ho : ∀ p ∈ filename :: filenameThermal :: (input.toList ++ ace :: xsdir :: x.temps.flatMap fun t => [ace ++ '_' :: t.fmt1, xsdir ++ '_' :: t.fmt1]), ¬ Inside tmp p) :
    Files.Call tmp [(20, filename), (21, filenameThermal)] ([] ++ acerTapes ace xsdir 25 0 x.temps) input fs := by
  have hd' : (ace :: xsdir :: both ace xsdir x.temps).Nodup := (List.nodup_append.1 hd).2.1
  refine ⟨hfresh, by simp, (acerTapes_fst x.temps 0).2, ?_, fun f hf => ho f (by simp [hf]), fun q hq => ho q.2 ?_, fun q hq => ho q.2 ?_⟩
  · rw [List.nil_append, acerTapes_snd]
    exact (List.nodup_cons.1 (List.nodup_cons.1 hd').2).2
  · simp only [List.mem_cons, List.not_mem_nil, or_false] at hq
    rcases hq with rfl | rfl <;> simp
  · have : q.2 ∈ both ace xsdir x.temps := by rw [both, ← acerTapes_snd (k := 25) x.temps 0]; exact List.mem_map.2 ⟨q, hq, rfl⟩
    exact List.mem_cons_of_mem _ (List.mem_cons_of_mem _ (List.mem_append_right _ (List.mem_cons_of_mem _ (List.mem_cons_of_mem _ this))))

/-- `make_ace_thermal`: the same for the thermal tables of the scatterer of the files. -/
theorem C213_thermal_partial (hl : Local njoy) {sh : Deck.Show} {i : Deck.Thermal} {x : Deck.Scatterer} (hx : i.Says sh x) {filename filenameThermal ace xsdir : Path} {input : Option Path}
    (hfresh : ∀ p, Inside tmp p → fs p = none) (hd : (input.toList ++ ace :: xsdir :: x.temps.flatMap fun t => [ace ++ '_' :: t.fmt1, xsdir ++ '_' :: t.fmt1]).Nodup)
    (ho : ∀ p ∈ filename :: filenameThermal :: (input.toList ++ ace :: xsdir :: x.temps.flatMap fun t => [ace ++ '_' :: t.fmt1, xsdir ++ '_' :: t.fmt1]), ¬ Inside tmp p)
    (hfree : ∀ t ∈ x.temps, fs (ace ++ '_' :: t.fmt1) = none ∧ fs (xsdir ++ '_' :: t.fmt1) = none)
    (h : (makeAceThermal njoy tmp sh i filename filenameThermal ace xsdir input fs).2 = none) :
    ∃ text g, Reads text (Deck.thermalAsked sh i x (x.zaids.take 3)) ∧ Prepared tmp [(20, filename), (21, filenameThermal)] (withInput fs text input) g ∧ (njoy text tmp g).2 = 0 ∧
      ∃ tables entries : List Text, tables.length = x.temps.length ∧ entries.length = x.temps.length ∧
        (∀ k T, x.temps[k]? = some T → (njoy text tmp g).1 (join tmp (tape (26 + 2 * k))) = tables[k]? ∧ (njoy text tmp g).1 (join tmp (tape (27 + 2 * k))) = entries[k]?) ∧
        (makeAceThermal njoy tmp sh i filename filenameThermal ace xsdir input fs).1 ace = some tables.flatten ∧
        (makeAceThermal njoy tmp sh i filename filenameThermal ace xsdir input fs).1 xsdir = some entries.flatten ∧
        (∀ t ∈ x.temps, (makeAceThermal njoy tmp sh i filename filenameThermal ace xsdir input fs).1 (ace ++ '_' :: t.fmt1) = none ∧
          (makeAceThermal njoy tmp sh i filename filenameThermal ace xsdir input fs).1 (xsdir ++ '_' :: t.fmt1) = none) ∧
        (∀ p, ¬ Inside tmp p → p ≠ ace → p ≠ xsdir → (∀ t ∈ x.temps, p ≠ ace ++ '_' :: t.fmt1 ∧ p ≠ xsdir ++ '_' :: t.fmt1) →
          (makeAceThermal njoy tmp sh i filename filenameThermal ace xsdir input fs).1 p = withInput fs text input p) := by
  obtain ⟨text, hr, e⟩ := makeAceThermal_eq hx (filename := filename) (filenameThermal := filenameThermal) (ace := ace) (xsdir := xsdir) (input := input)
  rw [e] at h ⊢
  have hd' : (ace :: xsdir :: both ace xsdir x.temps).Nodup := (List.nodup_append.1 hd).2.1
  have hc := thermal_call (x := x) hfresh hd ho
  have hin : ∀ p ∈ both ace xsdir x.temps, withInput fs text input p = fs p := by
    intro p hp
    unfold withInput
    cases hi : input with
    | none => rfl
    | some f =>
      rw [hi] at hd
      exact put_ne ((List.nodup_append.1 hd).2.2 f (by simp) p (List.mem_cons_of_mem _ (List.mem_cons_of_mem _ hp))).symm
  obtain ⟨g, p1, p2, ts, ms, xs, l1, l3, p3, p4, p5, p6, p7, -, p9⟩ := run_finish hl hc hd' (fun p hp => (hin p hp).trans (by
    obtain ⟨t, ht, rfl | rfl⟩ := both_cases hp
    · exact (hfree t ht).1
    · exact (hfree t ht).2)) h
  have hms : ms = ts := by
    clear p3 p5 l1
    induction p4 with
    | nil => rfl
    | cons h _ ih => rw [h.ground le_rfl, ih]
  subst hms
  refine ⟨text, g, hr, p1, p2, ms, xs, l1, l3, fun k T hT => ?_, p5, p6, fun t ht => ⟨p7 _ (both_mem ht).1, p7 _ (both_mem ht).2⟩, fun p hp q1 q2 q3 => p9 p hp (by simp) q1 q2 fun hm => ?_⟩
  · have := p3 k T hT
    rwa [show 25 + 1 + 2 * k + 1 = 27 + 2 * k by ring, show 25 + 1 + 2 * k = 26 + 2 * k by ring] at this
  · obtain ⟨t, ht, rfl | rfl⟩ := both_cases hm
    · exact (q3 t ht).1 rfl
    · exact (q3 t ht).2 rfl

/-- `make_ace_thermal` returns if the evaluations are there and NJOY succeeds and writes its tapes. -/
theorem C213_thermal_returns (hl : Local njoy) {sh : Deck.Show} {i : Deck.Thermal} {x : Deck.Scatterer} (hx : i.Says sh x) {filename filenameThermal ace xsdir : Path} {input : Option Path}
    (hfresh : ∀ p, Inside tmp p → fs p = none) (hd : (input.toList ++ ace :: xsdir :: x.temps.flatMap fun t => [ace ++ '_' :: t.fmt1, xsdir ++ '_' :: t.fmt1]).Nodup)
    (ho : ∀ p ∈ filename :: filenameThermal :: (input.toList ++ ace :: xsdir :: x.temps.flatMap fun t => [ace ++ '_' :: t.fmt1, xsdir ++ '_' :: t.fmt1]), ¬ Inside tmp p)
    (hf : filename ∉ input ∧ filenameThermal ∉ input ∧ (fs filename).isSome ∧ (fs filenameThermal).isSome)
    (hrc : ∀ text g, (njoy text tmp g).2 = 0 ∧ ∀ n, ((njoy text tmp g).1 (join tmp (tape n))).isSome) :
    (makeAceThermal njoy tmp sh i filename filenameThermal ace xsdir input fs).2 = none := by
  obtain ⟨text, hr, e⟩ := makeAceThermal_eq hx (filename := filename) (filenameThermal := filenameThermal) (ace := ace) (xsdir := xsdir) (input := input)
  rw [e]
  have hc := thermal_call (x := x) hfresh hd ho
  have hw : ∀ p, p ∉ input → withInput fs text input p = fs p := by
    intro p hp
    cases input with
    | none => rfl
    | some q => exact put_ne fun e : p = q => hp (by rw [e]; rfl)
  have ht := ((tapesIn_spec tmp [(20, filename), (21, filenameThermal)] hc.inputTapes hc.inputPaths (withInput fs text input)).2.2.1).2 (by
    simp only [List.mem_cons, List.not_mem_nil, or_false, forall_eq_or_imp, forall_eq]
    rw [hw _ hf.1, hw _ hf.2.1]
    exact ⟨hf.2.2.1, hf.2.2.2⟩)
  refine run_finish_returns hl hc (List.nodup_append.1 hd).2.1 (prepared_of hc.inputTapes hc.inputPaths (withInput_fresh hc) ht) (hrc _ _).1 fun k T _ => ⟨?_, (hrc _ _).2 _⟩
  obtain ⟨y, hy⟩ := Option.isSome_iff_exists.1 ((hrc text (tapesIn tmp [(20, filename), (21, filenameThermal)] (withInput fs text input)).1).2 (25 + 1 + 2 * k))
  exact ⟨y, y, hy, rfl⟩

/-- C213 as stated is false if files of single temperatures are there before the call: when NJOY succeeds without writing its tapes, `make_ace_thermal` returns and the ACE and xsdir files
hold what was in the old files; the old files are gone. -/
theorem C213_leftover_refuted (hl : Local njoy) {sh : Deck.Show} {i : Deck.Thermal} {x : Deck.Scatterer} (hx : i.Says sh x) {filename filenameThermal ace xsdir : Path} {input : Option Path}
    (hfresh : ∀ p, Inside tmp p → fs p = none) (hd : (input.toList ++ ace :: xsdir :: x.temps.flatMap fun t => [ace ++ '_' :: t.fmt1, xsdir ++ '_' :: t.fmt1]).Nodup)
    (ho : ∀ p ∈ filename :: filenameThermal :: (input.toList ++ ace :: xsdir :: x.temps.flatMap fun t => [ace ++ '_' :: t.fmt1, xsdir ++ '_' :: t.fmt1]), ¬ Inside tmp p)
    (hf : filename ∉ input ∧ filenameThermal ∉ input ∧ (fs filename).isSome ∧ (fs filenameThermal).isSome)
    (hold : ∀ t ∈ x.temps, (fs (ace ++ '_' :: t.fmt1)).isSome ∧ (fs (xsdir ++ '_' :: t.fmt1)).isSome)
    (hrc : ∀ text g, (njoy text tmp g).2 = 0 ∧ ∀ n, 25 ≤ n → (njoy text tmp g).1 (join tmp (tape n)) = none) :
    (makeAceThermal njoy tmp sh i filename filenameThermal ace xsdir input fs).2 = none ∧ ∃ tables entries : List Text,
      x.temps.map (fun t => fs (ace ++ '_' :: t.fmt1)) = tables.map some ∧ x.temps.map (fun t => fs (xsdir ++ '_' :: t.fmt1)) = entries.map some ∧
      (makeAceThermal njoy tmp sh i filename filenameThermal ace xsdir input fs).1 ace = some tables.flatten ∧
      (makeAceThermal njoy tmp sh i filename filenameThermal ace xsdir input fs).1 xsdir = some entries.flatten ∧
      ∀ t ∈ x.temps, (makeAceThermal njoy tmp sh i filename filenameThermal ace xsdir input fs).1 (ace ++ '_' :: t.fmt1) = none := by
  obtain ⟨text, hr, e⟩ := makeAceThermal_eq hx (filename := filename) (filenameThermal := filenameThermal) (ace := ace) (xsdir := xsdir) (input := input)
  rw [e]
  have hd' : (ace :: xsdir :: both ace xsdir x.temps).Nodup := (List.nodup_append.1 hd).2.1
  have hc := thermal_call (x := x) hfresh hd ho
  have hw : ∀ p, p ∉ input → withInput fs text input p = fs p := by
    intro p hp
    cases input with
    | none => rfl
    | some q => exact put_ne fun e : p = q => hp (by rw [e]; rfl)
  have hin : ∀ p ∈ both ace xsdir x.temps, withInput fs text input p = fs p := by
    intro p hp
    refine hw p fun hi => ?_
    exact (List.nodup_append.1 hd).2.2 p (by simpa using hi) p (List.mem_cons_of_mem _ (List.mem_cons_of_mem _ hp)) rfl
  have ht := ((tapesIn_spec tmp [(20, filename), (21, filenameThermal)] hc.inputTapes hc.inputPaths (withInput fs text input)).2.2.1).2 (by
    simp only [List.mem_cons, List.not_mem_nil, or_false, forall_eq_or_imp, forall_eq]
    rw [hw _ hf.1, hw _ hf.2.1]
    exact ⟨hf.2.2.1, hf.2.2.2⟩)
  have h1 := (C119_returns (njoy := njoy) (commands := text) hc).2 ⟨_, prepared_of hc.inputTapes hc.inputPaths (withInput_fresh hc) ht, (hrc _ _).1⟩
  rw [andThen_none h1]
  obtain ⟨g, -, -, -, q4, -⟩ := C119_success_partial hl hc h1
  have hkeep : ∀ t ∈ x.temps, (run njoy tmp text [(20, filename), (21, filenameThermal)] ([] ++ acerTapes ace xsdir 25 0 x.temps) input fs).1 (fname ace t) = fs (fname ace t) ∧
      (run njoy tmp text [(20, filename), (21, filenameThermal)] ([] ++ acerTapes ace xsdir 25 0 x.temps) input fs).1 (fname xsdir t) = fs (fname xsdir t) := by
    intro t ht
    obtain ⟨k, hk⟩ := List.mem_iff_getElem?.1 ht
    obtain ⟨m1, m2⟩ := acerTapes_mem (ace := ace) (xsdir := xsdir) (k := 25) x.temps 0 k t hk
    exact ⟨(q4 _ _ m1 ((hrc _ _).2 _ (by omega))).trans (hin _ (both_mem ht).1), (q4 _ _ m2 ((hrc _ _).2 _ (by omega))).trans (hin _ (both_mem ht).2)⟩
  have h2 : (finish 0 ace xsdir x.temps (run njoy tmp text [(20, filename), (21, filenameThermal)] ([] ++ acerTapes ace xsdir 25 0 x.temps) input fs).1).2 = none := by
    refine finish_returns hd' fun t ht => ?_
    obtain ⟨y, hy⟩ := Option.isSome_iff_exists.1 (hold t ht).1
    rw [(hkeep t ht).1, (hkeep t ht).2]
    exact ⟨⟨y, y, hy, rfl⟩, (hold t ht).2⟩
  obtain ⟨ts, ms, xs, j1, j2, j3, j4, j5, j6, -⟩ := finish_ok hd' h2
  have hms : ms = ts := by
    have h := j2
    clear j1 j3 j4 j5
    induction ts generalizing ms with
    | nil => simpa using h.symm
    | cons a ts ih =>
      cases ms with
      | nil => simp at h
      | cons b ms =>
        simp only [List.map_cons, List.cons.injEq] at h
        rw [ih ms h.2 h.2, show b = a from (Except.ok.inj h.1).symm]
  subst hms
  rw [List.map_congr_left fun t ht => (hkeep t ht).1] at j1
  rw [List.map_congr_left fun t ht => (hkeep t ht).2] at j3
  exact ⟨h2, ms, xs, j1, j3, j4, j5, fun t ht => j6 _ (both_mem ht).1⟩

end

open Classical in
/-- A NJOY that writes all tapes. -/
noncomputable def njoyAll : Prog := fun _ d fs => (fun p => if Inside d p then some c!"tape" else fs p, 0)

theorem njoyAll_local : Local njoyAll := fun _ _ _ _ hp => if_neg hp

theorem njoyAll_tape (text : Text) (d : Path) (fs : FS) (n : Nat) : (njoyAll text d fs).1 (join d (tape n)) = some c!"tape" := if_pos (inside_tape d n)

/-- C213 applies to `make_pendf`: the PENDF file holds what NJOY wrote. -/
example : (makePendf njoyAll c!"/tmp" c!"/u/endf" c!"/u/pendf" exOpts 0 exFs).2 = none ∧ (makePendf njoyAll c!"/tmp" c!"/u/endf" c!"/u/pendf" exOpts 0 exFs).1 c!"/u/pendf" = some c!"tape" := by
  have h := C213_pendf_returns (njoy := njoyAll) (tmp := c!"/tmp") (fs := exFs) (o := exOpts) (filename := c!"/u/endf") (pendf := c!"/u/pendf") 0 exOpts_can2.error exOpts_can2.library
    exOpts_can2.zsymam (fun p h => exFs_none h) (not_in_tmp rfl) (not_in_tmp rfl) rfl (fun _ _ => rfl)
  refine ⟨h, ?_⟩
  obtain ⟨text, g, -, -, -, h2, -⟩ := C213_pendf njoyAll_local 0 exOpts_can2.error exOpts_can2.library exOpts_can2.zsymam (fun p h => exFs_none h) (not_in_tmp rfl) (not_in_tmp rfl) h
  rw [h2, njoyAll_tape]; rfl

/-- C213 applies to `make_ace_thermal`: H in ZrH at two temperatures. -/
example : ∃ tables : List Text, tables.length = 2 ∧
    (makeAceThermal njoyAll c!"/tmp" Deck.exShow (Deck.exThermal 7) c!"/u/endf" c!"/u/endf" c!"/u/ace" c!"/u/xsdir" none exFs).1 c!"/u/ace" = some tables.flatten := by
  have hx : (Deck.exThermal 7).Says Deck.exShow (Deck.exScatterer (c!"hzrh", [1001], 1)) := Deck.ex_says (by decide)
  have hd : ((none : Option Path).toList ++ c!"/u/ace" :: c!"/u/xsdir" :: (Deck.exScatterer (c!"hzrh", [1001], 1)).temps.flatMap fun t => [c!"/u/ace" ++ '_' :: t.fmt1, c!"/u/xsdir" ++ '_' :: t.fmt1]).Nodup := by
    show [c!"/u/ace", c!"/u/xsdir", c!"/u/ace_296.0", c!"/u/xsdir_296.0", c!"/u/ace_400.0", c!"/u/xsdir_400.0"].Nodup
    decide
  have ho : ∀ p ∈ c!"/u/endf" :: c!"/u/endf" :: ((none : Option Path).toList ++ c!"/u/ace" :: c!"/u/xsdir" ::
      (Deck.exScatterer (c!"hzrh", [1001], 1)).temps.flatMap fun t => [c!"/u/ace" ++ '_' :: t.fmt1, c!"/u/xsdir" ++ '_' :: t.fmt1]), ¬ Inside c!"/tmp" p := fun p hp => not_in_tmp (by
    have : p ∈ [c!"/u/endf", c!"/u/endf", c!"/u/ace", c!"/u/xsdir", c!"/u/ace_296.0", c!"/u/xsdir_296.0", c!"/u/ace_400.0", c!"/u/xsdir_400.0"] := hp
    simp only [List.mem_cons, List.not_mem_nil, or_false] at this
    rcases this with rfl | rfl | rfl | rfl | rfl | rfl | rfl | rfl <;> rfl)
  have hr := C213_thermal_returns njoyAll_local hx (fun p h => exFs_none h) hd ho ⟨by simp, by simp, rfl, rfl⟩ (fun _ _ => ⟨rfl, fun n => by rw [njoyAll_tape]; rfl⟩)
  obtain ⟨text, g, -, -, -, ts, es, h1, -, -, h2, -⟩ := C213_thermal_partial njoyAll_local hx (fun p h => exFs_none h) hd ho (fun t ht => by
    have : t = ⟨c!"296.0", c!"296.0"⟩ ∨ t = ⟨c!"400.0", c!"400.0"⟩ := by simpa [Deck.exScatterer] using ht
    rcases this with rfl | rfl <;> exact ⟨rfl, rfl⟩) hr
  exact ⟨ts, h1, h2⟩

open Classical in
/-- A NJOY that leaves no tapes. -/
noncomputable def njoyClear : Prog := fun _ d fs => (fun p => if Inside d p then none else fs p, 0)

/-- The evaluations, and files of two temperatures from an earlier run. -/
def exOldThermal : FS := fun p => if p = c!"/u/endf" then some c!"endf" else if p ∈ [c!"/u/ace_296.0", c!"/u/xsdir_296.0", c!"/u/ace_400.0", c!"/u/xsdir_400.0"] then some c!"old " else none

/-- `C213_leftover_refuted` applies: H in ZrH at two temperatures, with old files. -/
example : (makeAceThermal njoyClear c!"/tmp" Deck.exShow (Deck.exThermal 7) c!"/u/endf" c!"/u/endf" c!"/u/ace" c!"/u/xsdir" none exOldThermal).2 = none ∧
    (makeAceThermal njoyClear c!"/tmp" Deck.exShow (Deck.exThermal 7) c!"/u/endf" c!"/u/endf" c!"/u/ace" c!"/u/xsdir" none exOldThermal).1 c!"/u/ace" = some c!"old old " := by
  have hx : (Deck.exThermal 7).Says Deck.exShow (Deck.exScatterer (c!"hzrh", [1001], 1)) := Deck.ex_says (by decide)
  have hd : ((none : Option Path).toList ++ c!"/u/ace" :: c!"/u/xsdir" :: (Deck.exScatterer (c!"hzrh", [1001], 1)).temps.flatMap fun t => [c!"/u/ace" ++ '_' :: t.fmt1, c!"/u/xsdir" ++ '_' :: t.fmt1]).Nodup := by
    show [c!"/u/ace", c!"/u/xsdir", c!"/u/ace_296.0", c!"/u/xsdir_296.0", c!"/u/ace_400.0", c!"/u/xsdir_400.0"].Nodup
    decide
  have ho : ∀ p ∈ c!"/u/endf" :: c!"/u/endf" :: ((none : Option Path).toList ++ c!"/u/ace" :: c!"/u/xsdir" ::
      (Deck.exScatterer (c!"hzrh", [1001], 1)).temps.flatMap fun t => [c!"/u/ace" ++ '_' :: t.fmt1, c!"/u/xsdir" ++ '_' :: t.fmt1]), ¬ Inside c!"/tmp" p := fun p hp => not_in_tmp (by
    have : p ∈ [c!"/u/endf", c!"/u/endf", c!"/u/ace", c!"/u/xsdir", c!"/u/ace_296.0", c!"/u/xsdir_296.0", c!"/u/ace_400.0", c!"/u/xsdir_400.0"] := hp
    simp only [List.mem_cons, List.not_mem_nil, or_false] at this
    rcases this with rfl | rfl | rfl | rfl | rfl | rfl | rfl | rfl <;> rfl)
  have hts : (Deck.exScatterer (c!"hzrh", [1001], 1)).temps = [⟨c!"296.0", c!"296.0"⟩, ⟨c!"400.0", c!"400.0"⟩] := rfl
  obtain ⟨h1, ts, es, h2, -, h3, -⟩ := C213_leftover_refuted (njoy := njoyClear) (tmp := c!"/tmp") (fs := exOldThermal) (fun _ _ _ _ hp => if_neg hp) hx (fun p ⟨n, hn, e⟩ => by
      subst e
      unfold exOldThermal join
      simp) hd ho ⟨by simp, by simp, rfl, rfl⟩ (fun t ht => by
      rw [hts] at ht
      simp only [List.mem_cons, List.not_mem_nil, or_false] at ht
      rcases ht with rfl | rfl <;> exact ⟨rfl, rfl⟩) (fun _ _ => ⟨rfl, fun n _ => if_pos (inside_tape _ n)⟩)
  refine ⟨h1, h3.trans ?_⟩
  rw [hts] at h2
  have h4 : [some c!"old ", some c!"old "] = ts.map some := h2
  have h5 : ts = [c!"old ", c!"old "] := by
    have := congrArg (List.filterMap id) h4
    simpa using this.symm
  rw [h5]
  rfl

end ASAPy.DNjoy
