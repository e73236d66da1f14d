import Verif.Deck.Tapes
import Verif.Deck.Eval

/-!
# C116, C117: the input for NJOY, read back
-/

namespace ASAPy.Deck

set_option maxRecDepth 100000

variable {o : Opts}

/-! ## C116 -/

/-- C116, the part that holds: `make_njoy_run` writes an input that NJOY reads as exactly the modules asked for, each with its tapes, the material, the error,
all temperatures, all group bounds, the weights, the reactions to plot and the suffixes, and as nothing else; unless covariances are asked for with weight option 4, or
with weight option 1 together with nu-bar or chi. -/
theorem C116_deck_partial (hw : o.Writable) (hn : o.errorr = true → o.iwt ≠ 4 ∧ (o.iwt = 1 → o.nu = false ∧ o.chi = false)) :
    ∃ t, makeDeck o = .ok t ∧ Reads t (asked o) ∧ ∀ rs, Reads t rs → rs = asked o := by
  obtain ⟨t, h1, h2⟩ := makeDeck_ok hw hn
  exact ⟨t, h1, h2, fun rs h => h.unique h2⟩

/-- The tapes on the cards, as NJOY reads them from the text, are wired: each module finds on its tapes the kind of data it needs and writes to new tapes. -/
theorem C116_tapes_partial (hw : o.Writable) (hn : o.errorr = true → o.iwt ≠ 4 ∧ (o.iwt = 1 → o.nu = false ∧ o.chi = false))
    (hc : o.errorr = true → o.heatr = false → o.purr = false ∧ o.acer = false) :
    ∃ t rs, makeDeck o = .ok t ∧ Reads t rs ∧ Njoy.Wired [(20, .endf)] (modsOf 0 rs) := by
  obtain ⟨t, h1, h2⟩ := makeDeck_ok hw hn
  obtain ⟨out, h3⟩ := njoy_ok (a := c!"ace") (x := c!"xsdir") hw
  exact ⟨t, asked o, h1, h2, Njoy.C68_wired_partial _ _ _ _ h3 hc⟩

/-- Two temperatures, covariances with three group bounds and plots of two reactions, nu-bar and chi. -/
def oAll : Opts := {
  mat := 9228
  library := c!"ENDFB-7.1"
  zsymam := c!" 92-U -235 "
  temps := [⟨c!"300", c!"300.0"⟩, ⟨c!"600.5", c!"600.5"⟩]
  groups := some [c!"1e-05", c!"0.625", c!"20000000.0"]
  iwt := 6
  mts := [2, 18]
  nu := true
  chi := true }

theorem plain_of {w : W} (h1 : w ≠ []) (h2 : (w.all fun c => !Str.isSpace c && c != '/' && c != '\'' && c != '{' && c != '}') = true) : Plain w := by
  refine ⟨h1, fun c hc => ?_⟩
  have := List.all_eq_true.1 h2 c hc
  simpa [and_assoc] using this

theorem oAll_writable : oAll.Writable where
  temps := by decide
  temp := by
    intro t ht
    simp only [oAll, List.mem_cons, List.not_mem_nil, or_false] at ht
    rcases ht with rfl | rfl <;> exact plain_of (by decide) (by decide)
  error := plain_of (by decide) (by decide)
  library := by unfold Quotable; decide
  zsymam := by unfold Quotable; decide
  groups := fun _ => ⟨_, rfl, by decide, by
    intro w hw
    simp only [List.mem_cons, List.not_mem_nil, or_false] at hw
    rcases hw with rfl | rfl | rfl <;> exact plain_of (by decide) (by decide)⟩
  flux := fun _ h => absurd h (by decide)
  broadr := fun _ => rfl

example : ∃ t, makeDeck oAll = .ok t ∧ Reads t (asked oAll) ∧ ∀ rs, Reads t rs → rs = asked oAll :=
  C116_deck_partial oAll_writable fun _ => ⟨by decide, fun h => absurd h (by decide)⟩

/-- A weight spectrum of the user (option 1), without nu-bar and chi. -/
def oFlux : Opts := {
  mat := 9228
  library := c!"ENDFB-7.1"
  zsymam := c!" 92-U -235 "
  temps := [⟨c!"300", c!"300.0"⟩]
  heatr := false
  purr := false
  acer := false
  groups := some [c!"1e-05", c!"0.625", c!"20000000.0"]
  iwt := 1
  flux := some [c!"1e-05", c!"1.0", c!"20000000.0", c!"1.0"]
  mts := [18] }

theorem flux_writable (a b : Bool) (n : Nat) : Opts.Writable { oFlux with nu := a, chi := b, iwt := n } where
  temps := by simp [oFlux]
  temp := by
    intro t ht
    simp only [oFlux, List.mem_cons, List.not_mem_nil, or_false] at ht
    subst ht; exact plain_of (by decide) (by decide)
  error := (plain_of (by decide) (by decide) : Plain c!"0.001")
  library := (by decide : '\'' ∉ c!"ENDFB-7.1")
  zsymam := (by decide : '\'' ∉ c!" 92-U -235 ")
  groups := fun _ => ⟨[c!"1e-05", c!"0.625", c!"20000000.0"], rfl, by decide, by
    intro w hw
    simp only [List.mem_cons, List.not_mem_nil, or_false] at hw
    rcases hw with rfl | rfl | rfl <;> exact plain_of (by decide) (by decide)⟩
  flux := fun _ _ => ⟨[c!"1e-05", c!"1.0", c!"20000000.0", c!"1.0"], rfl, by decide, by
    intro w hw
    simp only [List.mem_cons, List.not_mem_nil, or_false] at hw
    rcases hw with rfl | rfl | rfl | rfl <;> exact plain_of (by decide) (by decide)⟩
  broadr := fun _ => rfl

example : ∃ t rs, makeDeck oFlux = .ok t ∧ Reads t rs ∧ Njoy.Wired [(20, .endf)] (modsOf 0 rs) :=
  C116_tapes_partial (flux_writable false false 1) (fun _ => ⟨by decide, fun _ => ⟨rfl, rfl⟩⟩) fun _ _ => ⟨rfl, rfl⟩

/-- The input of `o`, read. -/
def readDeck (o : Opts) : Res := match makeDeck o with | .ok t => readF 60 t | .error _ => .more

theorem readDeck_bad {o : Opts} (h : readDeck o = .bad) : ∃ t, makeDeck o = .ok t ∧ ∀ rs, ¬ Reads t rs := by
  unfold readDeck at h
  split at h
  · rename_i t ht; exact ⟨t, ht, readF_bad h⟩
  · cases h

theorem readDeck_ok {o : Opts} {rs : List Run} (h : readDeck o = .ok rs) : ∃ t, makeDeck o = .ok t ∧ Reads t rs := by
  unfold readDeck at h
  split at h
  · rename_i t ht; exact ⟨t, ht, readF_ok h⟩
  · cases h

/-- Something else was read. -/
def readsOther (r : Res) (rs : List Run) : Bool := match r with | .ok rs' => decide (rs' ≠ rs) | _ => false

theorem readDeck_other {o : Opts} {rs : List Run} (h : readsOther (readDeck o) rs = true) : ∃ t, makeDeck o = .ok t ∧ ¬ Reads t rs := by
  cases hr : readDeck o with
  | ok rs' =>
    obtain ⟨t, h1, h2⟩ := readDeck_ok hr
    rw [hr] at h
    exact ⟨t, h1, fun h3 => of_decide_eq_true h (h2.unique h3)⟩
  | bad => rw [hr] at h; cases h
  | more => rw [hr] at h; cases h

/-- C116 as stated is false: with weight option 4 NJOY expects four parameters which `make_njoy_run` does not write, and the input cannot be read. -/
theorem C116_parameters_refuted : Opts.Writable { oFlux with iwt := 4 } ∧ ∃ t, makeDeck { oFlux with iwt := 4 } = .ok t ∧ ∀ rs, ¬ Reads t rs :=
  ⟨flux_writable false false 4, readDeck_bad (by decide +kernel)⟩

/-- C116 as stated is false: with the user's weights (option 1) and nu-bar, the weights are written for the covariances of the cross sections but not for nu-bar, and
what NJOY makes of the input is not what was asked for. -/
theorem C116_weights_refuted : Opts.Writable { oFlux with nu := true } ∧ ∃ t, makeDeck { oFlux with nu := true } = .ok t ∧ ¬ Reads t (asked { oFlux with nu := true }) := by
  refine ⟨flux_writable true false 1, ?_⟩
  exact readDeck_other (by decide +kernel)

/-! ## C117 -/

/-- The value of a decimal fraction without digits before the point. -/
def fracVal (w : W) : ℚ := Dec.natVal w.tail / 10 ^ w.tail.length

/-- The suffixes of the ACE tables, in the order of the input. -/
def suffixes (rs : List Run) : List W := rs.filterMap fun r => match r with | .acer _ s _ _ => some s | _ => none

theorem suffix_val {i : Nat} (h : i < 99) : fracVal (suffix i) = ((i + 1 : Nat) : ℚ) / 100 := by
  unfold fracVal suffix
  split
  · rename_i h1
    have e : Dec.natVal ('0' :: Dec.natStr (i + 1)) = Dec.natVal (Dec.natStr (i + 1)) := rfl
    simp only [List.tail_cons, List.length_cons, num, natStr_length_lt (n := i + 1) h1, e, Dec.natVal_natStr]
    norm_num
  · rename_i h1
    have hl : (Dec.natStr (i + 1)).length = 2 := by
      have h2 := natStr_length_ge (n := i + 1) (by omega)
      have h3 : (Dec.natStr (i + 1)).length < 3 := by
        rw [Dec.natStr, if_neg (by omega), List.length_reverse, List.length_map, Nat.digits_len 10 _ (by norm_num) (by omega)]
        have : Nat.log 10 (i + 1) < 2 := Nat.log_lt_of_lt_pow (by omega) (by omega)
        omega
      omega
    simp only [List.tail_cons, num, hl, Dec.natVal_natStr]
    norm_num

theorem suffixes_acer (k : Nat) (l : List (Njoy.Temp × Nat)) : suffixes (l.map fun ti =>
    .acer [num 20, num k, c!"0", num (k + 1 + 2 * ti.2), num (k + 2 + 2 * ti.2)] (suffix ti.2) (num o.mat) ti.1.str) = l.map fun ti => suffix ti.2 := by
  induction l with
  | nil => rfl
  | cons t l ih => simp only [List.map_cons, suffixes, List.filterMap_cons] at *; rw [ih]

theorem suffixes_append (a b : List Run) : suffixes (a ++ b) = suffixes a ++ suffixes b := List.filterMap_append

theorem suffixes_nil_of {l : List Run} (h : ∀ r ∈ l, ∀ a b c d, r ≠ .acer a b c d) : suffixes l = [] := by
  unfold suffixes
  rw [List.filterMap_eq_nil_iff]
  intro r hr
  cases r <;> simp
  exact absurd rfl (h _ hr _ _ _ _)

/-- What is asked for before ACER has no ACER run. -/
theorem asked_split (o : Opts) : ∃ pre k, asked o = pre ++ (if o.acer then o.temps.zipIdx.map fun ti =>
      Run.acer [num 20, num k, c!"0", num (k + 1 + 2 * ti.2), num (k + 2 + 2 * ti.2)] (suffix ti.2) (num o.mat) ti.1.str else []) ∧ suffixes pre = [] := by
  refine ⟨_, _, rfl, suffixes_nil_of ?_⟩
  intro r hr a b c d e
  subst e
  simp only [List.mem_append] at hr
  rcases hr with (((hr | hr) | hr) | hr) | hr
  · simp at hr
  · split at hr <;> simp at hr
  · split at hr
    · rcases List.mem_append.1 hr with hr | hr
      · obtain ⟨ti, -, hr⟩ := List.mem_flatMap.1 hr
        unfold covRuns at hr
        split at hr <;> simp at hr
      · unfold nuChiRuns nuRuns at hr
        split at hr
        · simp at hr
        · cases o.nu <;> cases o.chi <;> simp at hr
    · simp at hr
  · split at hr <;> simp at hr
  · split at hr <;> simp at hr

theorem suffixes_asked (ha : o.acer = true) : suffixes (asked o) = o.temps.zipIdx.map fun ti => suffix ti.2 := by
  obtain ⟨pre, k, h, h0⟩ := asked_split o
  rw [h, if_pos ha, suffixes_append, h0, suffixes_acer, List.nil_append]

/-- C117, the part that holds: there is one ACE table per temperature; with at most 99 temperatures their suffixes are different numbers, 0.01, 0.02, ... in the order of the temperatures. -/
theorem C117_suffixes_partial (hw : o.Writable) (hn : o.errorr = true → o.iwt ≠ 4 ∧ (o.iwt = 1 → o.nu = false ∧ o.chi = false)) (ha : o.acer = true)
    (hl : o.temps.length ≤ 99) :
    ∃ t, makeDeck o = .ok t ∧ ∀ rs, Reads t rs → (suffixes rs).map fracVal = (List.range o.temps.length).map (fun i : Nat => ((i + 1 : Nat) : ℚ) / 100) ∧ ((suffixes rs).map fracVal).Nodup := by
  obtain ⟨t, h1, h2⟩ := makeDeck_ok hw hn
  refine ⟨t, h1, fun rs h => ?_⟩
  rw [h.unique h2, suffixes_asked ha]
  have e : (o.temps.zipIdx.map fun ti => suffix ti.2).map fracVal = (List.range o.temps.length).map (fun i : Nat => ((i + 1 : Nat) : ℚ) / 100) := by
    rw [List.map_map, List.range_eq_range', ← List.zipIdx_map_snd 0 o.temps, List.map_map]
    refine List.map_congr_left fun ti hti => ?_
    have := List.snd_lt_of_mem_zipIdx hti
    exact suffix_val (by omega)
  refine ⟨e, ?_⟩
  rw [e]
  refine List.Nodup.map (fun a b h => ?_) List.nodup_range
  have : ((a + 1 : Nat) : ℚ) = ((b + 1 : Nat) : ℚ) := by
    have h : ((a + 1 : Nat) : ℚ) / 100 = ((b + 1 : Nat) : ℚ) / 100 := h
    linarith
  have := Nat.cast_injective this
  omega

example : ∃ t, makeDeck oAll = .ok t ∧ ∀ rs, Reads t rs → (suffixes rs).map fracVal = [1 / 100, 2 / 100] := by
  obtain ⟨t, h1, h2⟩ := C117_suffixes_partial oAll_writable (fun _ => ⟨by decide, fun h => absurd h (by decide)⟩) rfl (by decide)
  refine ⟨t, h1, fun rs h => ?_⟩
  rw [(h2 rs h).1]
  norm_num [oAll, List.range_succ]

/-- A hundred temperatures: 1 K, 2 K, ..., 100 K. -/
def oMany : Opts := {
  mat := 9228
  library := c!"ENDFB-7.1"
  zsymam := c!" 92-U -235 "
  temps := (List.range 100).map fun i => ⟨Dec.natStr (i + 1), Dec.natStr (i + 1) ++ c!".0"⟩
  errorr := false }

theorem oMany_writable : oMany.Writable where
  temps := by decide
  temp := by
    intro t ht
    obtain ⟨i, -, rfl⟩ := List.mem_map.1 ht
    exact plain_natStr (i + 1)
  error := plain_of (by decide) (by decide)
  library := by unfold Quotable; decide
  zsymam := by unfold Quotable; decide
  groups := fun h => absurd h (by decide)
  flux := fun h => absurd h (by decide)
  broadr := fun _ => rfl

/-- C117 as stated is false: with a hundred temperatures the tenth and the hundredth table have the suffixes .10 and .100, which are the same number. -/
theorem C117_suffixes_refuted : oMany.Writable ∧ ∃ t, makeDeck oMany = .ok t ∧ ∀ rs, Reads t rs →
    (suffixes rs)[9]? = some c!".10" ∧ (suffixes rs)[99]? = some c!".100" ∧ fracVal c!".10" = fracVal c!".100" := by
  refine ⟨oMany_writable, ?_⟩
  obtain ⟨t, h1, h2, h3⟩ := C116_deck_partial oMany_writable (fun h => absurd h (by decide))
  refine ⟨t, h1, fun rs h => ?_⟩
  rw [h3 rs h, suffixes_asked rfl]
  refine ⟨by decide +kernel, by decide +kernel, ?_⟩
  rw [fracVal, fracVal, show Dec.natVal (c!".10").tail = 10 from rfl, show Dec.natVal (c!".100").tail = 100 from rfl]
  norm_num

theorem acerLoop_out (p : Njoy.Opts) (k : Nat) (l : List Njoy.Temp) : ∀ (i : Nat) (s : Njoy.St),
    (∀ j, j < k + 1 + 2 * i → Dict.get? (Njoy.acerLoop p k i l s).out j = Dict.get? s.out j) ∧
    ∀ j t, l[j]? = some t → Dict.get? (Njoy.acerLoop p k i l s).out (k + 1 + 2 * (i + j)) = some (p.ace ++ '_' :: t.fmt1) ∧
      Dict.get? (Njoy.acerLoop p k i l s).out (k + 2 + 2 * (i + j)) = some (p.xsdir ++ '_' :: t.fmt1) := by
  induction l with
  | nil => intro i s; exact ⟨fun j _ => rfl, fun j t h => by simp at h⟩
  | cons t l ih =>
    intro i s
    rw [Njoy.acerLoop]
    obtain ⟨h1, h2⟩ := ih (i + 1) ⟨s.mods ++ [⟨.acer, [(Njoy.nendf, .endf), (k, .pendf)], [(k + 1 + 2 * i, .ace), (k + 1 + 2 * i + 1, .xsdir)]⟩], s.nlast,
        Dict.set (Dict.set s.out (k + 1 + 2 * i) (p.ace ++ '_' :: t.fmt1)) (k + 1 + 2 * i + 1) (p.xsdir ++ '_' :: t.fmt1)⟩
    refine ⟨fun j hj => ?_, fun j u hu => ?_⟩
    · rw [h1 j (by omega)]
      show Dict.get? (Dict.set (Dict.set _ _ _) _ _) j = _
      rw [Dict.get?_set_ne _ _ (by omega), Dict.get?_set_ne _ _ (by omega)]
    · cases j with
      | zero =>
        obtain rfl : t = u := by simpa using hu
        rw [h1 _ (by omega), h1 _ (by omega)]
        refine ⟨?_, ?_⟩
        · show Dict.get? (Dict.set (Dict.set _ _ _) _ _) _ = _
          rw [Dict.get?_set_ne _ _ (by omega), show k + 1 + 2 * (i + 0) = k + 1 + 2 * i by ring, Dict.get?_set_same]
        · show Dict.get? (Dict.set (Dict.set _ _ _) _ _) _ = _
          rw [show k + 2 + 2 * (i + 0) = k + 1 + 2 * i + 1 by ring, Dict.get?_set_same]
      | succ j =>
        have := h2 j u (by simpa using hu)
        rw [show i + (j + 1) = i + 1 + j by ring]
        exact this

theorem njoy_files {p : Njoy.Opts} {temps : List Njoy.Temp} {mods : List Njoy.Mod} {out : List (Nat × List Char)} (h : Njoy.makeNjoyRun p temps = .ok (mods, out))
    (ha : p.acer = true) : ∃ pre k, mods = pre ++ acerMods k temps.zipIdx ∧ ∀ j t, temps[j]? = some t →
      Dict.get? out (k + 1 + 2 * j) = some (p.ace ++ '_' :: t.fmt1) ∧ Dict.get? out (k + 2 + 2 * j) = some (p.xsdir ++ '_' :: t.fmt1) := by
  unfold Njoy.makeNjoyRun at h
  simp only [ha, if_true] at h
  split at h
  · cases h
  · split at h
    · cases h
    · rename_i s _
      generalize (if p.purr = true then
          (⟨s.mods ++ [⟨.purr, [(Njoy.nendf, .endf), (s.nlast, .pendf)], [(s.nlast + 1, .pendf)]⟩], s.nlast + 1, s.out⟩ : Njoy.St)
        else s) = s1 at h
      split at h
      · cases h
      · simp only [Except.ok.injEq, Prod.mk.injEq] at h
        obtain ⟨rfl, rfl⟩ := h
        refine ⟨s1.mods, s1.nlast, njoy_acer p _ _ 0 s1, fun j t hj => ?_⟩
        have := (acerLoop_out p s1.nlast temps 0 s1).2 j t hj
        simpa using this

/-- The table of each temperature is saved under the names asked for with the temperature: NJOY runs ACER with its suffix and temperature, and the tapes ACER writes are
copied to `ace_T` and `xsdir_T`, T with one decimal. -/
theorem C117_files_partial (hw : o.Writable) (hn : o.errorr = true → o.iwt ≠ 4 ∧ (o.iwt = 1 → o.nu = false ∧ o.chi = false)) (ha : o.acer = true) (ace xsdir : W)
    (i : Nat) (T : Njoy.Temp) (hT : o.temps[i]? = some T) :
    ∃ t rs mods out, makeDeck o = .ok t ∧ Reads t rs ∧ Njoy.makeNjoyRun (o.njoy ace xsdir) o.temps = .ok (mods, out) ∧
      ∃ inp n, Run.acer [num 20, inp, c!"0", num n, num (n + 1)] (suffix i) (num o.mat) T.str ∈ rs ∧
        Dict.get? out n = some (ace ++ '_' :: T.fmt1) ∧ Dict.get? out (n + 1) = some (xsdir ++ '_' :: T.fmt1) := by
  obtain ⟨t, h1, h2⟩ := makeDeck_ok hw hn
  obtain ⟨out, h3⟩ := njoy_ok (a := ace) (x := xsdir) hw
  refine ⟨t, asked o, _, out, h1, h2, h3, ?_⟩
  obtain ⟨pre, k, e, h4⟩ := njoy_files h3 ha
  obtain ⟨pre', k', e', -⟩ := asked_split o
  rw [if_pos ha] at e'
  have hk : k' = k := by
    rw [e', modsOf_append, modsOf_acer] at e
    have := (List.append_inj' e (by simp [acerMods])).2
    have hm : (T, i) ∈ o.temps.zipIdx := by
      rw [List.mem_zipIdx_iff_getElem?]; exact hT
    have := (List.map_inj_left.1 this) _ hm
    simpa using this
  subst hk
  refine ⟨num k', k' + 1 + 2 * i, ?_, (h4 i T hT).1, ?_⟩
  · rw [e']
    refine List.mem_append_right _ (List.mem_map.2 ⟨(T, i), by rw [List.mem_zipIdx_iff_getElem?]; exact hT, ?_⟩)
    simp [show k' + 1 + 2 * i + 1 = k' + 2 + 2 * i by ring]
  · rw [show k' + 1 + 2 * i + 1 = k' + 2 + 2 * i by ring]; exact (h4 i T hT).2

example : ∃ t rs mods out, makeDeck oAll = .ok t ∧ Reads t rs ∧ Njoy.makeNjoyRun (oAll.njoy c!"u235" c!"dir") oAll.temps = .ok (mods, out) ∧
      ∃ inp n, Run.acer [num 20, inp, c!"0", num n, num (n + 1)] c!".02" (num 9228) c!"600.5" ∈ rs ∧
        Dict.get? out n = some c!"u235_600.5" ∧ Dict.get? out (n + 1) = some c!"dir_600.5" :=
  C117_files_partial oAll_writable (fun _ => ⟨by decide, fun h => absurd h (by decide)⟩) rfl c!"u235" c!"dir" 1 ⟨c!"600.5", c!"600.5"⟩ rfl

/-- C117 as stated is false: two temperatures that agree to one decimal give the same file names, and only one of the two tables is left. -/
theorem C117_files_refuted : ∃ mods out, Njoy.makeNjoyRun { errorr := false } [⟨c!"300.01", c!"300.0"⟩, ⟨c!"300.04", c!"300.0"⟩] = .ok (mods, out) ∧
    ∃ m ∈ mods, ∃ m' ∈ mods, m.name = .acer ∧ m'.name = .acer ∧ ∃ a b, a ≠ b ∧ (a, .ace) ∈ m.writes ∧ (b, .ace) ∈ m'.writes ∧
      Dict.get? out a = some c!"ace_300.0" ∧ Dict.get? out b = some c!"ace_300.0" := by
  refine ⟨_, _, rfl, ⟨.acer, [(20, .endf), (24, .pendf)], [(25, .ace), (26, .xsdir)]⟩, ?_, ⟨.acer, [(20, .endf), (24, .pendf)], [(27, .ace), (28, .xsdir)]⟩, ?_, rfl, rfl,
    25, 27, by decide, by decide, by decide, by decide +kernel, by decide +kernel⟩ <;> decide +kernel

end ASAPy.Deck
