import Verif.Deck.Model

/-!
# How NJOY reads its input

A specification of the reader, independent of how the text is made: list-directed input of Fortran (items separated by blanks and line ends; a slash ends the
card; after a card the rest of the line is skipped; text in quotes is one item) and, for each module, the cards of the NJOY manual. Repeat counts and
commas do not occur and are not in the specification. Numbers stay texts.
-/

namespace ASAPy.Deck

/-- Blanks and line ends before an item. -/
def skipBlank : W → W
  | [] => []
  | c :: s => if Str.isSpace c then skipBlank s else c :: s

/-- An item up to a blank, a line end or a slash, and what follows. -/
def word : W → W × W
  | [] => ([], [])
  | c :: s => if Str.isSpace c ∨ c = '/' then ([], c :: s) else (c :: (word s).1, (word s).2)

/-- Text up to the closing quote, and what follows. -/
def quoted : W → W × W
  | [] => ([], [])
  | c :: s => if c = '\'' then ([], s) else (c :: (quoted s).1, (quoted s).2)

/-- What is after the end of the line. -/
def endLine : W → W
  | [] => []
  | c :: s => if c = '\n' then s else endLine s

/-- A card of (at most) `n` items: the items read and the text after the card. -/
def card : Nat → W → List W × W
  | 0, s => ([], endLine s)
  | n + 1, s => match skipBlank s with
    | [] => ([], [])
    | c :: r =>
      if c = '/' then ([], endLine r)
      else if c = '\'' then ((quoted r).1 :: (card n (quoted r).2).1, (card n (quoted r).2).2)
      else ((word (c :: r)).1 :: (card n (word (c :: r)).2).1, (card n (word (c :: r)).2).2)

/-- The `i`-th item of a card, from 0. -/
def at_ (c : List W) (i : Nat) : W := c.getD i []

/-- Cards up to one that begins with 0 (which is not returned). -/
def cardsTo0 (items : Nat) : Nat → W → List (List W) × W
  | 0, s => ([], s)
  | n + 1, s =>
    let (c, s) := card items s
    if at_ c 0 = ['0'] then ([], s) else (c :: (cardsTo0 items n s).1, (cardsTo0 items n s).2)

/-- `n` lists of cards, each up to one that begins with 0. -/
def lists (items : Nat) : Nat → W → List (List (List W)) × W
  | 0, s => ([], s)
  | n + 1, s =>
    let (cs, s) := cardsTo0 items s.length s
    (cs :: (lists items n s).1, (lists items n s).2)

/-- `n` cards. -/
def cards (items : Nat) : Nat → W → List (List W) × W
  | 0, s => ([], s)
  | n + 1, s => ((card items s).1 :: (cards items n (card items s).2).1, (cards items n (card items s).2).2)

/-- A module as NJOY reads it. `tapes` is the first card. -/
inductive Run where
  | reconr (tapes : List W) (mat err : W)
  | broadr (tapes : List W) (mat err : W) (temps : List W)
  | heatr (tapes : List W) (mat : W) (kermas : List W)
  | purr (tapes : List W) (mat : W) (temps : List W)
  /-- the weight option, what is read for it, and for each temperature the reactions -/
  | groupr (tapes : List W) (mat iwt : W) (temps bounds flux : List W) (reactions : List (List (List W)))
  /-- `mf` is the covariance file to be processed -/
  | errorr (tapes : List W) (mat iwt temp mf : W) (bounds flux : List W)
  /-- COVR with a library (`form` 3: covariances) or with plots; `cases` are the reactions asked for -/
  | covrLib (tapes : List W) (form : W) (cases : List (List W))
  | covrPlot (tapes : List W) (cases : List (List W))
  | viewr (tapes : List W)
  | acer (tapes : List W) (suffix mat temp : W)
  | thermr (tapes : List W) (params temps : List W) (tol emax : W)
  | acerThermal (tapes : List W) (suffix mat temp name : W) (zaids params : List W)
deriving DecidableEq

/-- What GROUPR and ERRORR read for the weight option: a TAB1 record for 1, four parameters for 4, nothing for 2, 3 and 5 to 12. -/
def weight (iwt : W) (s : W) : List W × W :=
  if iwt = ['1'] then card s.length s else if iwt = ['4'] then card 4 s else ([], s)

/-- RECONR: tapes; title; material and number of comments; error; comments; 0. -/
def readReconr (s : W) : Option (Run × W) :=
  let (tapes, s) := card 2 s
  let (_, s) := card 1 s
  let (c3, s) := card 3 s
  let (c4, s) := card 5 s
  let (_, s) := cards 1 (Dec.natVal (at_ c3 1)) s
  let (z, s) := card 1 s
  if z = [['0']] then some (.reconr tapes (at_ c3 0) (at_ c4 0), s) else none

/-- BROADR: tapes; material, number of temperatures and three options; error; temperatures; 0. -/
def readBroadr (s : W) : Option (Run × W) :=
  let (tapes, s) := card 3 s
  let (c2, s) := card 5 s
  let (c3, s) := card 3 s
  let (temps, s) := card (Dec.natVal (at_ c2 1)) s
  let (z, s) := card 1 s
  if z = [['0']] then some (.broadr tapes (at_ c2 0) (at_ c3 0) temps, s) else none

/-- HEATR: tapes; material and number of kermas; their MTs. -/
def readHeatr (s : W) : Option (Run × W) :=
  let (tapes, s) := card 4 s
  let (c2, s) := card 7 s
  let (ks, s) := card (Dec.natVal (at_ c2 1)) s
  some (.heatr tapes (at_ c2 0) ks, s)

/-- PURR: tapes; material, numbers of temperatures and of background cross sections, two options; temperatures; background cross sections; 0. -/
def readPurr (s : W) : Option (Run × W) :=
  let (tapes, s) := card 3 s
  let (c2, s) := card 7 s
  let (temps, s) := card (Dec.natVal (at_ c2 1)) s
  let (_, s) := card (Dec.natVal (at_ c2 2)) s
  let (z, s) := card 1 s
  if z = [['0']] then some (.purr tapes (at_ c2 0) temps, s) else none

/-- GROUPR with groups to be read (option 1 after the material): tapes; material, groups, photon groups, weight, order, number of temperatures; title;
temperatures; one background cross section; number of groups; their bounds; the weight; for each temperature the reactions, ended by 0; 0. -/
def readGroupr (s : W) : Option (Run × W) :=
  let (tapes, s) := card 4 s
  let (c2, s) := card 9 s
  let (_, s) := card 1 s
  let (temps, s) := card (Dec.natVal (at_ c2 5)) s
  let (_, s) := card 1 s
  let (n, s) := card 1 s
  let (bounds, s) := card (Dec.natVal (at_ n 0) + 1) s
  let (flux, s) := weight (at_ c2 3) s
  let (rs, s) := lists 3 (Dec.natVal (at_ c2 5)) s
  let (z, s) := card 1 s
  if z = [['0']] ∧ at_ c2 1 = ['1'] ∧ at_ c2 2 = ['0'] then some (.groupr tapes (at_ c2 0) (at_ c2 3) temps bounds flux rs, s) else none

/-- ERRORR with groups to be read: tapes; material, groups, weight; print option and temperature; 0 for all reactions and the covariance file; number of
groups; their bounds; the weight. -/
def readErrorr (s : W) : Option (Run × W) :=
  let (tapes, s) := card 6 s
  let (c2, s) := card 5 s
  let (c3, s) := card 2 s
  let (c7, s) := card 7 s
  let (n, s) := card 1 s
  let (bounds, s) := card (Dec.natVal (at_ n 0) + 1) s
  let (flux, s) := weight (at_ c2 2) s
  if at_ c2 1 = ['1'] ∧ at_ c7 0 = ['0'] then some (.errorr tapes (at_ c2 0) (at_ c2 2) (at_ c3 1) (at_ c7 1) bounds flux, s) else none

/-- COVR. With an output library (the second tape is given and not 0): form and number of cases (one if absent), name, description, cases. With plots: colours;
lowest energy; form and number of cases (one if absent), cases. -/
def readCovr (s : W) : Option (Run × W) :=
  let (tapes, s) := card 3 s
  if at_ tapes 1 = ['0'] then
    let (_, s) := card 1 s
    let (_, s) := card 1 s
    let (c3, s) := card 5 s
    let (cs, s) := cards 4 (if c3.length < 2 then 1 else Dec.natVal (at_ c3 1)) s
    some (.covrPlot tapes cs, s)
  else
    let (c2, s) := card 2 s
    let (_, s) := card 1 s
    let (_, s) := card 1 s
    let (cs, s) := cards 4 (if c2.length < 2 then 1 else Dec.natVal (at_ c2 1)) s
    some (.covrLib tapes (at_ c2 0) cs, s)

/-- VIEWR: tapes. -/
def readViewr (s : W) : Option (Run × W) := some (.viewr (card 2 s).1, (card 2 s).2)

/-- ACER: tapes; what is to be made, two options and the suffix; title; then for fast data (1) material and temperature, two options, thinning; for thermal
data (2) material, temperature and name, up to three ZAIDs, parameters. -/
def readAcer (s : W) : Option (Run × W) :=
  let (tapes, s) := card 5 s
  let (c2, s) := card 5 s
  let (_, s) := card 1 s
  if at_ c2 0 = ['1'] then
    let (c5, s) := card 2 s
    let (_, s) := card 2 s
    let (_, s) := card 3 s
    some (.acer tapes (at_ c2 3) (at_ c5 0) (at_ c5 1), s)
  else if at_ c2 0 = ['2'] then
    let (c8, s) := card 4 s
    let (zs, s) := card 3 s
    let (ps, s) := card 7 s
    some (.acerThermal tapes (at_ c2 3) (at_ c8 0) (at_ c8 1) (at_ c8 2) zs ps, s)
  else none

/-- THERMR: tapes; ten parameters, of which the fourth is the number of temperatures; temperatures; tolerance and highest energy. -/
def readThermr (s : W) : Option (Run × W) :=
  let (tapes, s) := card 3 s
  let (c2, s) := card 10 s
  let (temps, s) := card (Dec.natVal (at_ c2 3)) s
  let (c4, s) := card 2 s
  some (.thermr tapes c2 temps (at_ c4 0) (at_ c4 1), s)

/-- The cards of a module. -/
def readModule (name : W) : W → Option (Run × W) :=
  if name = c!"reconr" then readReconr
  else if name = c!"broadr" then readBroadr
  else if name = c!"heatr" then readHeatr
  else if name = c!"purr" then readPurr
  else if name = c!"groupr" then readGroupr
  else if name = c!"errorr" then readErrorr
  else if name = c!"covr" then readCovr
  else if name = c!"viewr" then readViewr
  else if name = c!"acer" then readAcer
  else if name = c!"thermr" then readThermr
  else fun _ => none

/-- NJOY reads the input `s` and runs the modules `rs`: names of modules, each followed by its cards; lines that begin with `--` are comments; `stop` ends it. -/
inductive Reads : W → List Run → Prop
  | stop {s : W} (h : (card 1 s).1 = [c!"stop"]) : Reads s []
  | comment {s : W} {rs : List Run} (h : (card 1 s).1 = [c!"--"]) (hr : Reads (card 1 s).2 rs) : Reads s rs
  | run {s s' : W} {name : W} {r : Run} {rs : List Run} (h : (card 1 s).1 = [name]) (hm : readModule name (card 1 s).2 = some (r, s')) (hr : Reads s' rs) :
      Reads s (r :: rs)

/-! ### What was asked for -/

/-- A word that can be one item of a card. -/
def Plain (w : W) : Prop := w ≠ [] ∧ ∀ c ∈ w, Str.isSpace c = false ∧ c ≠ '/' ∧ c ≠ '\'' ∧ c ≠ '{' ∧ c ≠ '}'

/-- A text that can be put in quotes. -/
def Quotable (s : W) : Prop := '\'' ∉ s

/-- A number on a card. -/
abbrev num (n : Nat) : W := Dec.natStr n

/-- The temperatures on a card. -/
def Opts.strs (o : Opts) : List W := o.temps.map Njoy.Temp.str

/-- What is to be read for the weight option: for option 1 a TAB1 record with the pairs given, one region, linear interpolation. -/
def Opts.weight (o : Opts) : List W :=
  if o.iwt = 1 then
    let vals := o.flux.getD []
    [c!"0.", c!"0.", c!"0", c!"0", c!"1", num (vals.length / 2), num (vals.length / 2), c!"2"] ++ vals
  else []

/-- How many tapes the covariances of one temperature take. -/
def Opts.width (o : Opts) : Nat := if o.mts = [] then 3 else 5

/-- GROUPR, ERRORR for MF=33, COVR and, if there are reactions to plot, COVR and VIEWR, for the temperature `t`; `k` is the last tape in use before. All
temperatures are on the GROUPR tape, ERRORR takes its own. -/
def covRuns (o : Opts) (groups : List W) (k : Nat) (t : Njoy.Temp) : List Run :=
  [.groupr [num 20, num 22, c!"0", num (k + 1)] (num o.mat) (num o.iwt) o.strs groups o.weight (List.replicate o.temps.length [[c!"3"]]),
   .errorr [num 20, c!"0", num (k + 1), num (k + 2)] (num o.mat) (num o.iwt) t.str c!"33" groups o.weight,
   .covrLib [num (k + 2), num (k + 3)] c!"3" [[num o.mat]]]
  ++ if o.mts = [] then [] else
    [.covrPlot [num (k + 2), c!"0", num (k + 4)] (o.mts.map fun mt => [num o.mat, num mt, num o.mat, num mt]), .viewr [num (k + 4), num (k + 5)]]

/-- The reactions of the GROUPR run for nu-bar and chi: nu-bar (total, 455, 456), fission, chi. -/
def nuReactions : List (List W) :=
  [[c!"3", c!"452", c!"nu"], [c!"3", c!"455", c!"p nu"], [c!"3", c!"456", c!"d nu"], [c!"3", c!"18", c!"fiss"], [c!"5", c!"18", c!"chi"]]

/-- ERRORR for nu-bar (31) or chi (35) at the temperature `t`, with the plots of `cases` and the library; `g` is the GROUPR tape, `k` the last tape in use. -/
def nuRuns (o : Opts) (groups : List W) (mf : W) (cases : List (List W)) (g k : Nat) (t : W) : List Run :=
  [.errorr [num 20, num 22, num g, num (k + 1)] (num o.mat) (num o.iwt) t mf groups o.weight,
   .covrPlot [num (k + 1), c!"0", num (k + 2)] cases, .viewr [num (k + 2), num (k + 3)], .covrLib [num (k + 1), num (k + 4)] c!"3" [[num o.mat]]]

/-- Nu-bar and chi, at the last temperature; `k` is the last tape in use. -/
def nuChiRuns (o : Opts) (groups : List W) (k : Nat) : List Run :=
  if o.nu = false ∧ o.chi = false then [] else
    .groupr [num 20, num 22, c!"0", num (k + 1)] (num o.mat) (num o.iwt) o.strs groups o.weight (List.replicate o.temps.length nuReactions)
    :: ((if o.nu then nuRuns o groups c!"31" [[num o.mat, c!"452", num o.mat, c!"452"]] (k + 1) (k + 1) ((o.temps.getLast?.map Njoy.Temp.str).getD []) else [])
    ++ (if o.chi then nuRuns o groups c!"35" [[num o.mat]] (k + 1) (if o.nu then k + 5 else k + 1) ((o.temps.getLast?.map Njoy.Temp.str).getD []) else []))

/-- The last tape in use after the covariances. -/
def Opts.afterCov (o : Opts) : Nat :=
  if o.errorr then
    22 + o.width * o.temps.length + (if o.nu = false ∧ o.chi = false then 0 else 1) + (if o.nu then 4 else 0) + (if o.chi then 4 else 0)
  else if o.broadr then 22 else 21

/-- The suffix of the `i`-th temperature (from 0): .01, .02, ... -/
def suffix (i : Nat) : W := '.' :: (if i + 1 < 10 then '0' :: num (i + 1) else num (i + 1))

/-- The modules asked for. -/
def asked (o : Opts) : List Run :=
  let groups := o.groups.getD []
  let k1 := o.afterCov
  let k2 := if o.heatr then k1 + 1 else k1
  let k3 := if o.purr then k2 + 1 else k2
  [.reconr [num 20, num 21] (num o.mat) o.error]
  ++ (if o.broadr then [.broadr [num 20, num 21, num 22] (num o.mat) o.error o.strs] else [])
  ++ (if o.errorr then (o.temps.zipIdx.flatMap fun ti => covRuns o groups (22 + o.width * ti.2) ti.1) ++ nuChiRuns o groups (22 + o.width * o.temps.length) else [])
  ++ (if o.heatr then [.heatr [num 20, num 22, num (k1 + 1)] (num o.mat) [c!"302", c!"318", c!"402"]] else [])
  ++ (if o.purr then [.purr [num 20, num k2, num (k2 + 1)] (num o.mat) o.strs] else [])
  ++ (if o.acer then o.temps.zipIdx.map fun ti =>
      .acer [num 20, num k3, c!"0", num (k3 + 1 + 2 * ti.2), num (k3 + 2 + 2 * ti.2)] (suffix ti.2) (num o.mat) ti.1.str else [])

/-- Values that can be on cards. -/
structure Opts.Writable (o : Opts) : Prop where
  temps : o.temps ≠ []
  temp : ∀ t ∈ o.temps, Plain t.str
  error : Plain o.error
  library : Quotable o.library
  zsymam : Quotable o.zsymam
  groups : o.errorr = true → ∃ g, o.groups = some g ∧ g ≠ [] ∧ ∀ w ∈ g, Plain w
  flux : o.errorr = true → o.iwt = 1 → ∃ v, o.flux = some v ∧ v ≠ [] ∧ ∀ w ∈ v, Plain w
  broadr : o.errorr = true ∨ o.heatr = true → o.broadr = true

end ASAPy.Deck
