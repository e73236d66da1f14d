import Verif.Py
import Verif.Dict
import Verif.Dec

/-!
# Model of the NJOY input (ASAPy/njoy.py 421-686) and of the covariance chain (ASAPy/EndfToCov.py 33-106, 287-347, 473-557)

The text of the NJOY input is reduced to the modules it runs, with the tapes each of them reads and writes and what NJOY expects or
puts there (the first input line of each template, njoy.py 96-325). The runs of NJOY and boxer2mat are not modelled, only which files they are
asked for. Temperatures are given by the texts the code makes of them (`str(T)` and `'{:.1f}'.format(T)`).
-/

namespace ASAPy.Njoy

/-- What a tape holds; ERRORR and COVR output with the number of the covariance file (MF) treated. -/
inductive Kind where
  | endf | pendf | gendf | errorr (mf : Nat) | boxer (mf : Nat) | plot | eps | ace | xsdir
deriving DecidableEq, Repr

inductive Name where
  | reconr | broadr | groupr | errorr | covrLib | covrPlot | viewr | heatr | purr | acer
deriving DecidableEq, Repr

/-- One module run: tapes read (with the kind of data the module needs there) and tapes written. -/
structure Mod where
  name : Name
  reads : List (Nat × Kind)
  writes : List (Nat × Kind)
deriving DecidableEq, Repr

/-- A temperature: `str(T)` and `'{:.1f}'.format(T)`. -/
structure Temp where
  str : List Char
  fmt1 : List Char
deriving DecidableEq

/-- State of `make_njoy_run`: modules so far, `nlast`, `tapeout`. -/
structure St where
  mods : List Mod
  nlast : Nat
  out : List (Nat × List Char)
deriving DecidableEq

/-- The switches of `make_njoy_run` that matter here. `plotMts` is whether `covr_plot_mts` is non-empty; `groups` whether
`cov_energy_groups` is given; `fluxOk` whether the user flux is given or not needed. -/
structure Opts where
  pendf : Option (List Char) := none
  broadr : Bool := true
  heatr : Bool := true
  purr : Bool := true
  acer : Bool := true
  errorr : Bool := true
  groups : Bool := false
  fluxOk : Bool := true
  run : Bool := false
  plotMts : Bool := false
  chi : Bool := false
  nu : Bool := false
  ace : List Char := "ace".toList
  xsdir : List Char := "xsdir".toList

def nendf : Nat := 20
def npendf : Nat := 21

/-- njoy.py 527: `"{}_{}".format(a, t)` and an extension. -/
def fname (a : String) (t : Temp) (ext : String) : List Char := a.toList ++ '_' :: t.str ++ ext.toList

def groupr (inp out : Nat) : Mod := ⟨.groupr, [(nendf, .endf), (inp, .pendf)], [(out, .gendf)]⟩
def covrLib (mf nerr out : Nat) : Mod := ⟨.covrLib, [(nerr, .errorr mf)], [(out, .boxer mf)]⟩
def covrPlot (mf nerr out : Nat) : Mod := ⟨.covrPlot, [(nerr, .errorr mf)], [(out, .plot)]⟩
def viewr (inp out : Nat) : Mod := ⟨.viewr, [(inp, .plot)], [(out, .eps)]⟩

/-- njoy.py 528-567: one temperature. -/
def tempStep (plotMts : Bool) (nbroadr : Nat) (s : St) (t : Temp) : St :=
  let n := s.nlast
  let base := [groupr nbroadr (n + 1), ⟨.errorr, [(nendf, .endf), (n + 1, .gendf)], [(n + 2, .errorr 33)]⟩, covrLib 33 (n + 2) (n + 3)]
  let out := Dict.set s.out (n + 3) (fname "covr" t ".txt")
  if plotMts then
    ⟨s.mods ++ base ++ [covrPlot 33 (n + 2) (n + 4), viewr (n + 4) (n + 5)], n + 5, Dict.set out (n + 5) (fname "viewr" t ".eps")⟩
  else ⟨s.mods ++ base, n + 3, out⟩

/-- njoy.py 569-576: the GROUPR run for nu-bar and chi. -/
def nuChiGroupr (nbroadr : Nat) (s : St) : St := ⟨s.mods ++ [groupr nbroadr (s.nlast + 1)], s.nlast + 1, s.out⟩

/-- njoy.py 578-600 (nu-bar) and 602-625 (chi): the same sequence of tapes. `g` is the GROUPR tape, `t` the last temperature of the
loop. -/
def nuChiStep (mf : Nat) (label labelPlot : String) (nbroadr g : Nat) (t : Temp) (s : St) : St :=
  let n := s.nlast
  ⟨s.mods ++ [⟨.errorr, [(nendf, .endf), (nbroadr, .pendf), (g, .gendf)], [(n + 1, .errorr mf)]⟩,
      covrPlot mf (n + 1) (n + 2), viewr (n + 2) (n + 3), covrLib mf (n + 1) (n + 4)],
    n + 4, Dict.set (Dict.set s.out (n + 4) (fname label t ".txt")) (n + 3) (fname labelPlot t ".eps")⟩

/-- njoy.py 643-656: the ACER runs. `i` counts the temperatures. -/
def acerLoop (o : Opts) (nacerIn : Nat) : Nat → List Temp → St → St
  | _, [], s => s
  | i, t :: ts, s =>
    let nace := nacerIn + 1 + 2 * i
    acerLoop o nacerIn (i + 1) ts
      ⟨s.mods ++ [⟨.acer, [(nendf, .endf), (nacerIn, .pendf)], [(nace, .ace), (nace + 1, .xsdir)]⟩], s.nlast,
        Dict.set (Dict.set s.out nace (o.ace ++ '_' :: t.fmt1)) (nace + 1) (o.xsdir ++ '_' :: t.fmt1)⟩

/-- njoy.py 503-625, after RECONR and BROADR; `nbroadr` is unbound without BROADR. -/
def errorrPart (o : Opts) (nbroadr : Option Nat) (temps : List Temp) (s : St) : Except PyErr St :=
  if o.groups = false then .error .exception                                          -- 504-505
  else if o.fluxOk = false then .error .exception                                     -- 509-512
  else match nbroadr with
    | none => if temps = [] ∧ o.nu = false ∧ o.chi = false then .ok s else .error .unboundLocal
    | some nb =>
      let s := temps.foldl (tempStep o.plotMts nb) s
      if o.nu = false ∧ o.chi = false then .ok s
      else
        let g := s.nlast + 1
        let s := nuChiGroupr nb s
        match temps.getLast? with
        | none => .error .unboundLocal                                                -- `temperature` is unbound
        | some t =>
          let s := if o.nu then nuChiStep 31 "covr_nu" "viewr_nu" nb g t s else s
          .ok (if o.chi then nuChiStep 35 "covr_chi" "viewr_chi" nb g t s else s)

/-- `make_njoy_run`, njoy.py 421-686: modules, `tapeout` (`tapein` is always `{20: filename}`). Without temperatures given, `temps` has the
one default temperature. -/
def makeNjoyRun (o : Opts) (temps : List Temp) : Except PyErr (List Mod × List (Nat × List Char)) :=
  let s : St := ⟨[⟨.reconr, [(nendf, .endf)], [(npendf, .pendf)]⟩], npendf,
    match o.pendf with | some f => [(npendf, f)] | none => []⟩                       -- 489-496
  let (s, nbroadr) : St × Option Nat :=
    if o.broadr then
      (⟨s.mods ++ [⟨.broadr, [(nendf, .endf), (npendf, .pendf)], [(npendf + 1, .pendf)]⟩], npendf + 1, s.out⟩, some (npendf + 1))
    else (s, none)                                                                   -- 498-501
  match if o.errorr then errorrPart o nbroadr temps s else .ok s with
  | .error e => .error e
  | .ok s =>
    match (if o.heatr then
        match nbroadr with
        | none => .error .unboundLocal
        | some nb => .ok ⟨s.mods ++ [⟨.heatr, [(nendf, .endf), (nb, .pendf)], [(s.nlast + 1, .pendf)]⟩], s.nlast + 1, s.out⟩
      else (.ok s : Except PyErr St)) with                                           -- 629-634
    | .error e => .error e
    | .ok s =>
      let s : St := if o.purr then
          ⟨s.mods ++ [⟨.purr, [(nendf, .endf), (s.nlast, .pendf)], [(s.nlast + 1, .pendf)]⟩], s.nlast + 1, s.out⟩
        else s                                                                       -- 636-641
      let s := if o.acer then acerLoop o s.nlast 0 temps s else s                    -- 645-658
      if o.run then .error .typeError                                                -- 660-661: `run` is the parameter
      else .ok (s.mods, s.out)

/-- `make_pendf`, njoy.py 394-418. -/
def makePendf (pendf : List Char) (roomTemp : Temp) : Except PyErr (List Mod × List (Nat × List Char)) :=
  makeNjoyRun { pendf := some pendf, broadr := false, heatr := false, purr := false, acer := false } [roomTemp]

/-! ### EndfToCov -/

/-- `l[0::2]`. -/
def everyOther {α : Type*} : List α → List α
  | [] => []
  | [a] => [a]
  | a :: _ :: l => a :: everyOther l

/-- EndfToCov.py 86-105, the file names of the matrices in the order they are written, each with the tape and the MT that boxer2mat is asked for. -/
def matrixFiles (coverTapes : List (Nat × List Char)) (mts : List Nat) : List (List Char × Nat × Nat) :=
  coverTapes.flatMap fun c => mts.map fun mt =>
    (c.2 ++ '_' :: Dec.natStr mt ++ "_matrix.txt".toList, c.1, if mt = 1018 then 18 else mt)

/-- What `run_cover_chain` (287-347) does: the modules, the tapes taken as covariance tapes, the matrix files. -/
structure Chain where
  mods : List Mod
  coverTapes : List (Nat × List Char)
  files : List (List Char × Nat × Nat)

/-- `run_cover_chain`; the group structure is given and `iwt_fluxweight ≠ 1`. -/
def runCoverChain (mts : List Nat) (temps : List Temp) (nu chi : Bool) : Except PyErr Chain :=
  let mts := if chi = true ∧ 18 ∉ mts then mts ++ [18] else mts                       -- 324-327
  let o : Opts := { broadr := true, heatr := false, purr := false, acer := false, errorr := true, groups := true, plotMts := decide (mts ≠ []), chi := chi, nu := nu }
  match makeNjoyRun o temps with
  | .error e => .error e
  | .ok (mods, out) =>
    let cover := everyOther out                                                       -- 338
    let mts := mts ++ (if nu then [452] else []) ++ (if chi then [1018] else [])      -- 341-345
    .ok ⟨mods, cover, matrixFiles cover mts⟩

/-- The file names `main` (544-557) has `process_cov_to_h5` read, each with the MT it is for. -/
def asked (mts : List Nat) (t : Temp) (nu chi : Bool) : List (List Char × Nat) :=
  mts.map (fun mt => (fname "covr" t ".txt_" ++ Dec.natStr mt ++ "_matrix.txt".toList, mt))
  ++ (if nu then [(fname "covr_nu" t ".txt_" ++ Dec.natStr 452 ++ "_matrix.txt".toList, 452)] else [])
  ++ (if chi then [(fname "covr_chi" t ".txt_" ++ Dec.natStr 1018 ++ "_matrix.txt".toList, 1018)] else [])

end ASAPy.Njoy
