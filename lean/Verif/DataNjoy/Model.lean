import Verif.Deck.Thermal
import Verif.Files.Model
import Verif.FromAce.Model

/-!
# Model of the ACE files made with NJOY (ASAPy/data/njoy.py 188-475) and of the nuclides read from them (ASAPy/data/neutron.py 236-283, 792-839)

The templates of ASAPy/data/njoy.py are those of ASAPy/njoy.py (`Verif/Deck/Model.lean`), and `run` (data/njoy.py 122-186) is that of `Verif/Files/Model.lean`. NJOY is an arbitrary
program. A file that is being written is in the file system at once: nothing reads it before it is closed.
-/

namespace ASAPy.DNjoy
open Files
open Deck (W Opts)

/-! ### The input -/

/-- `nlast` after BROADR, data/njoy.py 271-279. -/
def afterBroadr (o : Opts) : Nat := if o.broadr then 22 else 21

/-- `nlast` after HEATR, data/njoy.py 281-286. -/
def afterHeatr (o : Opts) : Nat := if o.heatr then afterBroadr o + 1 else afterBroadr o

/-- `nlast` after PURR, data/njoy.py 288-293. -/
def afterPurr (o : Opts) : Nat := if o.purr then afterHeatr o + 1 else afterHeatr o

/-- `locals()` at data/njoy.py 295: only the names the templates use. Names of modules that are not run are not used. -/
def env (o : Opts) : List (W × W) :=
  [(c!"nendf", Dec.natStr 20), (c!"npendf", Dec.natStr 21), (c!"library", o.library), (c!"zsymam", o.zsymam), (c!"mat", Dec.natStr o.mat),
    (c!"error", o.error), (c!"num_temp", Dec.natStr o.temps.length), (c!"temps", Deck.tempsText o.temps), (c!"nbroadr", Dec.natStr 22),
    (c!"nheatr_in", Dec.natStr (afterBroadr o)), (c!"nheatr", Dec.natStr (afterBroadr o + 1)),
    (c!"npurr_in", Dec.natStr (afterHeatr o)), (c!"npurr", Dec.natStr (afterHeatr o + 1))]

/-- The input of `make_ace`, data/njoy.py 260-311. The options of covariances are not looked at. -/
def makeText (o : Opts) : Except PyErr W := do
  let commands := Deck.tReconr ++ (if o.broadr then Deck.tBroadr else []) ++ (if o.heatr then Deck.tHeatr else []) ++ (if o.purr then Deck.tPurr else [])
  let commands ← Deck.format (env o) commands                                                              -- 295
  let commands ← Deck.acerPart o (afterPurr o) commands                                                    -- 298-306
  pure (commands ++ c!"stop\n")                                                                           -- 311

/-! ### The files -/

/-- `'{}_{:.1f}'.format(base, temperature)`, data/njoy.py 300. -/
def fname (base : Path) (t : Njoy.Temp) : Path := base ++ '_' :: t.fmt1

/-- The tapes of the ACER runs, data/njoy.py 301-310 and 450-459. `i` counts the temperatures. -/
def acerTapes (ace xsdir : Path) (nacerIn : Nat) : Nat → List Njoy.Temp → List (Nat × Path)
  | _, [] => []
  | i, t :: ts => (nacerIn + 1 + 2 * i, fname ace t) :: (nacerIn + 1 + 2 * i + 1, fname xsdir t) :: acerTapes ace xsdir nacerIn (i + 1) ts

/-- `int(text[3])` and what is done with it, data/njoy.py 320-325. -/
def mark (isomer : Int) (text : Text) : Except Err Text :=
  if isomer > 0 then
    match text[3]? with
    | none => .error .indexError
    | some ch =>
      if Dec.isDigit ch = true then
        if Dec.natVal [ch] ≤ 2 then .ok (text.take 3 ++ Dec.natStr (Dec.natVal [ch] + 4) ++ text.drop 4) else .ok text
      else .error .valueError
  else .ok text

/-- `f.write(text)` for a file that has been opened with 'w'. -/
def append (p : Path) (text : Text) (fs : FS) : FS := put fs p (some ((fs p).getD [] ++ text))

/-- data/njoy.py 316-332 and 465-470: one temperature. -/
def concat (isomer : Int) (ace xsdir : Path) (t : Njoy.Temp) (fs : FS) : Res :=
  match fs (fname ace t) with
  | none => (fs, some .fileNotFound)
  | some text =>
    match mark isomer text with
    | .error e => (fs, some e)
    | .ok text =>
      let fs := append ace text fs
      match fs (fname xsdir t) with
      | none => (fs, some .fileNotFound)
      | some text => (append xsdir text fs, none)

/-- `os.remove`. -/
def remove (p : Path) (fs : FS) : Res :=
  match fs p with
  | none => (fs, some .fileNotFound)
  | some _ => (put fs p none, none)

/-- data/njoy.py 335-337 and 473-475: one temperature. -/
def removeBoth (ace xsdir : Path) (t : Njoy.Temp) (fs : FS) : Res := (remove (fname ace t) fs).andThen (remove (fname xsdir t))

/-- data/njoy.py 314-337 and 463-475: after the run of NJOY. -/
def finish (isomer : Int) (ace xsdir : Path) (temps : List Njoy.Temp) (fs : FS) : Res :=
  (each (concat isomer ace xsdir) temps (put (put fs ace (some [])) xsdir (some []))).andThen (each (removeBoth ace xsdir) temps)

/-- What `make_ace` (data/njoy.py 213) is given, with what it reads in the evaluation (250-255): the options have material, name and library, `isomer` is
`ev.target['isomeric_state']`. `input` is the keyword argument `input_filename`. -/
structure Call where
  filename : Path
  opts : Opts
  isomer : Int
  ace : Path
  xsdir : Path
  pendf : Option Path
  input : Option Path

/-- `tapeout`, data/njoy.py 267-269 and 309-310. (The numbers are different: the tapes of ACER are after 21.) -/
def Call.tapeout (c : Call) : List (Nat × Path) :=
  (match c.pendf with | none => [] | some p => [(21, p)]) ++ (if c.opts.acer then acerTapes c.ace c.xsdir (afterPurr c.opts) 0 c.opts.temps else [])

/-- `make_ace`, data/njoy.py 213-337; `tmp` is the temporary directory of `run`. (`str.format` raises KeyError, ValueError or IndexError; here it is ValueError.) -/
noncomputable def makeAce (njoy : Prog) (tmp : Path) (c : Call) (fs : FS) : Res :=
  match makeText c.opts with
  | .error _ => (fs, some .valueError)
  | .ok text =>
    (run njoy tmp text [(20, c.filename)] c.tapeout c.input fs).andThen fun fs =>
      if c.opts.acer then finish c.isomer c.ace c.xsdir c.opts.temps fs else (fs, none)

/-- `make_pendf`, data/njoy.py 188-210: `make_ace` for room temperature with RECONR only. `o` has what is read in the evaluation, and `error`. -/
noncomputable def makePendf (njoy : Prog) (tmp : Path) (filename pendf : Path) (o : Opts) (isomer : Int) (fs : FS) : Res :=
  makeAce njoy tmp ⟨filename, { o with temps := [⟨c!"293.6", c!"293.6"⟩], broadr := false, heatr := false, purr := false, acer := false }, isomer,
    c!"ace", c!"xsdir", some pendf, none⟩ fs

/-- `make_ace_thermal`, data/njoy.py 340-475. The input is that of ASAPy/njoy.py (`Verif/Deck/Thermal.lean`, the two functions are the same up to 461). -/
noncomputable def makeAceThermal (njoy : Prog) (tmp : Path) (sh : Deck.Show) (i : Deck.Thermal) (filename filenameThermal ace xsdir : Path) (input : Option Path) (fs : FS) : Res :=
  match Deck.tempsOf sh i, Deck.thermalDeck sh i with
  | .ok temps, .ok text =>
    (run njoy tmp text [(20, filename), (21, filenameThermal)] (acerTapes ace xsdir 25 0 temps) input fs).andThen (finish 0 ace xsdir temps)
  | _, _ => (fs, some .valueError)

/-! ### Nuclides -/

/-- A reaction: its cross sections by temperature, and the rest. -/
structure Rx (X R : Type) where
  xs : List (Ace.Temp × X)
  rest : R

/-- An `IncidentNeutron`: the attributes that temperatures are added to, and the rest (`R`). -/
structure Nuclide (K E X U R : Type) where
  name : List Char
  kTs : List K
  energy : List (Ace.Temp × E)
  reactions : List (Nat × Rx X R)
  urr : List (Ace.Temp × U)
  rest : R

section
variable {K E X U R : Type}

/-- neutron.py 273-279: the cross sections of the other nuclide at `T`; reactions that are not there are left out with a warning. -/
def addXs (T : Ace.Temp) : List (Nat × Rx X R) → List (Nat × Rx X R) → Except PyErr Unit × List (Nat × Rx X R)
  | [], rs => (.ok (), rs)
  | (mt, r) :: l, rs =>
    if (Dict.get? rs mt).isSome then
      match Dict.get? r.xs T with
      | none => (.error .keyError, rs)
      | some x => addXs T l (Dict.modify rs mt fun q => { q with xs := Dict.set q.xs T x })
    else addXs T l rs

/-- neutron.py 255-283: `data` is what `from_ace` returns. `temp` gives the name of a temperature (171). The nuclide after the call, and the exception if there was one. -/
def addTemperature (temp : K → Ace.Temp) (data self : Nuclide K E X U R) : Except PyErr Unit × Nuclide K E X U R :=
  match (data.kTs.map temp).head? with
  | none => (.error .indexError, self)
  | some T =>
    if T ∈ self.kTs.map temp then (.ok (), self)                                           -- 258-261
    else if data.name ≠ self.name then (.error .valueError, self)                          -- 264-265
    else
      let self := { self with kTs := self.kTs ++ data.kTs }                                -- 268
      match Dict.get? data.energy T with
      | none => (.error .keyError, self)
      | some e =>
        let self := { self with energy := Dict.set self.energy T e }                       -- 271
        let r := addXs T data.reactions self.reactions
        let self := { self with reactions := r.2 }
        match r.1, Dict.get? data.urr T with
        | .ok (), some u => (.ok (), { self with urr := Dict.set self.urr T u })           -- 282-283
        | e, _ => (e, self)
end

section
variable {K U : Type} [Field K] [LinearOrder K] [FloorRing K]

/-- neutron.py 171: the name of a temperature `kT` in eV. -/
def tempOf (kT : K) : Ace.Temp := FromAce.tempName (kT / 1000000)

variable [ExpLog K]

/-- `IncidentNeutron.from_ace(table, metastable_scheme)`, neutron.py 571-704. `urrOf` reads the probability tables; the rest of a reaction is that of `FromAce.Rx`, the rest of the
nuclide is left out. -/
def fromAce (urrOf : AceData.Table K → Except PyErr (Option U)) (scheme : AceData.Scheme) (t : AceData.Table K) :
    Except PyErr (Nuclide K (List K) (Tab1D K) U (Option (FromAce.Rx K))) := do
  let zaid ← FromAce.zaidOf t.name
  let m ← AceData.getMetadata zaid scheme
  if ¬ 0 < t.awr then .error .valueError
  else
    let T := tempOf (t.temperature * 1000000)
    let energy ← FromAce.grid ⟨0 :: t.nxs, 0 :: t.jxs, 0 :: t.xss⟩
    let rs ← FromAce.reactions t
    let u ← urrOf t
    return ⟨m.name, [t.temperature * 1000000], [(T, energy)], rs.map fun (mt, r) => (mt, ⟨[(T, r.xs)], some r⟩), u.elim [] fun u => [(T, u)], none⟩

/-- `add_temperature_from_ace(table)`, neutron.py 236-283, with the default scheme. -/
def addTable (urrOf : AceData.Table K → Except PyErr (Option U)) (n : Nuclide K (List K) (Tab1D K) U (Option (FromAce.Rx K))) (t : AceData.Table K) :
    Except PyErr (Nuclide K (List K) (Tab1D K) U (Option (FromAce.Rx K))) := do
  let data ← fromAce urrOf .nndc t
  let r := addTemperature tempOf data n
  r.1
  return r.2

/-- neutron.py 830-837: the elastic cross section at 0 K from the PENDF file. `xs` is the TAB1 record of its section (3, 2). -/
def addElastic (xs : Except PyErr (Tab1D K)) (n : Nuclide K (List K) (Tab1D K) U (Option (FromAce.Rx K))) :
    Except PyErr (Nuclide K (List K) (Tab1D K) U (Option (FromAce.Rx K))) :=
  if (Dict.get? n.energy c!"0K").isSome then .ok n
  else do
    let xs ← xs
    if (Dict.get? n.reactions 2).isSome then
      return { n with energy := Dict.set n.energy c!"0K" xs.x, reactions := Dict.modify n.reactions 2 fun q => { q with xs := Dict.set q.xs c!"0K" xs } }
    else .error .keyError

/-- `from_njoy` after the run of NJOY, neutron.py 819-839. `tables` are the tables of the ACE file, `xs` is the elastic cross section of the PENDF file. (The energy release of fission,
825-828, is not kept here.) -/
def fromNjoy (urrOf : AceData.Table K → Except PyErr (Option U)) (xs : Except PyErr (Tab1D K)) (tables : List (AceData.Table K)) :
    Except PyErr (Nuclide K (List K) (Tab1D K) U (Option (FromAce.Rx K))) :=
  match tables with
  | [] => .error .indexError
  | t :: ts => do
    let n ← fromAce urrOf .mcnp t
    let n ← ts.foldlM (addTable urrOf) n
    addElastic xs n

end
end ASAPy.DNjoy
