import Verif.CovRun.Model
import Verif.Files.Model
import Verif.Deck.Tapes
import Verif.Run.Model

/-!
# The whole of EndfToCov, from the ENDF file to the store (ASAPy/EndfToCov.py 287-347, 473-557; ASAPy/njoy.py 688-702)

The parts are modelled elsewhere and put together here: the text of the NJOY input (`Verif/Deck`), the tapes (`Verif/NjoyTapes`), the files around NJOY and boxer2mat (`Verif/Files`), the choice of
reactions and the stores (`Verif/CovRun`). `Evaluation`, which reads the ENDF file (`Verif/Endf`), is a function of the text of the file here; NJOY and boxer2mat are programs as in `Verif/Files`.
The kinds of exceptions of the file system and of the programs are not kept apart.
-/

namespace ASAPy.CovRun
open ASAPy.Files (FS Path Text Prog)

/-- What EndfToCov and `make_njoy_run` (njoy.py 482-487) take from `Evaluation`. -/
structure Eval where
  material : Nat
  library : Text
  zsymam : Text
  reactions : List (Nat × Nat)
  fissionable : Bool
  z : Nat
  a : Nat

/-- The options of the command line that matter here: the ENDF file, the output directory, the reactions, the temperature, the bounds of the groups as `str` gives them and the weight option. -/
structure Cmd where
  endf : Path
  out : Path
  mts : List Nat
  temp : Njoy.Temp
  groups : List Text
  iwt : Nat

/-- `Evaluation(filename)`: the file must be there. -/
def evaluationOf (evaluation : Text → Except PyErr Eval) (fs : FS) (file : Path) : Except PyErr Eval :=
  match fs file with
  | none => .error .exception
  | some text => evaluation text

/-- `get_mat_from_endf`, njoy.py 688-702. -/
def getMat (evaluation : Text → Except PyErr Eval) (fs : FS) (file : Path) : Except PyErr Nat :=
  match evaluationOf evaluation fs file with
  | .error e => .error e
  | .ok ev => .ok ev.material

/-- What `run_cover_chain` (EndfToCov.py 330-334) has `make_njoy_run` do. -/
def deckOpts (c : Cmd) (ev : Eval) (mts : List Nat) (nu chi : Bool) : Deck.Opts where
  mat := ev.material
  library := ev.library
  zsymam := ev.zsymam
  temps := [c.temp]
  error := c!"0.001"
  broadr := true
  heatr := false
  purr := false
  acer := false
  errorr := true
  groups := some c.groups
  iwt := c.iwt
  flux := none
  mts := mts
  nu := nu
  chi := chi

/-- `_BOXER_TEMPLATE_COV.format(mat=mat, mt=mt)`, EndfToCov.py 26-31: blocks 0 to 3 for the reaction with itself. -/
def boxerText (mat mt : Nat) : Text :=
  let pair := ',' :: Dec.natStr mat ++ ',' :: Dec.natStr mt ++ ',' :: Dec.natStr mat ++ ',' :: Dec.natStr mt ++ ['\n']
  '0' :: pair ++ '1' :: pair ++ '2' :: pair ++ '3' :: pair ++ c!"0,0\n"

/-- `run_cover_chain`, EndfToCov.py 287-347, with `use_temp_folder`. Without a temporary directory the name `tmp` of the one that is made is not used. -/
noncomputable def coverChain (evaluation : Text → Except PyErr Eval) (njoy boxer : Prog) (tmp : Path) (c : Cmd) (useTemp : Bool) (mts : List Nat) (nu chi : Bool) (fs : FS) : FS × Except PyErr Unit :=
  if c.groups = [] then (fs, .error .exception)                                                            -- 320-321
  else
    let mts := if chi = true ∧ 18 ∉ mts then mts ++ [18] else mts                                          -- 324-327
    match getMat evaluation fs c.endf with                                                                 -- 329
    | .error e => (fs, .error e)
    | .ok mat => match evaluationOf evaluation fs c.endf with                                              -- njoy.py 482
      | .error e => (fs, .error e)
      | .ok ev =>
        let o := deckOpts c ev mts nu chi
        match Deck.makeDeck o with
        | .error e => (fs, .error e)
        | .ok commands => match Njoy.makeNjoyRun (o.njoy c!"ace" c!"xsdir") [c.temp] with
          | .error e => (fs, .error e)
          | .ok (_, tapeout) =>
            let fs := Files.put fs c!"njoy_in.txt" (some commands)                                         -- njoy.py 663-664
            let cover := Njoy.everyOther tapeout                                                           -- 337
            let mts := mts ++ (if nu then [452] else []) ++ (if chi then [1018] else [])                   -- 340-344
            let r := Files.runCoverChain njoy boxer (boxerText mat) commands [(20, c.endf)] tapeout cover mts c!"testing_chain.txt" c.out tmp useTemp fs
            (r.1, match r.2 with | none => .ok () | some _ => .error .exception)

/-- The request, as `main` takes it from the evaluation and the command line (484-522). -/
def argsOf (c : Cmd) (ev : Eval) : Args where
  reactions := ev.reactions
  fissionable := ev.fissionable
  mts := c.mts
  temp := c.temp
  zaid := Dec.natVal (Dec.natStr ev.z ++ Run.zfill3 ev.a)                                                  -- 488

/-- The main program, EndfToCov.py 473-557: the files and the stores it leaves, and how it ends. -/
noncomputable def main (evaluation : Text → Except PyErr Eval) (njoy boxer : Prog) (tmp : Path) (c : Cmd) (fs : FS) (ss : Stores) : (FS × Stores) × Except PyErr Unit :=
  match evaluationOf evaluation fs c.endf with                                                             -- 487
  | .error e => ((fs, ss), .error e)
  | .ok ev =>
    let a := argsOf c ev
    match select a with                                                                                    -- 491-508
    | .error e => ((fs, ss), .error e)
    | .ok mts =>
      match coverChain evaluation njoy boxer tmp c false mts a.fissionable a.fissionable fs with           -- 539-543
      | (fs', .error e) => ((fs', ss), .error e)
      | (fs', .ok ()) =>
        let r := processAll a.zaid (fun name => (fs' (Files.join c.out name)).map Str.readlines) (Njoy.asked mts a.temp a.fissionable a.fissionable) ss    -- 544-557
        ((fs', r.1), r.2)

end ASAPy.CovRun
