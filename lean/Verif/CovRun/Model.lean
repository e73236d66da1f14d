import Verif.Store.Model
import Verif.NjoyTapes.Model

/-!
# Model of the main program of EndfToCov (ASAPy/EndfToCov.py 473-557)

`Verif.Njoy` models the chain of programs and the names of the files it leaves, `Verif.Store` models `process_cov_to_h5` for one file. Here they are put together: which
reactions are processed, in which order, and what is left when one of them fails. Group structures and weighting options are left out.
-/

namespace ASAPy.CovRun
open ASAPy.Store (Store)

/-- What the program is given. -/
structure Args where
  /-- `ev.reaction_list`: MF and MT of the sections of the evaluation -/
  reactions : List (Nat × Nat)
  /-- `ev.target['fissionable']` -/
  fissionable : Bool
  /-- `-mts`, empty if not given -/
  mts : List Nat
  /-- the temperature -/
  temp : Njoy.Temp
  /-- charge and mass of the target as one number, line 488 -/
  zaid : Nat

/-- Lines 491-511: the reactions to process. -/
def select (a : Args) : Except PyErr (List Nat) :=
  let available := (a.reactions.filter fun r => decide (r.1 = 33)).map Prod.snd        -- 491-495
  if available.length = 0 then .error .exception                                       -- 498-499
  else if a.mts ≠ [] then
    if a.mts.all (fun m => decide (m ∈ available)) then .ok a.mts else .error .exception   -- 502-506
  else .ok available                                                                   -- 508

/-- The stores, one file for every number of groups (lines 511-514, 361-362): `output_h5_format.format(groups)`. -/
abbrev Stores := Nat → Store

/-- `process_cov_to_h5` (349-395) for a file that may be missing: the store it works on is that of the number of groups read. -/
noncomputable def processFile (ss : Stores) (zaid mt : Nat) : Option (List (List Char)) → Stores × Except PyErr Unit
  | none => (ss, .error .exception)                                                    -- FileNotFoundError
  | some file =>
    let n := match Boxer.readFile file with
      | .ok d => d.cov.length                                                          -- 361
      | .error _ => 0                                                                  -- nothing is stored
    (Function.update ss n (Store.final (ss n) zaid mt file), (Store.process (ss n) zaid mt file).2)

/-- Lines 544-557: the files are processed one after the other; an exception ends the program. -/
noncomputable def processAll (zaid : Nat) (dir : List Char → Option (List (List Char))) : List (List Char × Nat) → Stores → Stores × Except PyErr Unit
  | [], ss => (ss, .ok ())
  | (name, mt) :: rest, ss => match processFile ss zaid mt (dir name) with
    | (ss', .error e) => (ss', .error e)
    | (ss', .ok ()) => processAll zaid dir rest ss'

/-- Lines 484-557. `chain` is what `run_cover_chain` for these reactions leaves in the directory, or the exception it raises. -/
noncomputable def run (a : Args) (chain : List Nat → Bool → Bool → Except PyErr (List Char → Option (List (List Char)))) (ss : Stores) : Stores × Except PyErr Unit :=
  match select a with
  | .error e => (ss, .error e)
  | .ok mts => match chain mts a.fissionable a.fissionable with                        -- 517-522, 539-543
    | .error e => (ss, .error e)
    | .ok dir => processAll a.zaid dir (Njoy.asked mts a.temp a.fissionable a.fissionable) ss

end ASAPy.CovRun
