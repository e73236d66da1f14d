import Verif.Batch.Model
import Verif.Groups.Model
import Verif.Library.Model

/-!
# Model of the command line of EndfToCov (ASAPy/EndfToCov.py 397-470, 511-534)

argparse as in `Verif.Batch`: options are recognised by their name or a unique beginning of it, words that look like negative numbers are not options. Not modelled: `--option=value`, the help text, the end
marker `--`, integers written in other ways than with digits and a minus sign. Every error of argparse is a `SystemExit`, here `exception`.
-/

namespace ASAPy.CovCli
open ASAPy.AceData ASAPy.Dec
open ASAPy.Batch (toInt looksNegative)

abbrev Text := List Char

/-- The arguments, as argparse gives them. -/
structure Cli where
  endf : Text
  groups : Text
  path : Option Text
  store : Option Text
  weight : Int
  mts : Option (List Int)
  temp : Int
  njoy : Text
  boxer : Text
deriving DecidableEq

/-- The defaults of lines 417-453. -/
def blank : Cli := ⟨[], c!"SCALE_252", none, none, 6, none, 300, c!"njoy", c!"boxer2mat"⟩

inductive Opt
  | help | groups | path | store | weight | mts | temp | njoy | boxer
deriving DecidableEq

/-- Lines 417-453, and the `-h` argparse adds. -/
def table : List (Text × Opt) :=
  [(c!"-h", .help), (c!"--help", .help), (c!"-energy_bin_structure", .groups), (c!"-output_path", .path), (c!"-output_store", .store), (c!"-njoy_spectrum_weighting", .weight), (c!"-mts", .mts),
   (c!"-temperature", .temp), (c!"-njoy_exec", .njoy), (c!"-boxer_exec", .boxer)]

/-- The choices of line 418. -/
def choices : List Text := [c!"SCALE_3", c!"SCALE_44", c!"SCALE_56", c!"SCALE_238", c!"SCALE_252"]

/-- The choices of line 427. -/
def weights : List Int := [2, 3, 4, 5, 6, 7, 8, 9, 10, 11, 12]

/-- How argparse takes a word: as an argument, as an option, or as neither (an unknown or ambiguous option). -/
inductive Cls
  | arg
  | opt (o : Opt)
  | bad
deriving DecidableEq

def cls (t : Text) : Cls :=
  match t with
  | '-' :: r => match table.lookup t with
    | some o => .opt o
    | none => if r = [] then .arg else match table.filter fun p => t.isPrefixOf p.1 with
      | [p] => .opt p.2
      | [] => if looksNegative t || ' ' ∈ t then .arg else .bad
      | _ => .bad
  | _ => .arg

/-- What is expected next: anything, the argument of an option, or further MTs. -/
inductive Mode
  | free
  | one (o : Opt)
  | many (l : List Int)

/-- An option has been read. -/
def start : Opt → Except PyErr Mode
  | .help => .error .exception
  | .mts => .ok (.many [])
  | o => .ok (.one o)

/-- The argument `t` of an option has been read. -/
def assign (a : Cli) (t : Text) : Opt → Except PyErr Cli
  | .groups => if t ∈ choices then .ok { a with groups := t } else .error .exception
  | .path => .ok { a with path := some t }
  | .store => .ok { a with store := some t }
  | .weight => match toInt t with
    | some i => if i ∈ weights then .ok { a with weight := i } else .error .exception
    | none => .error .exception
  | .temp => match toInt t with
    | some i => .ok { a with temp := i }
    | none => .error .exception
  | .njoy => .ok { a with njoy := t }
  | .boxer => .ok { a with boxer := t }
  | _ => .error .exception

/-- The end of the words: there is one positional argument (line 415). -/
def finish (a : Cli) : List Text → Except PyErr Cli
  | [f] => .ok { a with endf := f }
  | _ => .error .exception

/-- The loop of argparse over the words; `pos` are the positional arguments so far. -/
def go (a : Cli) (pos : List Text) : Mode → List Text → Except PyErr Cli
  | .free, [] => finish a pos
  | .one _, [] => .error .exception
  | .many l, [] => if l = [] then .error .exception else finish { a with mts := some l } pos
  | .free, t :: ts => match cls t with
    | .arg => go a (pos ++ [t]) .free ts
    | .opt o => match start o with
      | .error e => .error e
      | .ok m => go a pos m ts
    | .bad => .error .exception
  | .one o, t :: ts => match cls t with
    | .arg => match assign a t o with
      | .error e => .error e
      | .ok a => go a pos .free ts
    | _ => .error .exception
  | .many l, t :: ts => match cls t with
    | .arg => match toInt t with
      | some i => go a pos (.many (l ++ [i])) ts
      | none => .error .exception
    | .opt o => if l = [] then .error .exception else match start o with
      | .error e => .error e
      | .ok m => go { a with mts := some l } pos m ts
    | .bad => .error .exception

/-- Line 461: `parser.parse_args(words)`. -/
def parse (words : List Text) : Except PyErr Cli := go blank [] .free words

/-- Lines 465-469: the files, as absolute paths (their components) or `./`. -/
def endfPath (cwd : List Text) (a : Cli) : List Text := Library.absPath cwd a.endf

def outputPath (cwd : List Text) (a : Cli) : Sum (List Text) Text :=
  match a.path with
  | some (c :: p) => .inl (Library.absPath cwd (c :: p))
  | _ => .inr c!"./"

/-- Lines 511-514 and 361: the name of the store, for the symbol and mass number of the target and the number of groups. Names given by the user that have braces in them are not modelled. -/
def storeName (a : Cli) (symbol : Text) (mass groups : Nat) : Text :=
  match a.store with
  | none => symbol ++ natStr mass ++ c!"_" ++ natStr groups ++ c!"g.h5"
  | some s => s ++ natStr groups ++ c!"g.h5"

/-- Lines 525-534: the bounds of the groups (UnboundLocalError, here `none`, for other texts). -/
def groupsOf (g : Text) : Option (List ℚ) :=
  if g = c!"SCALE_3" then some Groups.groups3
  else if g = c!"SCALE_44" then some Groups.groups44
  else if g = c!"SCALE_56" then some Groups.groups56
  else if g = c!"SCALE_238" then some Groups.groups238
  else if g = c!"SCALE_252" then some Groups.groups252
  else none

end ASAPy.CovCli
