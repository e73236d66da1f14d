import Verif.Chars
import Verif.Py
import Verif.AceData.Model

/-!
# Model of the command line of XsecSampler and of the batch job it writes (ASAPy/XsecSampler.py 806-868)

Of argparse what this parser uses: options are recognised by their exact name or a unique beginning of it; words that look like negative numbers are not options;
positional arguments may stand between options. Not modelled: `--option=value`, the help text, the end marker `--`, and integers written in other ways than with
digits and a minus sign. `qsub_helper` is not part of the code; it is taken to put the command and its arguments on one line of the job file, which the shell
splits at blanks.
-/

namespace ASAPy.Batch
open ASAPy.AceData ASAPy.Dec

/-- `args`. -/
structure Args where
  base : List Char
  store : List Char
  num : Int
  mts : Option (List Int)
  mpiproc : Int
  over : Int
  makePlots : Bool
  writePbs : Bool
  wait : Option (List Char)
  subPbs : Bool
  distribution : List Char
  plotOnly : Bool
deriving DecidableEq

/-- What is filled in while the options are read (defaults of lines 814-824). -/
def blank : Args := ⟨[], [], 0, none, 1, -1, false, false, none, false, c!"normal", false⟩

/-- The options of the parser. -/
inductive Opt
  | help | mts | mpiproc | over | makePlots | writePbs | wait | subPbs | distribution | plotOnly
deriving DecidableEq

/-- Lines 812-825 (and the `-h` argparse adds). -/
def table : List (List Char × Opt) :=
  [(c!"-h", .help), (c!"--help", .help), (c!"-mts", .mts), (c!"-mpiproc", .mpiproc), (c!"-num_oversamples", .over), (c!"--make_plots", .makePlots),
   (c!"--writepbs", .writePbs), (c!"--waitforjob", .wait), (c!"--subpbs", .subPbs), (c!"-distribution", .distribution), (c!"--plot-only", .plotOnly)]

/-- The choices of line 823. -/
def choices : List (List Char) := [c!"normal", c!"lognormal", c!"uncorrelated", c!"uniform", c!"loguncorrelated"]

/-- `int(s)`. -/
def toInt (s : List Char) : Option Int :=
  match s with
  | '-' :: r => if r ≠ [] ∧ r.all isDigit = true then some (-(natVal r : Int)) else none
  | r => if r ≠ [] ∧ r.all isDigit = true then some (natVal r : Int) else none

/-- `-5`, `-.5` and `-1.5`: argparse takes these for arguments. -/
def looksNegative (t : List Char) : Bool :=
  match t with
  | '-' :: r => r ≠ [] && (r.all isDigit ||
      (match r.dropWhile isDigit with
        | '.' :: q => q ≠ [] && q.all isDigit
        | _ => false))
  | _ => false

/-- How argparse takes a word: as an argument, as an option, or as neither (an unknown or ambiguous option). -/
inductive Cls
  | arg
  | opt (o : Opt)
  | bad
deriving DecidableEq

def cls (t : List Char) : Cls :=
  match t with
  | '-' :: r => match table.lookup t with
    | some o => .opt o
    | none => if r = [] then .arg else match table.filter fun p => t.isPrefixOf p.1 with
      | [p] => .opt p.2
      | [] => if looksNegative t || ' ' ∈ t then .arg else .bad
      | _ => .bad
  | _ => .arg

/-- What is expected next: anything, the argument of an option, or further MTs. -/
inductive Mode
  | free
  | one (o : Opt)
  | many (l : List Int)

/-- An option has been read. -/
def start (a : Args) : Opt → Except PyErr (Args × Mode)
  | .help => .error .exception
  | .mts => .ok (a, .many [])
  | .makePlots => .ok ({ a with makePlots := true }, .free)
  | .writePbs => .ok ({ a with writePbs := true }, .free)
  | .subPbs => .ok ({ a with subPbs := true }, .free)
  | .plotOnly => .ok ({ a with plotOnly := true }, .free)
  | o => .ok (a, .one o)

/-- The argument `t` of an option has been read. -/
def assign (a : Args) (t : List Char) : Opt → Except PyErr Args
  | .mpiproc => match toInt t with
    | some i => .ok { a with mpiproc := i }
    | none => .error .exception
  | .over => match toInt t with
    | some i => .ok { a with over := i }
    | none => .error .exception
  | .wait => .ok { a with wait := some t }
  | .distribution => if t ∈ choices then .ok { a with distribution := t } else .error .exception
  | _ => .error .exception

/-- The end of the words: the positional arguments (lines 808-810). -/
def finish (a : Args) : List (List Char) → Except PyErr Args
  | [b, s, n] => match toInt n with
    | some i => .ok { a with base := b, store := s, num := i }
    | none => .error .exception
  | _ => .error .exception

/-- The loop of argparse over the words; `pos` are the positional arguments so far. Every error is a `SystemExit`. -/
def go (a : Args) (pos : List (List Char)) : Mode → List (List Char) → Except PyErr Args
  | .free, [] => finish a pos
  | .one _, [] => .error .exception
  | .many l, [] => if l = [] then .error .exception else finish { a with mts := some l } pos
  | .free, t :: ts => match cls t with
    | .arg => go a (pos ++ [t]) .free ts
    | .opt o => match start a o with
      | .error e => .error e
      | .ok (a, m) => go a pos m ts
    | .bad => .error .exception
  | .one o, t :: ts => match cls t with
    | .arg => match assign a t o with
      | .error e => .error e
      | .ok a => go a pos .free ts
    | _ => .error .exception
  | .many l, t :: ts => match cls t with
    | .arg => match toInt t with
      | some i => go a pos (.many (l ++ [i])) ts
      | none => .error .exception
    | .opt o => if l = [] then .error .exception else match start { a with mts := some l } o with
      | .error e => .error e
      | .ok (a, m) => go a pos m ts
    | .bad => .error .exception

/-- `create_argparser().parse_args(words)`. -/
def parse (words : List (List Char)) : Except PyErr Args := go blank [] .free words

/-- The job: number of processes (`mpiexec -n`, if there is one) and the arguments of the program. -/
structure Job where
  procs : Option Int
  line : List Char
deriving DecidableEq

/-- Lines 851-856. -/
def mtsText : Option (List Int) → List Char
  | some (m :: ms) => c!"-mt " ++ Str.join ((m :: ms).map intStr)
  | _ => []

/-- Lines 841-864. -/
def job (a : Args) : Job :=
  let plots := if a.makePlots then c!"--make_plots" else []                           -- 841-844
  let procs := if a.mpiproc > 1 then some a.mpiproc else none                         -- 846-849
  ⟨procs, a.base ++ ' ' :: (a.store ++ ' ' :: (intStr a.num ++ ' ' :: (mtsText a.mts ++ ' ' :: (c!"-distribution" ++ ' ' :: (a.distribution ++
    ' ' :: (c!"-num_oversamples" ++ ' ' :: (intStr a.over ++ ' ' :: plots)))))))⟩

/-- The arguments with which the job runs the program. -/
def run (j : Job) : Except PyErr Args := parse (Str.split j.line)

end ASAPy.Batch
