import Verif.Py
import Verif.Dec

/-!
# Model of the parallel writing of samples (ASAPy/XsecSampler.py 14-19, 721-804, 926-936)

Every MPI process runs `write_sampled_data` with the same (broadcast) samples. A process is a list of tasks; a task is
done in small steps (read the base file, open and truncate the output file, write some characters), and the steps of the
processes are interleaved arbitrarily; a process may be killed at any time. The computation of a sample's text from the base file's text is a parameter `render`
(`Sampled.render` for the real program), and so is the text of the csv of an MT.
-/

namespace ASAPy.Mpi

abbrev Text := List Char
abbrev FS := Text → Option Text

/-- A file to write: the ACE file of a sample (741-792), or the csv of an MT (798-804). -/
inductive Task where
  | ace (k : Nat)
  | csv (mt : Nat)
deriving DecidableEq

/-- What the processes share: the path of the base ACE file, the output prefix (`output_formatter` is the prefix followed
by `{0}`, line 935), the samples' texts and the csv texts. -/
structure Env where
  base : Text
  pre : Text
  render : Text → Nat → Except PyErr Text
  csv : Nat → Except PyErr Text

/-- The path a task writes: lines 792 and 804. -/
def Env.path (env : Env) : Task → Text
  | .ace k => env.pre ++ Dec.natStr k
  | .csv mt => env.pre ++ Dec.natStr mt ++ "_samples.csv".toList

/-- The tasks of a rank: lines 738-739 (sample numbers 0..n-1, `sample_number % size != rank: continue`) and 796-804. -/
def tasksOf (n : Nat) (mts : List Nat) (size rank : Nat) : List Task :=
  ((List.range n).filter fun k => decide (k % size = rank)).map .ace ++ (if rank = 0 then mts.map .csv else [])

/-- How far a process is with its first task: nothing done; base file read; output opened, with the text still to be written. -/
inductive Phase where
  | idle
  | loaded (t : Text)
  | opened (t : Text)
deriving DecidableEq

/-- Whether a process has been ended by an exception or from outside. -/
inductive Life where
  | alive
  | raised
  | killed
deriving DecidableEq

structure Proc where
  tasks : List Task
  phase : Phase
  life : Life
deriving DecidableEq

/-- An exception ends the process (the others go on). -/
def crashed : Proc := ⟨[], .idle, .raised⟩

def upd (fs : FS) (p : Text) (t : Text) : FS := fun q => if q = p then some t else fs q

/-- One step of a process; `n + 1` is the number of characters it writes if it is writing (the operating system writes a
file in pieces). -/
def stepProc (env : Env) (fs : FS) (p : Proc) (n : Nat) : FS × Proc :=
  match p.tasks, p.phase with
  | [], _ => (fs, p)
  | .ace _ :: _, .idle => match fs env.base with                                     -- 741, 767, 768
    | none => (fs, crashed)
    | some t => (fs, { p with phase := .loaded t })
  | .ace k :: _, .loaded t => match env.render t k with
    | .error _ => (fs, crashed)
    | .ok s => (upd fs (env.path (.ace k)) [], { p with phase := .opened s })        -- 792: `open(..., 'w')`
  | .csv mt :: _, .idle => match env.csv mt with
    | .error _ => (fs, crashed)
    | .ok s => (upd fs (env.path (.csv mt)) [], { p with phase := .opened s })       -- 804
  | .csv _ :: _, .loaded _ => (fs, crashed)
  | t :: ts, .opened s =>
    (upd fs (env.path t) (((fs (env.path t)).getD []) ++ s.take (n + 1)),
      if s.length ≤ n + 1 then { p with tasks := ts, phase := .idle } else { p with phase := .opened (s.drop (n + 1)) })

structure World where
  fs : FS
  procs : Nat → Proc

/-- The start: `size` processes. -/
def start (n : Nat) (mts : List Nat) (size : Nat) (fs : FS) : World :=
  ⟨fs, fun r => ⟨if r < size then tasksOf n mts size r else [], .idle, .alive⟩⟩

/-- What happens next: process `r` makes a step, or is killed. -/
inductive Event where
  | step (r n : Nat)
  | kill (r : Nat)
deriving DecidableEq

def World.next (env : Env) (w : World) : Event → World
  | .step r n =>
    let o := stepProc env w.fs (w.procs r) n
    ⟨o.1, fun q => if q = r then o.2 else w.procs q⟩
  | .kill r => ⟨w.fs, fun q => if q = r then ⟨[], .idle, .killed⟩ else w.procs q⟩

/-- An execution. -/
def exec (env : Env) (w : World) : List Event → World
  | [] => w
  | e :: es => exec env (w.next env e) es

/-- All processes have ended. -/
def Finished (w : World) : Prop := ∀ r, (w.procs r).tasks = []

end ASAPy.Mpi
