import Mathlib.Tactic.SplitIfs
import Mathlib.Order.Basic
import Mathlib.Data.Nat.Basic

/-!
# Model of running an external program (ASAPy/EndfToCov.py 109-161 `run_program`, ASAPy/njoy.py 366-387)

The parent (the Python process) and the child run concurrently and are connected by two pipes of bounded capacity. A step of the parent writes or reads one
character or looks at the child's status; a step of the child is one of its actions. Steps that have to wait leave the state as it is. The working
directory, the file with the commands (132-135), printing and the translation of line ends (`universal_newlines`) are left out; that a program has ended and that its end of
the pipes is closed is one event.
-/

namespace ASAPy.Subprocess

/-- What the program started at EndfToCov.py 138 does next: read a character (or learn that the input has ended), write one, or exit. -/
inductive Act (σ : Type*) where
  | read (k : Char → σ) (eof : σ)
  | write (c : Char) (s : σ)
  | exit (code : Int)

/-- The exceptions `run_program` can raise: CalledProcessError with status and output (155-157), BrokenPipeError when the child has ended before it got the commands. -/
inductive Err where
  | calledProcess (code : Int) (output : List Char)
  | brokenPipe
deriving DecidableEq

/-- Where the parent is: writing the commands (140-141), reading the output (144-150; what has been read), finished with what was printed or with an exception. -/
inductive Parent where
  | writing (rest : List Char)
  | reading (got : List Char)
  | done (r : Except Err (List Char))

/-- The two processes and the pipes between them, EndfToCov.py 138-139. -/
structure Sys (σ : Type*) where
  parent : Parent
  /-- the child's state, or its exit status -/
  child : σ ⊕ Int
  /-- the contents of the pipes to and from the child -/
  inp : List Char
  out : List Char

/-- `Popen(...)`, EndfToCov.py 138-139, njoy.py 367-368. -/
def start {σ : Type*} (s : σ) (commands : List Char) : Sys σ := ⟨.writing commands, .inl s, [], []⟩

/-- Which process makes the next step (not in the code: the operating system decides it). -/
inductive Who where
  | parent
  | child
deriving DecidableEq

/-- A step of the parent. The input pipe stays open until the child has ended (EndfToCov.py 159 closes it after the loop; njoy.py does not close it). -/
def stepParent {σ : Type*} (cap : Nat) (w : Sys σ) : Sys σ :=
  match w.parent with
  | .writing [] => { w with parent := .reading [] }
  | .writing (c :: cs) => match w.child with
    | .inr _ => { w with parent := .done (.error .brokenPipe) }
    | .inl _ => if w.inp.length < cap then { w with parent := .writing cs, inp := w.inp ++ [c] } else w
  | .reading got => match w.out with
    | c :: o => { w with parent := .reading (got ++ [c]), out := o }                 -- 146-150
    | [] => match w.child with
      | .inr code => { w with parent := .done (if code ≠ 0 then .error (.calledProcess code got) else .ok got) }   -- 147-148, 155-157
      | .inl _ => w
  | .done _ => w

/-- A step of the child: the other end of the pipes of EndfToCov.py 138-139 (it waits for input as long as the pipe is open). -/
def stepChild {σ : Type*} (cap : Nat) (prog : σ → Act σ) (w : Sys σ) : Sys σ :=
  match w.child with
  | .inr _ => w
  | .inl s => match prog s with
    | .read k _ => match w.inp with
      | c :: i => { w with child := .inl (k c), inp := i }
      | [] => w
    | .write c s' => if w.out.length < cap then { w with child := .inl s', out := w.out ++ [c] } else w
    | .exit code => { w with child := .inr code }

/-- A step of either process, EndfToCov.py 138-157. -/
def step {σ : Type*} (cap : Nat) (prog : σ → Act σ) (w : Sys σ) : Who → Sys σ
  | .parent => stepParent cap w
  | .child => stepChild cap prog w

/-- The state after the first `n` steps of a schedule. -/
def after {σ : Type*} (cap : Nat) (prog : σ → Act σ) (w : Sys σ) (sched : Nat → Who) : Nat → Sys σ
  | 0 => w
  | n + 1 => step cap prog (after cap prog w sched n) (sched n)

end ASAPy.Subprocess
