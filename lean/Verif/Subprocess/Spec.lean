import Verif.Subprocess.Model

/-! # What a program does with its standard input -/

namespace ASAPy.Subprocess

/-- The program, in state `s`, given `input` as the rest of its standard input, writes `output` and ends with status `code`. -/
inductive Runs {σ : Type*} (prog : σ → Act σ) : σ → List Char → List Char → Int → Prop where
  | exit {s input code} : prog s = .exit code → Runs prog s input [] code
  | write {s s' c input output code} : prog s = .write c s' → Runs prog s' input output code → Runs prog s input (c :: output) code
  | read {s k eof c input output code} : prog s = .read k eof → Runs prog (k c) input output code → Runs prog s (c :: input) output code
  | eof {s k eof output code} : prog s = .read k eof → Runs prog eof [] output code → Runs prog s [] output code

/-- The same for a program that reads all of its input and does not try to read more. -/
inductive RunsExactly {σ : Type*} (prog : σ → Act σ) : σ → List Char → List Char → Int → Prop where
  | exit {s code} : prog s = .exit code → RunsExactly prog s [] [] code
  | write {s s' c input output code} : prog s = .write c s' → RunsExactly prog s' input output code → RunsExactly prog s input (c :: output) code
  | read {s k eof c input output code} : prog s = .read k eof → RunsExactly prog (k c) input output code → RunsExactly prog s (c :: input) output code

/-- Both processes get their turn again and again. -/
def Fair (sched : Nat → Who) : Prop := ∀ who n, ∃ m, n ≤ m ∧ sched m = who

end ASAPy.Subprocess
