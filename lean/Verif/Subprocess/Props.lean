import Verif.Subprocess.Spec

/-! # Running an external program (C97) -/

namespace ASAPy.Subprocess

variable {σ : Type*} {prog : σ → Act σ} {cap : Nat}

theorem RunsExactly.runs {s : σ} {input output : List Char} {code : Int} (h : RunsExactly prog s input output code) : Runs prog s input output code := by
  induction h with
  | exit h => exact .exit h
  | write h _ ih => exact .write h ih
  | read h _ ih => exact .read h ih

/-- What has not been written, and what has been read. -/
def Parent.rest : Parent → List Char
  | .writing r => r
  | _ => []
def Parent.got : Parent → List Char
  | .reading g => g
  | _ => []

/-- What `run_program` must do for a program with the output `O` and the status `code`. -/
def result (O : List Char) (code : Int) : Except Err (List Char) := if code ≠ 0 then .error (.calledProcess code O) else .ok O

/-- The invariant for a program that reads the commands exactly; `N` is their number. -/
def Inv (prog : σ → Act σ) (N : Nat) (O : List Char) (code : Int) (w : Sys σ) : Prop :=
  match w.parent with
  | .done r => r = result O code
  | p => w.inp.length + p.rest.length ≤ N ∧ match w.child with
    | .inl s => ∃ O', RunsExactly prog s (w.inp ++ p.rest) O' code ∧ p.got ++ w.out ++ O' = O
    | .inr c => c = code ∧ p.rest = [] ∧ p.got ++ w.out = O

theorem inv_step {N : Nat} {O : List Char} {code : Int} {w : Sys σ} (h : Inv prog N O code w) (who : Who) : Inv prog N O code (step cap prog w who) := by
  obtain ⟨p, ch, inp, out⟩ := w
  cases who with
  | parent =>
    cases p with
    | done r => exact h
    | writing r =>
      cases r with
      | nil => exact h
      | cons c cs =>
        obtain ⟨h1, h2⟩ := h
        cases ch with
        | inr c' => cases h2.2.1
        | inl s =>
          simp only [step, stepParent]
          split_ifs with hc
          · refine ⟨by simp only [Parent.rest, List.length_append, List.length_cons, List.length_nil] at h1 ⊢; omega, ?_⟩
            simp only [Parent.rest, Parent.got] at h2 ⊢
            simpa using h2
          · exact ⟨h1, h2⟩
    | reading got =>
      obtain ⟨h1, h2⟩ := h
      cases out with
      | cons c o =>
        simp only [step, stepParent]
        refine ⟨h1, ?_⟩
        cases ch with
        | inl s => simpa [Parent.got, Parent.rest] using h2
        | inr c' => simpa [Parent.got, Parent.rest] using h2
      | nil =>
        cases ch with
        | inl s => exact ⟨h1, h2⟩
        | inr c' =>
          obtain ⟨rfl, _, h4⟩ := h2
          simp only [Parent.got, List.append_nil] at h4
          subst h4
          rfl
  | child =>
    cases ch with
    | inr c => exact h
    | inl s =>
      cases p with
      | done r =>
        simp only [step, stepChild]
        cases prog s with
        | read k e => cases inp <;> exact h
        | write c s' => simp only; split_ifs <;> exact h
        | exit c => exact h
      | writing r =>
        obtain ⟨h1, O', h2, h3⟩ := h
        simp only [Parent.rest, Parent.got, List.nil_append] at h1 h2 h3
        simp only [step, stepChild]
        generalize hin : inp ++ r = total at h2
        cases h2 with
        | exit he =>
          rw [he]
          have := List.append_eq_nil_iff.mp hin
          exact ⟨h1, rfl, this.2, by simpa [Parent.got] using h3⟩
        | write hw h4 =>
          rw [hw]
          simp only
          split_ifs with hc
          · subst hin
            exact ⟨h1, _, h4, by simp [Parent.got, ← h3]⟩
          · subst hin
            exact ⟨h1, _, .write hw h4, by simpa [Parent.got] using h3⟩
        | read hr h4 =>
          rw [hr]
          cases inp with
          | nil => exact ⟨h1, O', by simp only [List.nil_append, Parent.rest] at hin ⊢; rw [hin]; exact .read hr h4, by simpa [Parent.got] using h3⟩
          | cons c i =>
            simp only [List.cons_append, List.cons.injEq] at hin
            obtain ⟨rfl, rfl⟩ := hin
            exact ⟨by simp only [List.length_cons, Parent.rest] at h1 ⊢; omega, O', h4, by simpa [Parent.got] using h3⟩
      | reading got =>
        obtain ⟨h1, O', h2, h3⟩ := h
        simp only [Parent.rest, Parent.got, List.append_nil] at h1 h2 h3
        simp only [step, stepChild]
        cases h2 with
        | exit he =>
          rw [he]
          exact ⟨h1, rfl, rfl, by simpa [Parent.got] using h3⟩
        | write hw h4 =>
          rw [hw]
          simp only
          split_ifs with hc
          · exact ⟨h1, _, by simpa [Parent.rest] using h4, by simp [Parent.got, ← h3]⟩
          · exact ⟨h1, _, by simpa [Parent.rest] using RunsExactly.write hw h4, by simpa [Parent.got] using h3⟩
        | read hr h4 =>
          rw [hr]
          exact ⟨by simp only [List.length_cons, Parent.rest] at h1 ⊢; omega, O', by simpa [Parent.rest] using h4, by simpa [Parent.got] using h3⟩

/-- How much is left to do. -/
def todo (O : List Char) (w : Sys σ) : Nat :=
  2 * w.parent.rest.length + w.inp.length + 2 * (O.length - w.parent.got.length - w.out.length) + w.out.length +
    (match w.child with | .inl _ => 1 | .inr _ => 0) + (match w.parent with | .writing _ => 2 | .reading _ => 1 | .done _ => 0)

/-- Whether the parent has finished. -/
def Done (w : Sys σ) : Prop := ∃ r, w.parent = .done r

/-- Every step that does something reduces what is left to do. -/
theorem todo_step {N : Nat} {O : List Char} {code : Int} {w : Sys σ} (h : Inv prog N O code w) (hd : ¬ Done w) (who : Who) :
    step cap prog w who = w ∨ Done (step cap prog w who) ∨ todo O (step cap prog w who) < todo O w := by
  obtain ⟨p, ch, inp, out⟩ := w
  cases p with
  | done r => exact absurd ⟨r, rfl⟩ hd
  | writing r =>
    obtain ⟨h1, h2⟩ := h
    cases who with
    | parent =>
      cases r with
      | nil =>
        right; right
        simp only [step, stepParent, todo, Parent.rest, Parent.got]
        omega
      | cons c cs =>
        cases ch with
        | inr c' => cases h2.2.1
        | inl s =>
          simp only [step, stepParent]
          split_ifs with hc
          · right; right
            simp only [todo, Parent.rest, Parent.got, List.length_append, List.length_cons, List.length_nil]
            omega
          · exact Or.inl rfl
    | child =>
      cases ch with
      | inr c => exact Or.inl rfl
      | inl s =>
        obtain ⟨O', h2, h3⟩ := h2
        simp only [Parent.rest, Parent.got, List.nil_append] at h1 h2 h3
        simp only [step, stepChild]
        cases hp : prog s with
        | read k e =>
          cases inp with
          | nil => exact Or.inl rfl
          | cons c i => right; right; simp only [todo, Parent.rest, Parent.got, List.length_cons]; omega
        | write c s' =>
          simp only
          split_ifs with hc
          · right; right
            have : out.length < O.length := by
              generalize inp ++ r = total at h2
              cases h2 with
              | exit he => rw [hp] at he; cases he
              | write hw h4 => rw [← h3]; simp
              | read hr _ => rw [hp] at hr; cases hr
            simp only [todo, Parent.rest, Parent.got, List.length_append, List.length_cons, List.length_nil]
            omega
          · exact Or.inl rfl
        | exit c => right; right; simp only [todo, Parent.rest, Parent.got]; omega
  | reading got =>
    obtain ⟨h1, h2⟩ := h
    cases who with
    | parent =>
      cases out with
      | cons c o =>
        right; right
        have : got.length + (c :: o).length ≤ O.length := by
          cases ch with
          | inl s => obtain ⟨O', _, h3⟩ := h2; rw [← h3]; simp [Parent.got]
          | inr c' => rw [← h2.2.2]; simp [Parent.got]
        simp only [step, stepParent, todo, Parent.rest, Parent.got, List.length_append, List.length_cons, List.length_nil] at this ⊢
        omega
      | nil =>
        cases ch with
        | inl s => exact Or.inl rfl
        | inr c' => exact Or.inr (Or.inl ⟨_, rfl⟩)
    | child =>
      cases ch with
      | inr c => exact Or.inl rfl
      | inl s =>
        obtain ⟨O', h2, h3⟩ := h2
        simp only [Parent.rest, Parent.got, List.append_nil] at h1 h2 h3
        simp only [step, stepChild]
        cases hp : prog s with
        | read k e =>
          cases inp with
          | nil => exact Or.inl rfl
          | cons c i => right; right; simp only [todo, Parent.rest, Parent.got, List.length_cons]; omega
        | write c s' =>
          simp only
          split_ifs with hc
          · right; right
            have : got.length + out.length < O.length := by
              cases h2 with
              | exit he => rw [hp] at he; cases he
              | write hw h4 => rw [← h3]; simp
              | read hr _ => rw [hp] at hr; cases hr
            simp only [todo, Parent.rest, Parent.got, List.length_append, List.length_cons, List.length_nil]
            omega
          · exact Or.inl rfl
        | exit c => right; right; simp only [todo, Parent.rest, Parent.got]; omega

/-- As long as the parent has not finished, one of the two can do something. -/
theorem progress {N : Nat} {O : List Char} {code : Int} {w : Sys σ} (h : Inv prog N O code w) (hd : ¬ Done w) (hcap : 0 < cap) (hsmall : N ≤ cap ∨ O.length ≤ cap) :
    ∃ who, step cap prog w who ≠ w := by
  obtain ⟨p, ch, inp, out⟩ := w
  cases p with
  | done r => exact absurd ⟨r, rfl⟩ hd
  | writing r =>
    obtain ⟨h1, h2⟩ := h
    cases r with
    | nil => exact ⟨.parent, by simp [step, stepParent]⟩
    | cons c cs =>
      cases ch with
      | inr c' => cases h2.2.1
      | inl s =>
        by_cases hi : inp.length < cap
        · exact ⟨.parent, by simp [step, stepParent, hi]⟩
        · obtain ⟨O', h2, h3⟩ := h2
          simp only [Parent.rest, Parent.got, List.nil_append, List.length_cons] at h1 h2 h3
          refine ⟨.child, ?_⟩
          simp only [step, stepChild]
          cases hp : prog s with
          | read k e =>
            cases inp with
            | nil => simp at hi; omega
            | cons x i => simp only [ne_eq, Sys.mk.injEq, not_and]; intro _ _ h; simp at h
          | write x s' =>
            have : out.length < cap := by
              have : out.length < O.length := by
                generalize inp ++ (c :: cs) = total at h2
                cases h2 with
                | exit he => rw [hp] at he; cases he
                | write hw h4 => rw [← h3]; simp
                | read hr _ => rw [hp] at hr; cases hr
              omega
            simp [this]
          | exit code => simp
  | reading got =>
    obtain ⟨h1, h2⟩ := h
    cases out with
    | cons c o => exact ⟨.parent, by simp [step, stepParent]⟩
    | nil =>
      cases ch with
      | inr c' => exact ⟨.parent, by simp [step, stepParent]⟩
      | inl s =>
        obtain ⟨O', h2, h3⟩ := h2
        simp only [Parent.rest, Parent.got, List.append_nil] at h1 h2 h3
        refine ⟨.child, ?_⟩
        simp only [step, stepChild]
        cases hp : prog s with
        | read k e =>
          cases inp with
          | nil =>
            cases h2 with
            | exit he => rw [hp] at he; cases he
            | write hw h4 => rw [hp] at hw; cases hw
          | cons x i => simp only [ne_eq, Sys.mk.injEq, not_and]; intro _ _ h; simp at h
        | write x s' => simp [hcap]
        | exit code => simp

theorem inv_after {N : Nat} {O : List Char} {code : Int} {w : Sys σ} (h : Inv prog N O code w) (sched : Nat → Who) (n : Nat) :
    Inv prog N O code (after cap prog w sched n) := by
  induction n with
  | zero => exact h
  | succ n ih => exact inv_step ih _

theorem done_after {w : Sys σ} {sched : Nat → Who} {n m : Nat} (hnm : n ≤ m) {r : Except Err (List Char)} (h : (after cap prog w sched n).parent = .done r) :
    (after cap prog w sched m).parent = .done r := by
  induction hnm with
  | refl => exact h
  | @step m _ ih =>
    simp only [after]
    generalize after cap prog w sched m = v at ih ⊢
    obtain ⟨p, ch, inp, out⟩ := v
    simp only at ih
    subst ih
    cases sched m with
    | parent => rfl
    | child =>
      simp only [step, stepChild]
      cases ch with
      | inr c => rfl
      | inl s =>
        simp only
        cases prog s with
        | read k e => cases inp <;> rfl
        | write c s' => simp only; split_ifs <;> rfl
        | exit c => rfl

/-- **C97** (part). Let the program read exactly the commands it is given and end, having written `output`, with the status `code`; and let the commands or the output fit into a pipe.
Then under every fair schedule `run_program` ends, having read the whole output; it raises CalledProcessError with the status and the output if the status is not 0. (Missing, and false: programs that
read to the end of their input or do not read all commands; large commands with large output.) -/
theorem C97_runs_partial {s : σ} {commands output : List Char} {code : Int} (h : RunsExactly prog s commands output code) (hcap : 0 < cap)
    (hsmall : commands.length ≤ cap ∨ output.length ≤ cap) {sched : Nat → Who} (hfair : Fair sched) :
    ∃ n, ∀ m, n ≤ m → (after cap prog (start s commands) sched m).parent = .done (if code ≠ 0 then .error (.calledProcess code output) else .ok output) := by
  have h0 : Inv prog commands.length output code (start s commands) := ⟨by simp [start, Parent.rest], output, by simpa [start, Parent.rest] using h, by simp [start, Parent.got]⟩
  have hi := inv_after (cap := cap) h0 sched
  suffices hs : ∀ t n, todo output (after cap prog (start s commands) sched n) ≤ t → ∃ m, Done (after cap prog (start s commands) sched m) by
    obtain ⟨m, r, hr⟩ := hs _ 0 le_rfl
    have := hi m
    unfold Inv at this
    rw [hr] at this
    refine ⟨m, fun m' hm => ?_⟩
    rw [done_after hm hr]
    simp only at this
    rw [this]
    rfl
  intro t
  induction t using Nat.strong_induction_on with
  | _ t ih =>
    intro n hn
    by_cases hd : Done (after cap prog (start s commands) sched n)
    · exact ⟨n, hd⟩
    · obtain ⟨who, hw⟩ := progress (hi n) hd hcap hsmall
      obtain ⟨m, hm, hmw⟩ := hfair who n
      -- either something happens before step `m`, or it happens then
      have key : ∀ d, (∃ m, Done (after cap prog (start s commands) sched m)) ∨
          after cap prog (start s commands) sched (n + d) = after cap prog (start s commands) sched n ∨
          todo output (after cap prog (start s commands) sched (n + d)) < t := by
        intro d
        induction d with
        | zero => exact Or.inr (Or.inl rfl)
        | succ d ihd =>
          rcases ihd with h1 | h1 | h1
          · exact Or.inl h1
          · have hd' : ¬ Done (after cap prog (start s commands) sched (n + d)) := by rw [h1]; exact hd
            rcases todo_step (cap := cap) (hi (n + d)) hd' (sched (n + d)) with h2 | h2 | h2
            · exact Or.inr (Or.inl (by rw [← Nat.add_assoc, after, h2, h1]))
            · exact Or.inl ⟨n + d + 1, h2⟩
            · refine Or.inr (Or.inr ?_)
              rw [← Nat.add_assoc, after]
              rw [h1] at h2 ⊢
              omega
          · by_cases hd' : Done (after cap prog (start s commands) sched (n + d))
            · exact Or.inl ⟨_, hd'⟩
            · rcases todo_step (cap := cap) (hi (n + d)) hd' (sched (n + d)) with h2 | h2 | h2
              · exact Or.inr (Or.inr (by rw [← Nat.add_assoc, after, h2]; exact h1))
              · exact Or.inl ⟨n + d + 1, h2⟩
              · exact Or.inr (Or.inr (by rw [← Nat.add_assoc, after]; omega))
      rcases key (m - n) with h1 | h1 | h1
      · exact h1
      · rw [Nat.add_sub_cancel' hm] at h1
        have hd' : ¬ Done (after cap prog (start s commands) sched m) := by rw [h1]; exact hd
        rcases todo_step (cap := cap) (hi m) hd' (sched m) with h2 | h2 | h2
        · rw [hmw, h1] at h2
          exact absurd h2 hw
        · exact ⟨m + 1, h2⟩
        · exact ih _ (by rw [after]; rw [h1] at h2 ⊢; exact lt_of_lt_of_le h2 hn) (m + 1) le_rfl
      · exact ih _ h1 _ le_rfl

/-! ### An example, and what fails -/

/-- A program that reads up to a line break, answers `x` and ends. -/
inductive Line where
  | reading
  | answer
  | ended

def lineProg : Line → Act Line
  | .reading => .read (fun c => if c = '\n' then .answer else .reading) .ended
  | .answer => .write 'x' .ended
  | .ended => .exit 0

example : RunsExactly lineProg .reading "0,0\n".toList "x".toList 0 := by
  refine .read (k := _) rfl (.read (k := _) rfl (.read (k := _) rfl (.read (k := _) rfl ?_)))
  exact .write rfl (.exit rfl)

example : Fair fun n => if n % 2 = 0 then .parent else .child := by
  intro who n
  cases who with
  | parent => exact ⟨2 * n, by omega, by simp⟩
  | child => exact ⟨2 * n + 1, by omega, by simp⟩

/-- A program that reads its whole input (and writes nothing): `cat > /dev/null`. -/
def sink : Bool → Act Bool
  | true => .read (fun _ => true) false
  | false => .exit 0

theorem sink_runs (commands : List Char) : Runs sink true commands [] 0 := by
  induction commands with
  | nil => exact .eof (k := fun _ => true) (eof := false) rfl (.exit rfl)
  | cons c cs ih => exact .read (k := fun _ => true) (eof := false) rfl ih

/-- **C97 is false** for a program that reads to the end of its input: the input is not closed before the program has ended, so both wait for ever, under every schedule. -/
theorem C97_eof_refuted (cap : Nat) (commands : List Char) : Runs sink true commands [] 0 ∧
    ∀ sched n, ¬ Done (after cap sink (start true commands) sched n) := by
  refine ⟨sink_runs commands, ?_⟩
  intro sched n
  have : (after cap sink (start true commands) sched n).child = .inl true ∧ ¬ Done (after cap sink (start true commands) sched n) := by
    induction n with
    | zero => exact ⟨rfl, by rintro ⟨r, hr⟩; cases hr⟩
    | succ n ih =>
      simp only [after]
      generalize after cap sink (start true commands) sched n = v at ih ⊢
      obtain ⟨p, ch, inp, out⟩ := v
      obtain ⟨h1, h2⟩ := ih
      simp only at h1
      subst h1
      cases sched n with
      | parent =>
        simp only [step, stepParent]
        cases p with
        | done r => exact absurd ⟨r, rfl⟩ h2
        | writing r =>
          cases r with
          | nil => exact ⟨rfl, by rintro ⟨r, hr⟩; cases hr⟩
          | cons c cs => simp only; split_ifs <;> exact ⟨rfl, by rintro ⟨r, hr⟩; cases hr⟩
        | reading got =>
          cases out with
          | nil => exact ⟨rfl, by rintro ⟨r, hr⟩; cases hr⟩
          | cons c o => exact ⟨rfl, by rintro ⟨r, hr⟩; cases hr⟩
      | child =>
        simp only [step, stepChild, sink]
        cases inp with
        | nil => exact ⟨rfl, h2⟩
        | cons c i =>
          refine ⟨rfl, ?_⟩
          rintro ⟨r, hr⟩
          exact h2 ⟨r, hr⟩
  exact this.2

/-- A program that writes `n` characters as it reads `n` characters, one after the other, and ends. -/
inductive Echo where
  | copy (n : Nat)
  | put (c : Char) (n : Nat)

def echo : Echo → Act Echo
  | .copy 0 => .exit 0
  | .copy (n + 1) => .read (fun c => .put c n) (.copy 0)
  | .put c n => .write c (.copy n)

theorem echo_runs (commands : List Char) : RunsExactly echo (.copy commands.length) commands commands 0 := by
  induction commands with
  | nil => exact .exit rfl
  | cons c cs ih => exact .read (k := fun c => .put c cs.length) (eof := .copy 0) rfl (.write rfl ih)

/-- **C97 is false** for large commands and large output: the output is not read before all commands are written, so both wait for ever, under every schedule. -/
theorem C97_large_refuted (cap : Nat) (commands : List Char) (h : 2 * cap + 1 < commands.length) :
    RunsExactly echo (.copy commands.length) commands commands 0 ∧ ∀ sched n, ¬ Done (after cap echo (start (.copy commands.length) commands) sched n) := by
  refine ⟨echo_runs commands, ?_⟩
  intro sched n
  -- all characters the parent has written are in the pipes or held by the program
  have : ∃ (rest : List Char) (i : Echo) (o : List Char × List Char), (after cap echo (start (.copy commands.length) commands) sched n) = ⟨.writing rest, .inl i, o.1, o.2⟩ ∧ o.1.length ≤ cap ∧ o.2.length ≤ cap ∧
      match i with
      | .copy k => k = o.1.length + rest.length ∧ o.2.length + k = commands.length
      | .put _ k => k = o.1.length + rest.length ∧ o.2.length + k + 1 = commands.length := by
    induction n with
    | zero => exact ⟨commands, .copy commands.length, ([], []), rfl, by simp, by simp, by simp⟩
    | succ n ih =>
      obtain ⟨rest, i, ⟨inp, out⟩, he, h1, h2, h3⟩ := ih
      simp only [after, he]
      simp only at h1 h2 h3
      cases sched n with
      | parent =>
        simp only [step, stepParent]
        cases rest with
        | nil =>
          exfalso
          cases i <;> simp only [List.length_nil] at h3 <;> omega
        | cons c cs =>
          simp only
          split_ifs with hc
          · refine ⟨cs, i, (inp ++ [c], out), rfl, by simp; omega, h2, ?_⟩
            cases i <;> simp only [List.length_append, List.length_cons, List.length_nil] at h3 ⊢ <;> omega
          · exact ⟨c :: cs, i, (inp, out), rfl, h1, h2, h3⟩
      | child =>
        simp only [step, stepChild]
        cases i with
        | copy k =>
          cases k with
          | zero =>
            exfalso
            simp only at h3
            omega
          | succ k =>
            simp only [echo]
            cases inp with
            | nil => exact ⟨rest, .copy (k + 1), ([], out), rfl, h1, h2, h3⟩
            | cons c inp =>
              refine ⟨rest, .put c k, (inp, out), rfl, by simp at h1 ⊢; omega, h2, ?_⟩
              simp only [List.length_cons] at h3 ⊢
              omega
        | put c k =>
          simp only [echo]
          split_ifs with hc
          · refine ⟨rest, .copy k, (inp, out ++ [c]), rfl, h1, by simp; omega, ?_⟩
            simp only [List.length_append, List.length_cons, List.length_nil] at h3 ⊢
            omega
          · exact ⟨rest, .put c k, (inp, out), rfl, h1, h2, h3⟩
  rintro ⟨r, hr⟩
  obtain ⟨rest, i, o, he, _⟩ := this
  rw [he] at hr
  cases hr

/-- A program that ends with the status 3 at once. -/
def stop : Unit → Act Unit := fun _ => .exit 3

/-- **C97 is false** for a program that ends with an error before it has read its commands: the parent may raise BrokenPipeError instead of CalledProcessError. -/
theorem C97_early_exit_refuted (cap : Nat) (c : Char) (cs : List Char) : Runs stop () (c :: cs) [] 3 ∧
    (after cap stop (start () (c :: cs)) (fun n => if n = 0 then .child else .parent) 2).parent = .done (.error .brokenPipe) :=
  ⟨.exit rfl, rfl⟩

end ASAPy.Subprocess
