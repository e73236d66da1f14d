import Mathlib.Algebra.Order.BigOperators.Group.Finset
import Verif.Mpi.Model

/-! # Every schedule and every number of processes gives the same files (C33), interrupted runs (C92, C93) -/

namespace ASAPy.Mpi

variable {env : Env} {n : Nat} {mts : List Nat} {size : Nat}

/-- **C33.** Each sample is assigned to exactly one rank, and to this one exactly once. -/
theorem C33_one_rank (hsize : 0 < size) {k : Nat} (hk : k < n) :
    ∃! r, r < size ∧ .ace k ∈ tasksOf n mts size r := by
  refine ⟨k % size, ⟨Nat.mod_lt _ hsize, ?_⟩, ?_⟩
  · simp [tasksOf, hk]
  · rintro r ⟨_, hr⟩
    unfold tasksOf at hr
    rw [List.mem_append] at hr
    rcases hr with hr | hr
    · simp only [List.mem_map, List.mem_filter, decide_eq_true_eq, Task.ace.injEq] at hr
      obtain ⟨k', ⟨_, h⟩, rfl⟩ := hr
      exact h.symm
    · split_ifs at hr <;> simp at hr

theorem mem_tasksOf {t : Task} {r : Nat} : t ∈ tasksOf n mts size r ↔
    (∃ k, t = .ace k ∧ k < n ∧ k % size = r) ∨ (∃ mt, t = .csv mt ∧ mt ∈ mts ∧ r = 0) := by
  unfold tasksOf
  rw [List.mem_append]
  constructor
  · rintro (h | h)
    · simp only [List.mem_map, List.mem_filter, List.mem_range, decide_eq_true_eq] at h
      obtain ⟨k, ⟨h1, h2⟩, rfl⟩ := h
      exact Or.inl ⟨k, rfl, h1, h2⟩
    · by_cases hr : r = 0
      · simp only [hr, if_true, List.mem_map] at h
        obtain ⟨mt, h, rfl⟩ := h
        exact Or.inr ⟨mt, rfl, h, hr⟩
      · simp [hr] at h
  · rintro (⟨k, rfl, h1, h2⟩ | ⟨mt, rfl, h, rfl⟩)
    · left; simp [h1, h2]
    · right; simp [h]

theorem nodup_tasksOf (hmts : mts.Nodup) (r : Nat) : (tasksOf n mts size r).Nodup := by
  unfold tasksOf
  rw [List.nodup_append]
  refine ⟨?_, ?_, ?_⟩
  · exact (List.nodup_range.filter _).map (fun a b h => by simpa using h)
  · split_ifs
    · exact hmts.map (fun a b h => by simpa using h)
    · exact List.nodup_nil
  · intro a ha b hb
    rw [List.mem_map] at ha
    obtain ⟨k, _, rfl⟩ := ha
    split_ifs at hb
    · rw [List.mem_map] at hb
      obtain ⟨m, _, rfl⟩ := hb
      simp
    · simp at hb

/-- Different tasks write different files. -/
theorem path_injective (env : Env) : Function.Injective env.path := by
  have hus : ∀ n m : Nat, Dec.natStr n ≠ Dec.natStr m ++ "_samples.csv".toList := by
    intro n m h
    have : '_' ∈ Dec.natStr n := by rw [h]; simp
    exact absurd (Dec.natStr_digits n _ this) (by decide)
  rintro (a | a) (b | b) h
  · simp only [Env.path, List.append_cancel_left_eq] at h
    rw [Dec.natStr_injective h]
  · simp only [Env.path, List.append_assoc, List.append_cancel_left_eq] at h
    exact absurd h (hus a b)
  · simp only [Env.path, List.append_assoc, List.append_cancel_left_eq] at h
    exact absurd h.symm (hus b a)
  · simp only [Env.path, List.append_assoc, List.append_cancel_left_eq, List.append_cancel_right_eq] at h
    rw [Dec.natStr_injective h]

/-- A task belongs to one rank. -/
theorem owner_unique {t : Task} {r r' : Nat} (h : t ∈ tasksOf n mts size r) (h' : t ∈ tasksOf n mts size r') : r = r' := by
  rw [mem_tasksOf] at h h'
  rcases h with ⟨k, rfl, _, h⟩ | ⟨m, rfl, _, h⟩ <;> rcases h' with ⟨k', e, _, h'⟩ | ⟨m', e, _, h'⟩ <;> cases e
  · exact h.symm.trans h'
  · exact h.trans h'.symm

/-- The text a task must produce from the base text `b`. -/
def content (env : Env) (b : Text) : Task → Except PyErr Text
  | .ace k => env.render b k
  | .csv mt => env.csv mt

/-- What is known of a process with the tasks `T` and of the files of its tasks: the files of the tasks that are done are complete, those of the tasks not begun
are as at the start. -/
def Good (env : Env) (fs0 : FS) (b : Text) (T : List Task) (p : Proc) (fs : FS) : Prop :=
  ∃ done rest, T = done ++ rest ∧ (∀ t ∈ done, ∃ y, content env b t = .ok y ∧ fs (env.path t) = some y) ∧
    (∀ t ∈ rest.tail, fs (env.path t) = fs0 (env.path t)) ∧
    match p.life with
    | .alive => p.tasks = rest ∧ ∀ t ∈ rest.head?, match p.phase with
      | .idle => fs (env.path t) = fs0 (env.path t)
      | .loaded x => x = b ∧ (∃ k, t = .ace k) ∧ fs (env.path t) = fs0 (env.path t)
      | .opened x => ∃ pre, content env b t = .ok (pre ++ x) ∧ fs (env.path t) = some pre
    | .raised => p.tasks = [] ∧ ∃ t ∈ rest.head?, (∃ e, content env b t = .error e) ∧ fs (env.path t) = fs0 (env.path t)
    | .killed => p.tasks = [] ∧ ∀ t ∈ rest.head?, fs (env.path t) = fs0 (env.path t) ∨
        ∃ pre post, content env b t = .ok (pre ++ post) ∧ fs (env.path t) = some pre

theorem mem_head {α : Type*} {l : List α} {a : α} (h : a ∈ l.head?) : a ∈ l := by
  cases l with
  | nil => simp at h
  | cons b l => simp only [List.head?_cons, Option.mem_def, Option.some.injEq] at h; rw [h]; exact List.mem_cons_self ..

/-- `Good` depends on the files of the tasks only. -/
theorem Good.congr {fs0 : FS} {b : Text} {T : List Task} {p : Proc} {fs fs' : FS} (h : Good env fs0 b T p fs)
    (he : ∀ t ∈ T, fs' (env.path t) = fs (env.path t)) : Good env fs0 b T p fs' := by
  obtain ⟨done, rest, hT, h1, h2, h3⟩ := h
  subst hT
  have hd : ∀ t ∈ done, fs' (env.path t) = fs (env.path t) := fun t ht => he t (List.mem_append_left _ ht)
  have hr : ∀ t ∈ rest, fs' (env.path t) = fs (env.path t) := fun t ht => he t (List.mem_append_right _ ht)
  refine ⟨done, rest, rfl, fun t ht => by rw [hd t ht]; exact h1 t ht, fun t ht => by rw [hr t (List.mem_of_mem_tail ht)]; exact h2 t ht, ?_⟩
  cases hl : p.life with
  | alive =>
    rw [hl] at h3
    refine ⟨h3.1, fun t ht => ?_⟩
    have := h3.2 t ht
    cases hp : p.phase <;> rw [hp] at this <;> simpa only [hr t (mem_head ht)] using this
  | raised =>
    rw [hl] at h3
    obtain ⟨h3, t, ht, h4⟩ := h3
    exact ⟨h3, t, ht, by rw [hr t (mem_head ht)]; exact h4⟩
  | killed =>
    rw [hl] at h3
    exact ⟨h3.1, fun t ht => by rw [hr t (mem_head ht)]; exact h3.2 t ht⟩

theorem upd_same (fs : FS) (p t : Text) : upd fs p t p = some t := by simp [upd]
theorem upd_other (fs : FS) {p q : Text} (t : Text) (h : q ≠ p) : upd fs p t q = fs q := by simp [upd, h]

/-- What a step may change: the file of one of the process's tasks. -/
theorem stepProc_good {fs0 fs : FS} {b : Text} {T : List Task} {p : Proc} (hnd : T.Nodup) (hbase : fs env.base = some b) (hg : Good env fs0 b T p fs) (n : Nat) :
    Good env fs0 b T (stepProc env fs p n).2 (stepProc env fs p n).1 ∧
      ∀ f, (∀ t ∈ T, f ≠ env.path t) → (stepProc env fs p n).1 f = fs f := by
  obtain ⟨done, rest, hT, h1, h2, h3⟩ := hg
  obtain ⟨tasks, phase, life⟩ := p
  cases tasks with
  | nil => exact ⟨⟨done, rest, hT, h1, h2, h3⟩, fun f _ => rfl⟩
  | cons t ts =>
    cases life with
    | raised => cases h3.1
    | killed => cases h3.1
    | alive =>
      obtain ⟨h3, h4⟩ := h3
      simp only at h3
      subst h3
      have hmem : t ∈ T := by rw [hT]; simp
      have h4 := h4 t (by simp)
      simp only [List.tail_cons] at h2
      have hnd' := hnd
      rw [hT, List.nodup_append, List.nodup_cons] at hnd'
      obtain ⟨_, ⟨hts, _⟩, hdis⟩ := hnd'
      have hdone : ∀ u ∈ done, env.path u ≠ env.path t := by
        intro u hu h
        exact hdis u hu t (by simp) (path_injective env h)
      have htail : ∀ u ∈ ts, env.path u ≠ env.path t := by
        intro u hu h
        rw [path_injective env h] at hu
        exact hts hu
      -- opening the output
      have hopen : ∀ s, content env b t = .ok s → fs (env.path t) = fs0 (env.path t) →
          Good env fs0 b T ⟨t :: ts, .opened s, .alive⟩ (upd fs (env.path t) []) := by
        intro s hs _
        refine ⟨done, t :: ts, hT, ?_, ?_, rfl, ?_⟩
        · intro u hu
          rw [upd_other _ _ (hdone u hu)]
          exact h1 u hu
        · intro u hu
          rw [upd_other _ _ (htail u hu)]
          exact h2 u hu
        · intro u hu
          simp only [List.head?_cons, Option.mem_def, Option.some.injEq] at hu
          subst hu
          exact ⟨[], by simpa using hs, upd_same _ _ _⟩
      have hcrash : ∀ e, content env b t = .error e → fs (env.path t) = fs0 (env.path t) → Good env fs0 b T crashed fs := by
        intro e he hf
        exact ⟨done, t :: ts, hT, h1, h2, rfl, t, by simp, ⟨e, he⟩, hf⟩
      have hoth : ∀ s f, (∀ t ∈ T, f ≠ env.path t) → upd fs (env.path t) s f = fs f := fun s f hf => upd_other _ _ (hf t hmem)
      cases phase with
      | opened x =>
        obtain ⟨pre, h5, h6⟩ := h4
        have hstep : stepProc env fs ⟨t :: ts, .opened x, .alive⟩ n = (upd fs (env.path t) (pre ++ x.take (n + 1)),
            if x.length ≤ n + 1 then ⟨ts, .idle, .alive⟩ else ⟨t :: ts, .opened (x.drop (n + 1)), .alive⟩) := by
          cases t <;> simp [stepProc, h6]
        rw [hstep]
        refine ⟨?_, hoth _⟩
        simp only
        split_ifs with hx
        · rw [List.take_of_length_le hx]
          refine ⟨done ++ [t], ts, by rw [hT]; simp, ?_, ?_, rfl, ?_⟩
          · intro u hu
            rw [List.mem_append, List.mem_singleton] at hu
            rcases hu with hu | rfl
            · rw [upd_other _ _ (hdone u hu)]
              exact h1 u hu
            · exact ⟨_, h5, upd_same _ _ _⟩
          · intro u hu
            rw [upd_other _ _ (htail u (List.mem_of_mem_tail hu))]
            exact h2 u (List.mem_of_mem_tail hu)
          · intro u hu
            simp only
            rw [upd_other _ _ (htail u (mem_head hu))]
            exact h2 u (mem_head hu)
        · refine ⟨done, t :: ts, hT, ?_, ?_, rfl, ?_⟩
          · intro u hu
            rw [upd_other _ _ (hdone u hu)]
            exact h1 u hu
          · intro u hu
            rw [upd_other _ _ (htail u hu)]
            exact h2 u hu
          · intro u hu
            simp only [List.head?_cons, Option.mem_def, Option.some.injEq] at hu
            subst hu
            refine ⟨pre ++ x.take (n + 1), ?_, upd_same _ _ _⟩
            rw [List.append_assoc, List.take_append_drop]
            exact h5
      | loaded x =>
        obtain ⟨rfl, ⟨k, rfl⟩, h5⟩ := h4
        simp only [stepProc]
        cases hr : env.render x k with
        | error e => exact ⟨hcrash e hr h5, fun f _ => rfl⟩
        | ok s => exact ⟨hopen s hr h5, hoth _⟩
      | idle =>
        cases t with
        | ace k =>
          simp only [stepProc, hbase]
          refine ⟨⟨done, .ace k :: ts, hT, h1, h2, rfl, ?_⟩, by simp⟩
          intro u hu
          simp only [List.head?_cons, Option.mem_def, Option.some.injEq] at hu
          subst hu
          exact ⟨rfl, ⟨k, rfl⟩, h4⟩
        | csv mt =>
          simp only [stepProc]
          cases hr : env.csv mt with
          | error e => exact ⟨hcrash e hr h4, fun f _ => rfl⟩
          | ok s => exact ⟨hopen s hr h4, hoth _⟩

/-- The invariant of every execution. -/
structure Inv (env : Env) (n : Nat) (mts : List Nat) (size : Nat) (fs0 : FS) (b : Text) (w : World) : Prop where
  base : w.fs env.base = some b
  none : ∀ r, ¬ r < size → (w.procs r).tasks = []
  good : ∀ r, r < size → Good env fs0 b (tasksOf n mts size r) (w.procs r) w.fs
  other : ∀ f, (∀ r t, r < size → t ∈ tasksOf n mts size r → f ≠ env.path t) → w.fs f = fs0 f

variable {fs0 : FS} {b : Text}

theorem inv_start (hb : fs0 env.base = some b) : Inv env n mts size fs0 b (start n mts size fs0) where
  base := hb
  none := by intro r hr; simp [start, hr]
  good := by
    intro r hr
    refine ⟨[], tasksOf n mts size r, rfl, by simp, fun _ _ => rfl, by simp [start, hr], ?_⟩
    intro t _
    rfl
  other := by intro f _; rfl

theorem inv_next (hmts : mts.Nodup) (hbase : ∀ t, env.base ≠ env.path t) {w : World} (hi : Inv env n mts size fs0 b w) (e : Event) :
    Inv env n mts size fs0 b (w.next env e) := by
  cases e with
  | kill r =>
    refine ⟨hi.base, ?_, ?_, hi.other⟩
    · intro q hq
      simp only [World.next]
      split_ifs
      · rfl
      · exact hi.none q hq
    · intro q hq
      simp only [World.next]
      split_ifs with h
      · subst h
        obtain ⟨done, rest, hT, h1, h2, h3⟩ := hi.good q hq
        refine ⟨done, rest, hT, h1, h2, rfl, ?_⟩
        intro t ht
        cases hl : (w.procs q).life with
        | alive =>
          rw [hl] at h3
          have h4 := h3.2 t ht
          cases hp : (w.procs q).phase <;> rw [hp] at h4
          · exact Or.inl h4
          · exact Or.inl h4.2.2
          · obtain ⟨pre, h5, h6⟩ := h4
            exact Or.inr ⟨pre, _, h5, h6⟩
        | raised =>
          rw [hl] at h3
          obtain ⟨_, u, hu, _, h4⟩ := h3
          have : u = t := by
            rw [Option.mem_def] at ht hu
            rw [ht] at hu
            exact (Option.some.inj hu).symm
          subst this
          exact Or.inl h4
        | killed =>
          rw [hl] at h3
          exact h3.2 t ht
      · exact hi.good q hq
  | step r m =>
    by_cases hr : r < size
    · obtain ⟨h1, h2⟩ := stepProc_good (nodup_tasksOf (n := n) (size := size) hmts r) hi.base (hi.good r hr) m
      refine ⟨?_, ?_, ?_, ?_⟩
      · show (stepProc env w.fs (w.procs r) m).1 _ = _
        rw [h2 _ fun t _ => hbase t]
        exact hi.base
      · intro q hq
        have h : q ≠ r := by rintro rfl; exact hq hr
        simp only [World.next, h, if_false]
        exact hi.none q hq
      · intro q hq
        by_cases h : q = r
        · subst h
          simp only [World.next, if_true]
          exact h1
        · simp only [World.next, h, if_false]
          apply (hi.good q hq).congr
          intro t ht
          apply h2
          intro u hu he
          have := path_injective env he
          subst this
          exact h (owner_unique ht hu)
      · intro f hf
        show (stepProc env w.fs (w.procs r) m).1 _ = _
        rw [h2 _ fun t ht => hf r t hr ht]
        exact hi.other f hf
    · have h0 := hi.none r hr
      have : stepProc env w.fs (w.procs r) m = (w.fs, w.procs r) := by
        unfold stepProc
        rw [h0]
      have hw : w.next env (.step r m) = w := by
        simp only [World.next, this]
        cases w with
        | mk fs procs =>
          congr
          funext q
          split_ifs with hq
          · rw [hq]
          · rfl
      rw [hw]
      exact hi

theorem inv_exec (hmts : mts.Nodup) (hbase : ∀ t, env.base ≠ env.path t) (sched : List Event) :
    ∀ {w : World}, Inv env n mts size fs0 b w → Inv env n mts size fs0 b (exec env w sched) := by
  induction sched with
  | nil => intro w h; exact h
  | cons r rs ih => intro w h; exact ih (inv_next hmts hbase h r)

/-- A process is killed only by an event. -/
theorem not_killed (sched : List Event) (hk : ∀ r, .kill r ∉ sched) : ∀ {w : World}, (∀ r, (w.procs r).life ≠ .killed) →
    ∀ r, ((exec env w sched).procs r).life ≠ .killed := by
  induction sched with
  | nil => intro w h; exact h
  | cons e es ih =>
    intro w h
    apply ih (fun r hr => hk r (List.mem_cons_of_mem _ hr))
    intro q
    cases e with
    | kill r => exact absurd (List.mem_cons_self ..) (hk r)
    | step r m =>
      simp only [World.next]
      split_ifs with hq
      · subst hq
        have := h q
        unfold stepProc
        (repeat' split) <;> simp_all [crashed]
      · exact h q

/-- **C33, all samples.** What is written, for every number of processes and every schedule that runs to the end without a process being killed, also when samples
raise: a process goes through its tasks (the samples congruent to its rank modulo the number of processes, and for rank 0 then the csv files) up to the first that raises;
the files of the tasks before it are complete, and the others are as they were. -/
theorem C33_files (hmts : mts.Nodup) (hbase : ∀ t, env.base ≠ env.path t) (hb : fs0 env.base = some b) (sched : List Event)
    (hkill : ∀ r, .kill r ∉ sched) (hfin : Finished (exec env (start n mts size fs0) sched)) :
    let fs := (exec env (start n mts size fs0) sched).fs
    (∀ r, r < size → ∃ done rest, tasksOf n mts size r = done ++ rest ∧ (∀ t ∈ done, ∃ y, content env b t = .ok y ∧ fs (env.path t) = some y) ∧
      (∀ t ∈ rest, fs (env.path t) = fs0 (env.path t)) ∧ ∀ t ∈ rest.head?, ∃ e, content env b t = .error e) ∧
    (∀ f, (∀ k, k < n → f ≠ env.path (.ace k)) → (∀ mt ∈ mts, f ≠ env.path (.csv mt)) → fs f = fs0 f) := by
  intro fs
  have hi := inv_exec (size := size) (n := n) (fs0 := fs0) hmts hbase sched (inv_start hb)
  refine ⟨?_, ?_⟩
  · intro r hr
    obtain ⟨done, rest, hT, h1, h2, h3⟩ := hi.good r hr
    refine ⟨done, rest, hT, h1, ?_⟩
    have hnk := not_killed (env := env) sched hkill (w := start n mts size fs0) (fun q => by simp [start]) r
    cases hl : ((exec env (start n mts size fs0) sched).procs r).life with
    | alive =>
      rw [hl] at h3
      have : rest = [] := by rw [← h3.1, hfin r]
      subst this
      simp
    | killed => exact absurd hl hnk
    | raised =>
      rw [hl] at h3
      obtain ⟨_, t, ht, h4, h5⟩ := h3
      cases rest with
      | nil => simp at ht
      | cons u us =>
        simp only [List.head?_cons, Option.mem_def, Option.some.injEq] at ht
        subst ht
        simp only [List.tail_cons] at h2
        refine ⟨?_, ?_⟩
        · intro v hv
          rcases List.mem_cons.mp hv with rfl | hv
          · exact h5
          · exact h2 v hv
        · intro v hv
          simp only [List.head?_cons, Option.mem_def, Option.some.injEq] at hv
          subst hv
          exact h4
  · intro f h1 h2
    apply hi.other f
    intro r t _ ht
    rw [mem_tasksOf] at ht
    rcases ht with ⟨k, rfl, hk, _⟩ | ⟨mt, rfl, hm, _⟩
    · exact h1 k hk
    · exact h2 mt hm

/-- **C33 (partial).** Let the base file (different from all outputs) have text `b`, and let every sample 0..n-1 and every
csv be computable from it. Then for every number of processes and every schedule that runs to the end, the files at
the end are: the file of each sample with its text, the csv of each MT with its text, and all other files as they were.
The right-hand side mentions neither the number of processes nor the schedule. Missing: samples that raise, see
`C33_failing_sample_refuted` and, for what is then written, `C33_files`. -/
theorem C33_same_files_partial (hsize : 0 < size) (hmts : mts.Nodup) (hbase : ∀ t, env.base ≠ env.path t)
    (hb : fs0 env.base = some b) (ace csv : Nat → Text) (hace : ∀ k, k < n → env.render b k = .ok (ace k))
    (hcsv : ∀ mt ∈ mts, env.csv mt = .ok (csv mt)) (sched : List Event) (hkill : ∀ r, .kill r ∉ sched)
    (hfin : Finished (exec env (start n mts size fs0) sched)) :
    let fs := (exec env (start n mts size fs0) sched).fs
    (∀ k, k < n → fs (env.path (.ace k)) = some (ace k)) ∧
    (∀ mt ∈ mts, fs (env.path (.csv mt)) = some (csv mt)) ∧
    (∀ f, (∀ k, k < n → f ≠ env.path (.ace k)) → (∀ mt ∈ mts, f ≠ env.path (.csv mt)) → fs f = fs0 f) := by
  intro fs
  obtain ⟨h1, h2⟩ := C33_files hmts hbase hb sched hkill hfin
  have hall : ∀ r t, r < size → t ∈ tasksOf n mts size r → ∃ y, content env b t = .ok y ∧ fs (env.path t) = some y := by
    intro r t hr ht
    obtain ⟨done, rest, hT, g1, _, g3⟩ := h1 r hr
    have : rest = [] := by
      cases rest with
      | nil => rfl
      | cons u us =>
        exfalso
        obtain ⟨e, he⟩ := g3 u (by simp)
        have hu : u ∈ tasksOf n mts size r := by rw [hT]; simp
        rw [mem_tasksOf] at hu
        rcases hu with ⟨k, rfl, hk, _⟩ | ⟨mt, rfl, hm, _⟩
        · rw [content, hace k hk] at he; cases he
        · rw [content, hcsv mt hm] at he; cases he
    subst this
    rw [List.append_nil] at hT
    exact g1 t (hT ▸ ht)
  refine ⟨?_, ?_, h2⟩
  · intro k hk
    obtain ⟨y, e1, e2⟩ := hall (k % size) (.ace k) (Nat.mod_lt _ hsize) (mem_tasksOf.mpr (Or.inl ⟨k, rfl, hk, rfl⟩))
    rw [content, hace k hk] at e1
    rw [e2, Except.ok.inj e1]
  · intro mt hm
    obtain ⟨y, e1, e2⟩ := hall 0 (.csv mt) hsize (mem_tasksOf.mpr (Or.inr ⟨mt, rfl, hm, rfl⟩))
    rw [content, hcsv mt hm] at e1
    rw [e2, Except.ok.inj e1]

/-- **C92.** A run may be interrupted at any point: processes may be killed at any time, also while writing, and the run may stop anywhere. Then the base file and all files that are no
outputs are as before, and every output file is as before or a beginning of its text. A second run to the end, with any number of processes, then leaves the files an uninterrupted run
would have left. -/
theorem C92_interrupted (hmts : mts.Nodup) (hbase : ∀ t, env.base ≠ env.path t) (hb : fs0 env.base = some b) (ace csv : Nat → Text)
    (hace : ∀ k, k < n → env.render b k = .ok (ace k)) (hcsv : ∀ mt ∈ mts, env.csv mt = .ok (csv mt)) (sched : List Event) :
    let fs := (exec env (start n mts size fs0) sched).fs
    (fs env.base = some b ∧ (∀ f, (∀ k, k < n → f ≠ env.path (.ace k)) → (∀ mt ∈ mts, f ≠ env.path (.csv mt)) → fs f = fs0 f)) ∧
    (0 < size → (∀ k, k < n → fs (env.path (.ace k)) = fs0 (env.path (.ace k)) ∨ ∃ x, fs (env.path (.ace k)) = some x ∧ x <+: ace k) ∧
      (∀ mt ∈ mts, fs (env.path (.csv mt)) = fs0 (env.path (.csv mt)) ∨ ∃ x, fs (env.path (.csv mt)) = some x ∧ x <+: csv mt)) ∧
    ∀ size' sched', 0 < size' → (∀ r, .kill r ∉ sched') → Finished (exec env (start n mts size' fs) sched') →
      let fs' := (exec env (start n mts size' fs) sched').fs
      (∀ k, k < n → fs' (env.path (.ace k)) = some (ace k)) ∧ (∀ mt ∈ mts, fs' (env.path (.csv mt)) = some (csv mt)) ∧
      (∀ f, (∀ k, k < n → f ≠ env.path (.ace k)) → (∀ mt ∈ mts, f ≠ env.path (.csv mt)) → fs' f = fs0 f) := by
  intro fs
  have hi := inv_exec (size := size) (n := n) (fs0 := fs0) hmts hbase sched (inv_start hb)
  have hother : ∀ f, (∀ k, k < n → f ≠ env.path (.ace k)) → (∀ mt ∈ mts, f ≠ env.path (.csv mt)) → fs f = fs0 f := by
    intro f h1 h2
    apply hi.other f
    intro r t _ ht
    rw [mem_tasksOf] at ht
    rcases ht with ⟨k, rfl, hk, _⟩ | ⟨mt, rfl, hm, _⟩
    · exact h1 k hk
    · exact h2 mt hm
  refine ⟨⟨hi.base, hother⟩, ?_, ?_⟩
  · intro hsize
    have hall : ∀ r t, r < size → t ∈ tasksOf n mts size r → fs (env.path t) = fs0 (env.path t) ∨
        ∃ x y, fs (env.path t) = some x ∧ content env b t = .ok y ∧ x <+: y := by
      intro r t hr ht
      obtain ⟨done, rest, hT, h1, h2, h3⟩ := hi.good r hr
      rw [hT, List.mem_append] at ht
      rcases ht with ht | ht
      · obtain ⟨y, g1, g2⟩ := h1 t ht
        exact Or.inr ⟨y, y, g2, g1, List.prefix_refl _⟩
      · cases rest with
        | nil => cases ht
        | cons u us =>
          rcases List.mem_cons.mp ht with rfl | ht
          · cases hl : ((exec env (start n mts size fs0) sched).procs r).life with
            | alive =>
              rw [hl] at h3
              have h4 := h3.2 t (by simp)
              cases hp : ((exec env (start n mts size fs0) sched).procs r).phase <;> rw [hp] at h4
              · exact Or.inl h4
              · exact Or.inl h4.2.2
              · obtain ⟨pre, g1, g2⟩ := h4
                exact Or.inr ⟨pre, _, g2, g1, List.prefix_append ..⟩
            | raised =>
              rw [hl] at h3
              obtain ⟨_, v, hv, _, g⟩ := h3
              simp only [List.head?_cons, Option.mem_def, Option.some.injEq] at hv
              subst hv
              exact Or.inl g
            | killed =>
              rw [hl] at h3
              rcases h3.2 t (by simp) with g | ⟨pre, post, g1, g2⟩
              · exact Or.inl g
              · exact Or.inr ⟨pre, _, g2, g1, List.prefix_append ..⟩
          · exact Or.inl (h2 t ht)
    refine ⟨?_, ?_⟩
    · intro k hk
      rcases hall (k % size) (.ace k) (Nat.mod_lt _ hsize) (mem_tasksOf.mpr (Or.inl ⟨k, rfl, hk, rfl⟩)) with h | ⟨x, y, h1, h2, h3⟩
      · exact Or.inl h
      · rw [content, hace k hk] at h2
        rw [← Except.ok.inj h2] at h3
        exact Or.inr ⟨x, h1, h3⟩
    · intro mt hm
      rcases hall 0 (.csv mt) hsize (mem_tasksOf.mpr (Or.inr ⟨mt, rfl, hm, rfl⟩)) with h | ⟨x, y, h1, h2, h3⟩
      · exact Or.inl h
      · rw [content, hcsv mt hm] at h2
        rw [← Except.ok.inj h2] at h3
        exact Or.inr ⟨x, h1, h3⟩
  · intro size' sched' hsize' hkill hfin
    obtain ⟨g1, g2, g3⟩ := C33_same_files_partial hsize' hmts hbase hi.base ace csv hace hcsv sched' hkill hfin
    exact ⟨g1, g2, fun f h1 h2 => (g3 f h1 h2).trans (hother f h1 h2)⟩

/-- **C93** (part). After an interrupted run, each process has left at most one incomplete file: of the samples assigned to it, all up to some sample have complete files, and those
after the next one have no new file. (Missing, and false: all new files are complete.) -/
theorem C93_at_most_one_partial (hmts : mts.Nodup) (hbase : ∀ t, env.base ≠ env.path t) (hb : fs0 env.base = some b) (sched : List Event) {r : Nat} (hr : r < size) :
    let fs := (exec env (start n mts size fs0) sched).fs
    ∀ k k', k < k' → k' < n → k % size = r → k' % size = r →
      (∃ y, env.render b k = .ok y ∧ fs (env.path (.ace k)) = some y) ∨ fs (env.path (.ace k')) = fs0 (env.path (.ace k')) := by
  intro fs k k' hlt hn hk hk'
  have hi := inv_exec (size := size) (n := n) (fs0 := fs0) hmts hbase sched (inv_start hb)
  obtain ⟨done, rest, hT, h1, h2, _⟩ := hi.good r hr
  have hm : .ace k ∈ tasksOf n mts size r := mem_tasksOf.mpr (Or.inl ⟨k, rfl, by omega, hk⟩)
  have hm' : .ace k' ∈ tasksOf n mts size r := mem_tasksOf.mpr (Or.inl ⟨k', rfl, hn, hk'⟩)
  have hord : (tasksOf n mts size r).Pairwise fun a b => ∀ i j, a = .ace i → b = .ace j → i < j := by
    unfold tasksOf
    rw [List.pairwise_append]
    refine ⟨?_, ?_, ?_⟩
    · rw [List.pairwise_map]
      refine (List.pairwise_lt_range.filter _).imp ?_
      intro a c hac i j hi hj
      cases hi; cases hj
      exact hac
    · split_ifs
      · rw [List.pairwise_map]
        exact hmts.imp fun _ i j hi => by cases hi
      · exact List.Pairwise.nil
    · intro a _ c hc i j _ hj
      subst hj
      split_ifs at hc
      · simp at hc
      · cases hc
  rw [hT] at hm hm' hord
  rw [List.mem_append] at hm hm'
  rcases hm with hm | hm
  · obtain ⟨y, g1, g2⟩ := h1 _ hm
    exact Or.inl ⟨y, g1, g2⟩
  · right
    rw [List.pairwise_append] at hord
    rcases hm' with hm' | hm'
    · exact absurd (hord.2.2 _ hm' _ hm k' k rfl rfl) (by omega)
    · cases rest with
      | nil => cases hm'
      | cons u us =>
        rcases List.mem_cons.mp hm' with rfl | hm'
        · rcases List.mem_cons.mp hm with h | hm
          · cases h; omega
          · have := (List.pairwise_cons.mp hord.2.1).1 _ hm k' k rfl rfl
            omega
        · exact h2 _ hm'

/-- Work left in a process, in steps, if each step writes all that is to be written. -/
def left (p : Proc) : Nat := 3 * p.tasks.length - (match p.phase with | .idle => 0 | .loaded _ => 1 | .opened _ => 2)

/-- Enough characters to finish a file in one step. -/
def chunk (p : Proc) : Nat := match p.phase with
  | .opened s => s.length
  | _ => 0

theorem left_step (fs : FS) (p : Proc) (h : p.tasks ≠ []) : left (stepProc env fs p (chunk p)).2 < left p := by
  obtain ⟨tasks, phase, life⟩ := p
  cases tasks with
  | nil => exact absurd rfl h
  | cons t ts =>
    cases t with
    | ace k => cases phase with
      | idle =>
        simp only [stepProc]
        cases fs env.base with
        | none => simp only [crashed, left, List.length_nil, List.length_cons]; omega
        | some t => simp only [left, List.length_cons]; omega
      | loaded x =>
        simp only [stepProc]
        cases env.render x k with
        | error e => simp only [crashed, left, List.length_nil, List.length_cons]; omega
        | ok s => simp only [left, List.length_cons]; omega
      | opened s => simp only [stepProc, chunk, left, List.length_cons, Nat.le_succ, if_true]; omega
    | csv m => cases phase with
      | idle =>
        simp only [stepProc]
        cases env.csv m with
        | error e => simp only [crashed, left, List.length_nil, List.length_cons]; omega
        | ok s => simp only [left, List.length_cons]; omega
      | loaded x => simp only [stepProc, crashed, left, List.length_nil, List.length_cons]; omega
      | opened s => simp only [stepProc, chunk, left, List.length_cons, Nat.le_succ, if_true]; omega

/-- Every execution can be continued to its end. -/
theorem C33_can_finish (env : Env) (size : Nat) (w : World) (hw : ∀ r, ¬ r < size → (w.procs r).tasks = []) :
    ∃ sched, (∀ r, .kill r ∉ sched) ∧ Finished (exec env w sched) := by
  generalize hm : ∑ r ∈ Finset.range size, left (w.procs r) = m
  induction m using Nat.strong_induction_on generalizing w with
  | _ m ih =>
    by_cases hfin : Finished w
    · exact ⟨[], by simp, hfin⟩
    · unfold Finished at hfin
      push Not at hfin
      obtain ⟨r, hr⟩ := hfin
      have hrs : r < size := by by_contra h; exact hr (hw r h)
      have hlt : ∑ q ∈ Finset.range size, left ((w.next env (.step r (chunk (w.procs r)))).procs q) < m := by
        rw [← hm]
        apply Finset.sum_lt_sum
        · intro q _
          by_cases h : q = r
          · subst h; simp only [World.next, if_true]; exact (left_step w.fs _ hr).le
          · simp [World.next, h]
        · exact ⟨r, Finset.mem_range.mpr hrs, by simp only [World.next, if_true]; exact left_step w.fs _ hr⟩
      obtain ⟨sched, hk, hs⟩ := ih _ hlt (w.next env (.step r (chunk (w.procs r)))) (by
        intro q hq
        have h : q ≠ r := by rintro rfl; exact hq hrs
        simp only [World.next, h, if_false]
        exact hw q hq) rfl
      exact ⟨.step r (chunk (w.procs r)) :: sched, by intro q; simp [hk q], hs⟩

/-- Three samples and one csv; the text of a sample is the base text followed by its number. -/
def demoEnv : Env where
  base := "U235.ace".toList
  pre := "./U235_".toList
  render := fun b k => .ok (b ++ Dec.natStr k)
  csv := fun mt => .ok (Dec.natStr mt)

def demoFS : FS := fun f => if f = "U235.ace".toList then some "x".toList else none

theorem demo_base (t : Task) : demoEnv.base ≠ demoEnv.path t := by
  intro h
  have := congrArg List.head? h
  cases t <;> exact absurd (show some 'U' = some '.' from this) (by decide)

example : (0 : Nat) < 2 ∧ [102, 18].Nodup ∧ (∀ t, demoEnv.base ≠ demoEnv.path t) ∧ demoFS demoEnv.base = some "x".toList ∧
    (∀ k, k < 3 → demoEnv.render "x".toList k = .ok ("x".toList ++ Dec.natStr k)) ∧
    ∃ sched, (∀ r, .kill r ∉ sched) ∧ Finished (exec demoEnv (start 3 [102, 18] 2 demoFS) sched) :=
  ⟨by decide, by decide, demo_base, rfl, fun _ _ => rfl, C33_can_finish demoEnv 2 _ (fun r h => by simp only [start, h, if_false])⟩

/-- An environment in which sample 1 raises. -/
def failEnv : Env := { demoEnv with render := fun b k => if k = 1 then .error .keyError else .ok (b ++ Dec.natStr k) }

/-- **C33 is false when a sample raises**: with one process no csv is written, with two processes it is, and sample 2
too. -/
theorem C33_failing_sample_refuted : ∃ sched1 sched2, (∀ r, .kill r ∉ sched1) ∧ (∀ r, .kill r ∉ sched2) ∧
    Finished (exec failEnv (start 3 [102] 1 demoFS) sched1) ∧ Finished (exec failEnv (start 3 [102] 2 demoFS) sched2) ∧
    (exec failEnv (start 3 [102] 1 demoFS) sched1).fs (failEnv.path (.csv 102)) = none ∧
    (exec failEnv (start 3 [102] 2 demoFS) sched2).fs (failEnv.path (.csv 102)) = some "102".toList ∧
    (exec failEnv (start 3 [102] 1 demoFS) sched1).fs (failEnv.path (.ace 2)) = none ∧
    (exec failEnv (start 3 [102] 2 demoFS) sched2).fs (failEnv.path (.ace 2)) = some "x2".toList := by
  refine ⟨[0, 0, 0, 0, 0].map (.step · 9), [0, 1, 1, 0, 0, 0, 0, 0, 0, 0].map (.step · 9), by simp, by simp, ?_, ?_, ?_⟩
  · intro r
    by_cases h : r = 0
    · subst h; decide +kernel
    · simp [exec, World.next, start, h]
  · intro r
    by_cases h : r = 0
    · subst h; decide +kernel
    · by_cases h1 : r = 1
      · subst h1; decide +kernel
      · have : ¬ r < 2 := by omega
        simp only [exec, List.map_cons, List.map_nil, World.next, start, h, h1, this, if_false]
  · decide +kernel

/-- **C93 is false**: a process that is killed while it writes leaves the beginning of the file, which the next step of the user's work cannot tell from a complete one. -/
theorem C93_complete_refuted : ∃ sched,
    (exec demoEnv (start 3 [102] 2 demoFS) sched).fs (demoEnv.path (.ace 1)) = some "x".toList ∧ demoFS (demoEnv.path (.ace 1)) = none ∧
    demoEnv.render "x".toList 1 = .ok "x1".toList :=
  ⟨[.step 0 0, .step 1 0, .step 1 0, .step 1 0, .kill 1], by decide +kernel, by decide +kernel, by decide +kernel⟩

end ASAPy.Mpi
