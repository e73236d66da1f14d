import Verif.Heap.Refine
import Mathlib.Algebra.Order.Ring.Rat
import Mathlib.Algebra.Field.Rat

/-! # The editor and its caller share arrays (C91) -/

set_option linter.unusedSimpArgs false
set_option linter.unusedSectionVars false

namespace ASAPy.Heap
open ASAPy.Ace

variable {K : Type*} [Field K] [LinearOrder K] [ExpLog K]

/-- A history of a caller's actions; exceptions are caught. -/
def run (s : St K) : List (Op K) → St K
  | [] => s
  | op :: ops => run (step s op).1 ops

/-- The calls that change an editor among the actions, with the contents of the arrays at the time of the call. -/
def calls (s : St K) : List (Op K) → List (Ace.Op K)
  | [] => []
  | op :: ops => (match op with
    | .set mt v => [.set mt (v.view s.heap)]
    | .sums => [.sums]
    | _ => []) ++ calls (step s op).1 ops

/-- The arrays in an action. -/
def Op.Has : Op K → Addr → Prop
  | .change b _, a => a = b
  | .getSigma _ (some b) _, a => a = b
  | .set _ v, a => v.Has a
  | _, _ => False

/-- The arrays that are the caller's alone: those they made, and the results of `get_sigma` for cross sections, until they are given to `set_sigma`
(for another MT than 1018). `own` are those before the action, `result` is its result. -/
def owned (own : Addr → Prop) (op : Op K) (result : Except PyErr (Option HVal)) : Addr → Prop :=
  match op with
  | .new _ => fun a => own a ∨ result = .ok (some (.arr a))
  | .getSigma mt _ _ => fun a => own a ∨ (mt ≠ 452 ∧ mt ≠ 1018 ∧ result = .ok (some (.arr a)))
  | .set mt v => fun a => own a ∧ (mt = 1018 ∨ ¬ v.Has a)
  | _ => own

/-- The caller uses existing arrays only, and changes only arrays that are theirs alone. -/
def Careful (s : St K) (own : Addr → Prop) : List (Op K) → Prop
  | [] => True
  | op :: ops => (∀ a, op.Has a → a < s.next) ∧ (∀ a l, op = .change a l → own a) ∧ Careful (step s op).1 (owned own op (step s op).2) ops

/-- What one action does. -/
theorem step_spec {s : St K} (hs : Valid s) {own : Addr → Prop} (hown : s.ed.All (fun a => ¬ own a)) (hlt : ∀ a, own a → a < s.next) {op : Op K}
    (hk : ∀ a, op.Has a → a < s.next) (hc : ∀ a l, op = .change a l → own a) :
    (step s op).1.view = Ace.run s.view (calls s [op]) ∧ Valid (step s op).1 ∧ (step s op).1.ed.All (fun a => ¬ owned own op (step s op).2 a) ∧
      ∀ a, owned own op (step s op).2 a → a < (step s op).1.next := by
  cases op with
  | new l =>
    refine ⟨alloc_view hs l, HEd.All.mono (fun a ha => Nat.lt_succ_of_lt ha) hs, ?_, ?_⟩
    · refine (hown.and hs).mono ?_
      rintro a ⟨h1, h2⟩ (h3 | h3)
      · exact h1 h3
      · simp only [step, Except.ok.injEq, Option.some.injEq, HVal.arr.injEq] at h3
        have : s.next = a := h3
        rw [this] at h2
        exact Nat.lt_irrefl _ h2
    · rintro a (h3 | h3)
      · exact Nat.lt_succ_of_lt (hlt a h3)
      · simp only [step, Except.ok.injEq, Option.some.injEq, HVal.arr.injEq] at h3
        have : s.next = a := h3
        rw [← this]
        exact Nat.lt_succ_self _
  | change a l =>
    have ho := hc a l rfl
    refine ⟨?_, hs, hown, hlt⟩
    apply HEd.view_congr
    refine hown.mono ?_
    intro b hb
    have : b ≠ a := fun e => hb (e ▸ ho)
    simp [step, St.poke, Function.update, this]
  | getEnergy mt => exact ⟨rfl, hs, hown, hlt⟩
  | getSigma mt at' u =>
    obtain ⟨_, g2, g3, g4⟩ := getSigma_view s mt at' u
    have hed : (step s (.getSigma mt at' u)).1.ed = s.ed := g3
    refine ⟨?_, ?_, ?_, ?_⟩
    · show HEd.view _ _ = _
      rw [hed]
      exact g2.view_ed hs
    · unfold Valid
      rw [hed]
      exact hs.mono fun a ha => lt_of_lt_of_le ha g2.1
    · rw [hed]
      refine (hown.and hs).mono ?_
      rintro a ⟨h1, h2⟩ (h3 | ⟨h3, _, h4⟩)
      · exact h1 h3
      · have h5 : (getSigma s mt at' u).2 = .ok (.arr a) := by
          simp only [step] at h4
          cases hx : (getSigma s mt at' u).2 with
          | error e => rw [hx] at h4; cases h4
          | ok v => rw [hx] at h4; simp only [Except.map, Except.ok.injEq, Option.some.injEq] at h4; rw [h4]
        exact absurd h2 (not_lt.mpr (g4 a h5 h3).1)
    · rintro a (h3 | ⟨h3, _, h4⟩)
      · exact lt_of_lt_of_le (hlt a h3) g2.1
      · have h5 : (getSigma s mt at' u).2 = .ok (.arr a) := by
          simp only [step] at h4
          cases hx : (getSigma s mt at' u).2 with
          | error e => rw [hx] at h4; cases h4
          | ok v => rw [hx] at h4; simp only [Except.map, Except.ok.injEq, Option.some.injEq] at h4; rw [h4]
        exact (g4 a h5 h3).2
  | set mt v =>
    have hv : v.All (· < s.next) := by
      cases v with
      | arr a => exact hk a rfl
      | pdfs l => exact fun a ha => hk a ha
    obtain ⟨b1, _⟩ := setSigma_spec hs mt v hv
    refine ⟨b1.view, b1.valid hs fun a ha => hk a ha.2, ?_, ?_⟩
    · refine b1.refs _ (hown.mono fun a ha h => ha h.1) ?_ ?_
      · rintro a ⟨h1, h2⟩ ⟨_, h4⟩
        exact h4.elim h1 fun h => h h2
      · rintro a h1 _ ⟨h3, _⟩
        exact absurd (hlt a h3) (not_lt.mpr h1)
    · rintro a ⟨h1, _⟩
      exact lt_of_lt_of_le (hlt a h1) b1.grows.1
  | sums =>
    obtain ⟨b1, _⟩ := applyRules_spec sumRules hs
    refine ⟨b1.view, b1.valid hs (by simp), ?_, ?_⟩
    · refine b1.refs _ hown (by simp) ?_
      intro a h1 _ h3
      exact absurd (hlt a h3) (not_lt.mpr h1)
    · intro a h1
      exact lt_of_lt_of_le (hlt a h1) b1.grows.1

theorem ace_run_append (ed : Editor K) (a b : List (Ace.Op K)) : Ace.run ed (a ++ b) = Ace.run (Ace.run ed a) b := by
  induction a generalizing ed with
  | nil => rfl
  | cons o a ih => exact ih _

theorem run_spec : ∀ (ops : List (Op K)) (s : St K) (own : Addr → Prop), Valid s → s.ed.All (fun a => ¬ own a) → (∀ a, own a → a < s.next) →
    Careful s own ops → (run s ops).view = Ace.run s.view (calls s ops) ∧ Valid (run s ops) := by
  intro ops
  induction ops with
  | nil => intro s own hs _ _ _; exact ⟨rfl, hs⟩
  | cons op ops ih =>
    intro s own hs h1 h2 hc
    obtain ⟨c1, c2, c3⟩ := hc
    obtain ⟨d1, d2, d3, d4⟩ := step_spec hs h1 h2 c1 c2
    obtain ⟨e1, e2⟩ := ih _ _ d2 d3 d4 c3
    refine ⟨?_, e2⟩
    have : calls s (op :: ops) = calls s [op] ++ calls (step s op).1 ops := by simp [calls]
    rw [this, ace_run_append, ← d1]
    exact e1

/-- **C91** (part). Take an editor, and a caller who makes arrays, calls the editor and changes arrays in place, but only arrays that are theirs alone: those
they made themselves and the results of `get_sigma` for cross sections, as long as they have not given them to `set_sigma`. Then the changes have no effect on
the editor: what `get_sigma` and `get_energy` return at the end are arrays with the values that the calls alone lead to, with the values the arrays had when
they were given to `set_sigma`. (Missing, and false: the same for the other arrays; see the following theorems.) -/
theorem C91_own_arrays_partial {s : St K} (hs : Valid s) {ops : List (Op K)} (hc : Careful s (fun _ => False) ops) (mt : MT) (u : Bool) :
    (getEnergy (run s ops) mt).map (HVal.view (run s ops).heap) = Ace.getEnergy (Ace.run s.view (calls s ops)) mt ∧
    (getSigma (run s ops) mt none u).2.map (HVal.view (getSigma (run s ops) mt none u).1.heap) = Ace.getSigma (Ace.run s.view (calls s ops)) mt none u := by
  obtain ⟨h1, _⟩ := run_spec ops s _ hs (hs.mono fun _ _ h => h) (by simp) hc
  rw [← h1]
  exact ⟨getEnergy_view _ _, (getSigma_view _ _ _ _).1⟩

/-- **C91** (part). Without changes in place there is no restriction: callers may share arrays with the editor as they like, and give the same array for several
MTs. So everything proved of the editor without references (C01-C14) holds for the editor with references as long as nobody changes an array in place. -/
theorem C91_no_change_partial {s : St K} (hs : Valid s) {ops : List (Op K)} (hno : ∀ a l, .change a l ∉ ops)
    (hk : ∀ pre op post, ops = pre ++ op :: post → ∀ a, op.Has a → a < (run s pre).next) (mt : MT) (u : Bool) :
    (getEnergy (run s ops) mt).map (HVal.view (run s ops).heap) = Ace.getEnergy (Ace.run s.view (calls s ops)) mt ∧
    (getSigma (run s ops) mt none u).2.map (HVal.view (getSigma (run s ops) mt none u).1.heap) = Ace.getSigma (Ace.run s.view (calls s ops)) mt none u := by
  have key : ∀ (ops : List (Op K)) (s : St K) (own : Addr → Prop), (∀ a l, .change a l ∉ ops) →
      (∀ pre op post, ops = pre ++ op :: post → ∀ a, op.Has a → a < (run s pre).next) → Careful s own ops := by
    intro ops
    induction ops with
    | nil => intro _ _ _ _; trivial
    | cons op ops ih =>
      intro s own h1 h2
      refine ⟨h2 [] op ops rfl, ?_, ih _ _ (fun a l h => h1 a l (List.mem_cons_of_mem _ h)) ?_⟩
      · intro a l h
        exact absurd (by rw [h]; exact List.mem_cons_self ..) (h1 a l)
      · intro pre op' post h
        exact h2 (op :: pre) op' post (by rw [h]; rfl)
  exact C91_own_arrays_partial hs (key ops s _ hno hk) mt u

/-! ### Examples, and what fails -/

namespace Example
local instance : ExpLog ℚ := ⟨id, id⟩

/-- Fission with nu, and capture. -/
def table (k : Nat) : HTable := ⟨["294K".toList],
  [(18, ⟨[("294K".toList, ⟨k, k + 1, [2], [2]⟩)], some ⟨true, ⟨k + 2, k + 3, [2], [2]⟩⟩, none⟩),
   (102, ⟨[("294K".toList, ⟨k + 4, k + 5, [2], [2]⟩)], none, none⟩)]⟩

def heap (a : Addr) : List ℚ := match a % 6 with
  | 0 => [1, 2]
  | 1 => [10, 20]
  | 2 => [1, 2]
  | 3 => [2, 3]
  | 4 => [1, 2]
  | _ => [5, 6]

/-- A new editor: two tables that share no array. -/
def s : St ℚ := ⟨heap, 12, ⟨table 0, table 6, "294K".toList, [18, 102, 452, 1018], [], []⟩⟩

theorem valid : Valid s := by
  refine ⟨?_, ?_, by simp [s]⟩ <;>
  · intro e he
    simp only [s, table, List.mem_cons, List.not_mem_nil, or_false] at he
    rcases he with rfl | rfl <;> refine ⟨?_, ?_, ?_⟩ <;> simp [s, HTab.All]

/-- The values of an MT. -/
def sigma (s : St ℚ) (mt : MT) (u : Bool) : Except PyErr (Val ℚ) := (getSigma s mt none u).2.map (HVal.view (getSigma s mt none u).1.heap)

-- `x = get_sigma(102); x *= 2; set_sigma(102, x)`: careful, and 102 is doubled.
def doubled : List (Op ℚ) := [.getSigma 102 none false, .change 12 [10, 12], .set 102 (.arr 12)]

theorem doubled_careful : Careful s (fun _ => False) doubled := by
  refine ⟨by simp [Op.Has], by simp, ?_, ?_, ?_, ?_, trivial⟩
  · rintro a rfl; decide +kernel
  · intro a l h
    have : a = 12 := by injection h with h _; exact h.symm
    subst this
    exact Or.inr ⟨by decide, by decide, by decide +kernel⟩
  · rintro a ha
    have : a = 12 := ha
    subst this
    decide +kernel
  · simp

example : (getSigma (run s doubled) 102 none false).2.map (HVal.view (getSigma (run s doubled) 102 none false).1.heap) =
    Ace.getSigma (Ace.run s.view (calls s doubled)) 102 none false := (C91_own_arrays_partial valid doubled_careful 102 false).2

example : sigma (run s doubled) 102 false = .ok (.arr [10, 12]) ∧ sigma (run s doubled) 102 true = .ok (.arr [5, 6]) := by decide +kernel
end Example

/-- **C91** is false for nu-bar. The array `get_sigma(452)` returns is the editor's own: changing it in place changes the editor, without the MT being reported
as adjusted; with `unadjusted=True` it even changes the original data. -/
theorem C91_nu_refuted : ∃ (s : St ℚ) (x : Addr), letI : ExpLog ℚ := ⟨id, id⟩
    Valid s ∧ s.view.table = s.view.original ∧ ∃ y, (step s (.getSigma 452 none false)).2 = .ok (some (.arr x)) ∧
      (step s (.getSigma 452 none true)).2 = .ok (some (.arr y)) ∧
      Example.sigma (run s [.getSigma 452 none false, .change x [4, 6]]) 452 false = .ok (.arr [4, 6]) ∧
      Example.sigma s 452 false = .ok (.arr [2, 3]) ∧ (run s [.getSigma 452 none false, .change x [4, 6]]).ed.adjusted = [] ∧
      Example.sigma (run s [.getSigma 452 none true, .change y [4, 6]]) 452 true = .ok (.arr [4, 6]) :=
  ⟨Example.s, 3, Example.valid, by decide +kernel, 9, by decide +kernel, by decide +kernel, by decide +kernel, by decide +kernel, by decide +kernel, by decide +kernel⟩

/-- **C91** is false for arrays given to `set_sigma`: the editor keeps the array. If it is changed afterwards, the editor's values change with it; if the same
array is set for two MTs, both change. -/
theorem C91_set_refuted : ∃ (s : St ℚ), letI : ExpLog ℚ := ⟨id, id⟩
    Valid s ∧ (step s (.new [1, 1])).2 = .ok (some (.arr 12)) ∧
      Example.sigma (run s [.new [1, 1], .set 18 (.arr 12), .set 102 (.arr 12)]) 18 false = .ok (.arr [1, 1]) ∧
      Example.sigma (run s [.new [1, 1], .set 18 (.arr 12), .set 102 (.arr 12), .change 12 [7, 8]]) 18 false = .ok (.arr [7, 8]) ∧
      Example.sigma (run s [.new [1, 1], .set 18 (.arr 12), .set 102 (.arr 12), .change 12 [7, 8]]) 102 false = .ok (.arr [7, 8]) :=
  ⟨Example.s, Example.valid, by decide +kernel, by decide +kernel, by decide +kernel, by decide +kernel⟩

/-- **C91** is false for energies: `get_energy` returns the table's own grid. -/
theorem C91_energy_refuted : ∃ (s : St ℚ) (x : Addr), letI : ExpLog ℚ := ⟨id, id⟩
    Valid s ∧ (step s (.getEnergy 102)).2 = .ok (some (.arr x)) ∧
      Ace.getEnergy (run s [.getEnergy 102, .change x [3, 4]]).view 102 = .ok (.arr [3, 4]) ∧ Ace.getEnergy s.view 102 = .ok (.arr [1, 2]) :=
  ⟨Example.s, 4, Example.valid, by decide +kernel, by decide +kernel, by decide +kernel⟩

end ASAPy.Heap
