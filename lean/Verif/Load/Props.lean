import Verif.Load.Model
import Mathlib.Tactic.FieldSimp
import Mathlib.Data.List.Basic

/-! # C38: what `load_zaid_mt` returns -/

set_option linter.unusedSectionVars false

namespace ASAPy.Load
variable {K : Type*} [Field K] [LinearOrder K]

/-- Entry (i, j) of a frame. -/
def entry {α : Type*} (c : List (List α)) (i j : Nat) : Option α := (c[i]?).bind fun r => r[j]?

/-- `m` is the largest diagonal entry. -/
def LargestDiag (c : List (List K)) (m : K) : Prop :=
  (∃ i : Nat, entry c i i = some m) ∧ ∀ (i : Nat) x, entry c i i = some x → x ≤ m

theorem mem_diag {c : List (List K)} {x : K} : x ∈ diag c ↔ ∃ i, entry c i i = some x := by
  unfold diag
  rw [List.mem_filterMap]
  constructor
  · rintro ⟨i, _, h⟩
    exact ⟨i, h⟩
  · rintro ⟨i, h⟩
    refine ⟨i, ?_, h⟩
    rw [List.mem_range]
    by_contra hi
    unfold entry at h
    rw [List.getElem?_eq_none (by omega)] at h
    simp at h

theorem foldl_max (l : List K) : ∀ a, let m := l.foldl (fun m x => if m < x then x else m) a
    (m = a ∨ m ∈ l) ∧ a ≤ m ∧ ∀ x ∈ l, x ≤ m := by
  induction l with
  | nil => intro a; simp
  | cons b l ih =>
    intro a
    simp only [List.foldl_cons]
    obtain ⟨h1, h2, h3⟩ := ih (if a < b then b else a)
    split_ifs at h1 h2 h3 ⊢ with hab
    · refine ⟨?_, hab.le.trans h2, ?_⟩
      · rcases h1 with h1 | h1
        · right; rw [h1]; exact List.mem_cons_self ..
        · right; exact List.mem_cons_of_mem _ h1
      · intro x hx
        rcases List.mem_cons.mp hx with rfl | hx
        · exact h2
        · exact h3 x hx
    · refine ⟨?_, h2, ?_⟩
      · rcases h1 with h1 | h1
        · left; exact h1
        · right; exact List.mem_cons_of_mem _ h1
      · intro x hx
        rcases List.mem_cons.mp hx with rfl | hx
        · exact (not_lt.mp hab).trans h2
        · exact h3 x hx

theorem pyMax_diag {c : List (List K)} {m : K} (h : LargestDiag c m) : pyMax (diag c) = .ok m := by
  obtain ⟨⟨i, hi⟩, hmax⟩ := h
  have hm : m ∈ diag c := mem_diag.mpr ⟨i, hi⟩
  cases hd : diag c with
  | nil => rw [hd] at hm; cases hm
  | cons a l =>
    obtain ⟨h1, h2, h3⟩ := foldl_max l a
    unfold pyMax
    refine congrArg Except.ok (le_antisymm ?_ ?_)
    · have : l.foldl (fun m x => if m < x then x else m) a ∈ diag c := by
        rw [hd, List.mem_cons]; exact h1
      obtain ⟨j, hj⟩ := mem_diag.mp this
      exact hmax j _ hj
    · rw [hd, List.mem_cons] at hm
      rcases hm with rfl | hm
      · exact h2
      · exact h3 m hm

/-- The row with label 1. -/
def HasRowOne (sd : List (Row K)) (r : Row K) : Prop := r ∈ sd ∧ r.label = 1 ∧ (sd.map Row.label).Nodup

theorem rowOne_eq {sd : List (Row K)} {r : Row K} (h : HasRowOne sd r) : rowOne sd = .ok r := by
  obtain ⟨h1, h2, h3⟩ := h
  have : sd.find? (fun r => r.label == 1) = some r := by
    induction sd with
    | nil => cases h1
    | cons a l ih =>
      simp only [List.map_cons, List.nodup_cons] at h3
      rcases List.mem_cons.mp h1 with rfl | h1
      · simp [h2]
      · have : a.label ≠ 1 := by
          intro ha
          apply h3.1
          rw [List.mem_map]
          exact ⟨r, h1, by rw [h2, ha]⟩
        rw [List.find?_cons_of_neg (by simpa using this)]
        exact ih h1 h3.2
  unfold rowOne
  rw [this]

theorem entry_map {α β : Type*} (f : α → β) (c : List (List α)) (i j : Nat) :
    entry (c.map fun r => r.map f) i j = (entry c i j).map f := by
  unfold entry
  rw [List.getElem?_map]
  cases c[i]? <;> simp

theorem load_eq {sd : List (Row K)} {corr : List (List K)} {r : Row K} {m : K} (hr : HasRowOne sd r) (hm : LargestDiag corr m) :
    load sd corr false = .ok (if r.hi < r.lo then sd.map fun r => { r with lo := r.hi, hi := r.lo } else sd,
      corr.map fun r => r.map fun x => Flt.div x m) := by
  simp [load, pyMax_diag hm, rowOne_eq hr]

/-- **C38 (partial).** If the largest diagonal entry `m` of the stored correlation is not zero, the returned correlation
has only finite numbers; each is the stored entry divided by `m` (so all ratios are kept and no entry is added or lost);
for positive `m` its largest diagonal entry is 1. Missing: `m = 0`, see `C38_zero_diagonal_refuted`. -/
theorem C38_correlation_partial [IsStrictOrderedRing K] {sd : List (Row K)} {corr : List (List K)} {r : Row K} {m : K}
    (hr : HasRowOne sd r) (hm : LargestDiag corr m) (h0 : m ≠ 0) :
    ∃ sd' c, load sd corr false = .ok (sd', c.map fun r => r.map Flt.fin) ∧
      (∀ i j : Nat, entry corr i j = (entry c i j).map (· * m)) ∧ (0 < m → LargestDiag c 1) := by
  refine ⟨if r.hi < r.lo then sd.map fun r => { r with lo := r.hi, hi := r.lo } else sd,
    corr.map fun r => r.map (· / m), ?_, ?_, ?_⟩
  · rw [load_eq hr hm]
    congr 2
    simp [List.map_map, Function.comp_def, Flt.div_of_ne h0]
  · intro i j
    rw [entry_map, Option.map_map]
    have : (fun x => x * m) ∘ (fun x => x / m) = id := by
      funext x
      simp [div_mul_cancel₀ x h0]
    simp [this]
  · intro hpos
    obtain ⟨⟨i, hi⟩, hmax⟩ := hm
    refine ⟨⟨i, ?_⟩, ?_⟩
    · rw [entry_map, hi]
      simp [div_self h0]
    · intro j x hx
      rw [entry_map, Option.map_eq_some_iff] at hx
      obtain ⟨y, hy, rfl⟩ := hx
      rw [div_le_one hpos]
      exact hmax j y hy

/-- **C38.** The bounds: the two columns are exchanged as a whole exactly when the row with label 1 has them the wrong way
round, and the frame is returned unchanged otherwise. Labels and other columns are never changed. -/
theorem C38_bounds {sd : List (Row K)} {corr : List (List K)} {r : Row K} {m : K} (hr : HasRowOne sd r)
    (hm : LargestDiag corr m) : ∃ sd' c, load sd corr false = .ok (sd', c) ∧
      (r.lo ≤ r.hi → sd' = sd) ∧
      (r.hi < r.lo → sd'.map Row.lo = sd.map Row.hi ∧ sd'.map Row.hi = sd.map Row.lo ∧
        sd'.map Row.label = sd.map Row.label ∧ sd'.map Row.rest = sd.map Row.rest) := by
  refine ⟨_, _, load_eq hr hm, ?_, ?_⟩
  · intro h
    rw [if_neg (not_lt.mpr h)]
  · intro h
    rw [if_pos h]
    simp [List.map_map, Function.comp_def]

/-- Consequence: if every row of the stored frame is the same way round, the returned frame has `e low ≤ e high`. -/
theorem C38_ordered {sd : List (Row K)} {corr : List (List K)} {r : Row K} {m : K} (hr : HasRowOne sd r)
    (hm : LargestDiag corr m) (hall : (∀ r ∈ sd, r.lo ≤ r.hi) ∨ ∀ r ∈ sd, r.hi < r.lo) :
    ∃ sd' c, load sd corr false = .ok (sd', c) ∧ ∀ r ∈ sd', r.lo ≤ r.hi := by
  refine ⟨_, _, load_eq hr hm, ?_⟩
  rcases hall with h | h
  · rw [if_neg (not_lt.mpr (h r hr.1))]
    exact h
  · rw [if_pos (h r hr.1)]
    intro q hq
    obtain ⟨q', hq', rfl⟩ := List.mem_map.mp hq
    exact (h q' hq').le

/-- **C38 is false for a zero diagonal** (a group without data in a converted library; `process_cov_to_h5` itself stores a unit diagonal, see C49): no entry of
the returned correlation is a finite number. -/
theorem C38_zero_diagonal_refuted {sd : List (Row K)} {corr : List (List K)} {r : Row K} (hr : HasRowOne sd r)
    (hm : LargestDiag corr 0) : ∃ sd' c, load sd corr false = .ok (sd', c) ∧ ∀ (i j : Nat) x, entry c i j ≠ some (.fin x) := by
  refine ⟨_, _, load_eq hr hm, ?_⟩
  intro i j x h
  rw [entry_map, Option.map_eq_some_iff] at h
  obtain ⟨y, _, hy⟩ := h
  unfold Flt.div at hy
  simp only [ne_eq, not_true_eq_false, if_false] at hy
  split_ifs at hy

theorem entry_fillDiag {c : List (List K)} {v : K} {i j : Nat} : entry (fillDiag c v) i j =
    (entry c i j).map fun x => if i = j then v else x := by
  unfold entry fillDiag
  rw [List.getElem?_mapIdx]
  cases hr : c[i]? with
  | none => simp
  | some r =>
    simp only [Option.map_some, Option.bind_some]
    by_cases hi : i < r.length <;> by_cases hij : i = j
    · subst hij
      simp [hi]
    · simp only [hi, if_true, hij, if_false]
      rw [List.getElem?_set]
      simp only [hij, if_false]
      cases r[j]? <;> rfl
    · subst hij
      rw [if_neg hi, List.getElem?_eq_none (by omega)]
      rfl
    · simp only [hi, if_false, hij]
      cases r[j]? <;> rfl

/-- **C38, with `fill_corr_diag`.** With a positive largest diagonal entry every diagonal entry of the result is 1 and the
others are the stored ones divided by it. -/
theorem C38_filled {sd : List (Row K)} {corr : List (List K)} {r : Row K} {m : K} (hr : HasRowOne sd r)
    (hm : LargestDiag corr m) (h0 : m ≠ 0) : ∃ sd' c, load sd corr true = .ok (sd', c) ∧
      ∀ i j : Nat, entry c i j = (entry corr i j).map fun x => Flt.fin (if i = j then 1 else x / m) := by
  have hm' : LargestDiag (fillDiag corr m) m := by
    obtain ⟨⟨i, hi⟩, hmax⟩ := hm
    refine ⟨⟨i, by rw [entry_fillDiag, hi]; simp⟩, ?_⟩
    intro j x hx
    rw [entry_fillDiag, Option.map_eq_some_iff] at hx
    obtain ⟨y, _, hy⟩ := hx
    simp at hy
    exact hy.ge
  refine ⟨_, _, by simp only [load, pyMax_diag hm, pyMax_diag hm', rowOne_eq hr, if_true]; rfl, ?_⟩
  intro i j
  rw [entry_map, entry_fillDiag, Option.map_map]
  congr 1
  funext x
  simp only [Function.comp_apply, Flt.div_of_ne h0]
  split_ifs
  · rw [div_self h0]
  · rfl

/-- A stored frame with the bounds the wrong way round and BOXER's 1000 for one. -/
def demoRows : List (Row ℚ) := [⟨1, 5, 2, [1]⟩, ⟨2, 9, 5, [3]⟩]

example : HasRowOne demoRows ⟨1, 5, 2, [1]⟩ ∧ LargestDiag [[(1000 : ℚ), 500], [500, 1000]] 1000 := by
  refine ⟨⟨by decide, rfl, by decide⟩, ⟨0, rfl⟩, ?_⟩
  intro i x h
  match i with
  | 0 => simp [entry] at h; rw [h]
  | 1 => simp [entry] at h; rw [h]
  | i + 2 => simp [entry] at h

example : load demoRows [[1000, 500], [500, 1000]] false =
    .ok ([⟨1, 2, 5, [1]⟩, ⟨2, 5, 9, [3]⟩], [[.fin 1, .fin (1/2)], [.fin (1/2), .fin 1]]) := by decide +kernel

/-- The zero correlation of `C38_zero_diagonal_refuted`. -/
example : LargestDiag [[(0 : ℚ), 0], [0, 0]] 0 ∧
    load demoRows [[0, 0], [0, 0]] false = .ok ([⟨1, 2, 5, [1]⟩, ⟨2, 5, 9, [3]⟩], [[.nan, .nan], [.nan, .nan]]) := by
  refine ⟨⟨⟨0, rfl⟩, ?_⟩, by decide +kernel⟩
  intro i x h
  match i with
  | 0 => simp [entry] at h; rw [h]
  | 1 => simp [entry] at h; rw [h]
  | i + 2 => simp [entry] at h

end ASAPy.Load
