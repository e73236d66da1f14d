import Mathlib.Order.Basic
import Mathlib.Data.List.Basic
import Mathlib.Tactic.Linarith

/-!
# numpy search routines

`np.searchsorted` on a sorted array, by its documented result: `side='left'` returns the number of
leading entries smaller than the value, `side='right'` the number of leading entries not greater.
-/

namespace ASAPy.Np

variable {K : Type*} [LinearOrder K]

/-- `np.searchsorted(xs, v)` (side `left`). -/
def searchsortedLeft (xs : List K) (v : K) : Nat := (xs.takeWhile (fun x => decide (x < v))).length

/-- `np.searchsorted(xs, v, side='right')`. -/
def searchsortedRight (xs : List K) (v : K) : Nat := (xs.takeWhile (fun x => decide (x ≤ v))).length

theorem takeWhile_length_eq {α : Type*} (p : α → Bool) (xs : List α) (k : Nat) (hk : k ≤ xs.length)
    (hlt : ∀ i (hi : i < k), p (xs[i]) = true)
    (hge : ∀ h : k < xs.length, p (xs[k]) = false) :
    (xs.takeWhile p).length = k := by
  induction xs generalizing k with
  | nil => simp at hk; simp [hk]
  | cons a t ih =>
    cases k with
    | zero =>
      have := hge (by simp)
      simp at this
      simp [this]
    | succ k =>
      have h0 := hlt 0 (by omega)
      simp at h0
      rw [List.takeWhile_cons]
      simp only [h0, if_true, List.length_cons]
      congr 1
      apply ih k (by simpa using hk)
      · intro i hi
        have := hlt (i+1) (by omega)
        simpa using this
      · intro h
        have := hge (by simp; omega)
        simpa using this

theorem searchsortedLeft_eq (xs : List K) (v : K) (k : Nat) (hk : k ≤ xs.length)
    (hlt : ∀ i (hi : i < k), xs[i] < v) (hge : ∀ h : k < xs.length, v ≤ xs[k]) :
    searchsortedLeft xs v = k := by
  unfold searchsortedLeft
  apply takeWhile_length_eq _ _ _ hk
  · intro i hi; simpa using hlt i hi
  · intro h; simpa using hge h

theorem searchsortedRight_eq (xs : List K) (v : K) (k : Nat) (hk : k ≤ xs.length)
    (hlt : ∀ i (hi : i < k), xs[i] ≤ v) (hge : ∀ h : k < xs.length, v < xs[k]) :
    searchsortedRight xs v = k := by
  unfold searchsortedRight
  apply takeWhile_length_eq _ _ _ hk
  · intro i hi; simpa using hlt i hi
  · intro h; simpa using hge h

theorem takeWhile_length_le {α : Type*} (p : α → Bool) (xs : List α) :
    (xs.takeWhile p).length ≤ xs.length := (List.takeWhile_prefix p).length_le

theorem takeWhile_getElem {α : Type*} (p : α → Bool) (xs : List α) (i : Nat)
    (hi : i < (xs.takeWhile p).length) :
    p (xs[i]'(lt_of_lt_of_le hi (takeWhile_length_le p xs))) = true := by
  have h : (xs.takeWhile p)[i] = xs[i]'(lt_of_lt_of_le hi (takeWhile_length_le p xs)) :=
    (List.takeWhile_prefix p).getElem hi
  rw [← h]
  exact (List.all_eq_true.mp (List.all_takeWhile (p := p) (l := xs))) _ (List.getElem_mem hi)

theorem takeWhile_getElem_stop {α : Type*} (p : α → Bool) (xs : List α)
    (hi : (xs.takeWhile p).length < xs.length) :
    p (xs[(xs.takeWhile p).length]) = false := by
  induction xs with
  | nil => simp at hi
  | cons a t ih =>
    by_cases ha : p a = true
    · simp only [List.takeWhile_cons, ha, if_true, List.length_cons, List.getElem_cons_succ] at hi ⊢
      exact ih (by omega)
    · simp only [List.takeWhile_cons, ha] at hi ⊢
      simpa using ha

theorem searchsortedRight_le (xs : List K) (v : K) : searchsortedRight xs v ≤ xs.length :=
  takeWhile_length_le _ _

theorem searchsortedLeft_le (xs : List K) (v : K) : searchsortedLeft xs v ≤ xs.length :=
  takeWhile_length_le _ _

theorem le_of_lt_searchsortedRight (xs : List K) (v : K) (i : Nat)
    (hi : i < searchsortedRight xs v) :
    xs[i]'(lt_of_lt_of_le hi (searchsortedRight_le xs v)) ≤ v := by
  have := takeWhile_getElem _ xs i hi
  simpa using this

theorem lt_of_searchsortedRight (xs : List K) (v : K) (hi : searchsortedRight xs v < xs.length) :
    v < xs[searchsortedRight xs v] := by
  have := takeWhile_getElem_stop _ xs hi
  simp only [decide_eq_false_iff_not, not_le] at this
  exact this

theorem lt_of_lt_searchsortedLeft (xs : List K) (v : K) (i : Nat)
    (hi : i < searchsortedLeft xs v) :
    xs[i]'(lt_of_lt_of_le hi (searchsortedLeft_le xs v)) < v := by
  have := takeWhile_getElem _ xs i hi
  simpa using this

theorem le_of_searchsortedLeft (xs : List K) (v : K) (hi : searchsortedLeft xs v < xs.length) :
    v ≤ xs[searchsortedLeft xs v] := by
  have := takeWhile_getElem_stop _ xs hi
  simp only [decide_eq_false_iff_not, not_lt] at this
  exact this

end ASAPy.Np
