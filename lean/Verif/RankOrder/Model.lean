import Verif.Py
import Mathlib.Data.List.Sort
import Mathlib.Order.Defs.LinearOrder

/-!
# Model of `rank` and `order` (ASAPy/CovManipulation.py 32-50)

Both work column by column; an array is the list of its columns. `scipy.stats.rankdata(..., method='ordinal')` numbers the
elements by size, equal ones in the order in which they occur; so an element's rank (counted from 0, as `rank` returns it)
is the number of elements before it in that order. `np.sort` is sorting.
-/

namespace ASAPy.RankOrder
variable {K : Type*} [LinearOrder K]

/-- Element `k` comes before element `i` in the ordinal ranking. -/
def before (a : List K) (k i : Nat) : Bool :=
  match a[k]?, a[i]? with
  | some x, some y => decide (x < y) || (decide (x = y) && decide (k < i))
  | _, _ => false

/-- `rank` of one column, lines 36-39. -/
def rankCol (a : List K) : List Nat := (List.range a.length).map fun i => (List.range a.length).countP fun k => before a k i

/-- `rank`. -/
def rank (cols : List (List K)) : List (List Nat) := cols.map rankCol

/-- `order` of one column, lines 47-49; an index outside the column raises IndexError. -/
def orderCol (rk : List Nat) (samples : List K) : Except PyErr (List K) :=
  let s := samples.insertionSort (· ≤ ·)
  rk.mapM fun i => match s[i]? with
    | some x => .ok x
    | none => .error .indexError

/-- `order`. -/
def order (rks : List (List Nat)) (cols : List (List K)) : Except PyErr (List (List K)) :=
  (rks.zip cols).mapM fun p => orderCol p.1 p.2

end ASAPy.RankOrder
