import Verif.Py
import Verif.Np
import Mathlib.Algebra.Order.Field.Basic
import Mathlib.Algebra.Order.Group.Abs

/-!
# Model of `Tabulated1D.__call__` (ASAPy/data/function.py 98-210)

Numbers are exact. `np.exp` and `np.log` are operations of the number type (class `ExpLog`), so that
the lin-lin part can be used over any ordered field and the logarithmic laws over the reals.
-/

namespace ASAPy

/-- `np.exp` and `np.log` on the number type. -/
class ExpLog (K : Type*) where
  exp : K → K
  log : K → K

/-- Python list/array indexing `l[i]`, negative indices counting from the end. -/
def pyGet {α : Type*} (l : List α) (i : Int) : Option α :=
  if 0 ≤ i then l[i.toNat]? else if 0 ≤ (l.length : Int) + i then l[((l.length : Int) + i).toNat]? else none

/-- function.py 142-152: a tabulated function. `breakpoints` are 1-based ends of the regions,
`interpolation` their laws (1 histogram, 2 lin-lin, 3 lin-log, 4 log-lin, 5 log-log). -/
structure Tab1D (K : Type*) where
  x : List K
  y : List K
  breakpoints : List Int
  interpolation : List Nat
deriving DecidableEq

namespace Tab1D

open ASAPy.Np

variable {K : Type*} [Field K] [LinearOrder K] [ExpLog K]

/-- function.py 143-146: `Tabulated1D(x, y)`, a single lin-lin region. -/
def linlin (x y : List K) : Tab1D K := ⟨x, y, [x.length], [2]⟩

/-- function.py 184-203: the interpolation formulas; an unknown law leaves the output as it is. -/
def interp (law : Nat) (old v xi xi1 yi yi1 : K) : K :=
  match law with
  | 1 => yi
  | 2 => yi + (v - xi) / (xi1 - xi) * (yi1 - yi)
  | 3 => yi + ExpLog.log (v / xi) / ExpLog.log (xi1 / xi) * (yi1 - yi)
  | 4 => yi * ExpLog.exp ((v - xi) / (xi1 - xi) * ExpLog.log (yi1 / yi))
  | 5 => yi * ExpLog.exp (ExpLog.log (v / xi) / ExpLog.log (xi1 / xi) * ExpLog.log (yi1 / yi))
  | _ => old

/-- function.py 170-203, one region `k` for one argument: `acc` is the output so far. -/
def region (t : Tab1D K) (v : K) (idx : Int) (k : Nat) (acc : K) : Except PyErr K :=
  match (if k = 0 then some 0 else (t.breakpoints[k - 1]?).map (· - 1)), t.breakpoints[k]? with
  | some iBegin, some bk =>
    if iBegin ≤ idx ∧ idx < bk - 1 then                                     -- 176
      match pyGet t.x idx, pyGet t.x (idx + 1), pyGet t.y idx, pyGet t.y (idx + 1),
          t.interpolation[k]? with
      | some xi, some xi1, some yi, some yi1, some law => .ok (interp law acc v xi xi1 yi yi1)
      | _, _, _, _, _ => .error .indexError
    else
      match t.interpolation[k]? with
      | some _ => .ok acc
      | none => .error .indexError
  | _, _ => .error .indexError

/-- numpy's `isclose(a, b, atol=1e-14)` with the default `rtol=1e-5` (finite arguments). -/
def isclose (a b : K) : Prop := |a - b| ≤ 1 / 10 ^ 14 + 1 / 10 ^ 5 * |b|

instance (a b : K) : Decidable (isclose a b) := by unfold isclose; infer_instance

/-- function.py 167-203: the output of the region loop for one argument. -/
def regions (t : Tab1D K) (v : K) : Except PyErr K :=
  let idx : Int := (searchsortedRight t.x v : Int) - 1
  (List.range t.breakpoints.length).foldlM (fun acc k => region t v idx k acc) 0

/-- function.py 154-210 for one argument: the regions, then the two endpoint corrections. -/
def eval (t : Tab1D K) (v : K) : Except PyErr K := do
  let r ← regions t v
  match t.x.head?, t.y.head?, t.x.getLast?, t.y.getLast? with
  | some x0, some y0, some xn, some yn =>
    let r := if isclose v x0 then y0 else r
    .ok (if isclose v xn then yn else r)
  | _, _, _, _ => .error .indexError

/-- `f(x)` for an array `x`: element-wise. -/
def evals (t : Tab1D K) (vs : List K) : Except PyErr (List K) := vs.mapM t.eval

end Tab1D
end ASAPy
