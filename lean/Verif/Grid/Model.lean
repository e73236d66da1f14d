import Mathlib.Algebra.Order.Field.Basic
import Mathlib.Algebra.Order.AbsoluteValue.Basic
import Mathlib.Data.List.Basic

/-! # Model: thinning and linearization (ASAPy/data/grid.py)

Numbers are elements of an ordered field: rounding is not modelled. A division by zero of numpy numbers gives an infinity or NaN, with a warning; what
the comparisons then give is modelled case by case. -/

namespace ASAPy.Grid

variable {K : Type} [Field K] [LinearOrder K]

/-- Lines 92-99: `error > tolerance` for point `i` and the line through the points `l` and `r`. If these have the same `x`, the slope is infinite, or
NaN if they have the same `y` too: the error is infinite if the slope is and `x[i]` is another one, else NaN, which is not greater than anything. -/
def bad (tol : K) (x y : Nat → K) (l r i : Nat) : Bool :=
  if |y i| > 0 then
    if x r - x l = 0 then decide (y r - y l ≠ 0 ∧ x i - x l ≠ 0)
    else decide (|((y l + (y r - y l) / (x r - x l) * (x i - x l)) - y i) / y i| > tol)
  else decide (2 * tol > tol)

/-- Lines 90-107: is there a bad point between `l` and `r`? -/
def anyBad (tol : K) (x y : Nat → K) (l r : Nat) : Bool := (List.range (r - (l + 1))).any fun j => bad tol x y l r (l + 1 + j)

/-- Lines 102-104, 111-113: the points in `range(l + 1, r - 1)` are removed (set to NaN). -/
def remove (gone : Nat → Bool) (l r : Nat) : Nat → Bool := fun i => gone i || (decide (l + 1 ≤ i) && decide (i < r - 1))

/-- Lines 87-113: which points are removed, of `n`. The first argument bounds the number of iterations; `n` is enough, since `i_right` grows by one in
each (lines 105, 106 and 109). -/
def thinGo (tol : K) (x y : Nat → K) (n : Nat) : Nat → Nat → Nat → (Nat → Bool) → Nat → Bool
  | 0, l, r, gone => remove gone l r
  | k + 1, l, r, gone =>
    if l + 2 < n ∧ r < n then
      if anyBad tol x y l r then thinGo tol x y n k (r - 1) (r + 1) (remove gone l r)
      else thinGo tol x y n k l (r + 1) gone
    else remove gone l r

/-- `thin(x, y, tolerance)`, lines 61-115: the numbers of the points returned, of `n`. (The points are returned as two arrays, from which the NaN are
taken out; inputs are finite.) -/
def thin (tol : K) (x y : Nat → K) (n : Nat) : List Nat := (List.range n).filter fun i => !thinGo tol x y n n 0 2 (fun _ => false) i

/-- Lines 39-46: `error > tolerance` for the middle of an interval, with an error that is infinite or NaN if the value there is zero. -/
def tooFar (tol : K) (f : K → K) (lo hi : K × K) : Bool :=
  let mid := 2⁻¹ * (lo.1 + hi.1)
  let interp := lo.2 + (hi.2 - lo.2) / (hi.1 - lo.1) * (mid - lo.1)
  if f mid = 0 then decide (interp - f mid ≠ 0) else decide (|(interp - f mid) / f mid| > tol)

/-- Lines 38-54: the stacks of points and values, with their end (`pop`) first; what is taken off them. `none` means more iterations than the first
argument. A stack of distinct points is assumed in the division. -/
def refine (tol : K) (f : K → K) : Nat → List (K × K) → Option (List (K × K) × List (K × K))
  | 0, _ => none
  | _ + 1, [] => some ([], [])
  | _ + 1, [a] => some ([], [a])
  | k + 1, lo :: hi :: rest =>
    if tooFar tol f lo hi then refine tol f k (lo :: (2⁻¹ * (lo.1 + hi.1), f (2⁻¹ * (lo.1 + hi.1))) :: hi :: rest)   -- 47-49
    else (refine tol f k (hi :: rest)).map fun p => (lo :: p.1, p.2)                                            -- 50-54

/-- Lines 34-54: all the given points. The stack holds one point before each round of the loop. -/
def linearizeGo (tol : K) (f : K → K) (k : Nat) : List (K × K) → List K → Option (List (K × K) × List (K × K))
  | stack, [] => some ([], stack)
  | stack, x :: xs => match refine tol f k (stack ++ [(x, f x)]) with
    | none => none
    | some (out, stack) => (linearizeGo tol f k stack xs).map fun p => (out ++ p.1, p.2)

/-- `linearize(x, f, tolerance)`, lines 4-59: the points and values returned. Without points `x[0]` raises (`none`); `none` also means more iterations
than the argument `k` for one of the given intervals. -/
def linearize (tol : K) (f : K → K) (k : Nat) : List K → Option (List (K × K))
  | [] => none
  | x :: xs => (linearizeGo tol f k [(x, f x)] xs).map fun p => p.1 ++ p.2

end ASAPy.Grid
