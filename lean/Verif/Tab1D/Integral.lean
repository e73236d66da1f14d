import Verif.Tab1D.RealExpLog
import Mathlib.Analysis.SpecialFunctions.Pow.Real

/-!
# Model of `Tabulated1D.integral` (ASAPy/data/function.py 259-313)

Over the reals. A number is an `Option ℝ`: `none` stands for a NaN or infinity produced by a division by
zero or a logarithm of a non-positive number; sums with `none` are `none`.
Simplifications: breakpoints are at least 1 (so that the slices have non-negative bounds), and a region that
reaches beyond the arrays is reported as a `ValueError` (numpy: shape mismatch in the slice assignment).
-/

namespace ASAPy.Tab1D

/-- function.py 287-309: the partial integral of one panel. An unknown law leaves the initial zero. -/
noncomputable def panel (law : Nat) (x0 x1 y0 y1 : ℝ) : Option ℝ :=
  match law with
  | 1 => some (y0 * (x1 - x0))                                                    -- 289
  | 2 =>                                                                          -- 293-295
    if x1 - x0 = 0 then none else
    let m := (y1 - y0) / (x1 - x0)
    some ((y0 - m * x0) * (x1 - x0) + m * (x1 ^ 2 - x0 ^ 2) / 2)
  | 3 =>                                                                          -- 299-301
    if x0 = 0 ∨ x1 / x0 ≤ 0 ∨ Real.log (x1 / x0) = 0 then none else
    let logx := Real.log (x1 / x0)
    let m := (y1 - y0) / logx
    some (y0 + m * (x1 * (logx - 1) + x0))
  | 4 =>                                                                          -- 305-306
    if y0 = 0 ∨ y1 / y0 ≤ 0 ∨ x1 - x0 = 0 then none else
    let m := Real.log (y1 / y0) / (x1 - x0)
    if m = 0 then none else
    some (y0 / m * (Real.exp (m * (x1 - x0)) - 1))
  | 5 =>                                                                          -- 310-312
    if y0 = 0 ∨ y1 / y0 ≤ 0 ∨ x0 = 0 ∨ x1 / x0 ≤ 0 ∨ Real.log (x1 / x0) = 0 then none else
    let m := Real.log (y1 / y0) / Real.log (x1 / x0)
    if m + 1 = 0 ∨ x0 ^ m = 0 then none else
    some (y0 / ((m + 1) * x0 ^ m) * (x1 ^ (m + 1) - x0 ^ (m + 1)))
  | _ => some 0

/-- The panel from grid point `i` to `i+1`. -/
noncomputable def panelAt (t : Tab1D ℝ) (law i : Nat) : Except PyErr (Option ℝ) :=
  match t.x[i]?, t.x[i + 1]?, t.y[i]?, t.y[i + 1]? with
  | some x0, some x1, some y0, some y1 => .ok (panel law x0 x1 y0 y1)
  | _, _, _, _ => .error .valueError

/-- function.py 276-312, one region: state is `(i_low, partial_sum)`. -/
noncomputable def integralRegion (t : Tab1D ℝ) (st : Nat × List (Option ℝ)) (k : Nat) :
    Except PyErr (Nat × List (Option ℝ)) :=
  match t.breakpoints[k]?, t.interpolation[k]? with
  | some b, some law => do
    let iHigh := (b - 1).toNat                                                    -- 278
    let vals ← (List.range' st.1 (iHigh - st.1)).mapM (panelAt t law)             -- 281-312
    .ok (iHigh, st.2.take st.1 ++ vals ++ st.2.drop iHigh)
  | _, _ => .error .indexError

/-- `np.cumsum` with NaN propagation, starting from `acc`. -/
noncomputable def cumsumFrom (acc : Option ℝ) : List (Option ℝ) → List (Option ℝ)
  | [] => []
  | a :: l =>
    let s := acc.bind fun p => a.map fun q => p + q
    s :: cumsumFrom s l

/-- function.py 259-313. -/
noncomputable def integral (t : Tab1D ℝ) : Except PyErr (List (Option ℝ)) := do
  let init := List.replicate (t.x.length - 1) (some (0 : ℝ))                       -- 271
  let st ← (List.range t.breakpoints.length).foldlM (integralRegion t) (0, init)
  .ok (some 0 :: cumsumFrom (some 0) st.2)                                         -- 313

end ASAPy.Tab1D
