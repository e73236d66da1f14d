import Verif.Py
import Verif.Np
import Mathlib.Algebra.Order.Field.Basic
import Mathlib.Data.List.Sort

/-!
# Model of `map_groups_to_continuous` (ASAPy/XsecSampler.py 241-334)
-/

namespace ASAPy.MapGroups

open ASAPy.Np

variable {K : Type*} [Field K] [LinearOrder K]

/-- XsecSampler.py 266-267: `if max_e is None: max_e = max(high_e_bins)`; `max` of nothing is a
`ValueError`. -/
def resolveMax (maxE : Option K) (high : List K) : Except PyErr K :=
  match maxE with
  | some m => .ok m
  | none => match high.max? with
    | some m => .ok m
    | none => .error .valueError

/-- XsecSampler.py 268-270: `if min_e is None: min_e = min(high_e_bins) / 10` (the warning is
dropped). -/
def resolveMin (minE : Option K) (high : List K) : Except PyErr K :=
  match minE with
  | some m => .ok m
  | none => match high.min? with
    | some m => .ok (m / 10)
    | none => .error .valueError

/-- XsecSampler.py 272-286: the sanity checks and the sorted list of bin boundaries (`sorted` on
numbers, by insertion sort: the result of sorting is unique). -/
def sortedBins (high : List K) (maxE minE : K) : Except PyErr (List K) :=
  match high.min? with
  | none => .error .valueError                       -- 272: min() of an empty array
  | some lo =>
    if minE = lo then .error .exception              -- 272-273
    else
      match high ++ [minE] with                      -- 278-279
      | [] => .error .indexError
      | b0 :: rest =>
        if b0 ≠ maxE then                            -- 280
          if maxE < b0 then .error .exception        -- 281-282
          else .ok ((maxE :: rest).insertionSort (· ≤ ·))   -- 284, 286
        else .ok ((b0 :: rest).insertionSort (· ≤ ·))       -- 286

/-- XsecSampler.py 290-300: the group number looked up for one energy. The array assignments
`group_nums[bins_too_low] = num_groups` and `group_nums[bins_too_high] = 1` act element-wise; the
second one is executed last. -/
def groupNum (sorted : List K) (numGroups : Nat) (maxE minE e : K) : Int :=
  let bin := searchsortedLeft sorted e
  let g : Int := 1 + (numGroups : Int) - (bin : Int)
  let g := if e < minE then (numGroups : Int) else g
  if e > maxE then 1 else g

/-- XsecSampler.py 302-305 for one energy: label lookup, then the overwrites outside the range.
A missing label is a `KeyError` (pandas < 1.0 gives NaN with a deprecation warning instead; in
neither case does the energy get a group's value). -/
def mapOne (sorted : List K) (numGroups : Nat) (maxE minE fill : K) (vals : Series K) (e : K) :
    Except PyErr K :=
  match vals.get (groupNum sorted numGroups maxE minE e) with
  | none => .error .keyError
  | some v =>
    let v := if e < minE then fill else v
    .ok (if e > maxE then fill else v)

/-- `map_groups_to_continuous(e_sigma, high_e_bins, multi_group_val, max_e, min_e,
value_outside_of_range)`, XsecSampler.py 241-334. `high` are the values of the series
`high_e_bins`; numbers are exact. -/
def mapGroups (es high : List K) (vals : Series K) (maxE minE : Option K) (fill : K) :
    Except PyErr (List K) := do
  let maxE ← resolveMax maxE high
  let minE ← resolveMin minE high
  let sorted ← sortedBins high maxE minE
  es.mapM (mapOne sorted high.length maxE minE fill vals)

end ASAPy.MapGroups
