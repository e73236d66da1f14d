import Verif.Tab1D.Model

/-!
# Well-formed tables

The vocabulary of the properties C15-C18. Nothing here refers to how `__call__` works.
-/

namespace ASAPy.Tab1D

variable {K : Type*} [LinearOrder K]

/-- `a` is taken for `b`: it differs from it by at most 10⁻⁵ of its size and 10⁻¹⁴ (the tolerance of numpy's `isclose` with `atol=1e-14`). -/
def TakenFor {K : Type*} [Field K] [LinearOrder K] (a b : K) : Prop := |a - b| ≤ 1 / 10 ^ 14 + 1 / 10 ^ 5 * |b|

instance {K : Type*} [Field K] [LinearOrder K] (a b : K) : Decidable (TakenFor a b) := by unfold TakenFor; infer_instance

/-- A well-formed table: a strictly increasing grid with one value per point, divided into regions
by strictly increasing 1-based breakpoints the last of which is the number of points, with one
interpolation law per region. -/
structure WF (t : Tab1D K) : Prop where
  increasing : t.x.Pairwise (· < ·)
  len : t.y.length = t.x.length
  nonempty : t.x ≠ []
  bp_increasing : t.breakpoints.Pairwise (· < ·)
  bp_pos : ∀ b ∈ t.breakpoints, 1 ≤ b
  bp_last : t.breakpoints.getLast? = some (t.x.length : Int)
  laws : t.interpolation.length = t.breakpoints.length

/-- `law` is the interpolation law between the grid points `i` and `i+1` (0-based): both points
belong to the same region, i.e. in 1-based counting they are not before the previous breakpoint and
not after the region's own one. -/
def LawAt (t : Tab1D K) (i : Nat) (law : Nat) : Prop :=
  ∃ k : Nat, t.interpolation[k]? = some law ∧
    (k = 0 ∨ ∃ b, t.breakpoints[k - 1]? = some b ∧ b ≤ (i : Int) + 1) ∧
    (∃ b, t.breakpoints[k]? = some b ∧ (i : Int) + 2 ≤ b)

end ASAPy.Tab1D
