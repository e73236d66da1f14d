import Mathlib.Order.Basic
import Mathlib.Order.Bounds.Basic
import Mathlib.Algebra.Order.Field.Basic

/-!
# What "the group of an energy" means

Groups are numbered 1..N from the highest energy down; `high` lists their upper bounds. Group `g`
reaches from its own upper bound down to the upper bound of group `g+1`; the last group ends at
`minE`, and the first group is extended up to `maxE`.
-/

namespace ASAPy.MapGroups

variable {K : Type*} [LinearOrder K]

/-- Upper bound of group `g` (1-based): `maxE` for the first group, else the `g`-th entry. -/
def UpperBound (high : List K) (maxE : K) (g : Nat) (u : K) : Prop :=
  (g = 1 ∧ u = maxE) ∨ (2 ≤ g ∧ high[g - 1]? = some u)

/-- Lower bound of group `g`: the upper bound of the next group, `minE` for the last one. -/
def LowerBound (high : List K) (minE : K) (g : Nat) (l : K) : Prop :=
  (g = high.length ∧ l = minE) ∨ (g < high.length ∧ high[g]? = some l)

/-- Energy `e` lies in group `g`: lower bound exclusive, upper bound inclusive. -/
def InGroup (high : List K) (maxE minE : K) (g : Nat) (e : K) : Prop :=
  1 ≤ g ∧ g ≤ high.length ∧
    (∃ l, LowerBound high minE g l ∧ l < e) ∧ (∃ u, UpperBound high maxE g u ∧ e ≤ u)

/-- A usable group structure: at least one group, bounds strictly decreasing, `minE` below all of
them and `maxE` not below any. -/
structure Usable (high : List K) (maxE minE : K) : Prop where
  nonempty : high ≠ []
  decreasing : high.Pairwise (· > ·)
  min_below : ∀ h ∈ high, minE < h
  max_above : ∀ h ∈ high, h ≤ maxE

/-- The bounds in force when the optional arguments are `maxE?`/`minE?`: the given value, or the
largest upper bound, respectively a tenth of the smallest one. -/
def EffectiveMax (high : List K) (maxE? : Option K) (maxE : K) : Prop :=
  maxE? = some maxE ∨ (maxE? = none ∧ IsGreatest {h | h ∈ high} maxE)

def EffectiveMin [Field K] (high : List K) (minE? : Option K) (minE : K) : Prop :=
  minE? = some minE ∨ (minE? = none ∧ ∃ lo, IsLeast {h | h ∈ high} lo ∧ minE = lo / 10)

end ASAPy.MapGroups
