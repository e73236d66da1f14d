import Verif.Plots.Model

/-!
# What a reader of the plots sees

Groups are counted from 0, from the highest energy down.
-/

namespace ASAPy.Plots
variable {K : Type*} [Field K] [LinearOrder K]

/-- A group structure with `n` groups: bounds decreasing, each group ends where the next begins, the last one at an energy that is not negative. -/
structure Proper (g : Groups K) (n : Nat) : Prop where
  high : g.high.length = n
  low : g.low.length = n
  sd : g.sd.length = n
  rel : g.rel.length = n
  decreasing : g.high.Pairwise (· > ·)
  contiguous : ∀ i, i + 1 < n → g.low[i]? = g.high[i + 1]?
  bottom : ∀ l h, g.low[n - 1]? = some l → g.high[n - 1]? = some h → 0 ≤ l ∧ l < h

/-- `e` is inside group `i`. -/
def Inside (g : Groups K) (i : Nat) (e : K) : Prop :=
  ∃ l h, g.low[i]? = some l ∧ g.high[i]? = some h ∧ l < e ∧ e < h

/-- The horizontal lines of a `steps-post` curve: from each point to the next one at the height of the first. At energy `e` the curve shows `v`. -/
def Steps.Shows (s : Steps K) (e : K) (v : Flt K) : Prop :=
  ∃ i a b, s.x[i]? = some a ∧ s.x[i + 1]? = some b ∧ min a b < e ∧ e < max a b ∧ s.y[i]? = some v

/-- At `e` the curve shows `v` and nothing else. -/
def Steps.Only (s : Steps K) (e : K) (v : Flt K) : Prop := ∀ w, s.Shows e w ↔ w = v

/-- `pcolormesh`: the cell between two neighbouring edges in each direction has the colour of `vals` there (first index vertical). At `(x, y)` the
map shows `v`. -/
def Mesh.Shows (m : Mesh K) (x y v : K) : Prop :=
  ∃ i j a b c d r, m.edges[j]? = some a ∧ m.edges[j + 1]? = some b ∧ a < x ∧ x < b ∧
    m.edges[i]? = some c ∧ m.edges[i + 1]? = some d ∧ c < y ∧ y < d ∧ m.vals[i]? = some r ∧ r[j]? = some v

def Mesh.Only (m : Mesh K) (x y v : K) : Prop := ∀ w, m.Shows x y w ↔ w = v

/-- `c` is a matrix with `n` rows of `n` entries. -/
def Square (c : List (List K)) (n : Nat) : Prop := c.length = n ∧ ∀ r ∈ c, r.length = n

/-- The entry of `c` in row `i` and column `j` is `v`. -/
def Entry (c : List (List K)) (i j : Nat) (v : K) : Prop := ∃ r, c[i]? = some r ∧ r[j]? = some v

/-- Sum of squared deviations, and of products of deviations, from the mean. -/
def sxy {m : Nat} (r s : Fin m → K) : K := ∑ k, (r k - (∑ l, r l) / m) * (s k - (∑ l, s l) / m)

/-- Pearson's correlation coefficient of two samples. -/
noncomputable def pearson {m : Nat} (r s : Fin m → ℝ) : ℝ := sxy r s / Real.sqrt (sxy r r * sxy s s)

/-- Not all samples of the group are equal. -/
def Varies {m : Nat} (r : Fin m → K) : Prop := ∃ k l, r k ≠ r l

end ASAPy.Plots
