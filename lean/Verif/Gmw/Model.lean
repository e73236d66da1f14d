import Mathlib.Data.Real.Sqrt
import Mathlib.Data.Matrix.Mul
import Mathlib.Data.Matrix.Diagonal
import Mathlib.Data.List.FinRange
import Mathlib.Logic.Equiv.Basic

/-!
# Model of `gmw_cholesky` (ASAPy/CovManipulation.py 96-210) and of the factor used for sampling (361-377)

Exact real arithmetic; `_EPS` is 2⁻⁵².
-/

namespace ASAPy.Gmw
open Matrix
variable {n : Nat}

/-- `_EPS`, lines 96-97. -/
noncomputable def EPS : ℝ := 2⁻¹ ^ 52

/-- Line 145-148: the largest absolute value of the diagonal. -/
noncomputable def gamma (A : Matrix (Fin n) (Fin n) ℝ) : ℝ := (List.finRange n).foldl (fun g i => max |A i i| g) 0

/-- Line 149-150: the largest absolute value above the diagonal. -/
noncomputable def xi (A : Matrix (Fin n) (Fin n) ℝ) : ℝ :=
  (List.finRange n).foldl (fun x i => ((List.finRange n).filter fun j => decide (i < j)).foldl (fun x j => max |A i j| x) x) 0

/-- Line 153. -/
noncomputable def delta (A : Matrix (Fin n) (Fin n) ℝ) : ℝ := EPS * max (gamma A + xi A) 1

/-- Lines 154-157. -/
noncomputable def beta (A : Matrix (Fin n) (Fin n) ℝ) : ℝ :=
  if n = 1 then Real.sqrt (max (gamma A) EPS)
  else Real.sqrt (max (max (gamma A) (xi A / Real.sqrt ((n : ℝ) ^ 2 - 1))) EPS)

/-- The arrays of lines 160-163. -/
structure State (n : Nat) where
  a : Matrix (Fin n) (Fin n) ℝ
  r : Matrix (Fin n) (Fin n) ℝ
  e : Fin n → ℝ
  P : Matrix (Fin n) (Fin n) ℝ

noncomputable def init (A : Matrix (Fin n) (Fin n) ℝ) : State n := ⟨A, 0, 0, 1⟩

/-- The pivot, lines 169-172: the last index from `j` on with the largest `|a[i, i]|`. -/
noncomputable def pivot (a : Matrix (Fin n) (Fin n) ℝ) (j : Fin n) : Fin n :=
  ((List.finRange n).filter fun i => decide (j < i)).foldl (fun q i => if |a q q| ≤ |a i i| then i else q) j

/-- Lines 175-192: columns `j` and `q` of `P` and `r` exchanged, and rows and columns of `a`. The products with the
permutation matrix `p` are written as the exchange they perform. -/
noncomputable def exchange (s : State n) (j q : Fin n) : State n :=
  let w := Equiv.swap j q
  { s with a := s.a.submatrix w w, r := s.r.submatrix id w, P := s.P.submatrix id w }

/-- Lines 195-199: `dj`. -/
noncomputable def pivotValue (A : Matrix (Fin n) (Fin n) ℝ) (a : Matrix (Fin n) (Fin n) ℝ) (j : Fin n) : ℝ :=
  let theta := ((List.finRange n).filter fun i => decide (j < i)).foldl (fun t i => max t |a j i|) 0
  max (max |a j j| ((theta / beta A) ^ 2)) (delta A)

/-- Lines 202-209. The inner loops assign row `j` of `r` from the diagonal on, and each entry of `a` below and right of
(j, j) once, from the entry of its upper triangle. -/
noncomputable def eliminate (s : State n) (j : Fin n) (dj : ℝ) : State n :=
  let row : Fin n → ℝ := fun i => if i = j then Real.sqrt dj else s.a j i / Real.sqrt dj
  { s with
    e := fun i => if i = j then dj - s.a j j else s.e i
    r := fun m i => if m = j ∧ j ≤ i then row i else s.r m i
    a := fun i k => if j < i ∧ j < k then s.a (min i k) (max i k) - row i * row k else s.a i k }

/-- The body of the main loop. -/
noncomputable def step (A : Matrix (Fin n) (Fin n) ℝ) (s : State n) (j : Fin n) : State n :=
  let q := pivot s.a j
  let s := if q ≠ j then exchange s j q else s
  eliminate s j (pivotValue A s.a j)

/-- The state after `k` rounds of the main loop. -/
noncomputable def rounds (A : Matrix (Fin n) (Fin n) ℝ) : Nat → State n
  | 0 => init A
  | k + 1 => if h : k < n then step A (rounds A k) ⟨k, h⟩ else rounds A k

/-- What is returned, line 210: `P, r.T, e`. -/
structure Result (n : Nat) where
  P : Matrix (Fin n) (Fin n) ℝ
  L : Matrix (Fin n) (Fin n) ℝ
  e : Fin n → ℝ

noncomputable def gmw (A : Matrix (Fin n) (Fin n) ℝ) : Result n :=
  let s := rounds A n
  ⟨s.P, s.rᵀ, s.e⟩

/-- The factor `C` of sample_with_corr, lines 363-367 (and `E`, 372-376); `none` is LinAlgError. -/
noncomputable def factor (chol : Matrix (Fin n) (Fin n) ℝ → Option (Matrix (Fin n) (Fin n) ℝ)) (A : Matrix (Fin n) (Fin n) ℝ) :
    Matrix (Fin n) (Fin n) ℝ :=
  match chol A with
  | some U => U
  | none => (gmw A).Lᵀ

end ASAPy.Gmw
