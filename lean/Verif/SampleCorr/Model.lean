import Verif.Py
import Verif.RankOrder.Model
import Mathlib.Algebra.Order.Field.Basic
import Mathlib.Analysis.SpecialFunctions.Log.Basic

/-!
# Model of `sample_with_corr` (ASAPy/CovManipulation.py 273-436)

Arrays of samples are lists of columns (one per variable). Parameters of the model: the matrix `N` of scores computed from the
correlation (lines 344-379, see `Verif.Gmw` for its Cholesky factor), and the values drawn for each variable (405-418). The
distribution names are an enumeration (mixed-case spellings are not modelled).
-/

namespace ASAPy.SampleCorr

inductive Distro where
  | normal
  | lognormal
  | uniform
  | other
deriving DecidableEq

section generic
variable {K : Type*} [Field K] [LinearOrder K]

/-- Python's `min`. -/
def pyMin : List K → Except PyErr K
  | [] => .error .valueError
  | a :: l => .ok (l.foldl (fun m x => if x < m then x else m) a)

/-- `vars_to_not_sample_idx`, lines 300-321. There is no `else` at the end of the last `if`. -/
def mask (mean std diag : List K) (d : Distro) : Except PyErr (Option (List Bool)) :=
  match pyMin std with
  | .error e => .error e
  | .ok smin =>
    let m := if smin ≤ 1 / 10 ^ 30 then some (std.map fun s => decide (s ≤ 1 / 10 ^ 30)) else none
    match pyMin mean with
    | .error e => .error e
    | .ok mmin =>
      let zero := mean.map fun x => decide (x = 0)
      let m := if mmin = 0 ∧ d = .lognormal then
          match m with
          | some m => some (m.zipWith (· || ·) zero)
          | none => some zero
        else m
      let nodata := diag.map fun x => decide (x = 0)
      .ok (if nodata.any id then
          match m with
          | some m => some (m.zipWith (· || ·) nodata)
          | none => none
        else m)

/-- Boolean indexing by the inverted mask: the elements whose mask is false. -/
def select {α : Type*} : List Bool → List α → List α
  | b :: m, x :: l => if b then select m l else x :: select m l
  | _, _ => []

/-- Lines 429-434: the sampled columns and the constant ones in their places. -/
def place (num : Nat) : List Bool → List K → List (List K) → List (List K)
  | true :: m, x :: mean, cols => List.replicate num x :: place num m mean cols
  | false :: m, _ :: mean, c :: cols => c :: place num m mean cols
  | false :: m, _ :: mean, [] => List.replicate num 0 :: place num m mean []
  | _, _, _ => []

/-- The diagonal, `np.diag(desired_corr)`. -/
def diag (corr : List (List K)) : List K := corr.zipIdx.filterMap fun p => p.1[p.2]?

/-- Lines 329-436: after the reduction to the variables that are sampled. `scores mean std corr` is the matrix `N` (or the
exception raised by the decompositions), `draw v μ σ` the values drawn for variable `v` (number among the sampled ones). For
the lognormal distribution a zero mean among the sampled ones gives NaN in the transformed correlation (353), which `cholesky`
rejects. -/
def sampleReduced (scores : List K → List K → List (List K) → Except PyErr (List (List K))) (draw : Nat → K → K → List K)
    (mean : List K) (num : Nat) (d : Distro) (m : Option (List Bool)) (mean' std' : List K) (corr' : List (List K)) :
    Except PyErr (List (List K)) :=
  if mean' = [] then .ok (mean.map (List.replicate num))
  else if d = .lognormal ∧ (mean'.any fun x => decide (x = 0)) then .error .valueError
  else match scores mean' std' corr' with
    | .error e => .error e
    | .ok N =>
      if d = .other then .error .exception
      else
        match RankOrder.order (RankOrder.rank N) ((mean'.zip std').zipIdx.map fun p => draw p.2 p.1.1 p.1.2) with
        | .error e => .error e
        | .ok cols => match m with
          | some m => .ok (place num m mean cols)
          | none => .ok cols

/-- `sample_with_corr`; lines 323-327 are the reduction. -/
def sample (scores : List K → List K → List (List K) → Except PyErr (List (List K))) (draw : Nat → K → K → List K)
    (mean std : List K) (corr : List (List K)) (num : Nat) (d : Distro) : Except PyErr (List (List K)) :=
  match mask mean std (diag corr) d with
  | .error e => .error e
  | .ok (some m) =>
    sampleReduced scores draw mean num d (some m) (select m mean) (select m std) ((select m corr).map (select m))
  | .ok none => sampleReduced scores draw mean num d none mean std corr

end generic

/-- Line 393: the parameter `mu`. -/
noncomputable def logMean (m s : ℝ) : ℝ := Real.log (m / Real.sqrt (1 + s ^ 2 / m ^ 2))

/-- Line 394: the parameter `sigma`. -/
noncomputable def logSigma (m s : ℝ) : ℝ := Real.sqrt (Real.log (1 + s ^ 2 / m ^ 2))

/-- Line 353: the transformed correlation. -/
noncomputable def logCorr {n : Nat} (mean std : Fin n → ℝ) (corr : Fin n → Fin n → ℝ) (i j : Fin n) : ℝ :=
  mean i * mean j / (std i * std j) *
    (Real.exp (corr i j * Real.sqrt (Real.log (std i ^ 2 / mean i ^ 2 + 1) * Real.log (std j ^ 2 / mean j ^ 2 + 1))) - 1)

/-- Lines 388-418 for one variable: the value for the uniform number `p`; `q` is the standard normal quantile function
(`norm.ppf(p, loc, scale) = loc + scale * q p`), and scipy's `uniform` lives on `[loc, loc + scale]`. -/
noncomputable def value (q : ℝ → ℝ) (d : Distro) (m s p : ℝ) : ℝ :=
  match d with
  | .normal => m + s * q p
  | .lognormal => Real.exp (logMean m s + logSigma m s * q p)
  | .uniform => m + s * p
  | .other => 0

end ASAPy.SampleCorr
