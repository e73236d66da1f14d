import Verif.SampleCorr.Model
import Verif.Sampler.Model
import Mathlib.Analysis.SpecialFunctions.Log.Basic

/-!
# Model of the values drawn and of the sample types (ASAPy/CovManipulation.py 213-251, 381-418; ASAPy/XsecSampler.py 114-171)

Exact real arithmetic. SALib's Latin hypercube is a parameter: its contract is `Latin` in `Spec.lean`. So is the quantile function of the standard normal distribution.
-/

namespace ASAPy.Lhs
open SampleCorr (Distro)

/-- CovManipulation.py 405-418: the values drawn for the sampled variable number `v`; `lhs v` is the column returned by `lhs_uniform_sample(1, num_samples)` in its turn. -/
noncomputable def draw (q : ℝ → ℝ) (lhs : Nat → List ℝ) (d : Distro) (v : Nat) (m s : ℝ) : List ℝ := (lhs v).map (SampleCorr.value q d m s)

/-- CovManipulation.py 230-251, `lhs_normal_sample`, a column per variable; `lhs i` is column `i` of `lhs_uniform_sample(num_vars, num_samples)`. A list of deviations that is too short gives
IndexError. -/
noncomputable def lhsNormal (q : ℝ → ℝ) (lhs : Nat → List ℝ) (means std : List ℝ) : Except PyErr (List (List ℝ)) :=
  means.zipIdx.mapM fun p => match std[p.2]? with
    | some s => .ok ((lhs p.2).map fun u => p.1 + s * q u)
    | none => .error .indexError

/-- `str.lower` (ASCII). -/
def lower (t : List Char) : List Char := t.map Char.toLower

/-- `np.diag(np.ones(n))`. -/
def identity (n : Nat) : List (List ℝ) := (List.range n).map fun i => (List.range n).map fun j => if i = j then 1 else 0

/-- XsecSampler.py 143-164: the distribution and the correlation matrix that a sample type stands for. -/
def kind (t : List Char) (n : Nat) (corr : List (List ℝ)) : Except PyErr (Distro × List (List ℝ)) :=
  if lower t = "normal".toList then .ok (.normal, corr)
  else if lower t = "lognormal".toList then .ok (.lognormal, corr)
  else if lower t = "uncorrelated".toList then .ok (.normal, identity n)
  else if lower t = "uniform".toList then .ok (.uniform, corr)
  else if lower t = "loguncorrelated".toList then .ok (.lognormal, identity n)
  else .error .exception

/-- The transposed array: a row per sample. -/
def rows (num : Nat) (cols : List (List ℝ)) : List (List ℝ) := (List.range num).map fun k => cols.map fun c => c.getD k 0

/-- XsecSampler.py 143-164: the draws for a sample type. `scores` is the matrix that orders the samples, for means, deviations and correlations; it depends on the distribution (336-358 of
CovManipulation.py). -/
noncomputable def draws (scores : Distro → List ℝ → List ℝ → List (List ℝ) → Except PyErr (List (List ℝ))) (q : ℝ → ℝ) (lhs : Nat → List ℝ) (t : List Char) (mean std : List ℝ)
    (corr : List (List ℝ)) (num : Nat) : Except PyErr (List (List ℝ)) :=
  match kind t mean.length corr with
  | .error e => .error e
  | .ok (d, c) => (SampleCorr.sample (scores d) (draw q lhs d) mean std c num d).map (rows num)

/-- XsecSampler.py 336-387 from the sample type on. -/
noncomputable def sampleXsec (scores : Distro → List ℝ → List ℝ → List (List ℝ) → Except PyErr (List (List ℝ))) (q : ℝ → ℝ) (lhs : Nat → List ℝ) (t : List Char) (mean std : List ℝ)
    (corr : List (List ℝ)) (num make : Nat) (removeNeg raiseOnBad : Bool) : Except PyErr (Sampler.Frame ℝ × Sampler.Frame ℝ) :=
  match draws scores q lhs t mean std corr num with
  | .error e => .error e
  | .ok ds => Sampler.sampleXsec ds mean num make removeNeg raiseOnBad

end ASAPy.Lhs
