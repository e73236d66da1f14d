import Verif.Flt
import Mathlib.Data.Real.Sqrt
import Mathlib.Data.Matrix.Basic
import Mathlib.Data.Matrix.Diagonal

/-!
# Model of the covariance/correlation conversions (ASAPy/CovManipulation.py 55-94) and of the correlation stored by
`process_cov_to_h5` (ASAPy/EndfToCov.py 366-382)

Exact real arithmetic with NaN and infinities (`Flt`). The double loops assign each entry above the diagonal once, which is
modelled as the resulting array.
-/

namespace ASAPy.CovCorr
variable {n : Nat}

/-- Lines 72-77 of correlation_to_cov: variances on the diagonal, covariances above it, zeros below. -/
def covUpper (std : Fin n → ℝ) (corr : Fin n → Fin n → ℝ) (i j : Fin n) : ℝ :=
  if i = j then std i ^ 2 else if i < j then corr i j * std i * std j else 0

/-- `correlation_to_cov`, with line 79: `cov + cov.T - np.diag(np.diag(cov))`. -/
def corrToCov (std : Fin n → ℝ) (corr : Fin n → Fin n → ℝ) (i j : Fin n) : ℝ :=
  covUpper std corr i j + covUpper std corr j i - (if i = j then covUpper std corr i i else 0)

/-- Lines 86-90 of cov_to_correlation. -/
noncomputable def corrUpper (cov : Fin n → Fin n → ℝ) (i j : Fin n) : Flt ℝ :=
  if i = j then .fin 1 else if i < j then Flt.div (cov i j) (Real.sqrt |cov i i * cov j j|) else .fin 0

/-- `cov_to_correlation`, with line 93. -/
noncomputable def covToCorr (cov : Fin n → Fin n → ℝ) (i j : Fin n) : Flt ℝ :=
  Flt.add (Flt.add (corrUpper cov i j) (corrUpper cov j i)) (Flt.neg (if i = j then corrUpper cov i i else .fin 0))

/-- EndfToCov lines 371-375: entries outside [-1, 1] are set to the bound (`np.abs(corr) > 1` is written out as the two
comparisons). -/
noncomputable def clip (x : Flt ℝ) : Flt ℝ :=
  let x := if Flt.lt (.fin 1) x then .fin 1 else x
  if Flt.lt x (.fin (-1)) then .fin (-1) else x

/-- `df.fillna(0)`, line 381. -/
noncomputable def fillna (x : Flt ℝ) : Flt ℝ := if x.isNan then .fin 0 else x

open Classical in
/-- What is stored as correlation, EndfToCov lines 369-381. The entries are clipped only if some entry is outside
[-1, 1]. -/
noncomputable def storedCorr (cov : Fin n → Fin n → ℝ) (i j : Fin n) : Flt ℝ :=
  if ∃ i j, Flt.lt (.fin 1) (covToCorr cov i j) ∨ Flt.lt (covToCorr cov i j) (.fin (-1)) then
    fillna (clip (covToCorr cov i j))
  else fillna (covToCorr cov i j)

end ASAPy.CovCorr
