import Verif.Py
import Verif.Flt

/-!
# Model of `XsecSampler.load_zaid_mt` (ASAPy/XsecSampler.py 60-95)

The store lookups are not modelled (they are C50-C52): the model starts from the two stored frames. The correlation frame
is its rows; the standard deviation frame is its rows with their labels (its index) and the columns `e low` and `e high`;
the other columns are carried along.
-/

namespace ASAPy.Load
variable {K : Type*} [Field K] [LinearOrder K]

/-- A row of the std_dev frame: its label, the two bounds, and the rest (x-sec, s.d., rel.s.d.). -/
structure Row (K : Type*) where
  label : Nat
  lo : K
  hi : K
  rest : List K
deriving DecidableEq, Repr

/-- `np.diag(corr_df.values)`: the entries (i, i) that exist. -/
def diag (corr : List (List K)) : List K :=
  (List.range corr.length).filterMap fun i => (corr[i]?).bind fun r => r[i]?

/-- Python's `max` of a list (ValueError when empty). -/
def pyMax : List K → Except PyErr K
  | [] => .error .valueError
  | a :: l => .ok (l.foldl (fun m x => if m < x then x else m) a)

/-- `np.fill_diagonal(corr_df.values, v)`. -/
def fillDiag (corr : List (List K)) (v : K) : List (List K) :=
  corr.mapIdx fun i r => if i < r.length then r.set i v else r

/-- `std_dev_df[col][1]`: the first row with label 1. -/
def rowOne (sd : List (Row K)) : Except PyErr (Row K) :=
  match sd.find? fun r => r.label == 1 with
  | some r => .ok r
  | none => .error .keyError

/-- Lines 80-95. -/
def load (sd : List (Row K)) (corr : List (List K)) (fillCorrDiag : Bool) :
    Except PyErr (List (Row K) × List (List (Flt K))) :=
  match pyMax (diag corr) with
  | .error e => .error e
  | .ok m =>
    let corr := if fillCorrDiag then fillDiag corr m else corr
    match pyMax (diag corr) with
    | .error e => .error e
    | .ok m =>
      let corr' := corr.map fun r => r.map fun x => Flt.div x m
      match rowOne sd with
      | .error e => .error e
      | .ok r => .ok (if r.hi < r.lo then sd.map fun r => { r with lo := r.hi, hi := r.lo } else sd, corr')

end ASAPy.Load
