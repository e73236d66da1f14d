import Verif.Py
import Verif.Flt

/-!
# Model of the handling of drawn samples (ASAPy/XsecSampler.py 114-200, 336-387)

The drawn matrix (the result of `CovManipulation.sample_with_corr`, one row per sample, finite values) is an argument;
`Verif/SampleCorr` models how it is drawn.
-/

namespace ASAPy.Sampler

/-- A sample frame: the group labels and the samples (columns); the column labels are the positions. -/
structure Frame (K : Type*) where
  index : List Nat
  cols : List (List (Flt K))
deriving DecidableEq

variable {K : Type*} [Field K] [LinearOrder K]

/-- The rows (groups) without NaN: positions `i` such that no column has NaN there. -/
def rowKept (cols : List (List (Flt K))) (i : Nat) : Bool :=
  cols.all fun c => match c[i]? with
    | some v => !v.isNan
    | none => true

/-- `list[i]` for all `i` in `is`. -/
def pick {α : Type*} (l : List α) (is : List Nat) : List α := is.filterMap (l[·]?)

/-- `frame.dropna()`: drops the groups in which some sample is NaN. -/
def dropna (f : Frame K) : Frame K :=
  let keep := (List.range f.index.length).filter (rowKept f.cols)
  { index := pick f.index keep, cols := f.cols.map (pick · keep) }

/-- XsecSampler.py 190-200. `samples / mean` divides every row element-wise. -/
def sampleCheck (samples : List (List K)) (mean : List K) (removeNeg : Bool) : Frame K :=
  let f : Frame K := { index := List.range' 1 mean.length, cols := samples.map (List.zipWith Flt.div · mean) }
  if removeNeg then dropna { f with cols := f.cols.filter fun c => c.all fun v => !v.isNeg }   -- 198
  else f

/-- XsecSampler.py 174-175: `samples[samples < 0] = 0`. -/
def negToZero (f : Frame K) : Frame K :=
  { f with cols := f.cols.map fun c => c.map fun v => if v.isNeg then .fin 0 else v }

/-- XsecSampler.py 166-188: everything after the draw. The columns are renumbered 0, 1, 2, ... by 186, which is the
position in the list. -/
def sample (draws : List (List K)) (mean : List K) (numSamples : Nat) (raiseOnBad removeNeg returnRelative setNegToZero : Bool) :
    Except PyErr (Frame K) :=
  let m := if returnRelative then mean else List.replicate mean.length 1             -- 166-169
  let f := sampleCheck draws m removeNeg                                             -- 171
  let f := if setNegToZero then negToZero f else f                                   -- 174
  if f.cols.length < numSamples ∧ raiseOnBad = true then .error .exception           -- 179-181
  else .ok f

/-- A finite value or 0; only used on frames of finite values. -/
def finite : Flt K → K
  | .fin x => x
  | _ => 0

/-- XsecSampler.py 336-387: relative and full samples. `num_samples_to_make` is not used by the code (line 366). The
full samples are finite, since the draws are and line 371 divides by ones. -/
def sampleXsec (draws : List (List K)) (mean : List K) (numSamples _numSamplesToMake : Nat) (removeNeg raiseOnBad : Bool) :
    Except PyErr (Frame K × Frame K) :=
  match sample draws mean numSamples raiseOnBad removeNeg false false with           -- 376
  | .error e => .error e
  | .ok full =>
    let rel := sampleCheck (full.cols.map (·.map finite)) mean false                 -- 381
    let rel := { rel with cols := List.zipWith (List.zipWith fun r v => if r.isNan then v else r) rel.cols full.cols }  -- 385
    .ok (rel, full)

end ASAPy.Sampler
