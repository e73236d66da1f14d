import Verif.Dict
import Verif.Dec
import Verif.Boxer.Model
import Verif.CovCorr.Model

/-!
# Model of the covariance store (ASAPy/AsapyCovStorage.py, EndfToCov.process_cov_to_h5, the store accesses of XsecSampler)

A `pd.HDFStore` is an insertion-ordered map from normalised paths to frames; `put` replaces what is there and is taken to be atomic.
Frames hold what the code stores: a correlation with its labels, or a std_dev frame row by row.
-/

namespace ASAPy.Store
open ASAPy.Dec

/-- A row of a std_dev frame (AsapyCovStorage.py 44-53): its label and its eight columns. -/
structure Row where
  label : Nat
  lo : ℚ
  hi : ℚ
  xs1 : ℚ
  xs2 : ℚ
  rel1 : Flt ℚ
  rel2 : Flt ℚ
  sd1 : ℚ
  sd2 : ℚ
deriving DecidableEq

/-- A correlation frame: index, columns, values. -/
structure Corr where
  index : List Nat
  columns : List Nat
  values : List (List (Flt ℝ))

/-- A stored object. -/
inductive Frame where
  | corr (c : Corr)
  | std (rows : List Row)

abbrev Store := List (List Char × Frame)

/-- The two kinds of keys, with the last component of their paths. -/
inductive Kind where
  | stdDev
  | corr
deriving DecidableEq

def Kind.text : Kind → List Char
  | .stdDev => "std_dev".toList
  | .corr => "corr".toList

/-- The key formatters (AsapyCovStorage.py 10-11; XsecSampler.py 79-80 has the same formats). -/
def key (mat1 mt1 mat2 mt2 : Nat) (k : Kind) : List Char :=
  natStr mat1 ++ '/' :: natStr mt1 ++ '/' :: natStr mat2 ++ '/' :: natStr mt2 ++ '/' :: k.text

/-- HDFStore's normal form of a key: a leading slash. -/
def norm (k : List Char) : List Char := if k.head? = some '/' then k else '/' :: k

/-- `store.put(key, df)`. -/
def put (s : Store) (k : List Char) (f : Frame) : Store := Dict.set s (norm k) f

/-- `store[key]`. -/
def fetch (s : Store) (k : List Char) : Except PyErr Frame :=
  match Dict.get? s (norm k) with
  | some f => .ok f
  | none => .error .keyError

/-- `check_correlation_df`, lines 80-82. -/
def checkCorr (c : Corr) : Bool := decide (c.columns.length = c.index.length ∧ c.columns = c.index)

/-- `add_corr_to_store`, lines 84-100. -/
def addCorr (s : Store) (c : Corr) (mat1 mt1 mat2 mt2 : Nat) : Store × Except PyErr Unit :=
  if checkCorr c then (put s (key mat1 mt1 mat2 mt2 .corr) (.corr c), .ok ()) else (s, .error .assertionError)

/-- `df.loc[a:b]` of a frame with increasing integer labels: both ends included. -/
def locSlice (rows : List Row) (a : Int) (b : Option Int) : List Row :=
  rows.filter fun r => decide (a ≤ r.label) && (match b with | some b => decide ((r.label : Int) ≤ b) | none => true)

/-- `(x > y).all()` of two arrays; numpy refuses different lengths. -/
def allGreater (x y : List ℚ) : Except PyErr Bool :=
  if x.length = y.length then .ok ((List.zip x y).all fun p => decide (p.2 < p.1)) else .error .valueError

/-- `check_stddev_df`, lines 102-105: nothing if the check passes. -/
def checkStd (rows : List Row) : Except PyErr Unit :=
  match allGreater ((locSlice rows 1 (some ((rows.length : Int) - 1))).map Row.lo) ((locSlice rows 2 none).map Row.lo) with
  | .error e => .error e
  | .ok false => .error .assertionError
  | .ok true =>
    match allGreater ((locSlice rows 1 (some ((rows.length : Int) - 1))).map Row.hi) ((locSlice rows 2 none).map Row.hi) with
    | .error e => .error e
    | .ok false => .error .assertionError
    | .ok true => .ok ()

/-- `add_stddev_to_store`, lines 107-123. -/
def addStd (s : Store) (rows : List Row) (mat1 mt1 mat2 mt2 : Nat) : Store × Except PyErr Unit :=
  match checkStd rows with
  | .error e => (s, .error e)
  | .ok () => (put s (key mat1 mt1 mat2 mt2 .stdDev) (.std rows), .ok ())

/-! ### EndfToCov.process_cov_to_h5, lines 350-395 -/

/-- Is the MT a key of REACTION_NAME (data/reaction.py 28-75, with 452 and 1018 added by EndfToCov.py 23-24)? -/
def named (mt : Nat) : Bool :=
  [1, 2, 3, 4, 5, 11, 16, 17, 18, 19, 20, 21, 22, 23, 24, 25, 27, 28, 29, 30, 32, 33, 34, 35, 36, 37, 38, 41, 42, 44, 45, 91,
    101, 102, 103, 104, 105, 106, 107, 108, 109, 111, 112, 113, 114, 115, 116, 117, 444, 452, 1018, 649, 699, 749, 799, 849, 891].contains mt
  || (decide (152 ≤ mt) && decide (mt ≤ 200))
  || (decide (50 ≤ mt) && decide (mt < 91)) || (decide (600 ≤ mt) && decide (mt < 649)) || (decide (650 ≤ mt) && decide (mt < 699))
  || (decide (700 ≤ mt) && decide (mt < 749)) || (decide (750 ≤ mt) && decide (mt < 799))
  || (decide (800 ≤ mt) && decide (mt < 849)) || (decide (875 ≤ mt) && decide (mt < 891))

/-- Lines 366-377: the correlation frame of the covariance matrix read. `groups` is its number of rows. -/
noncomputable def corrFrame (cov : List (List ℚ)) : Corr where
  index := List.range' 1 cov.length
  columns := List.range' 1 cov.length
  values := List.ofFn fun i : Fin cov.length => List.ofFn fun j : Fin cov.length =>
    CovCorr.storedCorr (fun a b : Fin cov.length => (((cov[a]?.getD [])[b]?.getD 0 : ℚ) : ℝ)) i j

/-- The row of a group before the repair of NaNs, lines 381-388: `np.nan` only where the cross section is 0 (the standard
deviation is the relative deviation times the cross section, hence 0 there too); `x / 0` otherwise is infinite. -/
def rawRow (label : Nat) (hi lo xs sd : ℚ) : Row :=
  ⟨label, lo, hi, xs, xs, Flt.div sd xs, Flt.div sd xs, sd, sd⟩

/-- Lines 391-393, in this order: each of the three statements tests column `rel.s.d.(1)` again. -/
def repair (r : Row) : Row :=
  let r := if r.rel1.isNan then { r with xs1 := 0, xs2 := 0 } else r
  let r := if r.rel1.isNan then { r with sd1 := 1 / 10 ^ 7, sd2 := 1 / 10 ^ 7 } else r
  if r.rel1.isNan then { r with rel1 := .fin (1 / 10 ^ 7), rel2 := .fin (1 / 10 ^ 7) } else r

/-- Lines 379-393: the std_dev frame. Assigning a column of another length than the number of groups raises ValueError
(for broadcast deviations, `std_dev / xsec` has a wrong length or the division raises; both are ValueErrors). -/
def stdFrame (d : Boxer.Data) : Except PyErr (List Row) :=
  let n := d.cov.length
  if d.bounds.dropLast.length = n ∧ d.bounds.tail.length = n ∧ d.xsec.length = n ∧ d.stdDev.length = n then
    .ok ((List.range n).map fun i => repair (rawRow (i + 1) (d.bounds.dropLast[i]?.getD 0) (d.bounds.tail[i]?.getD 0)
      (d.xsec[i]?.getD 0) (d.stdDev[i]?.getD 0)))
  else .error .valueError

/-- `process_cov_to_h5` on the contents of the BOXER output file: the states of the store from the beginning to the end, oldest
first, and the result. -/
noncomputable def process (s : Store) (zaid mt : Nat) (file : List (List Char)) : List Store × Except PyErr Unit :=
  match Boxer.readFile file with
  | .error .runtimeError => ([s], if named mt then .ok () else .error .keyError)      -- 357-359: REACTION_NAME[mt] in the message
  | .error e => ([s], .error e)
  | .ok d =>
    match addCorr s (corrFrame d.cov) zaid mt zaid mt with                             -- 378
    | (s1, .error e) => ([s, s1], .error e)
    | (s1, .ok ()) =>
      match stdFrame d with
      | .error e => ([s, s1], .error e)
      | .ok rows =>
        match addStd s1 rows zaid mt zaid mt with                                      -- 395
        | (s2, r) => ([s, s1, s2], r)

/-- The store after `process`. -/
noncomputable def final (s : Store) (zaid mt : Nat) (file : List (List Char)) : Store :=
  (process s zaid mt file).1.getLast?.getD s

/-! ### XsecSampler -/

/-- Python's `s.split('/')`. -/
def splitSlash : List Char → List (List Char)
  | [] => [[]]
  | c :: s =>
    if c = '/' then [] :: splitSlash s
    else match splitSlash s with
      | [] => [[c]]
      | w :: ws => (c :: w) :: ws

/-- XsecSampler.py 900: `{int(i.split('/')[2]) for i in h}`, in the order of the store and with repetitions, for paths whose third
component is a number. -/
def storeMts (s : Store) : List Nat := (Dict.keys s).filterMap fun k => (splitSlash k)[2]?.map natVal

/-- The two lookups of load_zaid_mt (XsecSampler.py 79-80), first std_dev. -/
def loadFrames (s : Store) (zaid mt : Nat) : Except PyErr (Frame × Frame) :=
  match fetch s (key zaid mt zaid mt .stdDev) with
  | .error e => .error e
  | .ok sd => match fetch s (key zaid mt zaid mt .corr) with
    | .error e => .error e
    | .ok c => .ok (sd, c)

end ASAPy.Store
