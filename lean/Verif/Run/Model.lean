import Verif.Sampled.Model
import Verif.Sampler.Model
import Verif.Mpi.Model
import Verif.AceData.Model
import Mathlib.Data.List.Dedup

/-!
# Model of the main program of XsecSampler (ASAPy/XsecSampler.py 806-936)

The reader of ACE files, the covariance store, the random draws and the text of the csv files are parameters; the other areas model them. Options for
plots and for batch jobs are left out, and so is `sample_dfs_full`, which only plots use. Sampled relative values are finite.
-/

namespace ASAPy.Run
open ASAPy.Sampler (Frame)

/-- What the store holds for an MT of the nuclide, and what is drawn for it: the column `x-sec(1)`, the columns `e high` and `e low`, and the result of
`CovManipulation.sample_with_corr` for the number of samples it is given (XsecSampler.py 366-371), one row per sample. -/
structure Entry (K : Type*) where
  mean : List K
  bounds : List K × List K
  draws : Nat → List (List K)

/-- Arguments and surroundings of the program. -/
structure Setup (K : Type*) where
  /-- path of the base ACE file -/
  base : List Char
  /-- `-mts`, empty if not given -/
  mts : List Nat
  /-- `num_samples` -/
  n : Nat
  /-- `-num_oversamples`, -1 if not given -/
  over : Int
  /-- `ace_data.all_mts` -/
  allMts : List Nat
  /-- `atomic_symbol` and `mass_number` of the table -/
  symbol : List Char
  mass : Int
  /-- the MTs of the store's keys (XsecSampler.py 900) -/
  storeMts : List Nat
  entry : Nat → Except PyErr (Entry K)

/-- The MTs and their relative samples, as given to `write_sampled_data`. -/
structure Job (K : Type*) where
  mts : List Nat
  frames : List (Frame K)
deriving DecidableEq

variable {K : Type*} [Field K] [LinearOrder K] [ExpLog K]

/-- Lines 895-911: the MTs to sample. -/
def adjustable (s : Setup K) : List Nat :=
  let mts := if s.mts ≠ [] then s.mts else s.storeMts.dedup.insertionSort (· ≤ ·)    -- 895-902
  mts.filter (· ∈ s.allMts)                                                          -- 906-911

/-- Lines 919-931: the loop over the MTs on rank 0. -/
def drawAll (s : Setup K) (make : Nat) : List Nat → Except PyErr (List (Frame K))
  | [] => .ok []
  | mt :: mts => match s.entry mt with
    | .error e => .error e
    | .ok en => match Sampler.sampleXsec (en.draws s.n) en.mean s.n make true false with
      | .error e => .error e
      | .ok (rel, _) => match drawAll s make mts with
        | .error e => .error e
        | .ok fs => .ok (rel :: fs)

/-- Lines 882-933: from the arguments to the samples; `none` if there is no MT to adjust (913-915). -/
def plan (s : Setup K) : Except PyErr (Option (Job K)) :=
  let make : Int := if s.over = -1 then s.n else s.over                              -- 882-885
  if make < s.n then .error .exception                                               -- 887
  else if adjustable s = [] then .ok none                                            -- 913
  else match drawAll s make.toNat (adjustable s) with
    | .error e => .error e
    | .ok fs => .ok (some ⟨adjustable s, fs⟩)

/-- The columns of a frame, with the group labels. -/
def columns (f : Frame K) : List (Series K) := f.cols.map fun c => List.zip (f.index.map fun (i : Nat) => (i : Int)) (c.map Sampler.finite)

/-- The arguments of `write_sampled_data` for each MT (line 936; XsecSampler.py 745-748). -/
def Job.inputs (s : Setup K) (j : Job K) : List (Sampled.Input K) :=
  List.zipWith (fun mt f => ⟨mt, columns f, (s.entry mt).map (·.bounds)⟩) j.mts j.frames

/-- Line 738: the number of samples is that of the first MT. -/
def Job.count (j : Job K) : Nat := (j.frames.head?.map (·.cols.length)).getD 0

/-- Lines 935-936, and `output_formatter` for a number or an MT. -/
def Job.env (s : Setup K) (j : Job K) (fmt : K → List Char) (parse : List Char → Except PyErr (Ace.Table K)) (csv : Nat → Except PyErr (List Char)) : Mpi.Env where
  base := s.base
  pre := "./".toList ++ s.symbol ++ AceData.intStr s.mass ++ ['_']
  render := Sampled.render fmt parse (j.inputs s)
  csv := csv

/-- Line 936: all processes run `write_sampled_data`. -/
def Job.start (j : Job K) (size : Nat) (fs : Mpi.FS) : Mpi.World := Mpi.start j.count j.mts size fs

/-- `str.zfill(3)` of a number that is not negative (line 875; EndfToCov.py 488). -/
def zfill3 (a : Nat) : List Char := List.replicate (3 - (Dec.natStr a).length) '0' ++ Dec.natStr a

/-- XsecSampler.py 875: `zaid`, the first part of the keys looked up. -/
def samplerZaid (z a : Nat) : List Char := Dec.natStr z ++ zfill3 a

/-- EndfToCov.py 488: `int(...)`, written again as a number in the keys of the store. -/
def storeZaid (z a : Nat) : List Char := Dec.natStr (Dec.natVal (Dec.natStr z ++ zfill3 a))

end ASAPy.Run
