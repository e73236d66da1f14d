import Verif.Editor.Model
import Verif.MapGroups.Model
import Verif.WriteAce.Model

/-!
# Model of `write_sampled_data` for one sample (ASAPy/XsecSampler.py 721-792)

The ACE parser is a parameter (`parse`: text of the file to table). Relative values are finite.
-/

namespace ASAPy.Sampled
open ASAPy.Ace

/-- What is given for one MT (XsecSampler.py 743-747): its number, its samples (columns by sample number), and the
result of `load_zaid_mt` reduced to the columns `e high` and `e low`. -/
structure Input (K : Type*) where
  mt : Nat
  cols : List (Series K)
  bounds : Except PyErr (List K × List K)

variable {K : Type*} [Field K] [LinearOrder K] [ExpLog K]

/-- `map_groups_to_continuous(e, xsec['e high'], col, min_e=xsec['e low'].min()) * base` (XsecSampler.py 756, 762). -/
def factorTimes (high low : List K) (col : Series K) (es base : List K) : Except PyErr (List K) :=
  match low.min? with
  | none => .error .valueError
  | some minE => match MapGroups.mapGroups es high col none (some minE) 1 with
    | .error e => .error e
    | .ok f => bcast (· * ·) f base

/-- XsecSampler.py 754-757: the loop over the distributions (`zip` stops at the shorter list). -/
def factorTimesAll (high low : List K) (col : Series K) : List (List K) → List (List K) → Except PyErr (List (List K))
  | p :: ps, e :: es => match factorTimes high low col e p with
    | .error err => .error err
    | .ok v => match factorTimesAll high low col ps es with
      | .error err => .error err
      | .ok vs => .ok (v :: vs)
  | _, _ => .ok []

/-- XsecSampler.py 745-765: one MT of one sample. Line 760 replaces zeros by ones. (For MT 452 `get_sigma` returns the
editor's own array, so that line 760 also changes the array `set_sigma` remembers as `original_sigma`; nothing reads
that, and it is not modelled.) -/
def sampleMt (ed : Editor K) (k : Nat) (inp : Input K) : Editor K × Except PyErr Unit :=
  match inp.cols[k]? with
  | none => (ed, .error .keyError)                                                    -- 746
  | some col => match inp.bounds with                                                 -- 748
    | .error e => (ed, .error e)
    | .ok (high, low) =>
      match getEnergy ed inp.mt, getSigma ed inp.mt none false with                   -- 750-751
      | .error e, _ => (ed, .error e)
      | .ok _, .error e => (ed, .error e)
      | .ok es, .ok base =>
        let new : Except PyErr (Val K) := match es, base with
          | .pdfs es, .pdfs ps => (factorTimesAll high low col ps es).map .pdfs       -- 753-757
          | .arr es, .arr b =>
            (factorTimes high low col es (b.map fun v => if v = 0 then 1 else v)).map .arr   -- 760-762
          | _, _ => .error .typeError
        match new with
        | .error e => (ed, .error e)
        | .ok v => match setSigma ed inp.mt v with                                    -- 764
          | (ed, .error e) => (ed, .error e)
          | (ed, .ok ()) => applySumRules ed                                          -- 765

/-- XsecSampler.py 745-765: all MTs of one sample. -/
def sampleMts (ed : Editor K) (k : Nat) : List (Input K) → Editor K × Except PyErr Unit
  | [] => (ed, .ok ())
  | inp :: ins => match sampleMt ed k inp with
    | (ed, .error e) => (ed, .error e)
    | (ed, .ok ()) => sampleMts ed k ins

/-- XsecSampler.py 773-788: the replacements for one adjusted MT. -/
def jobsOf (base ed : Editor K) (mt : Nat) : Except PyErr (List (WriteAce.Job K)) :=
  if mt = 1018 then
    match getChiDistro base false, getChiDistro ed false with
    | .error e, _ => .error e
    | .ok _, .error e => .error e
    | .ok b, .ok s => .ok
        (List.zipWith (fun (u v : Dist K) => ⟨u.p.map (· * 1000000), v.p.map (· * 1000000), 1⟩) b.energyOut s.energyOut ++
         List.zipWith (fun (u v : Dist K) => ⟨u.c, v.c, 1⟩) b.energyOut s.energyOut)
  else
    match getSigma base mt none false, getSigma ed mt none false with
    | .ok (.arr b), .ok (.arr s) => .ok [⟨b, s, if mt = 452 then 9999 else 1⟩]
    | .error e, _ => .error e
    | .ok _, .error e => .error e
    | .ok _, .ok _ => .error .typeError

/-- XsecSampler.py 772-790: the loop over the adjusted MTs in increasing order. -/
def writeJobs (fmt : K → List Char) (base ed : Editor K) (w : WriteAce.Writer) :
    List Nat → WriteAce.Writer × Except PyErr Unit
  | [] => (w, .ok ())
  | mt :: mts => match jobsOf base ed mt with
    | .error e => (w, .error e)
    | .ok js => match WriteAce.runGroup fmt w js with
      | (w, .ok ()) => writeJobs fmt base ed w mts
      | (w, .error .valueError) => writeJobs fmt base ed w mts                        -- 789
      | (w, .error e) => (w, .error e)

/-- XsecSampler.py 738-792: the text of the ACE file of sample `k`. -/
def render (fmt : K → List Char) (parse : List Char → Except PyErr (Table K)) (ins : List (Input K))
    (text : List Char) (k : Nat) : Except PyErr (List Char) :=
  match parse text with
  | .error e => .error e
  | .ok file => match init file none with                                             -- 741
    | .error e => .error e
    | .ok ed0 => match sampleMts ed0 k ins with
      | (_, .error e) => .error e
      | (ed, .ok ()) => match WriteAce.read text with                                 -- 767
        | .error e => .error e
        | .ok w => match writeJobs fmt ed0 ed w (ed.adjusted.insertionSort (· ≤ ·)) with   -- 768-790
          | (_, .error e) => .error e
          | (w, .ok ()) => .ok (WriteAce.write w)                                     -- 792

end ASAPy.Sampled
