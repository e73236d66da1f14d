import Verif.Py
import Verif.Dict
import Verif.Tab1D.Model
import Mathlib.Algebra.BigOperators.Group.List.Basic

/-!
# Model of `AceEditor` (ASAPy/AceIO.py 7-410)

Numbers are exact (an ordered field `K`). Arrays are values: the model has no aliasing (the
editor keeps a reference to an array given to `set_sigma`, and hands out its own array for MT 452; `Verif.Heap` models this). A method that can raise after having changed something returns the new state together with the outcome.
-/

namespace ASAPy.Ace

/-- MT numbers. -/
scoped notation "MT" => Nat
abbrev Temp := List Char

/-- One outgoing distribution of a `ContinuousTabular` (data/univariate.py 312, `c` added in
data/energy_distribution.py 1254): energies, pdf, cdf. -/
structure Dist (K : Type*) where
  x : List K
  p : List K
  c : List K
deriving DecidableEq

/-- `products[0]` of the fission reaction with its energy distribution (AceIO.py 113-128): whether its
`repr` says `prompt`, the incident energies, the outgoing distributions. -/
structure Chi (K : Type*) where
  prompt : Bool
  energyIn : List K
  energyOut : List (Dist K)
deriving DecidableEq

/-- `derived_products[0]` of the fission reaction (AceIO.py 220-228): whether its yield is a `Tabulated1D`, and the
yield. -/
structure Nu (K : Type*) where
  tabulated : Bool
  yield_ : Tab1D K
deriving DecidableEq

/-- A reaction (data/reaction.py): cross sections per temperature and, for fission, `derived_products[0]` and
`products[0]`. -/
structure Reaction (K : Type*) where
  xs : List (Temp × Tab1D K)
  nu : Option (Nu K)
  chi : Option (Chi K)
deriving DecidableEq

/-- `IncidentNeutron` as used by the editor: temperatures and reactions by MT (data/neutron.py). -/
structure Table (K : Type*) where
  temperatures : List Temp
  reactions : List (MT × Reaction K)
deriving DecidableEq

/-- What `get_sigma` returns and `set_sigma` takes: an array, or for chi a list of arrays. -/
inductive Val (K : Type*) where
  | arr (l : List K)
  | pdfs (l : List (List K))
deriving DecidableEq

/-- `len(v)`. -/
def Val.len {K : Type*} : Val K → Nat
  | .arr l => l.length
  | .pdfs l => l.length

/-- AceIO.py 25-55: the editor's attributes. -/
structure Editor (K : Type*) where
  table : Table K
  original : Table K
  temperature : Temp
  allMts : List MT
  originalSigma : List (MT × Val K)
  adjusted : List MT
deriving DecidableEq

/-- AceIO.py 29-42: the choice of the temperature. `some T` is the argument as a string; the empty string is
falsy. Line 41 tests membership of the string in the list of its own characters. -/
def chooseTemperature (temps : List Temp) (temperature : Option (List Char)) : Except PyErr Temp :=
  match temperature with
  | none | some [] =>
    if temps.length > 1 then .error .exception
    else match temps with
      | [] => .error .indexError
      | t :: _ => .ok t
  | some t =>
    let t := if ['K'] <:+ t then t else t ++ ['K']                                  -- 37-39
    if t ∉ t.map (fun c => [c]) then .error .exception else .ok t                   -- 41

/-- AceIO.py 47-51. -/
def allMtsOf {K : Type*} (t : Table K) : List MT :=
  let ks := Dict.keys t.reactions
  if 18 ∈ ks then ks ++ [452, 1018] else ks

/-- AceIO.py 21-55; the file is represented by the table read from it. -/
def init {K : Type*} (file : Table K) (temperature : Option (List Char)) : Except PyErr (Editor K) :=
  match chooseTemperature file.temperatures temperature with
  | .error e => .error e
  | .ok T =>
    .ok { table := file, original := file, temperature := T, allMts := allMtsOf file,
          originalSigma := [], adjusted := [] }

section
variable {K : Type*}

/-- `table.reactions[mt]`. -/
def Table.rx (t : Table K) (mt : MT) : Except PyErr (Reaction K) :=
  match Dict.get? t.reactions mt with
  | some r => .ok r
  | none => .error .keyError

/-- AceIO.py 388-410. The order of a Python set's elements is unspecified; here it is that of the second
list, without repetition. -/
def checkIfMtsPresent (mtList compareTo : List MT) : List MT :=
  (compareTo.filter (· ∈ mtList)).dedup

/-- AceIO.py 84-136 (with `mt = 18`, the only use). -/
def getChiDistro (ed : Editor K) (unadjusted : Bool) : Except PyErr (Chi K) :=
  if checkIfMtsPresent [18] ed.allMts ≠ [] then do
    let r ← (if unadjusted then ed.original else ed.table).rx 18
    match r.chi with
    | none => .error .indexError
    | some chi => if chi.prompt = false then .error .exception else .ok chi
  else .error .indexError

/-- data/product.py 51-64: does `repr` of a product with a tabulated yield of these values say `tabulated`? Not if they are all
the same. -/
def saysTabulated [LinearOrder K] : List K → Except PyErr Bool
  | [] => .error .indexError
  | y0 :: ys => .ok (!ys.all fun v => decide (v = y0))

/-- AceIO.py 189-230. -/
def getNuDistro [LinearOrder K] (ed : Editor K) (unadjusted : Bool) : Except PyErr (Tab1D K) :=
  match (if unadjusted then ed.original else ed.table).rx 18 with
  | .error _ => .error .keyError
  | .ok r => match r.nu with
    | none => .error .indexError
    | some nu =>
      if nu.tabulated = false then .error .typeError
      else match saysTabulated nu.yield_.y with                                      -- 222-223
        | .error e => .error e
        | .ok b => if b then .ok nu.yield_ else .error .typeError

/-- AceIO.py 57-82. -/
def getEnergy [LinearOrder K] (ed : Editor K) (mt : MT) : Except PyErr (Val K) :=
  if mt = 452 then do
    let y ← getNuDistro ed false
    .ok (.arr y.x)
  else if mt = 1018 then do
    let chi ← getChiDistro ed false
    .ok (.pdfs (chi.energyOut.map (·.x)))
  else do
    let r ← ed.table.rx mt
    match r.xs with
    | [] => .error .indexError
    | (_, t) :: _ => .ok (.arr t.x)

/-- AceIO.py 267-273: the cross section of `mt` at the editor's temperature. -/
def getTab (ed : Editor K) (mt : MT) (unadjusted : Bool) : Except PyErr (Tab1D K) :=
  match Dict.get? (if unadjusted then ed.original else ed.table).reactions mt with
  | none => .error .keyError
  | some r => match Dict.get? r.xs ed.temperature with
    | none => .error .keyError
    | some t => .ok t

variable [Field K] [LinearOrder K] [ExpLog K]

/-- AceIO.py 243-280. -/
def getSigma (ed : Editor K) (mt : MT) (atEnergies : Option (List K)) (unadjusted : Bool) :
    Except PyErr (Val K) :=
  if mt = 452 then do
    let y ← getNuDistro ed unadjusted
    .ok (.arr y.y)
  else if mt = 1018 then do
    let chi ← getChiDistro ed unadjusted
    .ok (.pdfs (chi.energyOut.map (·.p)))
  else do
    let rx ← getTab ed mt unadjusted
    match atEnergies with
    | none => .ok (.arr rx.y)
    | some es => do
      let vs ← rx.evals es
      .ok (.arr vs)

/-- numpy's element-wise operation on two vectors: equal lengths, or one of them of length 1. -/
def bcast (f : K → K → K) (a b : List K) : Except PyErr (List K) :=
  if a.length = b.length then .ok (List.zipWith f a b)
  else match a, b with
    | [u], b => .ok (b.map (f u))
    | a, [u] => .ok (a.map (f · u))
    | _, _ => .error .valueError

/-- `np.insert(np.diff(x), 0, 0)`. -/
def deltas (x : List K) : List K := 0 :: List.zipWith (fun b a => b - a) x.tail x

/-- `[sum(l[0:i + 1]) for i in range(len(l))]`. -/
def prefixSums (l : List K) : List K := (List.range l.length).map fun i => (l.take (i + 1)).sum

/-- AceIO.py 171-184, the body of the loop for one distribution. The cdf is assigned (183) before the pdf
(184), and the setter of the pdf rejects negative values (data/univariate.py 371-377). -/
def setDist (d : Dist K) (pdf : List K) : Dist K × Except PyErr Unit :=
  match bcast (· - ·) pdf d.p with                                                  -- 172
  | .error e => (d, .error e)
  | .ok deltaPdf =>
    match bcast (· * ·) deltaPdf (deltas d.x) with                                  -- 175-177
    | .error e => (d, .error e)
    | .ok deltaCdf =>
      let deltaCdfSum := prefixSums deltaCdf                                        -- 179
      match d.c.getLast?, deltaCdfSum.getLast? with
      | some cn, some sn =>
        let norm := cn + sn                                                         -- 181
        match bcast (· + ·) d.c deltaCdfSum with                                    -- 183
        | .error e => (d, .error e)
        | .ok c =>
          let d := { d with c := c.map (· / norm) }
          let p := pdf.map (· / norm)                                               -- 184
          if p.any (fun v => decide (v < 0)) then (d, .error .valueError)
          else ({ d with p := p }, .ok ())
      | _, _ => (d, .error .indexError)

/-- AceIO.py 171-184: the loop over the distributions. -/
def setDists : List (Dist K) → List (List K) → List (Dist K) × Except PyErr Unit
  | [], _ => ([], .ok ())
  | d :: ds, [] => (d :: ds, .error .indexError)
  | d :: ds, p :: ps =>
    match setDist d p with
    | (d', .error e) => (d' :: ds, .error e)
    | (d', .ok ()) =>
      let r := setDists ds ps
      (d' :: r.1, r.2)

/-- Replaces reaction `mt` of the current table. -/
def Editor.modifyRx (ed : Editor K) (mt : MT) (f : Reaction K → Reaction K) : Editor K :=
  { ed with table := { ed.table with reactions := Dict.modify ed.table.reactions mt f } }

/-- AceIO.py 138-187 (with `mt = 18`). -/
def setChiDistro (ed : Editor K) (pdf : List (List K)) : Editor K × Except PyErr Unit :=
  match getChiDistro ed false with
  | .error e => (ed, .error e)
  | .ok chi =>
    if chi.energyOut.length ≠ pdf.length then (ed, .error .exception)               -- 163
    else match chi.energyOut, pdf with
      | d :: _, p :: _ =>
        if d.x.length ≠ p.length then (ed, .error .exception)                       -- 167
        else
          let r := setDists chi.energyOut pdf
          (ed.modifyRx 18 fun rx => { rx with chi := some { chi with energyOut := r.1 } }, r.2)
      | _, _ => (ed, .error .indexError)

/-- AceIO.py 232-240. -/
def setNuDistro (ed : Editor K) (v : List K) : Editor K :=
  ed.modifyRx 18 fun rx => { rx with nu := rx.nu.map fun nu => { nu with yield_ := { nu.yield_ with y := v } } }

/-- AceIO.py 308. -/
def setXs (ed : Editor K) (mt : MT) (v : List K) : Editor K :=
  ed.modifyRx mt fun rx => { rx with xs := Dict.modify rx.xs ed.temperature fun t => { t with y := v } }

/-- `adjusted_mts.add(mt)`. -/
def Editor.addAdjusted (ed : Editor K) (mt : MT) : Editor K :=
  { ed with adjusted := if mt ∈ ed.adjusted then ed.adjusted else ed.adjusted ++ [mt] }

/-- AceIO.py 299-301: remembers the value before the first change. -/
def Editor.remember (ed : Editor K) (mt : MT) (v : Val K) : Editor K :=
  { ed with originalSigma := if mt ∈ Dict.keys ed.originalSigma then ed.originalSigma
                             else Dict.set ed.originalSigma mt v }

/-- AceIO.py 282-310. Giving a list of arrays for a cross section (or an array for chi) is a `TypeError` of the
setter (of `len`). The current value is read here also when it is already remembered; the only exception this
can raise, `KeyError`, is then raised by line 308 instead. -/
def setSigma (ed : Editor K) (mt : MT) (v : Val K) : Editor K × Except PyErr Unit :=
  match getEnergy ed mt with
  | .error e => (ed, .error e)
  | .ok energy =>
    if v.len ≠ energy.len then (ed, .error .indexError)                             -- 296
    else match getSigma ed mt none false with                                       -- 300
      | .error e => (ed, .error e)
      | .ok cur =>
        let ed := ed.remember mt cur                                                -- 301
        if mt = 452 then match v with
          | .arr l => ((setNuDistro ed l).addAdjusted mt, .ok ())
          | .pdfs _ => (ed, .error .typeError)
        else if mt = 1018 then match v with
          | .pdfs l => match setChiDistro ed l with
            | (ed, .error e) => (ed, .error e)
            | (ed, .ok ()) => (ed.addAdjusted mt, .ok ())
          | .arr _ => (ed, .error .typeError)
        else match v with
          | .arr l => ((setXs ed mt l).addAdjusted mt, .ok ())
          | .pdfs _ => (ed, .error .typeError)

/-- AceIO.py 334-357: the sum rules, in the order in which they are applied. -/
def mt103 : List MT := List.range' 600 50
def mt104 : List MT := List.range' 650 50
def mt105 : List MT := List.range' 700 50
def mt106 : List MT := List.range' 750 50
def mt107 : List MT := List.range' 800 50
def mt101 : List MT := [102] ++ mt103 ++ mt104 ++ mt105 ++ mt106 ++ mt107 ++
  [108, 109, 111, 112, 113, 114, 115, 116, 117, 155, 182, 191, 192, 193, 197]
def mt18 : List MT := [19, 20, 21, 38]
def mt27 : List MT := mt18 ++ mt101
def mt16 : List MT := List.range' 875 17
def mt4 : List MT := List.range' 50 42
def mt3 : List MT := [4, 5, 11, 16, 17, 18] ++ List.range' 22 5 ++ List.range' 28 10 ++ [41, 42] ++
  List.range' 44 2 ++ List.range' 102 16
def mt1 : List MT := [2] ++ mt3

def sumRules : List (MT × List MT) :=
  [(107, mt107), (106, mt106), (105, mt105), (104, mt104), (103, mt103), (101, mt101), (18, mt18),
   (27, mt27), (16, mt16), (4, mt4), (3, mt3), (1, mt1)]

/-- `np.array([...]).sum(axis=0)` of rows, all of length `n`. -/
def sumRows (n : Nat) (rows : List (List K)) : List K :=
  rows.foldl (fun acc r => List.zipWith (· + ·) acc r) (List.replicate n 0)

/-- The arrays of a list of MTs at given energies (AceIO.py 372, 373). -/
def rowsAt (ed : Editor K) (mts : List MT) (es : List K) (unadjusted : Bool) :
    Except PyErr (List (List K)) :=
  mts.mapM fun mt => do
    let v ← getSigma ed mt (some es) unadjusted
    match v with
    | .arr l => .ok l
    | .pdfs _ => .error .typeError

/-- AceIO.py 371-384: the new values of a sum with adjusted constituents. -/
def sumValue (ed : Editor K) (sumMt : MT) (adjustedPresent : List MT) : Except PyErr (List K) := do
  match ← getEnergy ed sumMt with                                                   -- 371
  | .pdfs _ => .error .typeError
  | .arr es => do
    let orig ← rowsAt ed adjustedPresent es true                                    -- 372
    let adj ← rowsAt ed adjustedPresent es false                                    -- 373
    let originalSum := sumRows es.length orig                                       -- 376
    let adjustedSum := sumRows es.length adj                                        -- 377
    match ← getSigma ed sumMt (some es) true with                                   -- 383
    | .pdfs _ => .error .typeError
    | .arr o => .ok (List.zipWith (· + ·) (List.zipWith (· - ·) o originalSum) adjustedSum)

/-- AceIO.py 360-385: one rule. -/
def applyRule (ed : Editor K) (rule : MT × List MT) : Editor K × Except PyErr Unit :=
  if rule.1 ∈ ed.allMts then                                                        -- 361
    let present := checkIfMtsPresent rule.2 ed.allMts                               -- 363
    if present ≠ [] then
      let adjPresent := checkIfMtsPresent ed.adjusted present                       -- 366
      if adjPresent ≠ [] then
        match sumValue ed rule.1 adjPresent with
        | .error e => (ed, .error e)
        | .ok v =>
          match setSigma ed rule.1 (.arr v) with                                    -- 384
          | (ed, .error e) => (ed, .error e)
          | (ed, .ok ()) => (ed.addAdjusted rule.1, .ok ())                         -- 385
      else (ed, .ok ())
    else (ed, .ok ())
  else (ed, .ok ())

/-- AceIO.py 359-385: the loop over the rules, stopping at the first exception. -/
def applyRules (ed : Editor K) : List (MT × List MT) → Editor K × Except PyErr Unit
  | [] => (ed, .ok ())
  | r :: rs => match applyRule ed r with
    | (ed, .error e) => (ed, .error e)
    | (ed, .ok ()) => applyRules ed rs

/-- AceIO.py 313-385. -/
def applySumRules (ed : Editor K) : Editor K × Except PyErr Unit := applyRules ed sumRules

/-- A call on the editor. -/
inductive Op (K : Type*) where
  | set (mt : MT) (v : Val K)
  | sums

/-- One call, whether it succeeds or raises. -/
def step (ed : Editor K) : Op K → Editor K × Except PyErr Unit
  | .set mt v => setSigma ed mt v
  | .sums => applySumRules ed

/-- A history of calls; exceptions are caught by the caller, who goes on. -/
def run (ed : Editor K) : List (Op K) → Editor K
  | [] => ed
  | op :: ops => run (step ed op).1 ops

end
end ASAPy.Ace
