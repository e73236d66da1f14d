import Verif.Editor.Model

/-!
# Model of `AceEditor` with references to arrays (ASAPy/AceIO.py 7-410)

`Verif.Editor` treats arrays as values. Here they are objects: the tables, the dictionary `original_sigma`, the caller's variables and the results of
`get_sigma` and `get_energy` hold references, and two of them may refer to the same array. What a method reads it reads through the references; this part is
taken from `Verif.Editor`, applied to the contents of the arrays (`St.view`). What it stores and returns is spelled out here: which reference, or a new array.

`get_chi_distro`, `get_nu_distro`, `set_chi_distro` and `set_nu_distro` are modelled as `get_sigma` and `set_sigma` call them.
Simplification: two arrays are the same or disjoint; numpy's overlapping views (the energies of the reactions of a loaded table are slices of one array) are left out.
-/

namespace ASAPy.Heap
open ASAPy.Ace

/-- A reference to a numpy array. -/
abbrev Addr := Nat

/-- `Tabulated1D` (data/function.py): references to `x` and `y`. -/
structure HTab where
  x : Addr
  y : Addr
  breakpoints : List Int
  interpolation : List Nat
deriving DecidableEq

/-- One outgoing distribution (data/univariate.py 312). -/
structure HDist where
  x : Addr
  p : Addr
  c : Addr
deriving DecidableEq

/-- See `Ace.Chi`. -/
structure HChi where
  prompt : Bool
  energyIn : Addr
  energyOut : List HDist
deriving DecidableEq

/-- See `Ace.Nu`. -/
structure HNu where
  tabulated : Bool
  yield_ : HTab
deriving DecidableEq

/-- See `Ace.Reaction`. -/
structure HRx where
  xs : List (Temp × HTab)
  nu : Option HNu
  chi : Option HChi
deriving DecidableEq

/-- See `Ace.Table`. -/
structure HTable where
  temperatures : List Temp
  reactions : List (MT × HRx)
deriving DecidableEq

/-- A reference, or for chi a list of references. -/
inductive HVal where
  | arr (a : Addr)
  | pdfs (l : List Addr)
deriving DecidableEq

/-- AceIO.py 25-55. -/
structure HEd where
  table : HTable
  original : HTable
  temperature : Temp
  allMts : List MT
  originalSigma : List (MT × HVal)
  adjusted : List MT
deriving DecidableEq

/-- The arrays, the next free reference, and an editor. -/
structure St (K : Type*) where
  heap : Addr → List K
  next : Addr
  ed : HEd

variable {K : Type*}

/-! ### The contents -/

def HTab.view (h : Addr → List K) (t : HTab) : Tab1D K := ⟨h t.x, h t.y, t.breakpoints, t.interpolation⟩
def HDist.view (h : Addr → List K) (d : HDist) : Dist K := ⟨h d.x, h d.p, h d.c⟩
def HChi.view (h : Addr → List K) (c : HChi) : Chi K := ⟨c.prompt, h c.energyIn, c.energyOut.map (HDist.view h)⟩
def HNu.view (h : Addr → List K) (n : HNu) : Nu K := ⟨n.tabulated, n.yield_.view h⟩
def HRx.view (h : Addr → List K) (r : HRx) : Reaction K :=
  ⟨r.xs.map fun e => (e.1, e.2.view h), r.nu.map (HNu.view h), r.chi.map (HChi.view h)⟩
def HTable.view (h : Addr → List K) (t : HTable) : Table K := ⟨t.temperatures, t.reactions.map fun e => (e.1, e.2.view h)⟩
def HVal.view (h : Addr → List K) : HVal → Val K
  | .arr a => .arr (h a)
  | .pdfs l => .pdfs (l.map h)
def HEd.view (h : Addr → List K) (e : HEd) : Editor K :=
  ⟨e.table.view h, e.original.view h, e.temperature, e.allMts, e.originalSigma.map fun e => (e.1, e.2.view h), e.adjusted⟩

/-- The editor with the contents of its arrays. -/
def St.view (s : St K) : Editor K := s.ed.view s.heap

/-! ### The methods -/

/-- A new array. -/
def St.alloc (s : St K) (l : List K) : St K × Addr := ({ s with heap := Function.update s.heap s.next l, next := s.next + 1 }, s.next)

/-- In-place change of an array, e.g. `a *= 2` or `a[i] = v`. -/
def St.poke (s : St K) (a : Addr) (l : List K) : St K := { s with heap := Function.update s.heap a l }

/-- `derived_products[0].yield_` of fission. -/
def HTable.nuRef (t : HTable) : Option HTab := ((Dict.get? t.reactions 18).bind (·.nu)).map (·.yield_)

/-- The prompt spectrum of fission. -/
def HTable.chiRef (t : HTable) : Option HChi := (Dict.get? t.reactions 18).bind (·.chi)

/-- The cross section of `mt` at the first temperature. -/
def HTable.firstRef (t : HTable) (mt : MT) : Option HTab := (Dict.get? t.reactions mt).bind fun r => r.xs.head?.map Prod.snd

/-- The reference `get_energy` returns when it does not raise: the table's own arrays, AceIO.py 73-82, 116-125, 227. -/
def HEd.energyRef (e : HEd) (mt : MT) : Option HVal :=
  if mt = 452 then e.table.nuRef.map fun t => .arr t.x
  else if mt = 1018 then e.table.chiRef.map fun c => .pdfs (c.energyOut.map (·.x))
  else (e.table.firstRef mt).map fun t => .arr t.x

/-- The table's own arrays for nu and chi, AceIO.py 262-265. -/
def HEd.liveRef (e : HEd) (mt : MT) (unadjusted : Bool) : Option HVal :=
  if mt = 452 then (if unadjusted then e.original else e.table).nuRef.map fun t => .arr t.y
  else (if unadjusted then e.original else e.table).chiRef.map fun c => .pdfs (c.energyOut.map (·.p))

section
variable [Field K] [LinearOrder K] [ExpLog K]

/-- AceIO.py 57-82. -/
def getEnergy (s : St K) (mt : MT) : Except PyErr HVal :=
  match Ace.getEnergy s.view mt, s.ed.energyRef mt with
  | .ok _, some v => .ok v
  | .error e, _ => .error e
  | _, none => .error .exception

/-- AceIO.py 243-280: cross sections are copied (276, 278), nu and chi are the table's own arrays. -/
def getSigma (s : St K) (mt : MT) (atEnergies : Option Addr) (unadjusted : Bool) : St K × Except PyErr HVal :=
  match Ace.getSigma s.view mt (atEnergies.map s.heap) unadjusted with
  | .error e => (s, .error e)
  | .ok v =>
    if mt = 452 ∨ mt = 1018 then match s.ed.liveRef mt unadjusted with
      | some r => (s, .ok r)
      | none => (s, .error .exception)
    else match v with
      | .arr l => ((s.alloc l).1, .ok (.arr (s.alloc l).2))
      | .pdfs _ => (s, .error .exception)

/-- AceIO.py 299-301. `copy()` of an array is a new array; of the list of arrays of chi it is a list of the same arrays. -/
def St.remember (s : St K) (mt : MT) (cur : Val K) : St K :=
  if mt ∈ Dict.keys s.ed.originalSigma then s
  else if mt = 1018 then match s.ed.liveRef mt false with
    | some r => { s with ed := { s.ed with originalSigma := Dict.set s.ed.originalSigma mt r } }
    | none => s
  else match cur with
    | .arr l =>
      let s' := (s.alloc l).1
      { s' with ed := { s'.ed with originalSigma := Dict.set s'.ed.originalSigma mt (.arr (s.alloc l).2) } }
    | .pdfs _ => s

/-- Replaces reaction `mt` of the current table. -/
def HEd.modifyRx (e : HEd) (mt : MT) (f : HRx → HRx) : HEd := { e with table := { e.table with reactions := Dict.modify e.table.reactions mt f } }

def HEd.addAdjusted (e : HEd) (mt : MT) : HEd := { e with adjusted := if mt ∈ e.adjusted then e.adjusted else e.adjusted ++ [mt] }

/-- AceIO.py 172-183: the new cdf and the divided pdf, before they are stored. -/
def newDist (d : Dist K) (pdf : List K) : Except PyErr (List K × List K) := do
  let deltaPdf ← bcast (· - ·) pdf d.p
  let deltaCdf ← bcast (· * ·) deltaPdf (deltas d.x)
  let deltaCdfSum := prefixSums deltaCdf
  match d.c.getLast?, deltaCdfSum.getLast? with
  | some cn, some sn => do
    let c ← bcast (· + ·) d.c deltaCdfSum
    return (c.map (· / (cn + sn)), pdf.map (· / (cn + sn)))
  | _, _ => .error .indexError

/-- AceIO.py 171-184 for one distribution: both arrays are new ones; the cdf is stored even if the pdf is rejected. -/
def setDist (s : St K) (d : HDist) (pdf : List K) : St K × HDist × Except PyErr Unit :=
  match newDist (d.view s.heap) pdf with
  | .error e => (s, d, .error e)
  | .ok (c, p) =>
    let (s, ac) := s.alloc c
    let d := { d with c := ac }
    if p.any (fun v => decide (v < 0)) then (s, d, .error .valueError)
    else
      let (s, ap) := s.alloc p
      (s, { d with p := ap }, .ok ())

/-- AceIO.py 171-184. -/
def setDists (s : St K) : List HDist → List (List K) → St K × List HDist × Except PyErr Unit
  | [], _ => (s, [], .ok ())
  | d :: ds, [] => (s, d :: ds, .error .indexError)
  | d :: ds, p :: ps =>
    match setDist s d p with
    | (s, d', .error e) => (s, d' :: ds, .error e)
    | (s, d', .ok ()) =>
      let r := setDists s ds ps
      (r.1, d' :: r.2.1, r.2.2)

/-- AceIO.py 138-187: the arrays of the caller are read only. -/
def setChiDistro (s : St K) (pdf : List (List K)) : St K × Except PyErr Unit :=
  match getChiDistro s.view false, s.ed.table.chiRef with
  | .error e, _ => (s, .error e)
  | .ok _, none => (s, .error .exception)
  | .ok _, some chi =>
    if chi.energyOut.length ≠ pdf.length then (s, .error .exception)
    else match chi.energyOut, pdf with
      | d :: _, p :: _ =>
        if (s.heap d.x).length ≠ p.length then (s, .error .exception)
        else
          let r := setDists s chi.energyOut pdf
          ({ r.1 with ed := r.1.ed.modifyRx 18 fun rx => { rx with chi := some { chi with energyOut := r.2.1 } } }, r.2.2)
      | _, _ => (s, .error .indexError)

/-- AceIO.py 240: the caller's array is stored. -/
def HEd.setNu (e : HEd) (a : Addr) : HEd :=
  e.modifyRx 18 fun rx => { rx with nu := rx.nu.map fun nu => { nu with yield_ := { nu.yield_ with y := a } } }

/-- AceIO.py 308: the caller's array is stored (data/function.py, setter of `y`). -/
def HEd.setXs (e : HEd) (mt : MT) (a : Addr) : HEd :=
  e.modifyRx mt fun rx => { rx with xs := Dict.modify rx.xs e.temperature fun t => { t with y := a } }

/-- AceIO.py 282-310. -/
def setSigma (s : St K) (mt : MT) (v : HVal) : St K × Except PyErr Unit :=
  match Ace.getEnergy s.view mt with
  | .error e => (s, .error e)
  | .ok energy =>
    if (v.view s.heap).len ≠ energy.len then (s, .error .indexError)
    else match Ace.getSigma s.view mt none false with
      | .error e => (s, .error e)
      | .ok cur =>
        let s := s.remember mt cur
        if mt = 452 then match v with
          | .arr a => ({ s with ed := (s.ed.setNu a).addAdjusted mt }, .ok ())
          | .pdfs _ => (s, .error .typeError)
        else if mt = 1018 then match v with
          | .pdfs l => match setChiDistro s (l.map s.heap) with
            | (s, .error e) => (s, .error e)
            | (s, .ok ()) => ({ s with ed := s.ed.addAdjusted mt }, .ok ())
          | .arr _ => (s, .error .typeError)
        else match v with
          | .arr a => ({ s with ed := (s.ed.setXs mt a).addAdjusted mt }, .ok ())
          | .pdfs _ => (s, .error .typeError)

/-- AceIO.py 360-385: the sum is a new array. -/
def applyRule (s : St K) (rule : MT × List MT) : St K × Except PyErr Unit :=
  if rule.1 ∈ s.ed.allMts then
    let present := checkIfMtsPresent rule.2 s.ed.allMts
    if present ≠ [] then
      let adjPresent := checkIfMtsPresent s.ed.adjusted present
      if adjPresent ≠ [] then
        match sumValue s.view rule.1 adjPresent with
        | .error e => (s, .error e)
        | .ok v =>
          match setSigma (s.alloc v).1 rule.1 (.arr (s.alloc v).2) with
          | (s, .error e) => (s, .error e)
          | (s, .ok ()) => ({ s with ed := s.ed.addAdjusted rule.1 }, .ok ())
      else (s, .ok ())
    else (s, .ok ())
  else (s, .ok ())

/-- AceIO.py 359-385. -/
def applyRules (s : St K) : List (MT × List MT) → St K × Except PyErr Unit
  | [] => (s, .ok ())
  | r :: rs => match applyRule s r with
    | (s, .error e) => (s, .error e)
    | (s, .ok ()) => applyRules s rs

/-- AceIO.py 313-385. -/
def applySumRules (s : St K) : St K × Except PyErr Unit := applyRules s sumRules

/-- What a caller can do: make an array, change one in place, call the editor. -/
inductive Op (K : Type*) where
  | new (l : List K)
  | change (a : Addr) (l : List K)
  | getEnergy (mt : MT)
  | getSigma (mt : MT) (atEnergies : Option Addr) (unadjusted : Bool)
  | set (mt : MT) (v : HVal)
  | sums

/-- What the caller gets: a reference or references, nothing, or an exception. -/
def step (s : St K) : Op K → St K × Except PyErr (Option HVal)
  | .new l => ((s.alloc l).1, .ok (some (.arr (s.alloc l).2)))
  | .change a l => (s.poke a l, .ok none)
  | .getEnergy mt => (s, (getEnergy s mt).map some)
  | .getSigma mt at' u => ((getSigma s mt at' u).1, (getSigma s mt at' u).2.map some)
  | .set mt v => ((setSigma s mt v).1, (setSigma s mt v).2.map fun _ => none)
  | .sums => ((applySumRules s).1, (applySumRules s).2.map fun _ => none)

end
end ASAPy.Heap
