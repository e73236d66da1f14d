import Verif.EndfRx.Model

/-!
# Model of a nuclide read from an evaluation

`IncidentNeutron.from_endf` (ASAPy/data/neutron.py 707-790) without covariances (the argument is false by default; see `Verif.ResCov.Model`) and without the release of energy by fission, section
(1, 458).
-/

namespace ASAPy.EndfRx
open ASAPy.Endf
open ASAPy.Func (Fn)

/-- What `Evaluation` holds: its sections, `ev.target`, `ev.info['energy_max']` and the files and sections of `ev.reaction_list`. -/
structure Evaluation extends Ev where
  z : Int
  a : Int
  m : Int
  temperature : ℚ
  list : List (Int × Int)

/-- The attribute `kTs`: a list of energies, or a number. -/
inductive KTs where
  | list (l : List ℚ)
  | number (q : ℚ)
deriving DecidableEq

/-- `IncidentNeutron`. In `resonant` are the numbers of the reactions whose cross section at 0 K is `ResonancesWithBackground` (function.py 592-641) of the resonances and the table. -/
structure Nuclide where
  name : Line
  z : Int
  a : Int
  m : Int
  awr : ℚ
  kTs : KTs
  resonances : Option (List Res.Range)
  reactions : List (Int × Rx)
  resonant : List Int
deriving DecidableEq

/-- Lines 739-745. -/
def nuclideName (z a m : Int) : Except PyErr Line :=
  match Dict.get? AceData.atomicSymbol z with
  | none => .error .keyError
  | some s => .ok (if m > 0 then s ++ AceData.intStr a ++ c!"_m" ++ AceData.intStr m else s ++ AceData.intStr a)

/-- The setters, lines 182-204. -/
def newNuclide (name : Line) (z a m : Int) (awr : ℚ) (kTs : KTs) : Except PyErr Nuclide :=
  if z < 0 ∨ a < 0 ∨ m < 0 ∨ awr ≤ 0 then .error .valueError else .ok ⟨name, z, a, m, awr, kTs, none, [], []⟩

/-- Lines 751-752. -/
def readResonances (ev : Evaluation) : Except PyErr (Option (List Res.Range)) :=
  match Dict.get? ev.sections (2, 151) with
  | none => .ok none
  | some f => do
    let rs ← Res.fromEndf ev.mass f
    return some rs

variable [ExpLog ℚ]

/-- Lines 760-762: each reaction. -/
def readReactions (ev : Ev) : List (Int × Int) → List (Int × Rx) → Except PyErr (List (Int × Rx))
  | [], d => .ok d
  | (mf, mt) :: l, d =>
    if mf = 3 then do
      let r ← rxFromEndf ev mt
      readReactions ev l (Dict.set d mt r)
    else readReactions ev l d

/-- `isinstance(r, res._RESOLVED)`, resonance.py 1070-1071. -/
def isResolved : Res.Range → Bool
  | .bw _ => true
  | .rm _ => true
  | .rml _ => true
  | _ => false

/-- Lines 768-771 for the numbers in the list. -/
def replaceXs (d : List (Int × Rx)) : List Int → Except PyErr (List Int)
  | [] => .ok []
  | mt :: l =>
    match Dict.get? d mt with
    | none => replaceXs d l
    | some rx =>
      match rx.xs with
      | none => .error .keyError
      | some _ => do
        let l ← replaceXs d l
        return mt :: l

/-- Lines 765-774. `None` is not iterable; TypeError is not caught. -/
def resonantXs (rs : Option (List Res.Range)) (d : List (Int × Rx)) : Except PyErr (List Int) :=
  match rs with
  | none => .error .typeError
  | some rs => if rs.any isResolved then replaceXs d [2, 102, 18] else .ok []

/-- Lines 779-784 for one reaction. -/
def copyFission (ev : Ev) (d : List (Int × Rx)) (e : Int × Rx) : Except PyErr (Int × Rx) :=
  if e.1 ∈ [(19 : Int), 20, 21, 38] ∧ ev.has 5 e.1 = false then
    match Dict.get? d 18 with
    | none => .error .keyError
    | some r18 =>
      match r18.products with
      | [] => .error .indexError
      | n :: _ =>
        match e.2.products with
        | [] => .error .indexError
        | p :: ps => .ok (e.1, { e.2 with products := { p with applicability := n.applicability, dist := n.dist } :: ps })
  else .ok e

/-- `IncidentNeutron.from_endf`, lines 707-790. The third argument of the class for energies is given the temperature. -/
def nuclideFromEndf (ev : Evaluation) : Except PyErr Nuclide := do
  let name ← nuclideName ev.z ev.a ev.m
  let n ← newNuclide name ev.z ev.a ev.m ev.mass (.number ev.temperature)
  let rs ← readResonances ev
  let d ← readReactions ev.toEv ev.list []
  let rm ← resonantXs rs d
  let d ← d.mapM (copyFission ev.toEv d)
  return { n with resonances := rs, reactions := d, resonant := rm }

/-- `IncidentNeutron.temperatures`, lines 169-171, with `k` for `K_BOLTZMANN` and `text` for the format: numbers are not iterable. -/
def temperatures (k : ℚ) (text : ℚ → Line) : KTs → Except PyErr (List Line)
  | .number _ => .error .typeError
  | .list l => .ok (l.map fun t => text (t / k))

end ASAPy.EndfRx
