import Verif.Photon.ModelAce

/-!
# Model of photon data read from evaluations (ASAPy/data/photon.py)

`PhotonReaction.from_endf` 951-1000, `IncidentPhoton.from_endf` 523-650 with the three dictionaries of the module (93-107) that keep the data of `compton_profiles.h5`, `stopping_powers.h5` and `BREMX.DAT`
from the first call on. The two HDF5 files are given by what they hold; the cubic spline of `scipy` and the grid `np.logspace(3, 9, 200)` are parameters. Numbers of all files are in one type `K`
with a function from the decimals of evaluations to it.
-/

namespace ASAPy.Photon
open ASAPy.Endf
open ASAPy.EndfRx (rdTab)
open ASAPy.FromAce (item slice)

/-- A section with a HEAD record and a TAB1 record, lines 970-973, 982-985, 990-998; `none` if it is not there. -/
def tabSection (sections : List ((Int × Int) × List Line)) (mf mt : Int) : Except PyErr (Option ((ℚ × ℚ × Int × Int) × Tab1D ℚ)) :=
  match Dict.get? sections (mf, mt) with
  | none => .ok none
  | some f => do
    let (_, f) ← getHead f
    let (r, _) ← rdTab f
    return some r

/-- `PhotonReaction.from_endf`, lines 951-1000. -/
def prxFromEndf (sections : List ((Int × Int) × List Line)) (mt : Int) : Except PyErr (PRx ℚ) := do
  let xs ← tabSection sections 23 mt
  let factor ← tabSection sections 27 mt
  let real ← if mt = 502 then tabSection sections 27 506 else pure none
  let imag ← if mt = 502 then tabSection sections 27 505 else pure none
  return { mt := mt, xs := xs.map (·.2), factor := factor.map (·.2), real := real.map (·.2), imag := imag.map (·.2),
           binding := if mt ≥ 534 ∧ mt ≤ 599 then xs.map (·.1.1) else none, fluorescence := if mt ≥ 534 ∧ mt ≤ 572 then xs.map (·.1.2.1) else none }

/-- The loop of lines 549-551. -/
def photonRxs (sections : List ((Int × Int) × List Line)) : List (Int × Int) → List (Int × PRx ℚ) → Except PyErr (List (Int × PRx ℚ))
  | [], d => .ok d
  | (mf, mt) :: l, d =>
    if mf = 23 then do
      let r ← prxFromEndf sections mt
      photonRxs sections l (Dict.set d mt r)
    else photonRxs sections l d

section
variable {K : Type} [Field K]

/-- A group of `compton_profiles.h5`. -/
structure CGroup (K : Type) where
  electrons : List K
  binding : List K
  j : List (List K)

/-- A group of `stopping_powers.h5`. -/
structure SGroup (K : Type) where
  i : K
  collision : List K
  radiative : List K

/-- The files beside the module. A number without a group is a group that is missing. -/
structure Files (K : Type) where
  pz : List K
  compton : Int → Option (CGroup K)
  energy : List K
  stopping : Int → Option (SGroup K)
  brem : List Line

/-- A dictionary of the module: entries under a text are kept apart from those under atomic numbers. -/
structure Cache (H E : Type) where
  head : Option H := none
  entries : List (Int × E) := []

/-- `not cache`. -/
def Cache.isEmpty {H E : Type} (c : Cache H E) : Bool := c.head.isNone && c.entries.isEmpty

/-- The three dictionaries, lines 93-107. Under texts: `pz`; `energy`; `electron_energy` and, once it is there, `photon_energy`. -/
structure Caches (K : Type) where
  compton : Cache (List K) (CGroup K) := {}
  stopping : Cache (List K) (SGroup K) := {}
  brem : Cache (List K × Option (List K)) (List (List K)) := {}

/-- Entries `f i` for the numbers from `i` on, until one fails: what the dictionary holds then, and whether it went through. -/
def fillFrom {E : Type} (f : Int → Except PyErr E) : Nat → Int → List (Int × E) → List (Int × E) × Except PyErr Unit
  | 0, _, d => (d, .ok ())
  | n + 1, i, d =>
    match f i with
    | .error e => (d, .error e)
    | .ok v => fillFrom f n (i + 1) (Dict.set d i v)

/-- Lines 560-571. -/
def loadCompton (w : Files K) (c : Cache (List K) (CGroup K)) : Cache (List K) (CGroup K) × Except PyErr Unit :=
  if c.isEmpty then
    let r := fillFrom (fun i => match w.compton i with
      | none => .error .keyError
      | some g => .ok ⟨g.electrons, g.binding.map (· * 1000000), g.j⟩) 100 1 []
    (⟨some w.pz, r.1⟩, r.2)
  else (c, .ok ())

/-- Lines 581-595. -/
def loadStopping (w : Files K) (c : Cache (List K) (SGroup K)) : Cache (List K) (SGroup K) × Except PyErr Unit :=
  if c.isEmpty then
    let r := fillFrom (fun i => match w.stopping i with
      | none => .error .keyError
      | some g => .ok ⟨g.i, g.collision.map (· * 1000000), g.radiative.map (· * 1000000)⟩) 98 1 []
    (⟨some (w.energy.map (· * 1000000)), r.1⟩, r.2)
  else (c, .ok ())

/-- `np.fromiter(words, float, n)`: all words must be numbers and there must be `n` of them. -/
def fromIter (toK : ℚ → K) (ws : List Line) (n : Int) : Except PyErr (List K) := do
  let vs ← ws.mapM fun w => (pyFloat w).map toK
  if (vs.length : Int) = n then .ok vs else .error .valueError

/-- Lines 626-643 for one atomic number: `y[:,j]` are the numbers `j`, `j + k`, ... of its block, which begins at `p`. The result has a list for each of the `k` photon energies. -/
def bremEntry (toK : ℚ → K) (spline : List K → List K → K → K) (grid logx : List K) (words : List Line) (n k p : Int) : Except PyErr (List (List K)) := do
  let y ← fromIter toK (slice words p (p + n * k)) (n * k)
  return (List.range k.toNat).map fun j =>
    let col := (List.range n.toNat).filterMap fun r => (y[r * k.toNat + j]?).map (· / 1000)
    grid.map (spline logx col)

variable [ExpLog K]

/-- Lines 602-645. The dictionary has `electron_energy` before anything is read from the words, and `photon_energy` before the entries. -/
def loadBrem (toK : ℚ → K) (spline : List K → List K → K → K) (grid : List K) (w : Files K) (c : Cache (List K × Option (List K)) (List (List K))) :
    Cache (List K × Option (List K)) (List (List K)) × Except PyErr Unit :=
  if c.isEmpty then
    let start : Except PyErr (Int × Int × List K × List K) := do
      let n ← item w.brem 37 >>= pyInt
      let k ← item w.brem 38 >>= pyInt
      let xs ← fromIter toK (slice w.brem 39 (39 + n)) n
      let ks ← fromIter toK (slice w.brem (39 + n) (39 + n + k)) k
      return (n, k, xs.map fun x => ExpLog.log (x * 1000000), ks)
    match start with
    | .error e => (⟨some (grid, none), []⟩, .error e)
    | .ok (n, k, logx, ks) =>
      let r := fillFrom (fun i => bremEntry toK spline (grid.map ExpLog.log) logx w.brem n k (39 + n + k + (i - 1) * (k * n))) 100 1 []
      (⟨some (grid, some ks), r.1⟩, r.2)
  else (c, .ok ())

/-- What an element has from the three dictionaries. -/
structure Extra (K : Type) where
  compton : Compton K
  stopping : Option (List K × SGroup K)
  brem : List K × List K × List (List K)

/-- `cache[key]` for one of the texts. -/
def headOf {H E : Type} (c : Cache H E) : Except PyErr H := match c.head with
  | none => .error .keyError
  | some h => .ok h

/-- `cache[Z]`. -/
def entryOf {H E : Type} (c : Cache H E) (z : Int) : Except PyErr E := match Dict.get? c.entries z with
  | none => .error .keyError
  | some e => .ok e

/-- Lines 557-650: the data of the three files for an element, and the dictionaries afterwards. -/
def extra (toK : ℚ → K) (spline : List K → List K → K → K) (grid : List K) (w : Files K) (z : Int) (s : Caches K) : Caches K × Except PyErr (Extra K) :=
  match loadCompton w s.compton with
  | (c, .error e) => ({ s with compton := c }, .error e)
  | (c, .ok _) =>
    let s := { s with compton := c }
    match (do
      let pz ← headOf c
      let g ← entryOf c z
      pure (⟨g.electrons, g.binding, g.j.map (.linlin pz)⟩ : Compton K)) with
    | .error e => (s, .error e)
    | .ok compton =>
      match loadStopping w s.stopping with
      | (c, .error e) => ({ s with stopping := c }, .error e)
      | (c, .ok _) =>
        let s := { s with stopping := c }
        match (if z < 99 then do
          let e ← headOf c
          let g ← entryOf c z
          pure (some (e, g)) else pure none : Except PyErr _) with
        | .error e => (s, .error e)
        | .ok stopping =>
          match loadBrem toK spline grid w s.brem with
          | (c, .error e) => ({ s with brem := c }, .error e)
          | (c, .ok _) =>
            let s := { s with brem := c }
            (s, do
              let h ← headOf c
              let ks ← match h.2 with
                | none => .error .keyError
                | some ks => .ok ks
              let g ← entryOf c z
              pure ⟨compton, stopping, (h.1, ks, g)⟩)

/-- An evaluation: sections, atomic number of the target, list of sections. -/
structure PEv where
  sections : List ((Int × Int) × List Line)
  z : Int
  list : List (Int × Int)

/-- `IncidentPhoton.from_endf(photoatomic, relaxation)`, lines 523-650, and the dictionaries afterwards; the atomic number is checked by the constructor (415-418). -/
def photonFromEndf (toK : ℚ → K) (spline : List K → List K → K → K) (grid : List K) (w : Files K) (ev : PEv) (relaxation : Option (List ((Int × Int) × List Line))) (s : Caches K) :
    Caches K × Except PyErr (List (Int × PRx ℚ) × Option (Relax ℚ) × Extra K) :=
  match (do
    if ev.z < 0 then .error .valueError
    let rs ← photonRxs ev.sections ev.list []
    let relax ← match relaxation with
      | none => pure none
      | some r => do
        let r ← relaxFromEndf r
        pure (some r)
    pure (rs, relax) : Except PyErr _) with
  | .error e => (s, .error e)
  | .ok (rs, relax) =>
    match extra toK spline grid w ev.z s with
    | (s, .error e) => (s, .error e)
    | (s, .ok x) => (s, .ok (rs, relax, x))

/-- Calls one after another. -/
def photonCalls (toK : ℚ → K) (spline : List K → List K → K → K) (grid : List K) (w : Files K) :
    List (PEv × Option (List ((Int × Int) × List Line))) → Caches K → List (Except PyErr (List (Int × PRx ℚ) × Option (Relax ℚ) × Extra K))
  | [], _ => []
  | (ev, r) :: l, s =>
    let (s, out) := photonFromEndf toK spline grid w ev r s
    out :: photonCalls toK spline grid w l s

end

end ASAPy.Photon
