import Verif.Photon.ModelEndf
import Verif.Hdf5.Model
import Verif.Func.Model
import Verif.Tab1D.Integral
import Verif.Np

/-!
# Model of `IncidentPhoton.export_to_hdf5` (ASAPy/data/photon.py 652-788)

Over the reals. A file is the tree of `Verif/Hdf5/Model.lean`; what an export that raises leaves in the file is not modelled. The number of protons is positive: for `Z = 0` numpy would divide by zero.
-/

namespace ASAPy.Photon
open ASAPy.Endf (Line)
open ASAPy.Hdf5 (Grp Node Val)

/-- `IncidentPhoton`, lines 379-385. An empty dictionary is `none`. -/
structure PData where
  z : Int
  reactions : List (Int × PRx ℝ)
  relax : Option (Relax ℝ) := none
  compton : Option (Compton ℝ) := none
  stopping : Option (List ℝ × SGroup ℝ) := none
  brem : Option (List ℝ × List ℝ × List (List ℝ)) := none

/-- Lines 674-676: the union of the energies. A reaction without a cross section raises. -/
noncomputable def unionGrid (rxs : List (Int × PRx ℝ)) : Except PyErr (List ℝ) :=
  rxs.foldlM (fun g r => match r.2.xs with
    | none => .error .attributeError
    | some t => .ok (Func.union1d g t.x)) []

/-- `self[mt]`, `self.reactions[mt]`. -/
def reactionOf (rxs : List (Int × PRx ℝ)) (mt : Int) : Except PyErr (PRx ℝ) :=
  match Dict.get? rxs mt with
  | none => .error .keyError
  | some r => .ok r

/-- `create_group` and `create_dataset('xs', data=rx.xs(union_grid))`, lines 681-682, 699-700, 706-707, 711-712, 715-716. -/
noncomputable def xsGroup (r : PRx ℝ) (grid : List ℝ) : Except PyErr (Grp ℝ) :=
  match r.xs with
  | none => .error .typeError
  | some t => do
    let ys ← t.evals grid
    Grp.empty.add c!"xs" (.data (.vec ys) [])

/-- Lines 685-687: the squares. -/
noncomputable def squared (z : Int) (t : Tab1D ℝ) : Tab1D ℝ :=
  ⟨t.x.map fun v => v * v, t.y.map fun v => v * (v / (z : ℝ) ^ 2), t.breakpoints, t.interpolation⟩

/-- Lines 683-689: the integrated form factor; a table of two arrays of which `vstack` makes a dataset. -/
noncomputable def addFactor (z : Int) (g : Grp ℝ) : Option (Tab1D ℝ) → Except PyErr (Grp ℝ)
  | none => .ok g
  | some ff => do
    let s ← (squared z ff).integral
    if (squared z ff).x.length = s.length then
      g.add c!"integrated_scattering_factor" (.data (.nans (squared z ff).x s) [(c!"type", .str c!"Tabulated1D"), (c!"breakpoints", .ints [(ff.x.length : Int)]), (c!"interpolation", .ints [2])])
    else .error .valueError

/-- Lines 690-693 and 701-702. -/
def addTab (k : Line) (g : Grp ℝ) : Option (Tab1D ℝ) → Except PyErr (Grp ℝ)
  | none => .ok g
  | some t => do
    let n ← Hdf5.tabTo t
    g.add k n

/-- Lines 680-693. -/
noncomputable def addCoherent (p : PData) (grid : List ℝ) (g : Grp ℝ) : Except PyErr (Grp ℝ) := do
  let r ← reactionOf p.reactions 502
  let c ← xsGroup r grid
  let c ← addFactor p.z c r.factor
  let c ← addTab c!"anomalous_real" c r.real
  let c ← addTab c!"anomalous_imag" c r.imag
  g.add c!"coherent" c.node

/-- Lines 696-702. -/
noncomputable def addIncoherent (p : PData) (grid : List ℝ) (g : Grp ℝ) : Except PyErr (Grp ℝ) := do
  let r ← reactionOf p.reactions 504
  let c ← xsGroup r grid
  let c ← addTab c!"scattering_factor" c r.factor
  g.add c!"incoherent" c.node

/-- Lines 705-707 and 710-712. -/
noncomputable def addPair (p : PData) (grid : List ℝ) (mt : Int) (k : Line) (g : Grp ℝ) : Except PyErr (Grp ℝ) :=
  match Dict.get? p.reactions mt with
  | none => .ok g
  | some r => do
    let c ← xsGroup r grid
    g.add k c.node

/-- Lines 715-716. -/
noncomputable def addPhotoelectric (p : PData) (grid : List ℝ) (g : Grp ℝ) : Except PyErr (Grp ℝ) := do
  let r ← reactionOf p.reactions 522
  let c ← xsGroup r grid
  g.add c!"photoelectric" c.node

/-- Lines 735-738: `None` becomes 0, the first shell 1. Another text stays a text, which h5py does not write. -/
def shellCode : Option Line → Except PyErr ℝ
  | none => .ok 0
  | some s => match subshells.findIdx? (· = s) with
    | some i => .ok ((i : ℝ) + 1)
    | none => .error .typeError

/-- A row of `df.values`, line 739. -/
def transRow (t : Trans ℝ) : Except PyErr (List ℝ) := do
  let a ← shellCode t.secondary
  let b ← shellCode t.tertiary
  return [a, b, t.energy, t.probability]

/-- `relax.binding_energy[shell]` and `relax.num_electrons[shell]`. -/
def shellValue (d : List (Option Line × ℝ)) (s : Line) : Except PyErr ℝ :=
  match Dict.get? d (some s) with
  | none => .error .keyError
  | some v => .ok v

/-- Lines 727-739: what relaxation gives to the group of a shell. -/
noncomputable def addRelax (s : Line) (g : Grp ℝ) : Option (Relax ℝ) → Except PyErr (Grp ℝ)
  | none => .ok g
  | some r => do
    let b ← shellValue r.binding s
    let n ← shellValue r.electrons s
    let g := (g.attr c!"binding_energy" (.num b)).attr c!"num_electrons" (.num n)
    match Dict.get? r.transitions (some s) with
    | none => return g
    | some ts => do
      let rows ← ts.mapM transRow
      g.add c!"transitions" (.data (.rows rows) [])

/-- Lines 741-749: the cross section from the threshold on. The threshold is in the grid, so that the index is not negative. -/
noncomputable def addShellXs (t : Option (Tab1D ℝ)) (grid : List ℝ) (g : Grp ℝ) : Except PyErr (Grp ℝ) :=
  match t with
  | none => .error .attributeError
  | some t =>
    match t.x with
    | [] => .error .indexError
    | threshold :: _ => do
      let idx := Np.searchsortedRight grid threshold - 1
      let ys ← t.evals (grid.drop idx)
      if grid.length = ys.length + idx then
        g.add c!"xs" (.data (.vec ys) [(c!"threshold_idx", .int idx)])
      else .error .assertionError

/-- Lines 721-749: one round of the loop; the state is the group of the shells and the list of their names. -/
noncomputable def addShell (p : PData) (grid : List ℝ) (st : Grp ℝ × List Line) (r : Int × PRx ℝ) : Except PyErr (Grp ℝ × List Line) :=
  if r.1 ≥ 534 ∧ r.1 ≤ 572 then
    match subshells[(r.1 - 534).toNat]? with
    | none => .error .indexError
    | some s => do
      let g ← addRelax s Grp.empty p.relax
      let g ← addShellXs r.2.xs grid g
      let h ← st.1.add s g.node
      return (h, st.2 ++ [s])
  else .ok st

/-- Lines 719-751. -/
noncomputable def addShells (p : PData) (grid : List ℝ) (g : Grp ℝ) : Except PyErr (Grp ℝ) := do
  let st ← p.reactions.foldlM (addShell p grid) (Grp.empty, [])
  g.add c!"subshells" (st.1.attr c!"designators" (.strs st.2)).node

/-- Lines 754-768. Rows of different lengths make an array of objects, which h5py does not write. -/
def addCompton (g : Grp ℝ) : Option (Compton ℝ) → Except PyErr (Grp ℝ)
  | none => .ok g
  | some c =>
    match c.profiles with
    | [] => .error .indexError
    | j :: js =>
      if js.all fun t => t.y.length = j.y.length then
        g.add c!"compton_profiles" (.group [] [(c!"num_electrons", .data (.vec c.electrons) []), (c!"binding_energy", .data (.vec c.binding) []),
          (c!"pz", .data (.vec j.x) []), (c!"J", .data (.rows (c.profiles.map fun t => t.y)) [])])
      else .error .typeError

/-- Lines 771-778. -/
def addStopping (g : Grp ℝ) : Option (List ℝ × SGroup ℝ) → Except PyErr (Grp ℝ)
  | none => .ok g
  | some (e, s) => g.add c!"stopping_powers" (.group [(c!"I", .num s.i)] [(c!"energy", .data (.vec e) []), (c!"s_collision", .data (.vec s.collision) []),
      (c!"s_radiative", .data (.vec s.radiative) [])])

/-- Lines 781-788. -/
def addBrem (g : Grp ℝ) : Option (List ℝ × List ℝ × List (List ℝ)) → Except PyErr (Grp ℝ)
  | none => .ok g
  | some (e, k, d) => g.add c!"bremsstrahlung" (.group [] [(c!"electron_energy", .data (.vec e) []), (c!"photon_energy", .data (.vec k) []), (c!"dcs", .data (.rows d) [])])

/-- Lines 673-788: the group of the element. -/
noncomputable def elementGroup (p : PData) : Except PyErr (Grp ℝ) := do
  let grid ← unionGrid p.reactions
  let g ← (Grp.empty.attr c!"Z" (.int p.z)).add c!"energy" (.data (.vec grid) [])
  let g ← addCoherent p grid g
  let g ← addIncoherent p grid g
  let g ← addPair p grid 515 c!"pair_production_electron" g
  let g ← addPair p grid 517 c!"pair_production_nuclear" g
  let g ← addPhotoelectric p grid g
  let g ← addShells p grid g
  let g ← addCompton g p.compton
  let g ← addStopping g p.stopping
  addBrem g p.brem

/-- Lines 666-668: the kind of the file, and the version if there is none. -/
def stamped (f : Grp ℝ) : Grp ℝ :=
  let f := f.attr c!"filetype" (.str c!"data_photon")
  if (Dict.get? f.attrs c!"version").isSome then f else f.attr c!"version" (.ints [2, 0])

/-- `export_to_hdf5`, lines 664-788: from what the file holds to what it holds afterwards. -/
noncomputable def exportHdf5 (f : Grp ℝ) (p : PData) : Except PyErr (Grp ℝ) :=
  match Dict.get? AceData.atomicSymbol p.z with
  | none => .error .keyError
  | some name =>
    if f.has name then .error .valueError
    else do
      let g ← elementGroup p
      (stamped f).add name g.node

end ASAPy.Photon
