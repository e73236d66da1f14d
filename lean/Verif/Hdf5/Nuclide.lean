import Verif.Hdf5.Model
import Verif.Components.Model
import Verif.Func.Model
import Verif.Dists.Model

/-!
# Model of the HDF5 form of products, reactions and nuclides

ASAPy/data: product.py 123-187, reaction.py 873-952, urr.py 132-172, fission_energy.py 336-380, neutron.py 401-568.

A group is added to its parent when it is filled; in Python it is created first. `np.bool_` and numbers of numpy are Python's. h5py goes through the items of a group in an
order of its own (by name): `ord` gives this order.
-/

namespace ASAPy.Hdf5

open ASAPy Dec

/-! ### product.py -/

structure Product (K : Type) where
  particle : Text
  mode : Text
  decay : K
  yield_ : Fun1 K
  applicability : List (Tab1D K)
  dists : List (Dist K)

section product
variable {K : Type} [Field K] [LinearOrder K]

/-- `'distribution_{}'.format(i)`. -/
def distName (i : Nat) : Text := c!"distribution_" ++ natStr i

/-- product.py 142-146: the group of distribution `i`. -/
def distGroup (app : List (Tab1D K)) (i : Nat) (d : Dist K) : Except PyErr (Grp K) :=
  if app.isEmpty then distTo Grp.empty d else match app[i]? with
    | some t => do distTo (← Grp.empty.add c!"applicability" (← tabTo t)) d
    | none => .error .indexError

/-- product.py 141-146. -/
def distsTo (app : List (Tab1D K)) : List (Dist K) → Nat → Grp K → Except PyErr (Grp K)
  | [], _, g => .ok g
  | d :: ds, i, g => do distsTo app ds (i + 1) (← g.add (distName i) (← distGroup app i d).node)

/-- `Product.to_hdf5`, product.py 123-146. -/
def productTo (p : Product K) : Except PyErr (Grp K) := do
  let g := ((Grp.empty : Grp K).attr c!"particle" (.str p.particle)).attr c!"emission_mode" (.str p.mode)
  let g := if 0 < p.decay then g.attr c!"decay_rate" (.num p.decay) else g
  let g ← g.add c!"yield" (← funTo p.yield_)
  distsTo p.applicability p.dists 0 (g.attr c!"n_distribution" (.int p.dists.length))

/-- product.py 179-181. -/
def appFrom (g : Grp K) : Except PyErr (List (Tab1D K)) := if g.has c!"applicability" then (do .ok [← tabFrom (← g.dset c!"applicability")]) else .ok []

/-- product.py 182, 184: a distribution of an unknown kind makes the setter raise. -/
def knownDist (g : Grp K) : Except PyErr (Dist K) := do
  match ← distFrom g with
  | some d => .ok d
  | none => .error .typeError

/-- product.py 174-183: `k` distributions from `i` on. -/
def distsFrom (g : Grp K) : Nat → Nat → Except PyErr (List (Tab1D K) × List (Dist K))
  | 0, _ => .ok ([], [])
  | k + 1, i => do
    let dg ← g.group (distName i)
    let a ← appFrom dg
    let d ← knownDist dg
    let (as, ds) ← distsFrom g k (i + 1)
    .ok (a ++ as, d :: ds)

/-- product.py 167-168. -/
def decayFrom (a : Attrs K) : Except PyErr K := if (Dict.get? a c!"decay_rate").isSome then (do (← getAttr a c!"decay_rate").toNum) else .ok 0

/-- `Product.from_hdf5`, product.py 149-187, with the checks of the setters 90-121. -/
def productFrom (g : Grp K) : Except PyErr (Product K) := do
  let particle ← (← getAttr g.attrs c!"particle").toStr
  let mode ← (← getAttr g.attrs c!"emission_mode").toStr
  if ¬ (mode = c!"prompt" ∨ mode = c!"delayed" ∨ mode = c!"total") then .error .valueError
  else
    let decay ← decayFrom g.attrs
    if ¬ 0 ≤ decay then .error .valueError
    else
      let y ← funFrom (← g.dset c!"yield")
      let n ← (← getAttr g.attrs c!"n_distribution").toInt
      let (a, d) ← distsFrom g n.toNat 0
      .ok ⟨particle, mode, decay, y, a, d⟩

end product

/-! ### reaction.py -/

/-- Cross sections: a table with the index of its threshold (`_threshold_idx`), if it has one, or a `Sum`. -/
inductive Xs (K : Type) where
  | tab (t : Tab1D K) (threshold : Option Nat)
  | sum (fs : List (Xs K))

structure Reaction (K : Type) where
  mt : Nat
  q : K
  com : Bool
  redundant : Bool
  xs : List (Text × Option (Xs K))
  products : List (Product K)
  derived : List (Product K)

section reaction
variable {K : Type} [Field K] [LinearOrder K]

/-- `'product_{}'.format(i)`. -/
def prodName (i : Nat) : Text := c!"product_" ++ natStr i

/-- reaction.py 891-899: the group of a temperature. A `Sum` has no attribute `y`. -/
def xsGroup : Option (Xs K) → Except PyErr (Grp K)
  | none => .ok Grp.empty
  | some (.tab t th) => Grp.empty.add c!"xs" (.data (.vec t.y) [(c!"threshold_idx", .int ((th.getD 0 : Nat) + 1))])
  | some (.sum _) => .error .exception

/-- reaction.py 890-899. -/
def xsTo : List (Text × Option (Xs K)) → Grp K → Except PyErr (Grp K)
  | [], g => .ok g
  | (T, x) :: l, g => do xsTo l (← g.add T (← xsGroup x).node)

/-- reaction.py 900-902. -/
def productsTo : List (Product K) → Nat → Grp K → Except PyErr (Grp K)
  | [], _, g => .ok g
  | p :: ps, i, g => do productsTo ps (i + 1) (← g.add (prodName i) (← productTo p).node)

/-- `Reaction.to_hdf5`, reaction.py 873-902. `label` is the text stored for a reader. -/
def reactionTo (label : Nat → Text) (r : Reaction K) : Except PyErr (Grp K) := do
  let g := ((((Grp.empty : Grp K).attr c!"mt" (.int r.mt)).attr c!"label" (.str (label r.mt))).attr c!"Q_value" (.num r.q)).attr c!"center_of_mass" (.int (if r.com then 1 else 0))
  let g ← xsTo r.xs (g.attr c!"redundant" (.int (if r.redundant then 1 else 0)))
  productsTo r.products 0 g

/-- `T.endswith('K')`. -/
def endsK (T : Text) : Bool := T.getLast? == some 'K'

/-- reaction.py 929-941. The index in the file is at least 1, as it is written. -/
def xsFrom (energy : List (Text × List K)) : List (Text × Node K) → List (Text × Option (Xs K)) → Except PyErr (List (Text × Option (Xs K)))
  | [], acc => .ok acc
  | (T, n) :: l, acc =>
    if endsK T then
      match n with
      | .data _ _ => .error .typeError
      | .group a i => if (Dict.get? i c!"xs").isNone then xsFrom energy l acc
        else match Dict.get? energy T with
          | none => .error .valueError
          | some e => do
            let d ← Grp.dset ⟨a, i⟩ c!"xs"
            let y ← d.1.toVec
            let th := (← (← getAttr d.2 c!"threshold_idx").toInt) - 1
            xsFrom energy l (Dict.set acc T (some (.tab (Tab1D.linlin (e.drop th.toNat) y) (some th.toNat))))
    else xsFrom energy l acc

/-- reaction.py 950-952. -/
def productsFrom (g : Grp K) : Nat → Nat → Except PyErr (List (Product K))
  | 0, _ => .ok []
  | k + 1, i => do .ok ((← productFrom (← g.group (prodName i))) :: (← productsFrom g k (i + 1)))

/-- `name.startswith('product_')`. -/
def isProduct (k : Text) : Bool := c!"product_".isPrefixOf k

/-- reaction.py 926: `group.attrs.get('redundant', False)`. -/
def redundantFrom (a : Attrs K) : Except PyErr Int := if (Dict.get? a c!"redundant").isSome then (do (← getAttr a c!"redundant").toInt) else .ok 0

/-- `Reaction.from_hdf5`, reaction.py 905-954. -/
def reactionFrom (ord : List (Text × Node K) → List (Text × Node K)) (g : Grp K) (energy : List (Text × List K)) : Except PyErr (Reaction K) := do
  let mt ← (← getAttr g.attrs c!"mt").toInt
  let q ← (← getAttr g.attrs c!"Q_value").toNum
  let com ← (← getAttr g.attrs c!"center_of_mass").toInt
  let red ← redundantFrom g.attrs
  let xs ← xsFrom energy (ord g.items) []
  let ps ← productsFrom g ((ord g.items).filter fun e => isProduct e.1).length 0
  .ok ⟨mt.toNat, q, decide (com ≠ 0), decide (red ≠ 0), xs, ps, []⟩

end reaction

/-! ### urr.py and fission_energy.py -/

section tables
variable {K : Type} [Field K] [LinearOrder K]

/-- `ProbabilityTables.to_hdf5`, urr.py 132-148. -/
def urrTo (u : Dists.Urr K) : Except PyErr (Grp K) := do
  let g := ((((Grp.empty : Grp K).attr c!"interpolation" (.int u.interpolation)).attr c!"inelastic" (.int u.inelasticFlag)).attr c!"absorption" (.int u.absorptionFlag)).attr
    c!"multiply_smooth" (.int (if u.multiplySmooth then 1 else 0))
  let g ← g.add c!"energy" (.data (.vec u.energy) [])
  g.add c!"table" (.data (.cube u.table) [])

/-- `ProbabilityTables.from_hdf5`, urr.py 151-172. -/
def urrFrom (g : Grp K) : Except PyErr (Dists.Urr K) := do
  .ok ⟨← (← g.dset c!"energy").1.toVec, ← (← g.dset c!"table").1.toCube, ← (← getAttr g.attrs c!"interpolation").toInt, ← (← getAttr g.attrs c!"inelastic").toInt,
    ← (← getAttr g.attrs c!"absorption").toInt, decide ((← (← getAttr g.attrs c!"multiply_smooth").toInt) ≠ 0)⟩

/-- A function of `Verif.Func` as one of this model. -/
def ofFn : Func.Fn K → Fun1 K
  | .tab t => .tab t
  | .poly c => .poly c

def toFn : Fun1 K → Func.Fn K
  | .tab t => .tab t
  | .poly c => .poly c

/-- `FissionEnergyRelease.to_hdf5`, fission_energy.py 361-380. -/
def releaseTo [ExpLog K] (r : Func.Release K) : Except PyErr (Grp K) := do
  let g ← (Grp.empty : Grp K).add c!"fragments" (← funTo (ofFn r.fragments))
  let g ← g.add c!"prompt_neutrons" (← funTo (ofFn r.promptNeutrons))
  let g ← g.add c!"delayed_neutrons" (← funTo (ofFn r.delayedNeutrons))
  let g ← g.add c!"prompt_photons" (← funTo (ofFn r.promptPhotons))
  let g ← g.add c!"delayed_photons" (← funTo (ofFn r.delayedPhotons))
  let g ← g.add c!"betas" (← funTo (ofFn r.betas))
  let g ← g.add c!"neutrinos" (← funTo (ofFn r.neutrinos))
  let g ← g.add c!"q_prompt" (← funTo (ofFn (← r.qPrompt)))
  g.add c!"q_recoverable" (← funTo (ofFn (← r.qRecoverable)))

/-- `FissionEnergyRelease.from_hdf5`, fission_energy.py 335-359. -/
def releaseFrom (g : Grp K) : Except PyErr (Func.Release K) := do
  .ok ⟨toFn (← funFrom (← g.dset c!"fragments")), toFn (← funFrom (← g.dset c!"prompt_neutrons")), toFn (← funFrom (← g.dset c!"delayed_neutrons")),
    toFn (← funFrom (← g.dset c!"prompt_photons")), toFn (← funFrom (← g.dset c!"delayed_photons")), toFn (← funFrom (← g.dset c!"betas")), toFn (← funFrom (← g.dset c!"neutrinos"))⟩

end tables

/-! ### neutron.py -/

structure Nuclide (K : Type) where
  z : Int
  a : Int
  m : Int
  awr : K
  kTs : List K
  energy : List (Text × List K)
  reactions : List (Nat × Reaction K)
  urr : List (Text × Dists.Urr K)
  fission : Option (Func.Release K)

section nuclide
variable {K : Type} [Field K] [LinearOrder K]

/-- `'reaction_{:03}'.format(mt)`: at least three digits. -/
def rxName (mt : Nat) : Text := c!"reaction_" ++ (List.replicate (3 - (natStr mt).length) '0' ++ natStr mt)

/-- neutron.py 433-434. `temp kT` is the name of a temperature, `'{}K'.format(int(round(kT / K_BOLTZMANN)))`. -/
def kTsTo (temp : K → Text) : List K → Grp K → Except PyErr (Grp K)
  | [], g => .ok g
  | kT :: l, g => do kTsTo temp l (← g.add (temp kT) (.data (.num kT) []))

/-- neutron.py 438-439. -/
def energyGridsTo (energy : List (Text × List K)) : List Text → Grp K → Except PyErr (Grp K)
  | [], g => .ok g
  | T :: l, g => match Dict.get? energy T with
    | none => .error .keyError
    | some e => do energyGridsTo energy l (← g.add T (.data (.vec e) []))

/-- neutron.py 451-455: is the reaction written? -/
def written (r : Reaction K) : Bool := !r.redundant || r.products.any (fun p => p.particle == c!"photon") || (r.mt ∈ [16, 103, 104, 105, 106, 107] : Bool) || r.mt == 4

/-- neutron.py 460-463: the first total yield. -/
def nuTo (r : Reaction K) (nu : Option (Grp K)) : Except PyErr (Option (Grp K)) :=
  match r.derived, nu with
  | p :: _, none => do .ok (some (← productTo p))
  | _, nu => .ok nu

/-- neutron.py 446-463: the group of the reactions and the total yield, if it is written. -/
def reactionsTo (label : Nat → Text) : List (Reaction K) → Grp K → Option (Grp K) → Except PyErr (Grp K × Option (Grp K))
  | [], g, nu => .ok (g, nu)
  | r :: l, g, nu =>
    if written r then do
      let g ← g.add (rxName r.mt) (← reactionTo label r).node
      let nu ← nuTo r nu
      reactionsTo label l g nu
    else reactionsTo label l g nu

/-- neutron.py 466-470. -/
def urrsTo : List (Text × Dists.Urr K) → Grp K → Except PyErr (Grp K)
  | [], g => .ok g
  | (T, u) :: l, g => do urrsTo l (← g.add T (← urrTo u).node)

/-- neutron.py 437-443. -/
def gridsTo (energy : List (Text × List K)) (temps : List Text) : Except PyErr (Grp K) := do
  let eg ← energyGridsTo energy temps Grp.empty
  match Dict.get? energy c!"0K" with
    | some e => if eg.has c!"0K" then .ok eg else eg.add c!"0K" (.data (.vec e) [])
    | none => .ok eg

/-- An item that is not always there. -/
def Grp.addIf (g : Grp K) (k : Text) : Option (Grp K) → Except PyErr (Grp K)
  | some t => g.add k t.node
  | none => .ok g

/-- neutron.py 466-470. -/
def urrGroup (l : List (Text × Dists.Urr K)) : Except PyErr (Option (Grp K)) := if l.isEmpty then .ok none else do .ok (some (← urrsTo l Grp.empty))

/-- neutron.py 473-475. -/
def releaseGroup [ExpLog K] : Option (Func.Release K) → Except PyErr (Option (Grp K))
  | some r => do .ok (some (← releaseTo r))
  | none => .ok none

/-- `IncidentNeutron.export_to_hdf5`, neutron.py 401-477: the group of the nuclide. -/
def nuclideTo [ExpLog K] (temp : K → Text) (label : Nat → Text) (n : Nuclide K) : Except PyErr (Grp K) := do
  let g := ((((Grp.empty : Grp K).attr c!"Z" (.int n.z)).attr c!"A" (.int n.a)).attr c!"metastable" (.int n.m)).attr c!"atomic_weight_ratio" (.num n.awr)
  let g ← g.add c!"kTs" (← kTsTo temp n.kTs Grp.empty).node
  let g ← g.add c!"energy" (← gridsTo n.energy (n.kTs.map temp)).node
  let (rg, nu) ← reactionsTo label (n.reactions.map Prod.snd) Grp.empty none
  let g ← g.add c!"reactions" rg.node
  let g ← g.addIf c!"total_nu" nu
  let g ← g.addIf c!"urr" (← urrGroup n.urr)
  g.addIf c!"fission_energy_release" (← releaseGroup n.fission)

/-- neutron.py 519-521. -/
def kTsFrom : List (Text × Node K) → Except PyErr (List K)
  | [] => .ok []
  | (_, .data v _) :: l => do .ok ((← v.toNum) :: (← kTsFrom l))
  | (_, .group _ _) :: _ => .error .typeError

/-- neutron.py 528-529. -/
def energyFromItems : List (Text × Node K) → List (Text × List K) → Except PyErr (List (Text × List K))
  | [], acc => .ok acc
  | (T, .data v _) :: l, acc => do energyFromItems l (Dict.set acc T (← v.toVec))
  | (_, .group _ _) :: _, _ => .error .typeError

/-- The reactions that get the total yield, neutron.py 539. -/
def fissionMts : List Nat := [18, 19, 20, 21, 38]

/-- neutron.py 539-541, 551-553: the total yield for a reaction. -/
def nuFor (g : Grp K) (mts : List Nat) (mt : Nat) : Except PyErr (List (Product K)) :=
  if mt ∈ mts ∧ g.has c!"total_nu" = true then do .ok [← productFrom (← g.group c!"total_nu")] else .ok []

/-- neutron.py 533-541. -/
def reactionsFrom (ord : List (Text × Node K) → List (Text × Node K)) (g : Grp K) (energy : List (Text × List K)) :
    List (Text × Node K) → List (Nat × Reaction K) → Except PyErr (List (Nat × Reaction K))
  | [], acc => .ok acc
  | (name, n) :: l, acc =>
    if c!"reaction_".isPrefixOf name then
      match n with
      | .data _ _ => .error .typeError
      | .group a i => do
        let r ← reactionFrom ord ⟨a, i⟩ energy
        let nu ← nuFor g fissionMts r.mt
        reactionsFrom ord g energy l (Dict.set acc r.mt { r with derived := nu })
    else reactionsFrom ord g energy l acc

/-- neutron.py 555: `rx_i.xs[T]` for all parts. A part without a cross section makes `Sum` raise. -/
def xsAt (T : Text) : List (Reaction K) → Except PyErr (List (Xs K))
  | [] => .ok []
  | r :: l => match Dict.get? r.xs T with
    | none => .error .keyError
    | some none => .error .typeError
    | some (some x) => do .ok (x :: (← xsAt T l))

/-- neutron.py 554-555. -/
def sumXs (rs : List (Reaction K)) : List Text → List (Text × Option (Xs K)) → Except PyErr (List (Text × Option (Xs K)))
  | [], acc => .ok acc
  | T :: l, acc => do sumXs rs l (Dict.set acc T (some (.sum (← xsAt T rs))))

/-- neutron.py 545-555: the redundant reactions, in the order of the rules given. -/
def rebuild (g : Grp K) (temps : List Text) : List (Nat × List Nat) → List (Nat × Reaction K) → Except PyErr (List (Nat × Reaction K))
  | [], d => .ok d
  | (m, parts) :: rules, d =>
    if (Dict.get? d m).isSome then rebuild g temps rules d
    else
      let rs := parts.filterMap (Dict.get? d)
      if rs.isEmpty then rebuild g temps rules d
      else do
        let nu ← nuFor g [18] m
        let xs ← sumXs rs temps []
        rebuild g temps rules (Dict.set d m ⟨m, 0, true, true, xs, [], nu⟩)

/-- `for mt_sum in sorted(SUM_RULES, reverse=True)`. -/
def rulesDown : List (Nat × List Nat) := Comp.sumRules.reverse

/-- neutron.py 560-561. -/
def urrsFrom : List (Text × Node K) → List (Text × Dists.Urr K) → Except PyErr (List (Text × Dists.Urr K))
  | [], acc => .ok acc
  | (T, .group a i) :: l, acc => do urrsFrom l (Dict.set acc T (← urrFrom ⟨a, i⟩))
  | (_, .data _ _) :: _, _ => .error .typeError

/-- neutron.py 558-561. -/
def urrPart (ord : List (Text × Node K) → List (Text × Node K)) (g : Grp K) : Except PyErr (List (Text × Dists.Urr K)) :=
  if g.has c!"urr" then (do urrsFrom (ord (← g.group c!"urr").items) []) else .ok []

/-- neutron.py 564-566. -/
def releasePart (g : Grp K) : Except PyErr (Option (Func.Release K)) :=
  if g.has c!"fission_energy_release" then (do .ok (some (← releaseFrom (← g.group c!"fission_energy_release")))) else .ok none

/-- `IncidentNeutron.from_hdf5`, neutron.py 480-568, from a group on. The reactions are read in the order of their names; here in the order `ord`. -/
def nuclideFrom (temp : K → Text) (ord : List (Text × Node K) → List (Text × Node K)) (g : Grp K) : Except PyErr (Nuclide K) := do
  let z ← (← getAttr g.attrs c!"Z").toInt
  let a ← (← getAttr g.attrs c!"A").toInt
  let m ← (← getAttr g.attrs c!"metastable").toInt
  let awr ← (← getAttr g.attrs c!"atomic_weight_ratio").toNum
  let kTs ← kTsFrom (ord (← g.group c!"kTs").items)
  let energy ← energyFromItems (ord (← g.group c!"energy").items) []
  let rs ← reactionsFrom ord g energy (ord (← g.group c!"reactions").items) []
  let rs ← rebuild g (kTs.map temp) rulesDown rs
  .ok ⟨z, a, m, awr, kTs, energy, rs, ← urrPart ord g, ← releasePart g⟩

end nuclide

end ASAPy.Hdf5
