import Verif.AceData.Model
import Verif.Editor.Model
import Verif.Components.Model
import Mathlib.Algebra.Order.Floor.Defs
import Mathlib.Algebra.Order.Floor.Ring

/-!
# Model of `IncidentNeutron.from_ace` (ASAPy/data/neutron.py 571-704) and of what it calls

`Reaction.from_ace` (ASAPy/data/reaction.py 959-1092), `_get_fission_products_ace` (reaction.py 188-322), `_get_photon_products_ace` (reaction.py
554-649), `Tabulated1D.from_ace` (function.py 358-400), `AngleEnergy.from_ace` (angle_energy.py 37-102), `ContinuousTabular.from_ace`
(energy_distribution.py 1190-1277), `_get_redundant_reaction` (neutron.py 841-869). The result is the table the editor works on (`Ace.Table`).

Numbers are exact. Negative cross sections are set to zero in place, in the array of the ACE table; the array is therefore threaded through the
reading of the reactions. Arrays cut out of it are copies in the model (in the code they are views; they do not overlap in an ACE file).

Not modelled here, and taken to be readable (see `Verif/Dists`): angular distributions, yields of reactions other than fission, distributions after the first of a product, the
contents of distributions with laws other than 4, the yields of photons, the groups of delayed neutrons, probability tables. MT numbers are not
negative.
-/

namespace ASAPy.FromAce
open ASAPy.Ace

/-- `int(x)` of a float. -/
def pyTrunc {K : Type} [Field K] [LinearOrder K] [FloorRing K] (x : K) : Int := if 0 ≤ x then ⌊x⌋ else ⌈x⌉

/-- `l[i]` of a numpy array. -/
def item {α : Type} (l : List α) (i : Int) : Except PyErr α :=
  match pyGet l i with
  | some v => .ok v
  | none => .error .indexError

/-- Where a slice index points to in an array of `n` elements. -/
def clamp (n : Nat) (i : Int) : Nat := if i < 0 then (i + n).toNat else min i.toNat n

/-- `l[a:b]`. -/
def slice {α : Type} (l : List α) (a b : Int) : List α := (l.take (clamp l.length b)).drop (clamp l.length a)

/-- `l[a:b][l[a:b] < 0] = 0`, reaction.py 993-996 and 1055-1058. -/
def zeroNeg {K : Type} [Field K] [LinearOrder K] (l : List K) (a b : Int) : List K :=
  l.mapIdx fun p v => if clamp l.length a ≤ p ∧ p < clamp l.length b ∧ v < 0 then 0 else v

/-- The arrays of an ACE table, with a zero in front (ace.py 311-321, 404-412). -/
structure Arrays (K : Type) where
  nxs : List Int
  jxs : List Int
  xss : List K
deriving DecidableEq

/-- `emission_mode`. -/
inductive Mode where
  | prompt
  | delayed
  | total
deriving DecidableEq, Repr

/-- The energy distribution of a product: incident energies and outgoing distributions if it is of law 4 without mixtures, nothing otherwise. -/
abbrev Energy (K : Type) := Option (List K × List (Dist K))

/-- `Product` (product.py): the yield if it is tabulated, and the first distribution, if there is one. -/
structure Product (K : Type) where
  mode : Mode
  yield_ : Option (Tab1D K)
  dist : Option (Energy K)
deriving DecidableEq

/-- `Reaction` (reaction.py) with its cross section at the only temperature of the table. `threshold` is the attribute `_threshold_idx`, 0 if absent. -/
structure Rx (K : Type) where
  xs : Tab1D K
  threshold : Int
  products : List (Product K)
  derived : List (Product K)
deriving DecidableEq

section
variable {K : Type} [Field K] [LinearOrder K] [FloorRing K]

/-- `int(xss[i])`. -/
def Arrays.int (a : Arrays K) (i : Int) : Except PyErr Int := do
  let v ← item a.xss i
  return pyTrunc v

/-- `Tabulated1D.from_ace(ace, idx)`, function.py 376-400. -/
def tab1 (a : Arrays K) (idx : Int) : Except PyErr (Tab1D K) := do
  let nr ← a.int idx
  let np ← a.int (idx + 1 + 2 * nr)
  let idx := idx + 1
  let breakpoints := if nr > 0 then (slice a.xss idx (idx + nr)).map pyTrunc else [np]
  let interpolation := if nr > 0 then (slice a.xss (idx + nr) (idx + 2 * nr)).map fun v => (pyTrunc v).toNat else [2]
  let idx := idx + (2 * nr + 1)
  return ⟨(slice a.xss idx (idx + np)).map (· * 1000000), slice a.xss (idx + np) (idx + 2 * np), breakpoints, interpolation⟩

/-- A nu at `idx`, reaction.py 221-233 (and 244-256, 263-276): a polynomial or a table. -/
def nuAt (a : Arrays K) (idx : Int) : Except PyErr (Option (Tab1D K)) := do
  let lnu ← a.int idx
  if lnu = 1 then
    let _ ← a.int (idx + 1)
    return none
  else if lnu = 2 then
    let t ← tab1 a (idx + 1)
    return some t
  else return none

/-- The nu block at `j2`, whose first number is `h`, reaction.py 214-280: products and derived products. -/
def nuBlock (a : Arrays K) (j2 : Int) (h : K) (j24 : Int) : Except PyErr (List (Product K) × List (Product K)) :=
  if h > 0 then do                                                                      -- 214-234
    let y ← nuAt a j2
    return ([⟨if j24 > 0 then .prompt else .total, y, none⟩], [])
  else if h < 0 then do                                                                 -- 237-280
    let y ← nuAt a (j2 + 1)
    let y' ← nuAt a (j2 + pyTrunc |h| + 1)
    return ([⟨.prompt, y, none⟩], [⟨.total, y', none⟩])
  else return ([], [])

/-- `_get_fission_products_ace`, reaction.py 188-322, and the assignment of its result (line 1023): a table without a NU block gives `None`, which
the setter rejects. -/
def fissionProducts (a : Arrays K) : Except PyErr (List (Product K) × List (Product K)) := do
  let j2 ← item a.jxs 2
  if j2 = 0 then .error .typeError
  else
    let h ← item a.xss j2
    let j24 ← item a.jxs 24
    let (products, derived) ← nuBlock a j2 h j24
    if j24 > 0 then do                                                                  -- 283-315
      let n ← item a.nxs 8
      return (products ++ List.replicate n.toNat ⟨.delayed, none, none⟩, derived)
    else return (products, derived)

/-- One outgoing distribution, energy_distribution.py 1234-1274: `none` is a mixture of lines and a continuous distribution. -/
def outAt (a : Arrays K) (idx : Int) : Except PyErr (Option (Dist K)) := do
  let inttp ← a.int idx
  let nd := (inttp - inttp % 10) / 10
  let n ← a.int (idx + 1)
  let data := slice a.xss (idx + 2) (idx + 2 + 3 * n)
  if (data.length : Int) ≠ 3 * n then .error .valueError                                -- 1247
  else
    let row (i : Nat) := slice data (i * n) ((i + 1) * n)
    let x := (row 0).map (· * 1000000)
    let p := row 1
    let c := row 2
    if (slice p nd n).any fun v => decide (v / 1000000 < 0) then .error .valueError      -- 1251, univariate.py 373-377
    else if nd > 0 then
      if nd = n then return some ⟨slice x 0 nd, slice p 0 nd, slice c 0 nd⟩
      else return none
    else return some ⟨slice x nd n, (slice p nd n).map (· / 1000000), slice c nd n⟩

/-- `for i in range(n)` with a result each. -/
def outsAt (a : Arrays K) (ldis : Int) : List Int → Except PyErr (List (Option (Dist K)))
  | [] => .ok []
  | l :: ls => do
    let d ← outAt a (ldis + l - 1)
    let ds ← outsAt a ldis ls
    return d :: ds

/-- All of them, if there is no mixture. -/
def allSome {α : Type} : List (Option α) → Option (List α)
  | [] => some []
  | none :: _ => none
  | some v :: l => (allSome l).map (v :: ·)

/-- `ContinuousTabular.from_ace(ace, idx, ldis)`, energy_distribution.py 1206-1277. -/
def contTabular (a : Arrays K) (idx ldis : Int) : Except PyErr (Energy K) := do
  let nr ← a.int idx
  let ne ← a.int (idx + 1 + 2 * nr)
  let idx := idx + 1 + (2 * nr + 1)
  let energy := (slice a.xss idx (idx + ne)).map (· * 1000000)
  let locs := (slice a.xss (idx + ne) (idx + ne + ne)).map pyTrunc
  if (locs.length : Int) < ne then .error .indexError                                   -- 1232
  else
    let ds ← outsAt a ldis locs
    return (allSome ds).map fun ds => (energy, ds)

/-- `AngleEnergy.from_ace(ace, location_dist, location_start)`, angle_energy.py 57-102. -/
def angleEnergy (a : Arrays K) (ldis lstart : Int) : Except PyErr (Energy K) := do
  let idx := ldis + lstart - 1
  let law ← a.int (idx + 1)
  let loc ← a.int (idx + 2)
  let idx := ldis + loc - 1
  if law = 4 then contTabular a idx ldis
  else if law = 5 then .error .exception                                                -- NotImplementedError
  else if law ∈ [2, 3, 33, 7, 9, 11, 44, 61, 66] then return none
  else .error .valueError

/-- `_get_photon_products_ace(ace, rx)` for the positions `is`, reaction.py 570-649. -/
def photonProducts (a : Arrays K) (mt : MT) (mts : List Int) : List Nat → Except PyErr (List (Product K))
  | [] => .ok []
  | i :: is => do
    let pm ← item mts i
    if pm / 1000 ≠ mt then photonProducts a mt mts is
    else do
      let j18 ← item a.jxs 18
      let start ← a.int (j18 + i)
      let j19 ← item a.jxs 19
      let d ← angleEnergy a j19 start
      let ps ← photonProducts a mt mts is
      return ⟨.prompt, none, some d⟩ :: ps

/-- `ace.xss[ace.jxs[13]:ace.jxs[13] + n_photon_reactions].astype(int)`. -/
def photonMts (a : Arrays K) : Except PyErr (List Int) := do
  let n ← item a.nxs 6
  let j13 ← item a.jxs 13
  return (slice a.xss j13 (j13 + n)).map pyTrunc

/-- `_get_photon_products_ace(ace, rx)`, reaction.py 554-649. -/
def photons (a : Arrays K) (mt : MT) : Except PyErr (List (Product K)) := do
  let n ← item a.nxs 6
  let mts ← photonMts a
  photonProducts a mt mts (List.range n.toNat)

/-- The nuclide's energy grid in eV, reaction.py 961-962 and neutron.py 610-611. -/
def grid (a : Arrays K) : Except PyErr (List K) := do
  let n ← item a.nxs 3
  let j1 ← item a.jxs 1
  return (slice a.xss j1 (j1 + n)).map (· * 1000000)

/-- The first distribution of the neutrons of reaction `i`, reaction.py 1033-1044. -/
def firstDist (a : Arrays K) (i : Nat) : Except PyErr (Option (Energy K)) := do
  let j10 ← item a.jxs 10
  let j11 ← item a.jxs 11
  let lnw ← a.int (j10 + i - 1)
  if lnw > 0 then do
    let d ← angleEnergy a j11 lnw
    return some d
  else return none

/-- The neutrons of reaction `i`, reaction.py 1004-1044. -/
def neutrons (a : Arrays K) (i : Nat) (mt : MT) : Except PyErr (List (Product K) × List (Product K)) := do
  let j5 ← item a.jxs 5
  let ty ← a.int (j5 + i - 1)
  let n5 ← item a.nxs 5
  if (i : Int) < n5 + 1 then
    if ty ≠ 19 then do
      let d ← firstDist a i
      return ([⟨.prompt, none, d⟩], [])
    else if mt ∉ [18, 19, 20, 21, 38] then .error .assertionError                       -- 1022
    else do
      let (ps, derived) ← fissionProducts a
      match ps with
      | [] => .error .exception                                                         -- 1030
      | p :: ps =>
        if p.mode = .delayed then .error .exception
        else do
          let d ← firstDist a i
          return ({ p with dist := d } :: ps, derived)
  else return ([], [])

/-- `Reaction.from_ace(ace, i)`, reaction.py 959-1092: the MT, the reaction, and the arrays with negative cross sections set to zero. -/
def reaction (a : Arrays K) (i : Nat) : Except PyErr (MT × Rx K × Arrays K) := do
  let g ← grid a
  if 0 < i then do
    let j3 ← item a.jxs 3
    let mt ← a.int (j3 + i - 1)
    let mt := mt.toNat
    let j4 ← item a.jxs 4
    let _ ← item a.xss (j4 + i - 1)                                                     -- 974
    let j6 ← item a.jxs 6
    let loc ← a.int (j6 + i - 1)
    let j7 ← item a.jxs 7
    let thr ← a.int (j7 + loc - 1)
    let thr := thr - 1
    let n ← a.int (j7 + loc)
    let energy := slice g thr (thr + n)
    let a := { a with xss := zeroNeg a.xss (j7 + loc + 1) (j7 + loc + 1 + n) }          -- 993-996
    let xs := slice a.xss (j7 + loc + 1) (j7 + loc + 1 + n)
    let (ps, derived) ← neutrons a i mt
    let ph ← photons a mt                                                               -- 1090
    return (mt, ⟨.linlin energy xs, thr, ps ++ ph, derived⟩, a)
  else do
    let n ← item a.nxs 3
    let j1 ← item a.jxs 1
    let a := { a with xss := zeroNeg a.xss (j1 + 3 * n) (j1 + 4 * n) }                  -- 1055-1058
    let xs := slice a.xss (j1 + 3 * n) (j1 + 4 * n)
    let ph ← photons a 2
    return (2, ⟨.linlin g xs, 0, ⟨.prompt, none, some none⟩ :: ph, []⟩, a)

/-- Gas production and damage, neutron.py 635. -/
def skipped (mt : MT) : Bool := decide (200 < mt ∧ mt < 219) || decide (mt = 444)

/-- The loop over the reactions, neutron.py 632-637. -/
def readAll : List Nat → List (MT × Rx K) → Arrays K → Except PyErr (List (MT × Rx K) × Arrays K)
  | [], rs, a => .ok (rs, a)
  | i :: is, rs, a => do
    let (mt, rx, a) ← reaction a i
    readAll is (if skipped mt then rs else Dict.set rs mt rx) a

/-- `mt in data`. -/
def has (rs : List (MT × Rx K)) (mt : MT) : Bool := (Dict.get? rs mt).isSome

/-- `data.get_reaction_components(mt)`. The depth of the recursion is at most 6 (see `C61_components`). -/
def componentsOf (rs : List (MT × Rx K)) (mt : MT) : List MT := (Comp.components (has rs) 6 mt).getD []

/-- `data.reactions[mt]` for all `mts`. -/
def pickAll (rs : List (MT × Rx K)) : List MT → Except PyErr (List (Rx K))
  | [] => .ok []
  | m :: ms => match Dict.get? rs m with
    | none => .error .keyError
    | some r => do
      let l ← pickAll rs ms
      return r :: l

variable [ExpLog K]

/-- `[f(x) for f in functions]`. -/
def evalAll (es : List K) : List (Rx K) → Except PyErr (List (List K))
  | [] => .ok []
  | r :: rs => do
    let v ← r.xs.evals es
    let vs ← evalAll es rs
    return v :: vs

/-- `_get_redundant_reaction(mt, mts)`, neutron.py 857-869, function.py 522-523; `energy` is the grid of the nuclide. -/
def redundant (rs : List (MT × Rx K)) (energy : List K) (mts : List MT) : Except PyErr (Rx K) := do
  let l ← pickAll rs mts
  match (l.map (·.threshold)).min? with
  | none => .error .valueError
  | some idx => do
    let es := slice energy idx energy.length
    let vs ← evalAll es l
    return ⟨.linlin es (vs.foldl (List.zipWith (· + ·)) (es.map fun _ => 0)), idx, [], []⟩

/-- Lines 646-674: reactions for the photons of MTs that are not there. `absorption` is the local variable of that name, if it was assigned. -/
def addPhotonMts (a : Arrays K) (energy : List K) (absorption : Option (Rx K)) :
    List MT → List (MT × Rx K) → Except PyErr (List (MT × Rx K))
  | [], rs => .ok rs
  | mt :: mts, rs =>
    if has rs mt then addPhotonMts a energy absorption mts rs
    else if (Comp.sumRules.lookup mt).isNone then addPhotonMts a energy absorption mts rs
    else if componentsOf rs mt = [] then addPhotonMts a energy absorption mts rs
    else do
      let rx ← redundant rs energy (componentsOf rs mt)
      let ph ← photons a mt
      let rx := { rx with products := ph }
      if mt = 3 then match absorption with
        | none => .error .unboundLocal                                                  -- 672
        | some r => addPhotonMts a energy absorption mts (Dict.set rs 101 r)
      else addPhotonMts a energy absorption mts (Dict.set rs mt rx)

/-- Lines 681-690. -/
def addSums (energy : List K) : List MT → List (MT × Rx K) → Except PyErr (List (MT × Rx K))
  | [], rs => .ok rs
  | mt :: mts, rs =>
    if has rs mt then addSums energy mts rs
    else if componentsOf rs mt = [] then addSums energy mts rs
    else do
      let rx ← redundant rs energy (componentsOf rs mt)
      addSums energy mts (Dict.set rs mt rx)

end

/-- Python's `round(x)`: to the nearest, ties to even. -/
def pyRound {K : Type} [Field K] [LinearOrder K] [FloorRing K] (x : K) : Int :=
  let f := ⌊x⌋
  if x - f < 1 / 2 then f else if 1 / 2 < x - f then f + 1 else if f % 2 = 0 then f else f + 1

/-- `"{}K".format(int(round(kT / K_BOLTZMANN)))` with `kT` in eV, neutron.py 177, reaction.py 966; K_BOLTZMANN is 8.6173303e-5 (data/data.py). -/
def tempName {K : Type} [Field K] [LinearOrder K] [FloorRing K] (temperature : K) : Temp :=
  let r := pyRound (temperature * 1000000 / (86173303 / 10 ^ 12))
  (if r < 0 then ['-'] else []) ++ Dec.natStr r.natAbs ++ ['K']

/-- neutron.py 602-604: the nuclide identifier of the table's name. -/
def zaidOf (name : List Char) : Except PyErr Int :=
  match name.splitOnP (· = '.') with
  | [z, _] => Endf.pyInt z
  | _ => .error .valueError

section
variable {K : Type} [Field K] [LinearOrder K] [FloorRing K]

/-- A reaction as the editor sees it: `derived_products[0]`, and `products[0]` with `distribution[0].energy`. (With a distribution of another law
the code raises AttributeError, the model of the editor IndexError.) -/
def Rx.toReaction (T : Temp) (r : Rx K) : Reaction K where
  xs := [(T, r.xs)]
  nu := match r.derived with
    | [] => none
    | p :: _ => some (match p.yield_ with
      | some t => ⟨true, t⟩
      | none => ⟨false, ⟨[], [], [], []⟩⟩)
  chi := match r.products with
    | [] => none
    | p :: _ => match p.dist with
      | some (some (energyIn, ds)) => some ⟨decide (p.mode = .prompt), energyIn, ds⟩
      | _ => none

variable [ExpLog K]

/-- `np.unique(photon_mts // 1000)`. -/
def uniqueMts (mts : List Int) : List MT := ((mts.map fun m => (m / 1000).toNat).dedup).insertionSort (· ≤ ·)

/-- The reactions of an ACE table, neutron.py 607-690. -/
def reactions (t : AceData.Table K) : Except PyErr (List (MT × Rx K)) := do
  let a : Arrays K := ⟨0 :: t.nxs, 0 :: t.jxs, 0 :: t.xss⟩
  let energy ← grid a
  let n ← item a.nxs 3
  let j1 ← item a.jxs 1
  let total := slice a.xss (j1 + n) (j1 + 2 * n)
  let absorption := slice a.xss (j1 + 2 * n) (j1 + 3 * n)
  let rs : List (MT × Rx K) := [(1, ⟨.linlin energy total, 0, [], []⟩)]
  let abs : Option (Rx K) := if absorption.any (fun v => decide (v ≠ 0)) then some ⟨.linlin energy absorption, 0, [], []⟩ else none
  let rs := abs.elim rs (Dict.set rs 101 ·)
  let n4 ← item a.nxs 4
  let (rs, a) ← readAll (List.range (n4 + 1).toNat) rs a
  let pm ← photonMts a
  let rs ← addPhotonMts a energy abs (uniqueMts pm) rs
  addSums energy [16, 103, 104, 105, 106, 107] rs

/-- `IncidentNeutron.from_ace(table)`, neutron.py 571-704. -/
def load (t : AceData.Table K) : Except PyErr (Ace.Table K) := do
  let zaid ← zaidOf t.name
  let _ ← AceData.getMetadata zaid .mcnp
  if ¬ 0 < t.awr then .error .valueError                                                -- neutron.py 208
  else
    let T := tempName t.temperature
    let rs ← reactions t
    return ⟨[T], rs.map fun (mt, r) => (mt, r.toReaction T)⟩

end
end ASAPy.FromAce
