import Verif.Py
import Verif.Dict
import Verif.Chars
import Verif.Dec
import Verif.Tab1D.Model

/-!
# Model of the HDF5 form of distributions

ASAPy/data: function.py, univariate.py, angle_distribution.py, energy_distribution.py, uncorrelated.py, kalbach_mann.py, correlated.py, nbody.py, angle_energy.py.

An HDF5 file is a tree: groups with attributes and items, datasets with attributes. `create_group` and `create_dataset` raise if the name is taken. Numbers are exact.
`AttributeError` and `NotImplementedError` are `PyErr.exception`.
-/

namespace ASAPy.Hdf5

open ASAPy

abbrev Text := List Char

/-- What datasets and attributes hold. `rows` is a two-dimensional array of floats; `eout` is the array of correlated.py 121 whose rows 3 and 4 hold whole numbers; `nans` has a
second row in which `none` stands for a NaN or infinity. -/
inductive Val (K : Type) where
  | str (s : Text)
  | strs (l : List Text)
  | int (n : Int)
  | num (x : K)
  | ints (l : List Int)
  | table (l : List (List Int))
  | vec (l : List K)
  | rows (l : List (List K))
  | cube (l : List (List (List K)))
  | eout (l : List (List K)) (codes offsets : List Int)
  | nans (x : List K) (y : List (Option K))

abbrev Attrs (K : Type) := List (Text × Val K)

inductive Node (K : Type) where
  | data (v : Val K) (attrs : Attrs K)
  | group (attrs : Attrs K) (items : List (Text × Node K))

/-- A group. -/
structure Grp (K : Type) where
  attrs : Attrs K
  items : List (Text × Node K)

namespace Grp

variable {K : Type}

def empty : Grp K := ⟨[], []⟩

/-- `group.attrs[k] = v`. -/
def attr (g : Grp K) (k : Text) (v : Val K) : Grp K := { g with attrs := Dict.set g.attrs k v }

/-- `create_group`, `create_dataset`: a name that is taken raises. -/
def add (g : Grp K) (k : Text) (n : Node K) : Except PyErr (Grp K) :=
  if (Dict.get? g.items k).isSome then .error .valueError else .ok { g with items := g.items ++ [(k, n)] }

def node (g : Grp K) : Node K := .group g.attrs g.items

/-- `group[k]`, a group. -/
def group (g : Grp K) (k : Text) : Except PyErr (Grp K) :=
  match Dict.get? g.items k with
  | some (.group a i) => .ok ⟨a, i⟩
  | some (.data _ _) => .error .typeError
  | none => .error .keyError

/-- `group[k]`, a dataset. -/
def dset (g : Grp K) (k : Text) : Except PyErr (Val K × Attrs K) :=
  match Dict.get? g.items k with
  | some (.data v a) => .ok (v, a)
  | some (.group _ _) => .error .typeError
  | none => .error .keyError

def has (g : Grp K) (k : Text) : Bool := (Dict.get? g.items k).isSome

end Grp

section values
variable {K : Type}

/-- `attrs[k]`. -/
def getAttr (a : Attrs K) (k : Text) : Except PyErr (Val K) :=
  match Dict.get? a k with
  | some v => .ok v
  | none => .error .keyError

def Val.toStr : Val K → Except PyErr Text
  | .str s => .ok s
  | _ => .error .typeError
def Val.toStrs : Val K → Except PyErr (List Text)
  | .strs l => .ok l
  | _ => .error .typeError
def Val.toInt : Val K → Except PyErr Int
  | .int n => .ok n
  | _ => .error .typeError
def Val.toNum : Val K → Except PyErr K
  | .num x => .ok x
  | _ => .error .typeError
def Val.toInts : Val K → Except PyErr (List Int)
  | .ints l => .ok l
  | _ => .error .typeError
def Val.toTable : Val K → Except PyErr (List (List Int))
  | .table l => .ok l
  | _ => .error .typeError
def Val.toVec : Val K → Except PyErr (List K)
  | .vec l => .ok l
  | _ => .error .typeError
def Val.toRows : Val K → Except PyErr (List (List K))
  | .rows l => .ok l
  | _ => .error .typeError
def Val.toCube : Val K → Except PyErr (List (List (List K)))
  | .cube l => .ok l
  | _ => .error .typeError
def Val.toEout : Val K → Except PyErr (List (List K) × List Int × List Int)
  | .eout l c o => .ok (l, c, o)
  | _ => .error .typeError

/-- `np.vstack((a, b))`: rows of different lengths raise. -/
def vstack {α : Type} (a b : List α) : Except PyErr (List (List α)) := if a.length = b.length then .ok [a, b] else .error .valueError

/-- `array[i, :]`. -/
def row {α : Type} (l : List (List α)) (i : Nat) : Except PyErr (List α) :=
  match l[i]? with
  | some r => .ok r
  | none => .error .indexError

end values

/-! ### function.py -/

/-- `Tabulated1D` and `Polynomial`. -/
inductive Fun1 (K : Type) where
  | tab (t : Tab1D K)
  | poly (coef : List K)

section functions
variable {K : Type}

/-- `Tabulated1D.to_hdf5`, function.py 315-330. -/
def tabTo (t : Tab1D K) : Except PyErr (Node K) := do
  .ok (.data (.rows (← vstack t.x t.y)) [(c!"type", .str c!"Tabulated1D"), (c!"breakpoints", .ints t.breakpoints), (c!"interpolation", .ints (t.interpolation.map Int.ofNat))])

/-- `Tabulated1D.from_hdf5`, function.py 333-355. -/
def tabFrom (d : Val K × Attrs K) : Except PyErr (Tab1D K) := do
  if (← (← getAttr d.2 c!"type").toStr) ≠ c!"Tabulated1D" then .error .valueError
  else
    let v ← d.1.toRows
    .ok ⟨← row v 0, ← row v 1, ← (← getAttr d.2 c!"breakpoints").toInts, (← (← getAttr d.2 c!"interpolation").toInts).map Int.toNat⟩

/-- `Function1D.to_hdf5`, function.py 315-330 and 404-416. -/
def funTo : Fun1 K → Except PyErr (Node K)
  | .tab t => tabTo t
  | .poly c => .ok (.data (.vec c) [(c!"type", .str c!"Polynomial")])

/-- `Function1D.from_hdf5`, function.py 77-95: the class is found by its name. -/
def funFrom (d : Val K × Attrs K) : Except PyErr (Fun1 K) := do
  let t ← (← getAttr d.2 c!"type").toStr
  if t = c!"Tabulated1D" then .ok (.tab (← tabFrom d))
  else if t = c!"Polynomial" then .ok (.poly (← d.1.toVec))
  else .error .valueError

end functions

/-! ### univariate.py -/

/-- The schemes of `Tabular`. -/
inductive Scheme where
  | histogram | linlin | linlog | loglin | loglog
deriving DecidableEq, Repr

/-- `INTERPOLATION_SCHEME[code]`, function.py 13-14. -/
def Scheme.ofCode : Int → Except PyErr Scheme
  | 1 => .ok .histogram
  | 2 => .ok .linlin
  | 3 => .ok .linlog
  | 4 => .ok .loglin
  | 5 => .ok .loglog
  | _ => .error .keyError

/-- `1 if d.interpolation == 'histogram' else 2`. -/
def Scheme.code (s : Scheme) : Int := if s = .histogram then 1 else 2

/-- Distributions of one variable, with the attribute `c` the classes of this package set. A mixture is always of a discrete and a tabular distribution. -/
inductive Uni (K : Type) where
  | uniform (a b : K)
  | discrete (x p c : List K)
  | tabular (s : Scheme) (x p c : List K)
  | mixture (w : List K) (dx dp dc : List K) (s : Scheme) (x p c : List K)

section univariate
variable {K : Type} [Field K] [LinearOrder K]

/-- `len(d)`, univariate.py. -/
def Uni.len : Uni K → Nat
  | .uniform _ _ => 2
  | .discrete x _ _ => x.length
  | .tabular _ x _ _ => x.length
  | .mixture _ dx _ _ _ x _ _ => dx.length + x.length

/-- `Uniform.to_tabular`, univariate.py 144-148. -/
def Uni.toTabular : Uni K → Except PyErr (Uni K)
  | .uniform a b => .ok (.tabular .histogram [a, b] [1 / (b - a), 1 / (b - a)] [0, 1])
  | _ => .error .exception

/-- `Tabular(x, p, s)`, univariate.py 343-378: negative probabilities raise unless ignored. -/
def mkTabular (ignoreNegative : Bool) (s : Scheme) (x p c : List K) : Except PyErr (Uni K) :=
  if ignoreNegative || p.all fun y => decide (0 ≤ y) then .ok (.tabular s x p c) else .error .valueError

/-- `Discrete(x, p)`, univariate.py 57-91. -/
def mkDiscrete (x p c : List K) : Except PyErr (Uni K) :=
  if p.all fun y => decide (0 ≤ y) then .ok (.discrete x p c) else .error .valueError

/-- `Mixture([w, 1 - w], [discrete, continuous])`, univariate.py 466-497. -/
def mkMixture (w : K) : Uni K → Uni K → Except PyErr (Uni K)
  | .discrete dx dp dc, .tabular s x p c => if 0 ≤ w ∧ 0 ≤ 1 - w then .ok (.mixture [w, 1 - w] dx dp dc s x p c) else .error .valueError
  | _, _ => .error .typeError

end univariate

/-! ### Packing of distributions into one array -/

section packing
variable {K : Type} [Field K] [LinearOrder K]

/-- `r[j:j+n] = v`: a list of one element is spread, any other length raises. -/
def setSlice {α : Type} (r : List α) (j n : Nat) (v : List α) : Except PyErr (List α) :=
  let m := (r.drop j).length ⊓ n
  if v.length = m then .ok (r.take j ++ v ++ r.drop (j + n))
  else match v with
    | [a] => .ok (r.take j ++ List.replicate m a ++ r.drop (j + n))
    | _ => .error .valueError

/-- `r[j:j+n]`, with numbers from the file. -/
def slice {α : Type} (r : List α) (j n : Int) : List α := (r.drop j.toNat).take n.toNat

/-- The rows 0, 1, 2 of the array: `x`, `p`, `c`. -/
structure Rows (K : Type) where
  x : List K
  p : List K
  c : List K

/-- `np.empty((3, n))`: the contents are arbitrary, here 0. -/
def Rows.fresh (n : Nat) : Rows K := ⟨List.replicate n 0, List.replicate n 0, List.replicate n 0⟩

/-- `pairs[0, j:j+n] = x; pairs[1, j:j+n] = p; pairs[2, j:j+n] = c`. -/
def Rows.put (r : Rows K) (j n : Nat) (x p c : List K) : Except PyErr (Rows K) := do
  .ok ⟨← setSlice r.x j n x, ← setSlice r.p j n p, ← setSlice r.c j n c⟩

/-- energy_distribution.py 1093-1119, correlated.py 146-166, kalbach_mann.py 150-171: one distribution; its number of lines and its interpolation. -/
def putOut (r : Rows K) (j : Nat) (d : Uni K) : Except PyErr (Rows K × Int × Int) :=
  match d with
  | .mixture _ dx dp dc s x p c => do
    let r ← r.put j dx.length dx dp dc
    let r ← r.put (j + dx.length) ((j + d.len) - (j + dx.length)) x p c
    .ok (r, dx.length, s.code)
  | .tabular s x p c => do .ok (← r.put j d.len x p c, 0, s.code)
  | .discrete x p c => do .ok (← r.put j d.len x p c, d.len, 1)
  | .uniform _ _ => .error .exception

/-- The arrays `offsets`, `interpolation` and `n_discrete_lines`. -/
structure Index where
  offsets : List Int
  interpolation : List Int
  lines : List Int

/-- energy_distribution.py 1089-1120: all distributions, from position `j` on. -/
def putAll : List (Uni K) → Nat → Rows K → Except PyErr (Rows K × Index)
  | [], _, r => .ok (r, ⟨[], [], []⟩)
  | d :: ds, j, r => do
    let (r, m, s) ← putOut r j d
    let (r, ix) ← putAll ds (j + d.len) r
    .ok (r, ⟨(j : Int) :: ix.offsets, s :: ix.interpolation, m :: ix.lines⟩)

/-- `n = offsets[i+1] - j` or `data.shape[1] - j`. -/
def blockLen (offsets : List Int) (total : Nat) (nEnergy i : Nat) : Except PyErr (Int × Int) :=
  match offsets[i]? with
  | none => .error .indexError
  | some j => if i + 1 < nEnergy then match offsets[i + 1]? with
      | none => .error .indexError
      | some k => .ok (j, k - j)
    else .ok (j, total - j)

/-- energy_distribution.py 1170-1190 and the same lines in correlated.py and kalbach_mann.py: distribution `i`. `last` is what `eout_continuous` is before. -/
def takeOut (ignoreNegative : Bool) (r : Rows K) (ix : Index) (nEnergy i : Nat) (last : Option (Uni K)) : Except PyErr (Uni K × Option (Uni K)) := do
  let (j, n) ← blockLen ix.offsets r.x.length nEnergy i
  let m ← match ix.lines[i]? with
    | some m => .ok m
    | none => .error .indexError
  let discrete ← if 0 < m then (do .ok (some (← mkDiscrete (slice r.x j m) (slice r.p j m) (slice r.c j m)))) else .ok none
  let last ← if m < n then
      match ix.interpolation[i]? with
      | none => .error .indexError
      | some code => do .ok (some (← mkTabular ignoreNegative (← Scheme.ofCode code) (slice r.x (j + m) (n - m)) (slice r.p (j + m) (n - m)) (slice r.c (j + m) (n - m))))
    else .ok last
  if m = 0 then match last with
    | some d => .ok (d, last)
    | none => .error .unboundLocal
  else if m = n then match discrete with
    | some d => .ok (d, last)
    | none => .error .unboundLocal
  else match discrete, last, (slice r.c j m).getLast? with
    | some d, some e, some w => do .ok (← mkMixture w d e, last)
    | _, _, _ => .error .unboundLocal

/-- The loop over `i` from `i` to `nEnergy`. -/
def takeAll (ignoreNegative : Bool) (r : Rows K) (ix : Index) (nEnergy : Nat) : Nat → Nat → Option (Uni K) → Except PyErr (List (Uni K))
  | 0, _, _ => .ok []
  | k + 1, i, last => do
    let (d, last) ← takeOut ignoreNegative r ix nEnergy i last
    .ok (d :: (← takeAll ignoreNegative r ix nEnergy k (i + 1) last))

end packing

/-! ### angle_distribution.py -/

structure Angle (K : Type) where
  energy : List K
  mu : List (Uni K)

section angle
variable {K : Type} [Field K] [LinearOrder K]

/-- angle_distribution.py 74-75: everything that is not tabular is made tabular. -/
def asTabular : Uni K → Except PyErr (Uni K)
  | .tabular s x p c => .ok (.tabular s x p c)
  | d => d.toTabular

/-- angle_distribution.py 86-94. -/
def putMu : List (Uni K) → Nat → Rows K → Except PyErr (Rows K × List Int × List Int)
  | [], _, r => .ok (r, [], [])
  | .tabular s x p c :: ds, j, r => do
    let r ← r.put j x.length x p c
    let (r, offsets, interpolation) ← putMu ds (j + x.length) r
    .ok (r, (j : Int) :: offsets, s.code :: interpolation)
  | _ :: _, _, _ => .error .exception

/-- `AngleDistribution.to_hdf5`, angle_distribution.py 61-101. -/
def angleTo (a : Angle K) : Except PyErr (Grp K) := do
  let g ← Grp.empty.add c!"energy" (.data (.vec a.energy) [])
  let mu ← a.mu.mapM asTabular
  let (r, offsets, interpolation) ← putMu mu 0 (Rows.fresh (mu.map Uni.len).sum)
  g.add c!"mu" (.data (.rows [r.x, r.p, r.c]) [(c!"offsets", .ints offsets), (c!"interpolation", .ints interpolation)])

/-- angle_distribution.py 126-143. -/
def takeMu (x p c : List K) (offsets interpolation : List Int) (nEnergy : Nat) : Nat → Nat → Except PyErr (List (Uni K))
  | 0, _ => .ok []
  | k + 1, i => do
    let (j, n) ← blockLen offsets x.length nEnergy i
    let code ← match interpolation[i]? with
      | some code => .ok code
      | none => .error .indexError
    let d ← mkTabular false (← Scheme.ofCode code) (slice x j n) (slice p j n) (slice c j n)
    .ok (d :: (← takeMu x p c offsets interpolation nEnergy k (i + 1)))

/-- `AngleDistribution.from_hdf5`, angle_distribution.py 104-145. -/
def angleFrom (g : Grp K) : Except PyErr (Angle K) := do
  let energy ← (← g.dset c!"energy").1.toVec
  let data ← g.dset c!"mu"
  let offsets ← (← getAttr data.2 c!"offsets").toInts
  let interpolation ← (← getAttr data.2 c!"interpolation").toInts
  let v ← data.1.toRows
  .ok ⟨energy, ← takeMu (← row v 0) (← row v 1) (← row v 2) offsets interpolation energy.length energy.length 0⟩

end angle

/-! ### energy_distribution.py -/

/-- Breakpoints, interpolation and incoming energies. -/
structure Head (K : Type) where
  breakpoints : List Int
  interpolation : List Int
  energy : List K

/-- The energy distributions. `unwritable` are `ArbitraryTabulated` and `GeneralEvaporation`, which have no HDF5 form. -/
inductive Energy (K : Type) where
  | maxwell (theta : Tab1D K) (u : K)
  | evaporation (theta : Tab1D K) (u : K)
  | watt (a b : Tab1D K) (u : K)
  | madlandNix (efl efh : K) (tm : Tab1D K)
  | discretePhoton (flag : Int) (energy awr : K)
  | level (threshold ratio : K)
  | continuous (head : Head K) (out : List (Uni K))
  | unwritable

section energy
variable {K : Type} [Field K] [LinearOrder K]

/-- energy_distribution.py 1079-1081, correlated.py 116-118, kalbach_mann.py 135-137. -/
def headTo (g : Grp K) (h : Head K) : Except PyErr (Grp K) := do
  g.add c!"energy" (.data (.vec h.energy) [(c!"interpolation", .table (← vstack h.breakpoints h.interpolation))])

/-- energy_distribution.py 1144-1147 and the same lines in the other classes. -/
def headFrom (g : Grp K) : Except PyErr (Head K) := do
  let d ← g.dset c!"energy"
  let t ← (← getAttr d.2 c!"interpolation").toTable
  .ok ⟨← row t 0, ← row t 1, ← d.1.toVec⟩

/-- The attributes of the array of distributions. -/
def Index.attrs (ix : Index) : Attrs K := [(c!"offsets", .ints ix.offsets), (c!"interpolation", .ints ix.interpolation), (c!"n_discrete_lines", .ints ix.lines)]

/-- energy_distribution.py 1150-1152. -/
def indexFrom (a : Attrs K) : Except PyErr Index := do
  .ok ⟨← (← getAttr a c!"offsets").toInts, ← (← getAttr a c!"interpolation").toInts, ← (← getAttr a c!"n_discrete_lines").toInts⟩

/-- `ContinuousTabular.to_hdf5`, energy_distribution.py 1068-1127. -/
def continuousTo (g : Grp K) (h : Head K) (out : List (Uni K)) : Except PyErr (Grp K) := do
  let g ← headTo (g.attr c!"type" (.str c!"continuous")) h
  let (r, ix) ← putAll out 0 (Rows.fresh (out.map Uni.len).sum)
  g.add c!"distribution" (.data (.rows [r.x, r.p, r.c]) ix.attrs)

/-- `ContinuousTabular.from_hdf5`, energy_distribution.py 1130-1193. -/
def continuousFrom (g : Grp K) : Except PyErr (Energy K) := do
  let h ← headFrom g
  let data ← g.dset c!"distribution"
  let ix ← indexFrom data.2
  let v ← data.1.toRows
  .ok (.continuous h (← takeAll false ⟨← row v 0, ← row v 1, ← row v 2⟩ ix h.energy.length h.energy.length 0 none))

/-- `EnergyDistribution.to_hdf5`, by class. -/
def energyTo (g : Grp K) : Energy K → Except PyErr (Grp K)
  | .maxwell theta u => do ((g.attr c!"type" (.str c!"maxwell")).attr c!"u" (.num u)).add c!"theta" (← tabTo theta)             -- 270-282
  | .evaporation theta u => do ((g.attr c!"type" (.str c!"evaporation")).attr c!"u" (.num u)).add c!"theta" (← tabTo theta)     -- 403-415
  | .watt a b u => do                                                                                                          -- 549-562
    let g ← ((g.attr c!"type" (.str c!"watt")).attr c!"u" (.num u)).add c!"a" (← tabTo a)
    g.add c!"b" (← tabTo b)
  | .madlandNix efl efh tm => do                                                                                               -- 721-734
    (((g.attr c!"type" (.str c!"madland-nix")).attr c!"efl" (.num efl)).attr c!"efh" (.num efh)).add c!"xy" (← tabTo tm)
  | .discretePhoton f e awr =>                                                                                                 -- 840-853
    .ok ((((g.attr c!"type" (.str c!"discrete_photon")).attr c!"primary_flag" (.int f)).attr c!"energy" (.num e)).attr c!"atomic_weight_ratio" (.num awr))
  | .level t r => .ok (((g.attr c!"type" (.str c!"level")).attr c!"threshold" (.num t)).attr c!"mass_ratio" (.num r))          -- 939-951
  | .continuous h out => continuousTo g h out
  | .unwritable => .error .exception                                                                                           -- 122, 191

/-- `EnergyDistribution.from_hdf5`, energy_distribution.py 26-58, and the methods of the classes. -/
def energyFrom (g : Grp K) : Except PyErr (Energy K) := do
  let t ← (← getAttr g.attrs c!"type").toStr
  if t = c!"maxwell" then .ok (.maxwell (← tabFrom (← g.dset c!"theta")) (← (← getAttr g.attrs c!"u").toNum))                  -- 285-300
  else if t = c!"evaporation" then .ok (.evaporation (← tabFrom (← g.dset c!"theta")) (← (← getAttr g.attrs c!"u").toNum))     -- 418-433
  else if t = c!"watt" then                                                                                                    -- 565-581
    .ok (.watt (← tabFrom (← g.dset c!"a")) (← tabFrom (← g.dset c!"b")) (← (← getAttr g.attrs c!"u").toNum))
  else if t = c!"madland-nix" then                                                                                             -- 737-753
    .ok (.madlandNix (← (← getAttr g.attrs c!"efl").toNum) (← (← getAttr g.attrs c!"efh").toNum) (← tabFrom (← g.dset c!"tm")))
  else if t = c!"discrete_photon" then                                                                                         -- 856-873
    .ok (.discretePhoton (← (← getAttr g.attrs c!"primary_flag").toInt) (← (← getAttr g.attrs c!"energy").toNum) (← (← getAttr g.attrs c!"atomic_weight_ratio").toNum))
  else if t = c!"level" then .ok (.level (← (← getAttr g.attrs c!"threshold").toNum) (← (← getAttr g.attrs c!"mass_ratio").toNum))   -- 954-970
  else if t = c!"continuous" then continuousFrom g
  else .error .valueError

end energy

/-! ### angle_energy.py and its classes -/

/-- `AngleEnergy`: uncorrelated.py, kalbach_mann.py, correlated.py, nbody.py. -/
inductive Dist (K : Type) where
  | uncorrelated (angle : Option (Angle K)) (energy : Option (Energy K))
  | kalbach (head : Head K) (out : List (Uni K)) (r a : List (Tab1D K))
  | correlated (head : Head K) (out : List (Uni K)) (mu : List (List (Uni K)))
  | nbody (mass : K) (n : Int) (awr q : K)

section dist
variable {K : Type} [Field K] [LinearOrder K]

/-- kalbach_mann.py 147-175: the rows 3 and 4. -/
def putKm : List (Uni K × Tab1D K × Tab1D K) → Nat → List K × List K → Except PyErr (List K × List K)
  | [], _, r => .ok r
  | (d, kr, ka) :: l, j, r => do
    let r3 ← setSlice r.1 j d.len kr.y
    let r4 ← setSlice r.2 j d.len ka.y
    putKm l (j + d.len) (r3, r4)

/-- `KalbachMann.to_hdf5`, kalbach_mann.py 124-186. If the lists `energy_out`, `precompound` and `slope` have different lengths `zip` ends with the shortest; the model then
leaves the rest of the offsets away, which in Python are arbitrary. -/
def kalbachTo (g : Grp K) (h : Head K) (out : List (Uni K)) (r a : List (Tab1D K)) : Except PyErr (Grp K) := do
  let g ← headTo (g.attr c!"type" (.str c!"kalbach-mann")) h
  let n := (out.map Uni.len).sum
  let l := out.zip (r.zip a)
  let (rs, ix) ← putAll (l.map Prod.fst) 0 (Rows.fresh n)
  let km ← putKm l 0 (List.replicate n 0, List.replicate n 0)
  g.add c!"distribution" (.data (.rows [rs.x, rs.p, rs.c, km.1, km.2]) ix.attrs)

/-- kalbach_mann.py 247-248. -/
def takeKm (x y : List K) (offsets : List Int) (nEnergy : Nat) : Nat → Nat → Except PyErr (List (Tab1D K))
  | 0, _ => .ok []
  | k + 1, i => do
    let (j, n) ← blockLen offsets x.length nEnergy i
    .ok (Tab1D.linlin (slice x j n) (slice y j n) :: (← takeKm x y offsets nEnergy k (i + 1)))

/-- `KalbachMann.from_hdf5`, kalbach_mann.py 189-256. -/
def kalbachFrom (g : Grp K) : Except PyErr (Dist K) := do
  let h ← headFrom g
  let data ← g.dset c!"distribution"
  let ix ← indexFrom data.2
  let v ← data.1.toRows
  let out ← takeAll false ⟨← row v 0, ← row v 1, ← row v 2⟩ ix h.energy.length h.energy.length 0 none
  let r ← takeKm (← row v 0) (← row v 3) ix.offsets h.energy.length h.energy.length 0
  let a ← takeKm (← row v 0) (← row v 4) ix.offsets h.energy.length h.energy.length 0
  .ok (.kalbach h out r a)

/-- correlated.py 127-128. -/
def muTabular : Uni K → Except PyErr (Uni K)
  | .tabular s x p c => .ok (.tabular s x p c)
  | .discrete x p c => .ok (.discrete x p c)
  | d => d.toTabular

/-- `len(d.x)`: a mixture has no `x`, correlated.py 121. -/
def xLen : Uni K → Except PyErr Nat
  | .discrete x _ _ => .ok x.length
  | .tabular _ x _ _ => .ok x.length
  | _ => .error .exception

/-- The arrays filled in the loop correlated.py 142-182. -/
structure MuState (K : Type) where
  mu : Rows K
  codes : List Int
  offsets : List Int

/-- correlated.py 168-181: the angular distributions of one incoming energy; `j` is `offset_e + j`. -/
def putMus : List (Uni K) → Nat → Nat → MuState K → Except PyErr (Nat × MuState K)
  | [], _, o, s => .ok (o, s)
  | d :: ds, j, o, s => do
    let (code, x, p, c) ← (match d with
      | .discrete x p c => .ok ((0 : Int), x, p, c)
      | .tabular sch x p c => .ok (sch.code, x, p, c)
      | _ => .error .exception : Except PyErr (Int × List K × List K × List K))
    if j < s.codes.length then
      let mu ← s.mu.put o x.length x p c
      putMus ds (j + 1) (o + x.length) ⟨mu, s.codes.set j code, s.offsets.set j (o : Int)⟩
    else .error .indexError

/-- correlated.py 142-183, the part for angles. -/
def putMuAll : List (Uni K × List (Uni K)) → Nat → Nat → MuState K → Except PyErr (MuState K)
  | [], _, _, s => .ok s
  | (d, mus) :: l, j, o, s => do
    let (o, s) ← putMus mus j o s
    putMuAll l (j + d.len) o s

/-- `CorrelatedAngleEnergy.to_hdf5`, correlated.py 105-193. -/
def correlatedTo (g : Grp K) (h : Head K) (out : List (Uni K)) (mu : List (List (Uni K))) : Except PyErr (Grp K) := do
  let g ← headTo (g.attr c!"type" (.str c!"correlated")) h
  let n := (← out.mapM xLen).sum
  let mu ← mu.mapM fun l => l.mapM muTabular
  let nMu := (mu.map fun l => (l.map Uni.len).sum).sum
  let (r, ix) ← putAll out 0 (Rows.fresh n)
  if mu.length < out.length then .error .indexError
  else
    let s ← putMuAll (out.zip mu) 0 0 ⟨Rows.fresh nMu, List.replicate n 0, List.replicate n 0⟩
    let g ← g.add c!"energy_out" (.data (.eout [r.x, r.p, r.c] s.codes s.offsets) ix.attrs)
    g.add c!"mu" (.data (.rows [s.mu.x, s.mu.p, s.mu.c]) [])

/-- correlated.py 264-287: one angular distribution, at position `j` of the array. -/
def takeMuAt (codes offsets : List Int) (x p c : List K) (j : Nat) : Except PyErr (Uni K) :=
  match codes[j]?, offsets[j]? with
  | some code, some o => do
    let n ← if j + 1 < codes.length then match offsets[j + 1]? with
        | some o' => .ok (o' - o)
        | none => .error .indexError
      else .ok (x.length - o)
    if code = 0 then mkDiscrete (slice x o n) (slice p o n) (slice c o n)
    else mkTabular true (← Scheme.ofCode code) (slice x o n) (slice p o n) (slice c o n)
  | _, _ => .error .indexError

/-- correlated.py 262-290: those of incoming energy `i`. -/
def takeMuAll (ix : Index) (codes offsets : List Int) (x p c : List K) (nEnergy : Nat) : Nat → Nat → Except PyErr (List (List (Uni K)))
  | 0, _ => .ok []
  | k + 1, i => do
    let (j, n) ← blockLen ix.offsets codes.length nEnergy i
    let l ← (List.range n.toNat).mapM fun e => takeMuAt codes offsets x p c (j.toNat + e)
    .ok (l :: (← takeMuAll ix codes offsets x p c nEnergy k (i + 1)))

/-- `CorrelatedAngleEnergy.from_hdf5`, correlated.py 196-296. -/
def correlatedFrom (g : Grp K) : Except PyErr (Dist K) := do
  let h ← headFrom g
  let data ← g.dset c!"energy_out"
  let ix ← indexFrom data.2
  let (v, codes, offsets) ← data.1.toEout
  let m ← (← g.dset c!"mu").1.toRows
  let out ← takeAll true ⟨← row v 0, ← row v 1, ← row v 2⟩ ix h.energy.length h.energy.length 0 none
  let mu ← takeMuAll ix codes offsets (← row m 0) (← row m 1) (← row m 2) h.energy.length h.energy.length 0
  .ok (.correlated h out mu)

/-- `AngleEnergy.to_hdf5`, by class; into a group that may have items already. -/
def distTo (g : Grp K) : Dist K → Except PyErr (Grp K)
  | .uncorrelated angle energy => do                                                                       -- uncorrelated.py 57-73
    let g := g.attr c!"type" (.str c!"uncorrelated")
    let g ← match angle with
      | some a => do g.add c!"angle" (← angleTo a).node
      | none => .ok g
    match energy with
      | some e => do g.add c!"energy" (← energyTo Grp.empty e).node
      | none => .ok g
  | .kalbach h out r a => kalbachTo g h out r a
  | .correlated h out mu => correlatedTo g h out mu
  | .nbody mass n awr q =>                                                                                  -- nbody.py 85-98
    .ok (((((g.attr c!"type" (.str c!"nbody")).attr c!"total_mass" (.num mass)).attr c!"n_particles" (.int n)).attr c!"atomic_weight_ratio" (.num awr)).attr c!"q_value" (.num q))

/-- `AngleEnergy.from_hdf5`, angle_energy.py 13-36: `none` for a type that is not known. -/
def distFrom (g : Grp K) : Except PyErr (Option (Dist K)) := do
  let t ← (← getAttr g.attrs c!"type").toStr
  if t = c!"uncorrelated" then                                                                             -- uncorrelated.py 76-95
    let angle ← if g.has c!"angle" then (do .ok (some (← angleFrom (← g.group c!"angle")))) else .ok none
    let energy ← if g.has c!"energy" then (do .ok (some (← energyFrom (← g.group c!"energy")))) else .ok none
    .ok (some (.uncorrelated angle energy))
  else if t = c!"correlated" then .ok (some (← correlatedFrom g))
  else if t = c!"kalbach-mann" then .ok (some (← kalbachFrom g))
  else if t = c!"nbody" then                                                                               -- nbody.py 101-119
    .ok (some (.nbody (← (← getAttr g.attrs c!"total_mass").toNum) (← (← getAttr g.attrs c!"n_particles").toInt) (← (← getAttr g.attrs c!"atomic_weight_ratio").toNum)
      (← (← getAttr g.attrs c!"q_value").toNum)))
  else .ok none

end dist

end ASAPy.Hdf5
