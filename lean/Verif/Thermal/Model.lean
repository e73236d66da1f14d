import Verif.Thermal.Tables
import Verif.Hdf5.Nuclide
import Verif.FromAce.Model
import Verif.Np

/-!
# Model of ASAPy/data/thermal.py

`get_thermal_name` 68-115, `CoherentElastic` 118-201, `ThermalScattering` 204-644: `from_ace`, `add_temperature_from_ace`, `export_to_hdf5`, `from_hdf5`, `from_njoy` (the part after NJOY has run).

Numbers are exact; text is ASCII. Files are left out: an ACE table is given by its arrays, the HDF5 form is the group of the material. Names of materials have no slash (h5py would make nested groups).
-/

namespace ASAPy.Thermal

open ASAPy
open ASAPy.Hdf5 (Text Grp Node Val Attrs Dist Uni Head getAttr vstack row tabTo tabFrom kTsTo kTsFrom mkTabular mkDiscrete distTo distFrom)
open ASAPy.FromAce (Arrays item slice pyTrunc pyRound)
open Dec

/-! ### Names -/

/-- `str.lower`. -/
def lower (s : Text) : Text := s.map fun c => if 'A' ≤ c ∧ c ≤ 'Z' then Char.ofNat (c.toNat + 32) else c

/-- The key under which a name is listed: the loop 85-87, with `lower`, and the loop 103-106, without. -/
def keyOf (name : Text) : List (Text × List Text) → Option Text
  | [] => none
  | (k, names) :: l => if name ∈ names then some k else keyOf name l

/-- `itertools.chain(_THERMAL_NAMES.keys(), *_THERMAL_NAMES.values())`, thermal.py 95-96. -/
def allNames : List Text := thermalNames.map Prod.fst ++ (thermalNames.map Prod.snd).flatten

/-- `get_thermal_name`, thermal.py 68-115. `close name names` is `get_close_matches(name, names, cutoff=0.5)`. -/
def thermalName (close : Text → List Text → List Text) (name : Text) : Text :=
  if name ∈ thermalNames.map Prod.fst then name
  else match keyOf (lower name) thermalNames with
    | some k => k
    | none => match close name allNames with
      | m :: _ => if m ∈ thermalNames.map Prod.fst then m else (keyOf m thermalNames).getD m
      | [] => c!"c_" ++ name

/-! ### Coherent elastic scattering -/

/-- The elastic cross section: `CoherentElastic` or `Tabulated1D`. -/
inductive Elastic (K : Type) where
  | coherent (edges factors : List K)
  | incoherent (t : Tab1D K)

section
variable {K : Type} [Field K] [LinearOrder K]

/-- `CoherentElastic.__call__` for a number, thermal.py 141-145. -/
def braggAt (edges factors : List K) (e : K) : Except PyErr K :=
  match factors[Np.searchsortedLeft edges e]? with
  | some f => .ok (f / e)
  | none => .error .indexError

end

/-! ### The data -/

/-- `ThermalScattering`, thermal.py 204-253. -/
structure Data (K : Type) where
  name : Text
  awr : K
  kTs : List K
  elasticXs : List (Text × Elastic K)
  elasticMu : List (Text × List (List K))
  inelasticXs : List (Text × Tab1D K)
  inelasticE : List (Text × List (List K))
  inelasticMu : List (Text × List (List (List K)))
  inelasticDist : List (Text × Dist K)
  mode : Option Text
  nuclides : List Text

/-- An ACE table (ace.py): name, temperature in MeV, atomic weight ratio, pairs of ZAID and weight, arrays. -/
structure Ace (K : Type) where
  name : Text
  temperature : K
  awr : K
  pairs : List (Int × K)
  arrays : Arrays K

section
variable {K : Type} [Field K] [LinearOrder K] [FloorRing K]

/-- `"{}K".format(int(round(kT / K_BOLTZMANN)))`, thermal.py 263, 414, 484. -/
def tempName (kT : K) : Text :=
  let r := pyRound (kT / (86173303 / 10 ^ 12))
  (if r < 0 then ['-'] else []) ++ natStr r.natAbs ++ ['K']

/-- Every `s`-th element from the first on; `j` elements are left out next. -/
def everyFrom {α : Type} (s : Nat) : Nat → List α → List α
  | _, [] => []
  | 0, a :: l => a :: everyFrom s (s - 1) l
  | j + 1, _ :: l => everyFrom s j l

/-- `l[a:b:s]`. A step that is not positive raises ValueError here; in Python a negative one gives an array of another length, which then cannot be reshaped. -/
def strided {α : Type} (l : List α) (a b s : Int) : Except PyErr (List α) := if s ≤ 0 then .error .valueError else .ok (everyFrom s.toNat 0 (slice l a b))

/-- `a.shape = (n, m)`, as rows. A negative number raises here (in Python -1 is worked out from the length). -/
def reshape {α : Type} (l : List α) (n m : Int) : Except PyErr (List (List α)) :=
  if n < 0 ∨ m < 0 ∨ (l.length : Int) ≠ n * m then .error .valueError
  else .ok ((List.range n.toNat).map fun i => (l.drop (i * m.toNat)).take m.toNat)

/-- thermal.py 505-518: discrete outgoing energies, `n` incident energies; `k` energies out, `nMu + 1` cosines for each. -/
def discreteOut (a : Arrays K) (n k nMu idx : Int) : Except PyErr (List (List K) × List (List (List K))) := do
  let e ← reshape ((← strided a.xss idx (idx + n * k * (nMu + 2)) (nMu + 2)).map (· * 1000000)) n k
  let mu ← reshape (slice a.xss idx (idx + n * k * (nMu + 2))) n (k * (nMu + 2))
  let mu ← mu.mapM fun r => reshape r k (nMu + 2)
  .ok (e, mu.map fun r => r.map (List.drop 1))

/-- `np.cumsum`, from `acc` on. -/
def cumsum (acc : K) : List K → List K
  | [] => []
  | p :: l => (acc + p) :: cumsum (acc + p) l

/-- thermal.py 542-549: the cosines for `m` outgoing energies. -/
def cosinesOut (a : Arrays K) (nMu : Int) : Nat → Int → Except PyErr (List (Uni K))
  | 0, _ => .ok []
  | m + 1, idx => do
    if nMu < 0 then .error .valueError
    else
      let p := List.replicate nMu.toNat (1 / (nMu : K))
      let d ← mkDiscrete (slice a.xss (idx + 4) (idx + 4 + nMu)) p (cumsum 0 p)
      .ok (d :: (← cosinesOut a nMu m (idx + (3 + nMu))))

/-- thermal.py 528-552: one incident energy, with its data after position `idx`. -/
def spectrumOut (a : Arrays K) (nMu idx m : Int) : Except PyErr (Uni K × List (Uni K)) := do
  let e ← strided a.xss (idx + 1) (idx + 1 + m * (nMu + 3)) (nMu + 3)
  let p ← strided a.xss (idx + 2) (idx + 2 + m * (nMu + 3)) (nMu + 3)
  let c ← strided a.xss (idx + 3) (idx + 3 + m * (nMu + 3)) (nMu + 3)
  let d ← mkTabular true .linlin (e.map (· * 1000000)) (p.map (· / 1000000)) c
  .ok (d, ← cosinesOut a nMu m.toNat idx)

/-- thermal.py 520-559: continuous outgoing energies. -/
def continuousOut (a : Arrays K) (n nMu idx : Int) (energy : List K) : Except PyErr (Dist K) := do
  let locs := (slice a.xss idx (idx + n)).map pyTrunc
  let counts := (slice a.xss (idx + n) (idx + 2 * n)).map pyTrunc
  if (locs.length : Int) < n ∨ (counts.length : Int) < n then .error .indexError
  else
    let out ← (locs.zip counts).mapM fun lc => spectrumOut a nMu lc.1 lc.2
    .ok (.correlated ⟨[n], [2], energy⟩ (out.map Prod.fst) (out.map Prod.snd))

/-- thermal.py 496-501. -/
def modeOf (n7 : Int) : Option Text := if n7 = 0 then some c!"equal" else if n7 = 1 then some c!"skewed" else if n7 = 2 then some c!"continuous" else none

/-- thermal.py 561-586: the elastic part; the cosines are absent in the coherent case. -/
def elasticOf (a : Arrays K) : Except PyErr (Option (Elastic K × Option (List (List K)))) := do
  let idx ← item a.jxs 4
  let nMu := (← item a.nxs 6) + 1
  if idx = 0 then .ok none
  else
    let n ← a.int idx
    let energy := (slice a.xss (idx + 1) (idx + 1 + n)).map (· * 1000000)
    let p := slice a.xss (idx + 1 + n) (idx + 1 + 2 * n)
    if (← item a.nxs 5) = 4 then
      if nMu ≠ 0 then .error .assertionError else .ok (some (.coherent energy (p.map (· * 1000000)), none))
    else if ¬ 0 < nMu then .error .assertionError
    else
      let idx ← item a.jxs 6
      .ok (some (.incoherent (.linlin energy p), some (← reshape (slice a.xss idx (idx + n * nMu)) n nMu)))

/-- `re.match(element + r'\d+', isotope)`. -/
def isotopeOf (element isotope : Text) : Bool := element.isPrefixOf isotope && match isotope.drop element.length with
  | c :: _ => isDigit c
  | [] => false

/-- `if x not in l: l.append(x)`. -/
def addNew (l : List Text) (x : Text) : List Text := if x ∈ l then l else l ++ [x]

/-- `sorted(...)` of texts. -/
def sortText (l : List Text) : List Text := l.insertionSort (· ≤ ·)

/-- thermal.py 588-604: the nuclides the data apply to. -/
def nuclidesOf : List (Int × K) → List Text → Except PyErr (List Text)
  | [], acc => .ok acc
  | (zaid, _) :: l, acc =>
    if 0 < zaid then match Dict.get? AceData.atomicSymbol (zaid / 1000) with
      | none => .error .keyError
      | some el =>
        if el = c!"H" ∨ el = c!"Fe" then nuclidesOf l (acc ++ [el ++ natStr (zaid % 1000).toNat])
        else nuclidesOf l (((sortText natural).filter (isotopeOf el)).foldl addNew (addNew acc (el ++ c!"0")))
    else nuclidesOf l acc

/-- thermal.py 503-559: what is stored for outgoing energies. -/
def inelasticOf (a : Arrays K) (mode : Option Text) (n : Int) (energy : List K) : Except PyErr (Option (List (List K) × List (List (List K))) × Option (Dist K)) := do
  let k ← item a.nxs 4
  let n3 ← item a.nxs 3
  let j3 ← item a.jxs 3
  if mode = some c!"equal" ∨ mode = some c!"skewed" then .ok (some (← discreteOut a n k n3 j3), none)
  else .ok (none, some (← continuousOut a n (n3 - 1) j3 energy))

/-- `name, xs = ace.name.split('.')`, thermal.py 479. -/
def stemOf (name : Text) : Except PyErr Text :=
  match name.splitOnP (· = '.') with
  | [z, _] => .ok z
  | _ => .error .valueError

/-- `ThermalScattering.from_ace`, thermal.py 454-606. The parameter `name` is overwritten in 480. -/
def fromAce (close : Text → List Text → List Text) (t : Ace K) (_name : Option Text) : Except PyErr (Data K) := do
  let name := thermalName close (← stemOf t.name)
  let kT := t.temperature * 1000000
  let T := tempName kT
  let a := t.arrays
  let idx ← item a.jxs 1
  let n ← a.int idx
  let energy := (slice a.xss (idx + 1) (idx + 1 + n)).map (· * 1000000)
  let xs := slice a.xss (idx + 1 + n) (idx + 1 + 2 * n)
  let mode := modeOf (← item a.nxs 7)
  let inel ← inelasticOf a mode n energy
  let el ← elasticOf a
  let nuclides ← nuclidesOf t.pairs []
  .ok {
    name := name, awr := t.awr, kTs := [kT],
    elasticXs := el.toList.map fun e => (T, e.1),
    elasticMu := (el.bind Prod.snd).toList.map fun m => (T, m),
    inelasticXs := [(T, .linlin energy xs)],
    inelasticE := inel.1.toList.map fun e => (T, e.1),
    inelasticMu := inel.1.toList.map fun e => (T, e.2),
    inelasticDist := inel.2.toList.map fun d => (T, d),
    mode := mode, nuclides := nuclides }

/-- `if strT in data: self[strT] = data[strT]`. -/
def copyAt {α : Type} (T : Text) (src dst : List (Text × α)) : List (Text × α) :=
  match Dict.get? src T with
  | some v => Dict.set dst T v
  | none => dst

/-- `add_temperature_from_ace`, thermal.py 319-368, for data `e` read from the table. -/
def addData (d e : Data K) : Except PyErr (Data K) :=
  match e.kTs with
  | [] => .error .indexError
  | kT :: _ =>
    let T := tempName kT
    if T ∈ d.kTs.map tempName then .ok d
    else if e.name ≠ d.name then .error .valueError
    else .ok { d with
      kTs := d.kTs ++ e.kTs,
      inelasticXs := copyAt T e.inelasticXs d.inelasticXs,
      inelasticE := copyAt T e.inelasticE d.inelasticE,
      inelasticMu := copyAt T e.inelasticMu d.inelasticMu,
      inelasticDist := copyAt T e.inelasticDist d.inelasticDist,
      elasticXs := copyAt T e.elasticXs d.elasticXs,
      elasticMu := copyAt T e.elasticMu d.elasticMu }

/-- `add_temperature_from_ace`, thermal.py 319-368. -/
def addTemperature (close : Text → List Text → List Text) (d : Data K) (t : Ace K) (name : Option Text) : Except PyErr (Data K) := do
  addData d (← fromAce close t name)

/-- `from_njoy`, thermal.py 638-644: the tables of the library. -/
def fromTables (close : Text → List Text → List Text) : List (Ace K) → Except PyErr (Data K)
  | [] => .error .indexError
  | t :: ts => do ts.foldlM (fun d t => addTemperature close d t none) (← fromAce close t none)

end

/-! ### HDF5 -/

section
variable {K : Type} [Field K] [LinearOrder K]

/-- `CoherentElastic.to_hdf5`, thermal.py 169-182; `Tabulated1D.to_hdf5`. -/
def elasticTo : Elastic K → Except PyErr (Node K)
  | .coherent e f => do .ok (.data (.rows (← vstack e f)) [(c!"type", .str c!"bragg")])
  | .incoherent t => tabTo t

/-- thermal.py 426-433, `CoherentElastic.from_hdf5` 185-201: nothing for another type. -/
def elasticFrom (d : Val K × Attrs K) : Except PyErr (Option (Elastic K)) := do
  let t ← (← getAttr d.2 c!"type").toStr
  if t = c!"Tabulated1D" then .ok (some (.incoherent (← tabFrom d)))
  else if t = c!"bragg" then do
    let v ← d.1.toRows
    .ok (some (.coherent (← row v 0) (← row v 1)))
  else .ok none

/-- `d[T]`. -/
def look {α : Type} (d : List (Text × α)) (T : Text) : Except PyErr α :=
  match Dict.get? d T with
  | some v => .ok v
  | none => .error .keyError

/-- thermal.py 301-303. -/
def muTo (d : Data K) (T : Text) (g : Grp K) : Except PyErr (Grp K) :=
  if d.elasticMu.isEmpty then .ok g else do g.add c!"mu_out" (.data (.rows (← look d.elasticMu T)) [])

/-- thermal.py 296-303. -/
def elasticGroup (d : Data K) (T : Text) : Except PyErr (Option (Grp K)) :=
  if d.elasticXs.isEmpty then .ok none
  else do
    let g ← Grp.empty.add c!"xs" (← elasticTo (← look d.elasticXs T))
    .ok (some (← muTo d T g))

/-- thermal.py 309-315. -/
def outTo (d : Data K) (T : Text) (g : Grp K) : Except PyErr (Grp K) :=
  if d.mode = some c!"equal" ∨ d.mode = some c!"skewed" then do
    let g ← g.add c!"energy_out" (.data (.rows (← look d.inelasticE T)) [])
    g.add c!"mu_out" (.data (.cube (← look d.inelasticMu T)) [])
  else if d.mode = some c!"continuous" then do distTo g (← look d.inelasticDist T)
  else .ok g

/-- thermal.py 305-315. -/
def inelasticGroup (d : Data K) (T : Text) : Except PyErr (Option (Grp K)) :=
  if d.inelasticXs.isEmpty then .ok none
  else do
    let g ← Grp.empty.add c!"xs" (← tabTo (← look d.inelasticXs T))
    .ok (some (← outTo d T g))

/-- thermal.py 295-315: the group of a temperature. -/
def tempGroup (d : Data K) (T : Text) : Except PyErr (Grp K) := do
  let g ← Grp.empty.addIf c!"elastic" (← elasticGroup d T)
  g.addIf c!"inelastic" (← inelasticGroup d T)

/-- thermal.py 294-315. -/
def tempsTo (d : Data K) : List Text → Grp K → Except PyErr (Grp K)
  | [], g => .ok g
  | T :: l, g => do tempsTo d l (← g.add T (← tempGroup d T).node)

/-- `export_to_hdf5`, thermal.py 265-317: the group of the material. `np.string_(None)` is `'None'`. -/
def dataTo (temp : K → Text) (d : Data K) : Except PyErr (Grp K) := do
  let g := (((Grp.empty : Grp K).attr c!"atomic_weight_ratio" (.num d.awr)).attr c!"nuclides" (.strs d.nuclides)).attr c!"secondary_mode" (.str (d.mode.getD c!"None"))
  let g ← g.add c!"kTs" (← kTsTo temp d.kTs Grp.empty).node
  tempsTo d (d.kTs.map temp) g

/-- thermal.py 436-437. -/
def elasticMuFrom (T : Text) (g : Grp K) (acc : List (Text × List (List K))) : Except PyErr (List (Text × List (List K))) :=
  if g.has c!"mu_out" then do .ok (Dict.set acc T (← (← g.dset c!"mu_out").1.toRows)) else .ok acc

/-- thermal.py 423-437. -/
def elasticAt (T : Text) (g : Grp K) (d : Data K) : Except PyErr (Data K) :=
  if g.has c!"elastic" then do
    let eg ← g.group c!"elastic"
    let xs := match ← elasticFrom (← eg.dset c!"xs") with
      | some e => Dict.set d.elasticXs T e
      | none => d.elasticXs
    .ok { d with elasticXs := xs, elasticMu := ← elasticMuFrom T eg d.elasticMu }
  else .ok d

/-- thermal.py 444-449. A distribution of an unknown type would be None; the model raises. -/
def outFrom (T : Text) (g : Grp K) (d : Data K) : Except PyErr (Data K) :=
  if d.mode = some c!"equal" ∨ d.mode = some c!"skewed" then do
    .ok { d with inelasticE := Dict.set d.inelasticE T (← (← g.dset c!"energy_out").1.toRows), inelasticMu := Dict.set d.inelasticMu T (← (← g.dset c!"mu_out").1.toCube) }
  else if d.mode = some c!"continuous" then do
    .ok { d with inelasticDist := Dict.set d.inelasticDist T (← Hdf5.knownDist g) }
  else .ok d

/-- thermal.py 439-449. -/
def inelasticAt (T : Text) (g : Grp K) (d : Data K) : Except PyErr (Data K) :=
  if g.has c!"inelastic" then do
    let ig ← g.group c!"inelastic"
    outFrom T ig { d with inelasticXs := Dict.set d.inelasticXs T (← tabFrom (← ig.dset c!"xs")) }
  else .ok d

/-- thermal.py 421-449. -/
def tempsFrom (g : Grp K) : List Text → Data K → Except PyErr (Data K)
  | [], d => .ok d
  | T :: l, d => do
    let tg ← g.group T
    tempsFrom g l (← inelasticAt T tg (← elasticAt T tg d))

/-- `from_hdf5`, thermal.py 371-451, for a group. `ord` is the order in which h5py goes through the items of a group. -/
def dataFrom (temp : K → Text) (ord : List (Text × Node K) → List (Text × Node K)) (name : Text) (g : Grp K) : Except PyErr (Data K) := do
  let awr ← (← getAttr g.attrs c!"atomic_weight_ratio").toNum
  let kTs ← kTsFrom (ord (← g.group c!"kTs").items)
  let nuclides ← (← getAttr g.attrs c!"nuclides").toStrs
  let mode ← (← getAttr g.attrs c!"secondary_mode").toStr
  tempsFrom g (kTs.map temp) ⟨name, awr, kTs, [], [], [], [], [], [], some mode, nuclides⟩

end

end ASAPy.Thermal
