import Verif.Res.Model
import Verif.Func.Model
import Verif.FromAce.Model
import Verif.AceData.Model
import Verif.Chars

/-!
# Model of reactions read from an evaluation

`AngleDistribution.from_endf` (ASAPy/data/angle_distribution.py 209-310), `EnergyDistribution.from_endf` with its laws (energy_distribution.py 60-91, 125-153, 198-220, 332-353, 465-486,
625-647, 757-778), the distributions of angle and energy (correlated.py 414-460, kalbach_mann.py 355-403, laboratory.py 104-139, nbody.py 146-165), products, fission neutrons, activation
products and photons (reaction.py 67-185, 327-464, 467-552, 651-760) and `Reaction.from_endf` (reaction.py 1095-1186), `IncidentNeutron.from_endf` (neutron.py 707-790).

A file is the list of its lines, as in `Verif.Endf.Model`. Numbers are exact rationals; `np.exp` and `np.log`, which interpolation may need, are arbitrary operations. An interpolation scheme is
given by its number. Warnings are left out; NotImplementedError is `PyErr.exception`. Numpy takes -1 in a shape as a length to be found; the model rejects it as it does other negative
lengths.
-/

namespace ASAPy.EndfRx
open ASAPy.Endf
open ASAPy.Res (Reader many)
open ASAPy.Func (Fn)
open ASAPy.FromAce (Mode item)

/-! ### Types -/

/-- `Uniform(-1, 1)`, `Tabular` or `Legendre`, the latter by the coefficients it was made from (univariate.py 312-440). -/
inductive Mu where
  | uniform
  | tabular (law : Nat) (x p : List ℚ)
  | legendre (c : List ℚ)
deriving DecidableEq

/-- `AngleDistribution`. -/
structure Angle where
  energy : List ℚ
  mu : List Mu
deriving DecidableEq

/-- An `EnergyDistribution`. -/
inductive EnDist where
  | arbitrary (energy : List ℚ) (pdf : List (Tab1D ℚ))
  | general (theta g : Tab1D ℚ) (u : ℚ)
  | maxwell (theta : Tab1D ℚ) (u : ℚ)
  | evaporation (theta : Tab1D ℚ) (u : ℚ)
  | watt (a b : Tab1D ℚ) (u : ℚ)
  | madlandNix (efl efh : ℚ) (tm : Tab1D ℚ)
  | level (threshold ratio : ℚ)
  | discretePhoton (flag : Int) (energy awr : ℚ)
deriving DecidableEq

/-- A `Tabular` of outgoing energies. -/
structure EOut where
  law : Nat
  x : List ℚ
  p : List ℚ
deriving DecidableEq

/-- An `AngleEnergy`; the incident energies are grouped by `regions`, pairs of a breakpoint and a scheme. -/
inductive Dist where
  | uncorrelated (angle : Option Angle) (energy : Option EnDist)
  | correlated (regions : List (Int × Int)) (energy : List ℚ) (out : List EOut) (mu : List (List Mu))
  | kalbach (regions : List (Int × Int)) (energy : List ℚ) (out : List EOut) (r a : List (Tab1D ℚ))
  | laboratory (regions : List (Int × Int)) (energy : List ℚ) (mu : List EOut) (out : List (List EOut))
  | nbody (mass : ℚ) (n : Int) (awr q : ℚ)
deriving DecidableEq

/-- A `Product`. -/
structure Prod where
  particle : Line
  mode : Mode
  decayRate : ℚ
  yield_ : Fn ℚ
  applicability : List (Tab1D ℚ)
  dist : List Dist
deriving DecidableEq

/-- `Product(particle)`, product.py 41-48. -/
def newProduct (particle : Line) : Prod := ⟨particle, .prompt, 0, .poly [1], [], []⟩

/-- `ev.section`, `ev.target['mass']`, `ev.info['energy_max']`. -/
structure Ev where
  sections : List ((Int × Int) × List Line)
  mass : ℚ
  energyMax : ℚ

/-- `ev.section[mf, mt]`. -/
def Ev.get (ev : Ev) (mf mt : Int) : Except PyErr (List Line) :=
  match Dict.get? ev.sections (mf, mt) with
  | some f => .ok f
  | none => .error .keyError

/-- `(mf, mt) in ev.section`. -/
def Ev.has (ev : Ev) (mf mt : Int) : Bool := (Dict.get? ev.sections (mf, mt)).isSome

/-! ### Records -/

/-- `get_tab1_record`, endf.py 209-268: C1, C2, L1, L2 and the function. -/
def rdTab : Reader ((ℚ × ℚ × Int × Int) × Tab1D ℚ) := fun f => do
  let (p, regions, points, f) ← getTab1 f
  return ((p, ⟨points.map (·.1), points.map (·.2), regions.map (·.1), regions.map fun r => r.2.toNat⟩), f)

/-- `INTERPOLATION_SCHEME[k]`, function.py 13. -/
def scheme (k : Int) : Except PyErr Nat := if 1 ≤ k ∧ k ≤ 5 then .ok k.toNat else .error .keyError

/-- `Tabular(x, p, interpolation)`, univariate.py 340-378: negative probabilities are rejected. -/
def tabular (law : Nat) (x p : List ℚ) : Except PyErr EOut := if p.any fun v => decide (v < 0) then .error .valueError else .ok ⟨law, x, p⟩

/-- `Legendre(coefficients)`, univariate.py 403-430: numpy rejects an empty list. -/
def legendre (c : List ℚ) : Except PyErr Mu := if c = [] then .error .valueError else .ok (.legendre c)

/-- `np.zeros(n)` rejects a negative size. -/
def size (n : Int) : Except PyErr Nat := if n < 0 then .error .valueError else .ok n.toNat

/-! ### Angular distributions (angle_distribution.py) -/

/-- Lines 258-263 and 288-293: an incident energy and its Legendre coefficients. -/
def rdLegendre : Reader (ℚ × Mu) := fun f => do
  let (c, vs, f) ← getList f
  let m ← legendre (1 :: vs)
  return ((c.c2, m), f)

/-- Lines 272-279 and 299-306: an incident energy and its table. `n_regions` is the number of breakpoints. -/
def rdTabular : Reader (ℚ × Mu) := fun f => do
  let (p, t) ← rdTab f
  if 1 < p.2.breakpoints.length then .error .exception
  else do
    let k ← item p.2.interpolation 0
    let law ← scheme (k : Int)
    let d ← tabular law p.2.x p.2.y
    return ((p.1.2.1, .tabular d.law d.x d.p), t)

/-- Lines 253-258, 267-272, 283-288, 295-299: a TAB2 record and the energies it announces. -/
def rdAngles (rd : Reader (ℚ × Mu)) : Reader (List (ℚ × Mu)) := fun f => do
  let (c, _, f) ← getTab2 f
  let n ← size c.n2
  many rd n f

/-- `AngleDistribution.from_endf`, lines 209-310, on the lines of section (4, mt). -/
def angleFromEndf (energyMax : ℚ) (f : List Line) : Except PyErr Angle := do
  let (h, f) ← getHead f
  let (c, f) ← getCont f
  let f := if h.l1 > 0 then f.drop ((c.n1 + 5) / 6).toNat else f                        -- 240-244
  if h.l2 = 0 ∧ c.l1 = 1 then return ⟨[0, energyMax], [.uniform, .uniform]⟩
  else if h.l2 = 1 ∧ c.l1 = 0 then do
    let (ms, _) ← rdAngles rdLegendre f
    return ⟨ms.map (·.1), ms.map (·.2)⟩
  else if h.l2 = 2 ∧ c.l1 = 0 then do
    let (ms, _) ← rdAngles rdTabular f
    return ⟨ms.map (·.1), ms.map (·.2)⟩
  else if h.l2 = 3 ∧ c.l1 = 0 then do
    let (ms, f) ← rdAngles rdLegendre f
    let (ms', _) ← rdAngles rdTabular f
    return ⟨ms.map (·.1) ++ ms'.map (·.1), ms.map (·.2) ++ ms'.map (·.2)⟩
  else .error .unboundLocal

/-! ### Energy distributions (energy_distribution.py) -/

/-- `EnergyDistribution.from_endf`, lines 60-91, with the laws; `p` is C1, C2, L1, L2 of the TAB1 record in front. An unknown law gives `None`, which the setter of `energy` rejects
(uncorrelated.py 55). The setters of `MadlandNix` (705-713) want positive energies. -/
def rdEnergy (p : ℚ × ℚ × Int × Int) : Reader EnDist := fun f =>
  if p.2.2.2 = 1 then do
    let (c, _, f) ← getTab2 f
    let n ← size c.n2
    let (ts, f) ← many rdTab n f
    return (.arbitrary (ts.map fun t => t.1.2.1) (ts.map (·.2)), f)
  else if p.2.2.2 = 5 then do
    let (theta, f) ← rdTab f
    let (g, f) ← rdTab f
    return (.general theta.2 g.2 p.1, f)
  else if p.2.2.2 = 7 then do
    let (theta, f) ← rdTab f
    return (.maxwell theta.2 p.1, f)
  else if p.2.2.2 = 9 then do
    let (theta, f) ← rdTab f
    return (.evaporation theta.2 p.1, f)
  else if p.2.2.2 = 11 then do
    let (a, f) ← rdTab f
    let (b, f) ← rdTab f
    return (.watt a.2 b.2 p.1, f)
  else if p.2.2.2 = 12 then do
    let (tm, f) ← rdTab f
    if tm.1.1 ≤ 0 ∨ tm.1.2.1 ≤ 0 then .error .valueError
    else return (.madlandNix tm.1.1 tm.1.2.1 tm.2, f)
  else .error .typeError

/-- reaction.py 1145-1150 and 427-429: a TAB1 record and the distribution behind it. -/
def rdPart : Reader (Tab1D ℚ × Dist) := fun f => do
  let (p, f) ← rdTab f
  let (d, f) ← rdEnergy p.1 f
  return ((p.2, .uncorrelated none (some d)), f)

/-! ### Distributions of angle and energy -/

/-- `values.shape = (n, w)` for the values of a LIST record: the rows. -/
def reshape (n w : Int) (vs : List ℚ) : Except PyErr (List (List ℚ)) :=
  if n < 0 ∨ w < 0 ∨ (vs.length : Int) ≠ n * w then .error .valueError
  else .ok ((List.range n.toNat).map fun i => (vs.drop (w.toNat * i)).take w.toNat)

/-- `values[:, j]` of an array with rows of length `w`. -/
def column (w : Int) (rows : List (List ℚ)) (j : Nat) : Except PyErr (List ℚ) :=
  if (j : Int) < w then .ok (rows.map fun r => r.getD j 0) else .error .indexError

/-- correlated.py 436-457: one incident energy. -/
def rdCorrelated (lep : Int) : Reader (ℚ × EOut × List Mu) := fun f => do
  let (c, vs, f) ← getList f
  let rows ← reshape c.n2 (c.l2 + 2) vs
  let e ← column (c.l2 + 2) rows 0
  let p ← column (c.l2 + 2) rows 1
  let law ← scheme lep
  let mu ← rows.mapM fun r => legendre (r.drop 1)
  return ((c.c2, ⟨law, e, p⟩, mu), f)

/-- `CorrelatedAngleEnergy.from_endf`, correlated.py 414-460. Negative probabilities are accepted. -/
def correlatedFromEndf : Reader Dist := fun f => do
  let (c, regions, f) ← getTab2 f
  let n ← size c.n2
  let (ds, f) ← many (rdCorrelated c.l2) n f
  return (.correlated regions (ds.map (·.1)) (ds.map (·.2.1)) (ds.map (·.2.2)), f)

/-- kalbach_mann.py 377-400: one incident energy. -/
def rdKalbach (lep : Int) : Reader (ℚ × EOut × Tab1D ℚ × Tab1D ℚ) := fun f => do
  let (c, vs, f) ← getList f
  let rows ← reshape c.n2 (c.l2 + 2) vs
  let e ← column (c.l2 + 2) rows 0
  let p ← column (c.l2 + 2) rows 1
  let law ← scheme lep
  let out ← tabular law e p
  let r ← column (c.l2 + 2) rows 2
  let a ← if c.l2 = 2 then column (c.l2 + 2) rows 3 else .ok (r.map fun _ => 0)
  return ((c.c2, out, .linlin e r, .linlin e a), f)

/-- `KalbachMann.from_endf`, kalbach_mann.py 355-403. -/
def kalbachFromEndf : Reader Dist := fun f => do
  let (c, regions, f) ← getTab2 f
  let n ← size c.n2
  let (ds, f) ← many (rdKalbach c.l2) n f
  return (.kalbach regions (ds.map (·.1)) (ds.map (·.2.1)) (ds.map (·.2.2.1)) (ds.map (·.2.2.2)), f)

/-- laboratory.py 131-135: one cosine, with the sum of the tabulated values and the distribution of energies. -/
def rdCosine : Reader (ℚ × ℚ × EOut) := fun f => do
  let (p, f) ← rdTab f
  let d ← tabular 2 p.2.x p.2.y
  return ((p.1.2.1, p.2.y.sum, d), f)

/-- laboratory.py 124-137: one incident energy. -/
def rdLab : Reader (ℚ × EOut × List EOut) := fun f => do
  let (c, _, f) ← getTab2 f
  let n ← size c.n2
  let (ds, f) ← many rdCosine n f
  let mu ← tabular 2 (ds.map (·.1)) (ds.map (·.2.1))
  return ((c.c2, mu, ds.map (·.2.2)), f)

/-- `LaboratoryAngleEnergy.from_endf`, laboratory.py 104-139. -/
def labFromEndf : Reader Dist := fun f => do
  let (c, regions, f) ← getTab2 f
  let n ← size c.n2
  let (ds, f) ← many rdLab n f
  return (.laboratory regions (ds.map (·.1)) (ds.map (·.2.1)) (ds.map (·.2.2)), f)

/-- `NBodyPhaseSpace.from_endf`, nbody.py 146-165. -/
def nbodyFromEndf : Reader Dist := fun f => do
  let (c, f) ← getCont f
  if c.c1 ≤ 0 ∨ c.n2 ≤ 0 then .error .valueError
  else return (.nbody c.c1 c.n2 1 0, f)

/-! ### Products of MF=6 (reaction.py) -/

/-- `values[::2]` and `values[1::2]`. -/
def evens : List ℚ → List ℚ
  | [] => []
  | [a] => [a]
  | a :: _ :: l => a :: evens l

def odds : List ℚ → List ℚ
  | [] => []
  | [_] => []
  | _ :: b :: l => b :: odds l

/-- Lines 145-155: one incident energy of discrete two-body scattering. For another LANG nothing is appended to `mu`. -/
def rdTwoBody : Reader (ℚ × List Mu) := fun f => do
  let (c, vs, f) ← getList f
  if c.l1 = 0 then do
    let m ← legendre vs
    return ((c.c2, [m]), f)
  else if c.l1 = 12 then do
    let d ← tabular 2 (evens vs) (odds vs)
    return ((c.c2, [.tabular d.law d.x d.p]), f)
  else if c.l1 = 14 then do
    let d ← tabular 4 (evens vs) (odds vs)
    return ((c.c2, [.tabular d.law d.x d.p]), f)
  else return ((c.c2, []), f)

/-- Lines 100-108: the name of the product with the number `za`. -/
def particleOf (za : Int) : Except PyErr Line :=
  if za = 0 then .ok c!"photon"
  else if za = 1 then .ok c!"neutron"
  else if za = 1000 then .ok c!"electron"
  else match Dict.get? AceData.atomicSymbol (za / 1000) with
    | none => .error .keyError
    | some s => .ok (s ++ AceData.intStr (za % 1000))

/-- Lines 122-181: the distributions by the number of the law; nothing is read for laws 0, 4 and 5 and for LANG other than 1 and 2 in law 1. -/
def rdLaw (law : Int) : Reader (List Dist) := fun f =>
  if law = 1 then do
    let (c, _) ← getCont f                                                              -- 129-131: the position is restored
    if c.l1 = 1 then do
      let (d, f) ← correlatedFromEndf f
      return ([d], f)
    else if c.l1 = 2 then do
      let (d, f) ← kalbachFromEndf f
      return ([d], f)
    else return ([], f)
  else if law = 2 then do
    let (c, _, f) ← getTab2 f
    let n ← size c.n2
    let (ms, f) ← many rdTwoBody n f
    return ([.uncorrelated (some ⟨ms.map (·.1), ms.flatMap (·.2)⟩) none], f)
  else if law = 3 then .ok ([.uncorrelated none none], f)
  else if law = 6 then do
    let (d, f) ← nbodyFromEndf f
    return ([d], f)
  else if law = 7 then do
    let (d, f) ← labFromEndf f
    return ([d], f)
  else .ok ([], f)

/-- Lines 91-183: one product. -/
def rdProduct : Reader Prod := fun f => do
  let (p, f) ← rdTab f
  let name ← particleOf (trunc p.1.1)
  let (ds, f) ← rdLaw p.1.2.2.2 f
  return ({ newProduct name with yield_ := .tab p.2, dist := ds }, f)

/-- `_get_products`, lines 67-185, on the lines of section (6, mt). -/
def productsFromEndf (f : List Line) : Except PyErr (List Prod) := do
  let (h, f) ← getHead f
  if ¬ (1 ≤ h.l2 ∧ h.l2 ≤ 4) then .error .keyError                                      -- 86-87
  else do
    let (ps, _) ← many rdProduct h.n1.toNat f
    return ps

/-! ### Fission (reaction.py 327-464) -/

/-- Lines 350-356, 367-373, 405-415: nu by its representation; another number leaves what was there. `Polynomial([])` raises ValueError. -/
def rdNu (lnu : Int) : Reader (Option (Fn ℚ)) := fun f =>
  if lnu = 1 then do
    let (_, c, f) ← getList f
    if c = [] then .error .valueError else return (some (.poly c), f)
  else if lnu = 2 then do
    let (t, f) ← rdTab f
    return (some (.tab t.2), f)
  else .ok (none, f)

/-- Lines 344-358 and 361-373: the product of section (1, mt). -/
def nuProduct (mode : Mode) (f : List Line) : Except PyErr Prod := do
  let (h, f) ← getHead f
  let (y, _) ← rdNu h.l2 f
  return { newProduct c!"neutron" with mode := mode, yield_ := y.getD (.poly [1]) }

/-- Lines 391-395: a product for each decay constant. -/
def delayedProducts (cs : List ℚ) : Except PyErr (List Prod) :=
  cs.mapM fun c => if c < 0 then .error .valueError else .ok { newProduct c!"neutron" with mode := .delayed, decayRate := c }

/-- Lines 409-410 and 414-415: `for neutron in products[-6:]: neutron.yield_ = ...`. -/
def setLast6 (y : Option (Fn ℚ)) (ps : List Prod) : List Prod :=
  match y with
  | none => ps
  | some y => ps.take (ps.length - 6) ++ (ps.drop (ps.length - 6)).map fun p => { p with yield_ := y }

variable [ExpLog ℚ]

/-- Lines 432-460: the yield of a group from the delayed yield and the applicability of its spectrum. -/
def groupYield (y : Fn ℚ) (a : Tab1D ℚ) : Except PyErr (Fn ℚ) :=
  match y with
  | .tab t => do
    let a0 ← item a.y 0
    if a.y.all fun v => decide (v = a0) then return .tab { t with y := t.y.map (· * a0) }
    else do
      let m1 ← item t.x (-1)
      let m2 ← item a.x (-1)
      let energy := (Func.union1d t.x a.x).filter fun e => decide (e ≤ min m1 m2)
      let y1 ← t.evals energy
      let y2 ← a.evals energy
      return .tab (.linlin energy (List.zipWith (· * ·) y1 y2))
  | .poly c =>
    if c.length = 1 then .ok (.tab { a with y := a.y.map (· * c.getD 0 0) })
    else do
      let a0 ← item a.y 0
      if a.y.all fun v => decide (v = a0) then return .poly (c.modify 0 (· * a0))
      else .error .exception

/-- Lines 426-462: the spectra of the groups, from the `i`-th on, go to `products[1 + i]`. -/
def spectra : Nat → Nat → List Prod → Reader (List Prod)
  | 0, _, ps, f => .ok (ps, f)
  | n + 1, i, ps, f => do
    let (d, f) ← rdPart f
    match ps[1 + i]? with
    | none => .error .indexError
    | some p => do
      let y ← groupYield p.yield_ d.1
      spectra n (i + 1) (ps.set (1 + i) { p with yield_ := y, dist := p.dist ++ [d.2] }) f

/-- Lines 381-462: the delayed neutrons, appended to the products. -/
def addDelayed (ev : Ev) (ps : List Prod) (f : List Line) : Except PyErr (List Prod) := do
  let (h, f) ← getHead f
  if h.l1 = 1 then .error .exception
  else do
    let (cs, f) ← if h.l1 = 0 then do
        let (_, cs, f) ← getList f
        pure (some cs, f)
      else pure (none, f)
    let ds ← delayedProducts (cs.getD [])
    let (y, _) ← rdNu h.l2 f
    let ps := setLast6 y (ps ++ ds)
    if ev.has 5 455 then do
      let f ← ev.get 5 455
      let (h, f) ← getHead f
      match cs with
      | none => .error .unboundLocal
      | some cs =>
        if h.n1 ≠ cs.length then .error .valueError
        else do
          let (ps, _) ← spectra h.n1.toNat 0 ps f
          return ps
    else return ps

/-- `_get_fission_products_endf`, lines 327-464: products and derived products. -/
def fissionFromEndf (ev : Ev) : Except PyErr (List Prod × List Prod) := do
  let ps ← if ev.has 1 456 then do
      let f ← ev.get 1 456
      let p ← nuProduct .prompt f
      pure [p]
    else pure []
  let (ps, derived) ← if ev.has 1 452 then do
      let f ← ev.get 1 452
      let p ← nuProduct .total f
      pure (if ev.has 1 456 then (ps, [p]) else (ps ++ [p], []))
    else pure (ps, [])
  if ev.has 1 455 then do
    let f ← ev.get 1 455
    let ps ← addDelayed ev ps f
    return (ps, derived)
  else return (ps, derived)

/-! ### Reactions -/

/-- `Reaction`, with `rx.xs.get('0K')`. -/
structure Rx where
  mt : Int
  com : Bool
  q : ℚ
  xs : Option (Tab1D ℚ)
  products : List Prod
  derived : List Prod
deriving DecidableEq

/-- Lines 532-540 and 735-743: production over reaction cross section on the union of the grids. -/
def ratio (prod : Tab1D ℚ) (xs : Option (Tab1D ℚ)) : Except PyErr (Tab1D ℚ) :=
  match xs with
  | none => .error .keyError
  | some xs => do
    let energy := Func.union1d prod.x xs.x
    let y1 ← prod.evals energy
    let y2 ← xs.evals energy
    return .linlin energy (List.zipWith (fun p s => if s > 0 then p / s else 0) y1 y2)

/-- Lines 493-502: LMF of a state. -/
def rdState (sublib : Bool) : Reader Int := fun f =>
  if sublib then do
    let (c, f) ← getCont f
    return (c.l1, f)
  else do
    let (c, _, f) ← getList f
    return (c.l1, f)

/-- Lines 516-524: the name of an activation product. -/
def activationName (izap lfs : Int) : Except PyErr Line :=
  match Dict.get? AceData.atomicSymbol (izap / 1000) with
  | none => .error .keyError
  | some s => .ok (if lfs > 0 then s ++ AceData.intStr (izap % 1000) ++ c!"_e" ++ AceData.intStr lfs else s ++ AceData.intStr (izap % 1000))

/-- Lines 544-547: the yield of the first product of that name. -/
def overwrite (name : Line) (y : Fn ℚ) : List Prod → Option (List Prod)
  | [] => none
  | p :: ps => if name = p.particle then some ({ p with yield_ := y } :: ps) else (overwrite name y ps).map (p :: ·)

/-- Lines 526-540: the yield of a state of file `mf`. -/
def stateYield (mf : Int) (xs : Option (Tab1D ℚ)) (t : Tab1D ℚ) : Except PyErr (Tab1D ℚ) := if mf = 9 then .ok t else ratio t xs

/-- Lines 513-550: the states of file `mf`: the products of the reaction, some of them with other yields, and the new ones. -/
def activationStates (mf : Int) (xs : Option (Tab1D ℚ)) : Nat → List Prod → List Prod → Reader (List Prod × List Prod)
  | 0, old, new, f => .ok ((old, new), f)
  | n + 1, old, new, f => do
    let (p, f) ← rdTab f
    let name ← activationName p.1.2.2.1 p.1.2.2.2
    let y ← stateYield mf xs p.2
    match overwrite name (.tab y) old with
    | some old => activationStates mf xs n old new f
    | none => activationStates mf xs n old (new ++ [{ newProduct name with yield_ := .tab y }]) f

/-- Lines 506-513, one of files 9 and 10. -/
def activationFile (ev : Ev) (rx : Rx) (present : List Int) (mf : Int) (old new : List Prod) : Except PyErr (List Prod × List Prod) :=
  if mf ∈ present then do
    let f ← ev.get mf rx.mt
    let (h, f) ← getHead f
    let (r, _) ← activationStates mf rx.xs h.n1.toNat old new f
    return r
  else .ok (old, new)

/-- `_get_activation_products`, lines 467-552, and line 1181: the reaction with the products. -/
def addActivation (ev : Ev) (rx : Rx) : Except PyErr Rx := do
  let f ← ev.get 8 rx.mt
  let (h, f) ← getHead f
  let (present, _) ← many (rdState (decide (h.n2 = 1))) h.n1.toNat f
  let (old, new) ← activationFile ev rx present 9 rx.products []
  let (old, new) ← activationFile ev rx present 10 old new
  return { rx with products := old ++ new }

/-- Lines 688-697, 746-755: the distribution of a photon by its law. -/
def photonDist (mass : ℚ) (p : ℚ × ℚ × Int × Int) : Dist :=
  if p.2.2.2 = 2 then .uncorrelated none (some (.discretePhoton p.2.2.1 p.2.1 mass)) else .uncorrelated none none

/-- Lines 681-700: a photon of file 12. -/
def rdPhoton12 (mass : ℚ) : Reader Prod := fun f => do
  let (p, f) ← rdTab f
  return ({ newProduct c!"photon" with yield_ := .tab p.2, dist := [photonDist mass p.1] }, f)

/-- Lines 729-758: a photon of file 13. -/
def rdPhoton13 (mass : ℚ) (xs : Option (Tab1D ℚ)) : Reader Prod := fun f => do
  let (p, f) ← rdTab f
  let y ← ratio p.2 xs
  return ({ newProduct c!"photon" with yield_ := .tab y, dist := [photonDist mass p.1] }, f)

/-- Lines 679-680, 727-728: with more than one photon a table of the total comes first. -/
def skipTotal (n : Int) (f : List Line) : Except PyErr (List Line) :=
  if n > 1 then do
    let (_, f) ← rdTab f
    return f
  else .ok f

/-- `_get_photon_products_endf`, lines 651-760. Transition probabilities (LO = 2) are read and dropped; the step of the slices is not 0. -/
def photonsFromEndf (ev : Ev) (rx : Rx) : Except PyErr (List Prod) :=
  if ev.has 12 rx.mt then do
    let f ← ev.get 12 rx.mt
    let (h, f) ← getHead f
    if h.l1 = 1 then do
      let f ← skipTotal h.n1 f
      let (ps, _) ← many (rdPhoton12 ev.mass) h.n1.toNat f
      return ps
    else if h.l1 = 2 then do
      let _ ← getList f
      return []
    else return []
  else if ev.has 13 rx.mt then do
    let f ← ev.get 13 rx.mt
    let (h, f) ← getHead f
    let f ← skipTotal h.n1 f
    let (ps, _) ← many (rdPhoton13 ev.mass rx.xs) h.n1.toNat f
    return ps
  else .ok []

/-- `mt in (18, 19, 20, 21, 38)`. -/
def isFission (mt : Int) : Bool := decide (mt ∈ [(18 : Int), 19, 20, 21, 38])

/-- Lines 1127-1132: the products of file 6, those of fission going to the first product. -/
def mergeProducts (mt : Int) : List Prod → List Prod → Except PyErr (List Prod)
  | ps, [] => .ok ps
  | ps, q :: qs =>
    if isFission mt ∧ q.particle = c!"neutron" then
      match ps with
      | [] => .error .indexError
      | p :: ps => mergeProducts mt ({ p with applicability := q.applicability, dist := q.dist } :: ps) qs
    else mergeProducts mt (ps ++ [q]) qs

/-- Lines 1140-1167: the distributions of the neutron of an uncorrelated reaction before the angles. -/
def neutronParts (ev : Ev) (mt : Int) (q : ℚ) : Except PyErr (List (Tab1D ℚ) × List Dist) :=
  if ev.has 5 mt then do
    let f ← ev.get 5 mt
    let (h, f) ← getHead f
    let (ds, _) ← many rdPart h.n1.toNat f
    return (ds.map (·.1), ds.map (·.2))
  else if mt = 2 then .ok ([], [.uncorrelated none none])
  else if mt ≥ 51 ∧ mt < 91 then
    .ok ([], [.uncorrelated none (some (.level ((ev.mass + 1) / ev.mass * |q|) ((ev.mass / (ev.mass + 1)) ^ 2)))])
  else .ok ([], [])

/-- Line 1171: `dist.angle = ...`. -/
def setAngle (a : Angle) : Dist → Dist
  | .uncorrelated _ e => .uncorrelated (some a) e
  | d => d

/-- Lines 1169-1171: the angles of file 4 for every distribution. -/
def addAngles (ev : Ev) (mt : Int) (ds : List Dist) : Except PyErr (List Dist) :=
  if ev.has 4 mt then ds.mapM fun d => do
    let f ← ev.get 4 mt
    let a ← angleFromEndf ev.energyMax f
    return setAngle a d
  else .ok ds

/-- Lines 1134-1178: the neutron of an uncorrelated reaction, added to the products. -/
def addNeutron (ev : Ev) (mt : Int) (q : ℚ) (ps : List Prod) : Except PyErr (List Prod) := do
  let (as, ds) ← neutronParts ev mt q
  let ds ← addAngles ev mt ds
  if isFission mt ∧ ev.has 5 mt then
    match ps with
    | [] => .error .indexError
    | p :: ps => return { p with applicability := as, dist := ds } :: ps
  else return ps ++ [{ newProduct c!"neutron" with applicability := as, dist := ds }]

/-- Lines 1114-1118: cross section and Q value. -/
def crossSection (ev : Ev) (mt : Int) : Except PyErr (Option (Tab1D ℚ) × ℚ) :=
  if ev.has 3 mt then do
    let f ← ev.get 3 mt
    let (_, f) ← getHead f
    let (p, _) ← rdTab f
    return (some p.2, p.1.2.1)
  else .ok (none, 0)

/-- Lines 1120-1124: the products of fission. -/
def fissionPart (ev : Ev) (mt : Int) : Except PyErr (List Prod × List Prod) := if isFission mt then fissionFromEndf ev else .ok ([], [])

/-- Lines 1126-1178: the products of files 4, 5 and 6. -/
def emitted (ev : Ev) (mt : Int) (q : ℚ) (ps : List Prod) : Except PyErr (List Prod) :=
  if ev.has 6 mt then do
    let f ← ev.get 6 mt
    let qs ← productsFromEndf f
    mergeProducts mt ps qs
  else if ev.has 4 mt ∨ ev.has 5 mt then addNeutron ev mt q ps
  else .ok ps

/-- Lines 1180-1181. -/
def withStates (ev : Ev) (rx : Rx) : Except PyErr Rx := if ev.has 8 rx.mt then addActivation ev rx else .ok rx

/-- Lines 1183-1184. -/
def withPhotons (ev : Ev) (rx : Rx) : Except PyErr Rx :=
  if ev.has 12 rx.mt ∨ ev.has 13 rx.mt then do
    let qs ← photonsFromEndf ev rx
    return { rx with products := rx.products ++ qs }
  else .ok rx

/-- `Reaction.from_endf`, lines 1095-1186. `center_of_mass` is left as it is. -/
def rxFromEndf (ev : Ev) (mt : Int) : Except PyErr Rx := do
  let (xs, q) ← crossSection ev mt
  let (ps, derived) ← fissionPart ev mt
  let ps ← emitted ev mt q ps
  let rx ← withStates ev ⟨mt, true, q, xs, ps, derived⟩
  withPhotons ev rx

end ASAPy.EndfRx
