import Verif.FromAce.Model
import Verif.Func.Model

/-!
# Model of the secondary distributions read from an ACE table

`AngleDistribution.from_ace` (ASAPy/data/angle_distribution.py 143-206), `AngleEnergy.from_ace` (angle_energy.py 37-102) with the laws (energy_distribution.py 194, 304-329, 437-462,
585-626, 876-896, 973-993, 1193-1277; kalbach_mann.py 260-350; correlated.py 297-413; nbody.py 122-143), the products of fission (reaction.py 188-324), the neutrons of a reaction
(reaction.py 1001-1086), the photons (reaction.py 554-651) and the probability tables of the unresolved resonances (urr.py 176-219).

Numbers are exact. An interpolation scheme is given by its number (function.py 13, `INTERPOLATION_SCHEME` is one-to-one). Warnings are left out. AttributeError and NotImplementedError are
`PyErr.exception`.
-/

namespace ASAPy.Dists
open ASAPy.FromAce (Arrays item slice tab1 pyTrunc Mode)
open ASAPy.Func (Fn)

/-! ### Angular distributions -/

/-- A distribution of cosines: `Uniform(-1, 1)` or `Tabular` with its cumulated probabilities. -/
inductive Mu (K : Type) where
  | uniform
  | tabular (law : Nat) (x p c : List K)
deriving DecidableEq

/-- `AngleDistribution`. -/
structure Angle (K : Type) where
  energy : List K
  mu : List (Mu K)
deriving DecidableEq

section
variable {K : Type} [Field K] [LinearOrder K] [FloorRing K]

/-- `np.diff`. -/
def diff : List K → List K
  | a :: b :: l => (b - a) :: diff (b :: l)
  | _ => []

/-- angle_distribution.py 181-188: 32 bins of equal probability. (If the array ends after two of the cosines numpy repeats the only difference; the model raises ValueError as it does in the
other cases of a short array.) -/
def equiprobable (cos : List K) : Except PyErr (Mu K) :=
  if cos.length ≠ 33 then .error .valueError
  else .ok (.tabular 1 cos ((diff cos).map (fun d => 1 / (32 * d)) ++ [0]) ((List.range 33).map fun k : Nat => (k : K) / 32))

/-- angle_distribution.py 191-199 and correlated.py 394-401: a table of cosines. -/
def muTable (a : Arrays K) (idx : Int) : Except PyErr (Mu K) := do
  let intt ← a.int idx
  let n ← a.int (idx + 1)
  let data := slice a.xss (idx + 2) (idx + 2 + 3 * n)
  if (data.length : Int) ≠ 3 * n then .error .valueError
  else if ¬ (1 ≤ intt ∧ intt ≤ 5) then .error .keyError
  else if (slice data n (2 * n)).any fun v => decide (v < 0) then .error .valueError
  else return .tabular intt.toNat (slice data 0 n) (slice data n (2 * n)) (slice data (2 * n) (3 * n))

/-- angle_distribution.py 178-204, one incident energy. -/
def muAt (a : Arrays K) (ldis lc : Int) : Except PyErr (Mu K) :=
  if lc > 0 then equiprobable (slice a.xss (ldis + |lc| - 1) (ldis + |lc| - 1 + 33))
  else if lc < 0 then muTable a (ldis + |lc| - 1)
  else .ok .uniform

/-- angle_distribution.py 163-206. -/
def angleDist (a : Arrays K) (ldis lstart : Int) : Except PyErr (Angle K) := do
  let idx := ldis + lstart - 1
  let n ← a.int idx
  let energy := (slice a.xss (idx + 1) (idx + 1 + n)).map (· * 1000000)
  let lc := (slice a.xss (idx + 1 + n) (idx + 1 + n + n)).map pyTrunc
  let mu ← lc.mapM (muAt a ldis)
  if (lc.length : Int) < n then .error .indexError
  else return ⟨energy, mu⟩

end

/-! ### Distributions of energy -/

/-- A distribution of outgoing energies: `Tabular`, `Discrete`, or a `Mixture` of both (its weights are `w` and `1 - w`). -/
inductive EOut (K : Type) where
  | tabular (law : Nat) (x p c : List K)
  | discrete (x p c : List K)
  | mixture (w : K) (dx dp dc : List K) (law : Nat) (x p c : List K)
deriving DecidableEq

/-- Breakpoints, interpolation laws and incident energies of laws 4, 44 and 61. -/
structure Head (K : Type) where
  breakpoints : List Int
  interpolation : List Int
  energy : List K
deriving DecidableEq

/-- A distribution of a product. Those of laws 44, 61 and 66 are of angle and energy, the others `UncorrelatedAngleEnergy` with this energy distribution. -/
inductive Law (K : Type) where
  | discretePhoton (flag : Int) (energy awr : K)
  | level (threshold ratio : K)
  | continuous (head : Head K) (out : List (EOut K))
  | maxwell (theta : Tab1D K) (u : K)
  | evaporation (theta : Tab1D K) (u : K)
  | watt (a b : Tab1D K) (u : K)
  | kalbach (head : Head K) (out : List (EOut K)) (r a : List (Tab1D K))
  | correlated (head : Head K) (out : List (EOut K)) (mu : List (List (Mu K)))
  | nbody (mass : K) (n : Int) (awr q : K)
deriving DecidableEq

/-- `isinstance(distribution, UncorrelatedAngleEnergy)`. -/
def Law.uncorrelated {K : Type} : Law K → Bool
  | .kalbach .. => false
  | .correlated .. => false
  | .nbody .. => false
  | _ => true

section
variable {K : Type} [Field K] [LinearOrder K] [FloorRing K]

/-- A table with its values multiplied by a number. -/
def scaleY (c : K) (t : Tab1D K) : Tab1D K := { t with y := t.y.map (· * c) }

/-- energy_distribution.py 1206-1230, kalbach_mann.py 280-302, correlated.py 317-339: the head and the places of the distributions. -/
def head (a : Arrays K) (idx : Int) : Except PyErr (Head K × List Int) := do
  let nr ← a.int idx
  let ne ← a.int (idx + 1 + 2 * nr)
  let idx := idx + 1
  let bp := if nr > 0 then (slice a.xss idx (idx + nr)).map pyTrunc else [ne]
  let laws := if nr > 0 then (slice a.xss (idx + nr) (idx + 2 * nr)).map pyTrunc else [2]
  let idx := idx + (2 * nr + 1)
  let energy := (slice a.xss idx (idx + ne)).map (· * 1000000)
  let locs := (slice a.xss (idx + ne) (idx + ne + ne)).map pyTrunc
  if (locs.length : Int) < ne then .error .indexError
  else return (⟨bp, laws, energy⟩, locs)

/-- energy_distribution.py 1232-1274 (3 rows), kalbach_mann.py 310-347 (5 rows), correlated.py 347-384 (4 rows): one outgoing distribution, and all rows, the energies in eV. -/
def spectrum (nrows : Nat) (ignoreNegative : Bool) (a : Arrays K) (idx : Int) : Except PyErr (EOut K × List (List K)) := do
  let inttp ← a.int idx
  let intt := inttp % 10
  let nd := (inttp - intt) / 10
  let law := if intt = 1 then 1 else 2
  let n ← a.int (idx + 1)
  let data := slice a.xss (idx + 2) (idx + 2 + nrows * n)
  if (data.length : Int) ≠ nrows * n then .error .valueError
  else
    let row (i : Nat) := slice data (i * n) ((i + 1) * n)
    let x := (row 0).map (· * 1000000)
    let p := row 1
    let c := row 2
    let rows := x :: ((List.range nrows).drop 1).map row
    if ¬ ignoreNegative ∧ (slice p nd n).any (fun v => decide (v / 1000000 < 0)) then .error .valueError
    else if nd > 0 then
      if (slice p 0 nd).any fun v => decide (v < 0) then .error .valueError
      else if nd = n then return (.discrete (slice x 0 nd) (slice p 0 nd) (slice c 0 nd), rows)
      else return (.mixture (min (slice p 0 nd).sum 1) (slice x 0 nd) (slice p 0 nd) (slice c 0 nd) law (slice x nd n) ((slice p nd n).map (· / 1000000)) (slice c nd n), rows)
    else return (.tabular law (slice x nd n) ((slice p nd n).map (· / 1000000)) (slice c nd n), rows)

/-- Law 4, energy_distribution.py 1206-1277. -/
def continuous (a : Arrays K) (idx ldis : Int) : Except PyErr (Law K) := do
  let (h, locs) ← head a idx
  let out ← locs.mapM fun l => spectrum 3 false a (ldis + l - 1)
  return .continuous h (out.map (·.1))

/-- Law 44, kalbach_mann.py 280-350. -/
def kalbach (a : Arrays K) (idx ldis : Int) : Except PyErr (Law K) := do
  let (h, locs) ← head a idx
  let out ← locs.mapM fun l => spectrum 5 true a (ldis + l - 1)
  return .kalbach h (out.map (·.1)) (out.map fun o => .linlin (o.2.getD 0 []) (o.2.getD 3 [])) (out.map fun o => .linlin (o.2.getD 0 []) (o.2.getD 4 []))

/-- correlated.py 388-408: the cosines for one outgoing energy. -/
def cosines (a : Arrays K) (ldis : Int) (v : K) : Except PyErr (Mu K) :=
  let lc := pyTrunc v
  if lc > 0 then muTable a (ldis + |lc| - 1) else .ok .uniform

/-- Law 61, correlated.py 317-413. -/
def correlated (a : Arrays K) (idx ldis : Int) : Except PyErr (Law K) := do
  let (h, locs) ← head a idx
  let out ← locs.mapM fun l => do
    let (o, rows) ← spectrum 4 true a (ldis + l - 1)
    let mu ← (rows.getD 3 []).mapM (cosines a ldis)
    return (o, mu)
  return .correlated h (out.map (·.1)) (out.map (·.2))

/-- Where the table at `idx` ends. -/
def afterTab (a : Arrays K) (idx : Int) : Except PyErr Int := do
  let nr ← a.int idx
  let ne ← a.int (idx + 1 + 2 * nr)
  return idx + 2 + 2 * nr + 2 * ne

/-- Laws 7 and 9: the temperature and the restriction energy, energy_distribution.py 319-329 and 452-462. -/
def temperature (a : Arrays K) (idx : Int) : Except PyErr (Tab1D K × K) := do
  let theta ← tab1 a idx
  let next ← afterTab a idx
  let u ← item a.xss next
  return (scaleY 1000000 theta, u * 1000000)

/-- Law 11, energy_distribution.py 601-626. -/
def watt (a : Arrays K) (idx : Int) : Except PyErr (Law K) := do
  let ta ← tab1 a idx
  let idx ← afterTab a idx
  let tb ← tab1 a idx
  let idx ← afterTab a idx
  let u ← item a.xss idx
  return .watt (scaleY 1000000 ta) { tb with y := tb.y.map (· / 1000000) } (u * 1000000)

/-- `AngleEnergy.from_ace(ace, ldis, lstart, rx)`, angle_energy.py 57-102. `awr` is the atomic weight ratio of the table, `q` the Q value of the reaction, if one is given. -/
def lawAt (a : Arrays K) (awr : K) (q : Option K) (ldis lstart : Int) : Except PyErr (Law K) := do
  let idx := ldis + lstart - 1
  let law ← a.int (idx + 1)
  let loc ← a.int (idx + 2)
  let idx := ldis + loc - 1
  if law = 2 then
    let flag ← a.int idx
    let e ← item a.xss (idx + 1)
    return .discretePhoton flag (e * 1000000) awr
  else if law = 3 ∨ law = 33 then
    let e ← item a.xss idx
    let r ← item a.xss (idx + 1)
    return .level (e * 1000000) r
  else if law = 4 then continuous a idx ldis
  else if law = 5 then .error .exception
  else if law = 7 then
    let (theta, u) ← temperature a idx
    return .maxwell theta u
  else if law = 9 then
    let (theta, u) ← temperature a idx
    return .evaporation theta u
  else if law = 11 then watt a idx
  else if law = 44 then kalbach a idx ldis
  else if law = 61 then correlated a idx ldis
  else if law = 66 then match q with
    | none => .error .exception
    | some q => do
      let n ← a.int idx
      let m ← item a.xss (idx + 1)
      if m ≤ 0 ∨ n ≤ 0 ∨ awr ≤ 0 then .error .valueError                                -- nbody.py 60-80
      else return .nbody m n awr q
  else .error .valueError

end

/-! ### Neutrons -/

/-- A `Product`. -/
structure Neutron (K : Type) where
  mode : Mode
  decayRate : K
  yield_ : Fn K
  applicability : List (Tab1D K)
  dist : List (Law K)
deriving DecidableEq

section
variable {K : Type} [Field K] [LinearOrder K] [FloorRing K]

/-- product.py 42-48. -/
def newNeutron : Neutron K := ⟨.prompt, 0, .poly [1], [], []⟩

/-- `coefficients[i] *= EV_PER_MEV**(-i)`, reaction.py 225-227. -/
def polyEv (c : List K) : List K := c.zipIdx.map fun p => p.1 * ((1000000 : K) ^ p.2)⁻¹

/-- A nu at `idx`, reaction.py 221-232, 243-254, 263-275. Another number than 1 or 2 leaves the yield of a new product; a polynomial without coefficients raises ValueError. -/
def nuFn (a : Arrays K) (idx : Int) : Except PyErr (Fn K) := do
  let lnu ← a.int idx
  if lnu = 1 then
    let nc ← a.int (idx + 1)
    let c := slice a.xss (idx + 2) (idx + 2 + nc)
    if c = [] then .error .valueError else return .poly (polyEv c)
  else if lnu = 2 then
    let t ← tab1 a (idx + 1)
    return .tab t
  else return .poly [1]

/-- reaction.py 213-279: the nus of the block at `j2`. -/
def nus (a : Arrays K) (j2 j24 : Int) : Except PyErr (List (Neutron K) × List (Neutron K)) := do
  let h ← item a.xss j2
  if h > 0 then
    let y ← nuFn a j2
    return ([{ newNeutron with mode := if j24 > 0 then .prompt else .total, yield_ := y }], [])
  else if h < 0 then
    let y ← nuFn a (j2 + 1)
    let y' ← nuFn a (j2 + pyTrunc |h| + 1)
    return ([{ newNeutron with mode := .prompt, yield_ := y }], [{ newNeutron with mode := .total, yield_ := y' }])
  else return ([], [])

variable [ExpLog K]

/-- reaction.py 294-310: the yield of a group from the total delayed yield and the group's probability, and what is added to `total_group_probability`. -/
def groupYield (yd p : Tab1D K) : Except PyErr (Tab1D K × K) := do
  let p0 ← item p.y 0
  if p.y.all fun v => decide (v = p0) then return (scaleY p0 yd, p0)
  else
    let m1 ← item yd.x (-1)
    let m2 ← item p.x (-1)
    let energy := (Func.union1d yd.x p.x).filter fun e => decide (e ≤ min m1 m2)
    let y1 ← yd.evals energy
    let y2 ← p.evals energy
    return (.linlin energy (List.zipWith (· * ·) y1 y2), 0)

/-- reaction.py 287-318: the groups `group`, `group + 1`, ... `n` of them, and `total_group_probability`. -/
def groups (a : Arrays K) (awr : K) (yd : Tab1D K) (j26 j27 : Int) : Nat → Nat → Int → K → Except PyErr (List (Neutron K) × K)
  | 0, _, _, total => .ok ([], total)
  | n + 1, group, idx, total => do
    let rate ← item a.xss idx
    if rate * 100000000 < 0 then .error .valueError                                     -- product.py 96
    else
      let p ← tab1 a (idx + 1)
      let (y, add) ← groupYield yd p
      let next ← afterTab a (idx + 1)
      let start ← a.int (j26 + group)
      let d ← lawAt a awr none j27 start
      let (rest, total) ← groups a awr yd j26 j27 n (group + 1) next (total + add)
      return (⟨.delayed, rate * 100000000, .tab y, [], [d]⟩ :: rest, total)

/-- `product.yield_.y /= total`. -/
def Neutron.divide (total : K) (p : Neutron K) : Neutron K :=
  match p.yield_ with
  | .tab t => { p with yield_ := .tab { t with y := t.y.map (· / total) } }
  | .poly _ => p

/-- reaction.py 283-323: the groups of delayed neutrons, appended to the products; all products but the first are renormalized. -/
def addDelayed (a : Arrays K) (awr : K) (products : List (Neutron K)) (j24 : Int) : Except PyErr (List (Neutron K)) := do
  let yd ← tab1 a (j24 + 1)
  let j25 ← item a.jxs 25
  let n ← item a.nxs 8
  let j26 ← item a.jxs 26
  let j27 ← item a.jxs 27
  let (ds, total) ← groups a awr yd j26 j27 n.toNat 0 j25 0
  let products := products ++ ds
  return products.take 1 ++ (products.drop 1).map fun p => if total > 0 then p.divide total else p

/-- `_get_fission_products_ace`, reaction.py 188-324; without a NU block the result is `(None, None)`, which the setter of `products` rejects. -/
def fission (a : Arrays K) (awr : K) : Except PyErr (List (Neutron K) × List (Neutron K)) := do
  let j2 ← item a.jxs 2
  if j2 = 0 then .error .typeError
  else
    let j24 ← item a.jxs 24
    let (products, derived) ← nus a j2 j24
    if j24 > 0 then
      let products ← addDelayed a awr products j24
      return (products, derived)
    else return (products, derived)

omit [ExpLog K] in
/-- reaction.py 1034-1044: the distributions of the chain that starts at `lnw`, with their applicability. `none` if it has not ended after so many of them. -/
def chain (a : Arrays K) (awr : K) (q : K) (j11 : Int) : Nat → Int → Option (Except PyErr (List (Tab1D K × Law K)))
  | fuel, lnw =>
    if lnw > 0 then match fuel with
      | 0 => none
      | fuel + 1 =>
        match tab1 a (j11 + lnw + 2), lawAt a awr (some q) j11 lnw, a.int (j11 + lnw - 1) with
        | .error e, _, _ => some (.error e)
        | .ok _, .error e, _ => some (.error e)
        | .ok _, .ok _, .error e => some (.error e)
        | .ok p, .ok d, .ok next => (chain a awr q j11 fuel next).map fun r => r.map ((p, d) :: ·)
    else some (.ok [])

omit [ExpLog K] in
/-- reaction.py 1003-1017: the yield of a reaction other than fission. -/
def multiplicity (a : Arrays K) (ty j11 : Int) : Except PyErr (Fn K) :=
  if |ty| > 100 then do
    let t ← tab1 a (j11 + |ty| - 101)
    return .tab t
  else .ok (.poly [((|ty| : Int) : K)])

omit [ExpLog K] in
/-- reaction.py 1053-1064: the angular distribution of the neutrons, if the table gives one. -/
def angleOf (a : Arrays K) (i : Nat) : Except PyErr (Option (Angle K)) := do
  let j8 ← item a.jxs 8
  let loc ← a.int (j8 + i)
  if loc ≤ 0 then return none
  else
    let j9 ← item a.jxs 9
    let ang ← angleDist a j9 loc
    return some ang

/-- What is read about the neutrons of a reaction: `center_of_mass`, `products`, `derived_products`, and the angular distribution that is put into each distribution of the first of them
(reaction.py 1066-1070). -/
structure Neutrons (K : Type) where
  com : Bool
  products : List (Neutron K)
  derived : List (Neutron K)
  angle : Option (Angle K)
deriving DecidableEq

/-- The prompt or total neutron, reaction.py 1024-1029, gets the distributions. -/
def fill (ds : List (Tab1D K × Law K)) : List (Neutron K) → List (Neutron K)
  | [] => []
  | p :: ps => if p.mode = .delayed then p :: fill ds ps else { p with applicability := p.applicability ++ ds.map (·.1), dist := p.dist ++ ds.map (·.2) } :: ps

/-- reaction.py 1003-1033: the frame, the products without the distributions of the neutron, and the locator of these. -/
def productsOf (a : Arrays K) (awr : K) (mt : Nat) (i : Nat) : Except PyErr (Bool × Option (List (Neutron K) × List (Neutron K) × Int × Int)) := do
  let j5 ← item a.jxs 5
  let ty ← a.int (j5 + i - 1)
  let n ← item a.nxs 5
  if (i : Int) < n + 1 then
    let j11 ← item a.jxs 11
    let (products, derived) ←
      if ty ≠ 19 then do
        let y ← multiplicity a ty j11
        pure ([{ newNeutron with yield_ := y }], [])
      else if mt ∉ [18, 19, 20, 21, 38] then .error .assertionError
      else do
        let (ps, derived) ← fission a awr
        if ps.all fun p => p.mode = .delayed then .error .exception else pure (ps, derived)
    let j10 ← item a.jxs 10
    let lnw ← a.int (j10 + i - 1)
    return (decide (ty < 0), some (products, derived, lnw, j11))
  else return (decide (ty < 0), none)

/-- reaction.py 1001-1070 for the reaction number `i` (from 1). `none` if the chain of distributions has not ended after `fuel` of them. -/
def neutronsOf (a : Arrays K) (awr q : K) (mt : Nat) (fuel i : Nat) : Option (Except PyErr (Neutrons K)) :=
  match productsOf a awr mt i with
  | .error e => some (.error e)
  | .ok (com, none) => some (.ok ⟨com, [], [], none⟩)
  | .ok (com, some (ps, derived, lnw, j11)) => match chain a awr q j11 fuel lnw with
    | none => none
    | some (.error e) => some (.error e)
    | some (.ok ds) => some ((angleOf a i).map fun ang => ⟨com, fill ds ps, derived, ang⟩)

/-! ### Photons -/

/-- reaction.py 581-619: the yield of the photons number `i` of the reaction `mt` with the cross section `xs`. Where the lengths differ (the block is cut off) the exception of the
indexing is IndexError. -/
def photonYield (a : Arrays K) (mt : Int) (xs : Tab1D K) (i : Nat) : Except PyErr (Tab1D K) := do
  let j14 ← item a.jxs 14
  let loca ← a.int (j14 + i)
  let j15 ← item a.jxs 15
  let idx := j15 + loca - 1
  let mftype ← a.int idx
  let idx := idx + 1
  if mftype = 12 ∨ mftype = 16 then
    let mtmult ← a.int idx
    if mtmult ≠ mt then .error .assertionError
    else tab1 a (idx + 1)
  else if mftype = 13 then
    let thr ← a.int idx
    let thr := thr - 1
    let n ← a.int (idx + 1)
    let j1 ← item a.jxs 1
    let energy := (slice a.xss (j1 + thr) (j1 + thr + n)).map (· * 1000000)
    let prod := slice a.xss (idx + 2) (idx + 2 + n)
    let sigma ← xs.evals energy
    if sigma.length ≠ prod.length then .error .indexError
    else return .linlin energy (List.zipWith (fun p s => if s > 0 then p / s else 0) prod sigma)
  else .error .valueError

omit [ExpLog K] in
/-- reaction.py 624-645: the distribution of these photons, of energies and of angles. `first` and `last` are the ends of the yield. -/
def photonDist (a : Arrays K) (awr : K) (y : Tab1D K) (i : Nat) : Except PyErr (Law K × Angle K) := do
  let j18 ← item a.jxs 18
  let start ← a.int (j18 + i)
  let j19 ← item a.jxs 19
  let d ← lawAt a awr none j19 start
  if ¬ d.uncorrelated then .error .assertionError
  else
    let j16 ← item a.jxs 16
    let loc ← a.int (j16 + i)
    if loc = 0 then
      let e0 ← item y.x 0
      let e1 ← item y.x (-1)
      return (d, ⟨[e0, e1], [.uniform, .uniform]⟩)
    else
      let j17 ← item a.jxs 17
      let ang ← angleDist a j17 loc
      return (d, ang)

/-- reaction.py 574-649: the loop over the photon numbers `mts`. -/
def photonLoop (a : Arrays K) (awr : K) (mt : Nat) (xs : Tab1D K) (mts : List Int) : List Nat → Except PyErr (List (Tab1D K × Law K × Angle K))
  | [] => .ok []
  | i :: is => do
    let m ← item mts i
    if m / 1000 ≠ (mt : Int) then photonLoop a awr mt xs mts is
    else
      let y ← photonYield a mt xs i
      let d ← photonDist a awr y i
      let rest ← photonLoop a awr mt xs mts is
      return (y, d) :: rest

/-- `_get_photon_products_ace`, reaction.py 554-651: yields and distributions of the photons of the reaction `mt` with the cross section `xs`. -/
def photonsOf (a : Arrays K) (awr : K) (mt : Nat) (xs : Tab1D K) : Except PyErr (List (Tab1D K × Law K × Angle K)) := do
  let n ← item a.nxs 6
  let j13 ← item a.jxs 13
  photonLoop a awr mt xs ((slice a.xss j13 (j13 + n)).map pyTrunc) (List.range n.toNat)

/-! ### Unresolved resonances -/

/-- `ProbabilityTables`: `table` by energy, quantity and column. -/
structure Urr (K : Type) where
  energy : List K
  table : List (List (List K))
  interpolation : Int
  inelasticFlag : Int
  absorptionFlag : Int
  multiplySmooth : Bool
deriving DecidableEq

omit [ExpLog K] in
/-- urr.py 190-219. The six rows of an energy, the last (heating) in eV. The numbers of energies and columns are not negative. -/
def urr (a : Arrays K) : Except PyErr (Option (Urr K)) := do
  let idx ← item a.jxs 23
  if idx = 0 then return none
  else
    let n ← a.int idx
    let m ← a.int (idx + 1)
    let interp ← a.int (idx + 2)
    let inel ← a.int (idx + 3)
    let absn ← a.int (idx + 4)
    let smooth ← a.int (idx + 5)
    let energy := (slice a.xss (idx + 6) (idx + 6 + n)).map (· * 1000000)
    let data := slice a.xss (idx + 6 + n) (idx + 6 + n + n * 6 * m)
    if (data.length : Int) ≠ n * 6 * m then .error .valueError
    else if interp ≠ 2 ∧ interp ≠ 5 then .error .valueError                             -- urr.py 114
    else
      let table := (List.range n.toNat).map fun i : Nat => (List.range 6).map fun j : Nat =>
        let row := slice data ((6 * i + j) * m) ((6 * i + j + 1) * m)
        if j = 5 then row.map (· * 1000000) else row
      return some ⟨energy, table, interp, inel, absn, decide (smooth = 1)⟩

end
end ASAPy.Dists
