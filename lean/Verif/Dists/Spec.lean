import Verif.Dists.Model
import Verif.FromAce.Spec
import Verif.FromAce.Lemmas
import Verif.Func.Spec

/-!
# The layout of distributions in an ACE table (as in the MCNP manual), vocabulary of C108-C115

Positions are positions in the array `xss` of the table, which starts with an additional zero so that they count from 1. `AtL l p vs` says that the numbers `vs` stand in `l` from position
`p` on; `FromAce.Tab.numbers` is how a table of values (interpolation regions, energies in MeV, values) is written. Except in `Spectra` and `NuBlock` (what other
theorems say about), nothing here refers to how the readers work.
-/

namespace ASAPy.Dists
open ASAPy.FromAce (Arrays AtL Tab)
open ASAPy.Func (Fn)

variable {K : Type} [Field K] [LinearOrder K]

/-- As many laws as breakpoints, as many values as energies. -/
def Fits (n : Tab K) : Prop := n.laws.length = n.breakpoints.length ∧ n.values.length = n.energies.length

/-- The table as a function of the energy in eV: without interpolation regions it is lin-lin. -/
def tabEv (n : Tab K) : Tab1D K where
  x := n.energies.map (· * 1000000)
  y := n.values
  breakpoints := if n.breakpoints = [] then [(n.energies.length : Int)] else n.breakpoints.map fun v : Nat => (v : Int)
  interpolation := if n.breakpoints = [] then [2] else n.laws

/-- The same as a function of the energy in MeV. -/
def tabMev (n : Tab K) : Tab1D K := { tabEv n with x := n.energies }

/-- The table with its values multiplied by a number. -/
def times (c : K) (t : Tab1D K) : Tab1D K := { t with y := t.y.map (c * ·) }

/-! ### Angular distributions -/

/-- The cosines at an incident energy: isotropic, 33 limits of 32 bins of equal probability at `loc`, or a table (density and cumulated probability) at `loc`. -/
inductive Cosines (K : Type) where
  | isotropic
  | bins (loc : Nat) (limits : List K)
  | table (loc : Nat) (law : Nat) (cosines density cumulated : List K)

/-- The locator: positive for bins, negative for a table. -/
def Cosines.locator : Cosines K → K
  | .isotropic => 0
  | .bins loc _ => loc
  | .table loc _ _ _ _ => -(loc : K)

/-- A table of cosines in `xss` at `p`. -/
def TableAt (xss : List K) (p law : Nat) (cosines density cumulated : List K) : Prop :=
  1 ≤ law ∧ law ≤ 5 ∧ density.length = cosines.length ∧ cumulated.length = cosines.length ∧ (∀ v ∈ density, 0 ≤ v) ∧
    AtL xss p ([(law : K), (cosines.length : K)] ++ cosines ++ density ++ cumulated)

/-- They are in `xss`, in the block that starts at `block`. -/
def Cosines.In (xss : List K) (block : Nat) : Cosines K → Prop
  | .isotropic => True
  | .bins loc limits => 0 < loc ∧ limits.length = 33 ∧ limits.Pairwise (· < ·) ∧ AtL xss (block + loc - 1) limits
  | .table loc law x p c => 0 < loc ∧ TableAt xss (block + loc - 1) law x p c

/-- A histogram: between `x k` and `x (k + 1)` lies the probability `p k * (x (k + 1) - x k)`, and `c k` is the probability up to `x k`. -/
def Cosines.Means : Cosines K → Mu K → Prop
  | .isotropic, m => m = .uniform
  | .bins _ limits, m => ∃ p c, m = .tabular 1 limits p c ∧ p.length = 33 ∧ c.length = 33 ∧
      (∀ (k : Nat) (x0 x1 v : K), limits[k]? = some x0 → limits[k + 1]? = some x1 → p[k]? = some v → v * (x1 - x0) = 1 / 32) ∧
      (∀ (k : Nat) (v : K), c[k]? = some v → v = k * (1 / 32))
  | .table _ law x p c, m => m = .tabular law x p c

/-! ### Distributions of energy -/

/-- The table has a distribution at `start` in the block at `block`, of law `law` with its data at the position `p`. -/
def LawIn (a : Arrays K) (block start law p : Nat) : Prop :=
  0 < start ∧ ∃ (next : K) (loc : Nat), 0 < loc ∧ p = block + loc - 1 ∧ AtL a.xss (block + start - 1) [next, (law : K), (loc : K)]

/-- A spectrum with discrete lines: scheme (1 histogram, 2 lin-lin), the lines (energy in MeV, probability, cumulated probability), the continuous part (energy in MeV, density in 1/MeV,
cumulated probability), and further numbers by line or energy. -/
structure Lined (K : Type) where
  loc : Nat
  law : Nat
  lines : List (K × K × K)
  points : List (K × K × K)
  more : List (List K)

/-- All energies, and so on. -/
def Lined.all (s : Lined K) : List (K × K × K) := s.lines ++ s.points

/-- How it is written. -/
def Lined.numbers (s : Lined K) : List K :=
  [((10 * s.lines.length + s.law : Nat) : K), (s.all.length : K)] ++ s.all.map (·.1) ++ s.all.map (·.2.1) ++ s.all.map (·.2.2) ++ s.more.flatten

/-- It is in the block at `block`, with `extra` further rows. The probabilities of lines are not negative; with `strict`, nor are the densities. -/
def Lined.In (xss : List K) (block extra : Nat) (strict : Bool) (s : Lined K) : Prop :=
  0 < s.loc ∧ (s.law = 1 ∨ s.law = 2) ∧ s.more.length = extra ∧ (∀ r ∈ s.more, r.length = s.all.length) ∧ (∀ l ∈ s.lines, 0 ≤ l.2.1) ∧
    (strict = true → ∀ l ∈ s.points, 0 ≤ l.2.1) ∧ AtL xss (block + s.loc - 1) s.numbers

/-- The spectrum in eV: lines with their probabilities, the continuous part with densities in 1/eV. If there are both, the lines have the weight of their probabilities, at most 1. -/
def Lined.inEv (s : Lined K) : EOut K :=
  let lx := s.lines.map (·.1 * 1000000)
  let lp := s.lines.map (·.2.1)
  let lc := s.lines.map (·.2.2)
  let x := s.points.map (·.1 * 1000000)
  let p := s.points.map (·.2.1 / 1000000)
  let c := s.points.map (·.2.2)
  match s.lines, s.points with
  | [], _ => .tabular s.law x p c
  | _ :: _, [] => .discrete lx lp lc
  | _ :: _, _ :: _ => .mixture (if lp.sum ≤ 1 then lp.sum else 1) lx lp lc s.law x p c

/-- The energies in eV. -/
def Lined.energies (s : Lined K) : List K := s.all.map (·.1 * 1000000)

/-- Interpolation regions and incident energies (eV) of a family of spectra. -/
def headEv (n : Tab K) : Head K where
  breakpoints := (tabEv n).breakpoints
  interpolation := (tabEv n).interpolation.map fun v : Nat => (v : Int)
  energy := n.energies.map (1000000 * ·)

/-- A family of spectra at `p`, one for each incident energy: interpolation regions, incident energies (MeV), and where the spectra are. -/
def FamilyAt (xss : List K) (p : Nat) (breakpoints laws : List Nat) (incident : List K) (spectra : List (Lined K)) : Prop :=
  laws.length = breakpoints.length ∧ spectra.length = incident.length ∧ AtL xss p (⟨breakpoints, laws, incident, spectra.map fun s => (s.loc : K)⟩ : Tab K).numbers

/-- A table of cosines of law 61 and where it is. -/
structure CosTable (K : Type) where
  loc : Nat
  law : Nat
  cosines : List K
  density : List K
  cumulated : List K

/-- Its locator; 0 where the cosines are isotropic. -/
def cosLocator : Option (CosTable K) → K
  | none => 0
  | some t => t.loc

/-- It is in the block at `block`. -/
def CosIn (xss : List K) (block : Nat) : Option (CosTable K) → Prop
  | none => True
  | some t => 0 < t.loc ∧ TableAt xss (block + t.loc - 1) t.law t.cosines t.density t.cumulated

/-- The distribution of cosines. -/
def cosMu : Option (CosTable K) → Mu K
  | none => .uniform
  | some t => .tabular t.law t.cosines t.density t.cumulated

/-! ### Delayed neutrons -/

/-- A group of precursors: the decay rate (1/shake), the probability of the group by energy, and the place of its spectrum. -/
structure Group (K : Type) where
  rate : K
  probability : Tab K
  start : Nat

/-- The total delayed nu, the groups (BDD block at JXS(25)) and the places of their spectra (DNEDL block at JXS(26)) are in the table. -/
structure HoldsDelayed (a : Arrays K) (nu : Tab K) (gs : List (Group K)) : Prop where
  nu : ∃ (j : Nat) (h : K), a.jxs[24]? = some (j : Int) ∧ 0 < j ∧ AtL a.xss j (h :: nu.numbers) ∧ Fits nu
  number : a.nxs[8]? = some (gs.length : Int)
  groups : ∃ j : Nat, a.jxs[25]? = some (j : Int) ∧ AtL a.xss j (gs.flatMap fun g => g.rate :: g.probability.numbers)
  starts : ∃ j : Nat, a.jxs[26]? = some (j : Int) ∧ AtL a.xss j (gs.map fun g => (g.start : K))
  fits : ∀ g ∈ gs, Fits g.probability ∧ g.probability.values ≠ [] ∧ 0 ≤ g.rate

/-- The probability of the group is the same at all energies. -/
def Group.Constant (g : Group K) : Prop := ∃ p, ∀ v ∈ g.probability.values, v = p

/-- The probability of such a group. -/
def Group.share (g : Group K) : K := g.probability.values.headD 0

/-- The spectra of the groups can be read (DNED block at JXS(27)). -/
def Spectra [FloorRing K] (a : Arrays K) (awr : K) (gs : List (Group K)) (spectrum : Nat → Law K) : Prop :=
  ∃ j : Nat, a.jxs[27]? = some (j : Int) ∧ ∀ g ∈ gs, lawAt a awr none j g.start = .ok (spectrum g.start)

/-- The NU block (JXS(2)) gives `q`, prompt neutrons, and `derived`, total neutrons. -/
def NuBlock [FloorRing K] (a : Arrays K) (q : Neutron K) (derived : List (Neutron K)) : Prop :=
  ∃ j2 j24 : Int, a.jxs[2]? = some j2 ∧ j2 ≠ 0 ∧ a.jxs[24]? = some j24 ∧ nus a j2 j24 = .ok ([q], derived)

/-- A delayed neutron of the group `g`: decay rate in 1/s, and the spectrum. -/
def IsGroup (spectrum : Nat → Law K) (g : Group K) (d : Neutron K) : Prop :=
  d.mode = .delayed ∧ d.decayRate = 10 ^ 8 * g.rate ∧ d.dist = [spectrum g.start]

/-- The yield of a group whose probability depends on the energy. -/
def IsProduct [ExpLog K] (nu prob t : Tab1D K) : Prop :=
  t.x.Pairwise (· < ·) ∧ t.y.length = t.x.length ∧ t.interpolation = [2] ∧ t.breakpoints = [(t.x.length : Int)] ∧
  (∀ e, e ∈ t.x ↔ (e ∈ nu.x ∨ e ∈ prob.x) ∧ (∀ m, nu.x.getLast? = some m → e ≤ m) ∧ ∀ m, prob.x.getLast? = some m → e ≤ m) ∧
  ∀ (k : Nat) (e v : K), t.x[k]? = some e → t.y[k]? = some v → ∃ n p, nu.eval e = .ok n ∧ prob.eval e = .ok p ∧ v = n * p

/-! ### Neutrons from fission and from other reactions -/

/-- A number of neutrons by the incident energy: a polynomial in the energy in MeV, or a table. -/
inductive Nu (K : Type) where
  | polynomial (c : List K)
  | table (t : Tab K)

/-- How it is written. -/
def Nu.numbers : Nu K → List K
  | .polynomial c => 1 :: (c.length : K) :: c
  | .table t => 2 :: t.numbers

/-- A polynomial has a coefficient. -/
def Nu.Good : Nu K → Prop
  | .polynomial c => c ≠ []
  | .table t => Fits t

/-- The function `f` of the energy in eV is this number of neutrons. -/
def Nu.Is [ExpLog K] : Nu K → Fn K → Prop
  | .polynomial c, f => ∀ E, Fn.eval f (1000000 * E) = .ok (∑ k ∈ Finset.range c.length, c.getD k 0 * E ^ k)
  | .table t, f => f = .tab (tabEv t)

/-- The NU block (at JXS(2)) has one nu. -/
def OneNu (a : Arrays K) (nu : Nu K) : Prop := ∃ j : Nat, a.jxs[2]? = some (j : Int) ∧ 0 < j ∧ AtL a.xss j nu.numbers ∧ nu.Good

/-- It has prompt and total nu, after minus the length of the first. -/
def TwoNus (a : Arrays K) (prompt total : Nu K) : Prop :=
  ∃ j : Nat, a.jxs[2]? = some (j : Int) ∧ 0 < j ∧ AtL a.xss j (-(prompt.numbers.length : K) :: (prompt.numbers ++ total.numbers)) ∧ prompt.Good ∧ total.Good

/-- The table has a chain of distributions that starts at `start` in the block at `block`: the place of the next one (0 after the last), the law, its place, and when the law applies. -/
inductive ChainIn [FloorRing K] (a : Arrays K) (awr q : K) (block : Nat) : Nat → List (Tab K × Law K) → Prop
  | stop : ChainIn a awr q block 0 []
  | link {start next : Nat} {law loc : K} {p : Tab K} {d : Law K} {rest : List (Tab K × Law K)} (pos : 0 < start) (here : AtL a.xss (block + start - 1) ([(next : K), law, loc] ++ p.numbers))
      (fits : Fits p) (read : lawAt a awr (some q) block start = .ok d) (more : ChainIn a awr q block next rest) : ChainIn a awr q block start ((p, d) :: rest)

/-- The distributions at the places `S` lead to each other and never to an end. -/
def Ring [FloorRing K] (a : Arrays K) (awr q : K) (block : Nat) (S : Nat → Prop) : Prop :=
  ∀ start, S start → 0 < start ∧ ∃ (next : Nat) (law loc : K) (p : Tab K) (d : Law K), AtL a.xss (block + start - 1) ([(next : K), law, loc] ++ p.numbers) ∧ Fits p ∧
    lawAt a awr (some q) block start = .ok d ∧ S next

/-- What the table says about the neutrons of the reaction number `i` of the `n` ones with neutrons: type and frame (`ty`, TYR block at JXS(5)), the places of the distributions of energy
(`start`, LDLW block at JXS(10), in the DLW block at `dlw`) and of the angular distribution (`loc`, LAND block at JXS(8), where elastic scattering comes first). -/
structure HoldsNeutrons (a : Arrays K) (i : Nat) (ty : Int) (start : Nat) (loc : Int) (dlw : Nat) : Prop where
  number : ∃ n : Nat, a.nxs[5]? = some (n : Int) ∧ 1 ≤ i ∧ i ≤ n
  type : ∃ (j : Nat) (tys : List Int), a.jxs[5]? = some (j : Int) ∧ AtL a.xss j (tys.map fun t : Int => (t : K)) ∧ tys[i - 1]? = some ty
  spectrum : ∃ (j : Nat) (ss : List Nat), a.jxs[10]? = some (j : Int) ∧ AtL a.xss j (ss.map fun t : Nat => (t : K)) ∧ ss[i - 1]? = some start
  cosines : ∃ (j : Nat) (ls : List Int), a.jxs[8]? = some (j : Int) ∧ AtL a.xss j (ls.map fun t : Int => (t : K)) ∧ ls[i]? = some loc
  block : a.jxs[11]? = some (dlw : Int)

/-- The number of neutrons of a reaction of type `ty`: a number to 100, otherwise the place of a table in the DLW block. -/
def YieldIs [ExpLog K] (a : Arrays K) (ty : Int) (dlw : Nat) (f : Fn K) : Prop :=
  (|ty| ≤ 100 ∧ ∀ E, Fn.eval f E = .ok ((|ty| : Int) : K)) ∨ ∃ t : Tab K, 100 < |ty| ∧ AtL a.xss (dlw + (|ty| - 101).toNat) t.numbers ∧ Fits t ∧ f = .tab (tabEv t)

/-! ### Photons -/

/-- How many photons: a yield (file 12 or 16 of the evaluation, for the reaction `mt`), or a production cross section at the energies from number `first` on. -/
inductive Production (K : Type) where
  | yields (mf mt : Nat) (t : Tab K)
  | crossSection (first : Nat) (vals : List K)

/-- How it is written. -/
def Production.numbers : Production K → List K
  | .yields mf mt t => [(mf : K), (mt : K)] ++ t.numbers
  | .crossSection first vals => [13, (first : K), (vals.length : K)] ++ vals

/-- It makes sense for the reaction `mt` on this energy grid. -/
def Production.Good (grid : List K) (mt : Nat) : Production K → Prop
  | .yields mf mt' t => (mf = 12 ∨ mf = 16) ∧ mt' = mt ∧ Fits t ∧ t.energies ≠ []
  | .crossSection first vals => 0 < first ∧ first - 1 + vals.length ≤ grid.length ∧ vals ≠ []

/-- The function `y` of the energy in eV is the number of photons by reaction: for a production cross section, the ratio to the cross section `xs` of the reaction where this is positive,
and zero elsewhere. -/
def Production.Is [ExpLog K] (grid : List K) (xs : Tab1D K) : Production K → Tab1D K → Prop
  | .yields _ _ t, y => y = tabEv t
  | .crossSection first vals, y => ∃ ys : List K, y = .linlin (((grid.drop (first - 1)).take vals.length).map (1000000 * ·)) ys ∧ ys.length = vals.length ∧
      ∀ (k : Nat) (e v w : K), grid[first - 1 + k]? = some e → vals[k]? = some v → ys[k]? = some w → ∃ s, xs.eval (1000000 * e) = .ok s ∧ (0 < s → w * s = v) ∧ (s ≤ 0 → w = 0)

/-- A photon: number (1000 times the reaction, plus a number), place of the production, the production, place of the spectrum, the spectrum, and place (0 for isotropic), energies and cosines
of the angular distribution. -/
structure Photon (K : Type) where
  number : Nat
  place : Nat
  production : Production K
  start : Nat
  spectrum : Law K
  loc : Nat
  energies : List K
  cosines : List (Cosines K)

/-- The table has these photons: MTRP block at JXS(13), LSIGP (14), SIGP (15), LDLWP (18), DLWP (19), LANDP (16), ANDP (17). -/
structure HoldsPhotons [FloorRing K] (a : Arrays K) (awr : K) (grid : List K) (ps : List (Photon K)) : Prop where
  count : a.nxs[6]? = some (ps.length : Int)
  main : ∃ j : Nat, a.jxs[1]? = some (j : Int) ∧ AtL a.xss j grid
  numbers : ∃ j : Nat, a.jxs[13]? = some (j : Int) ∧ AtL a.xss j (ps.map fun p => (p.number : K))
  productions : ∃ j j' : Nat, a.jxs[14]? = some (j : Int) ∧ a.jxs[15]? = some (j' : Int) ∧ AtL a.xss j (ps.map fun p => (p.place : K)) ∧
    ∀ p ∈ ps, 0 < p.place ∧ AtL a.xss (j' + p.place - 1) p.production.numbers ∧ p.production.Good grid (p.number / 1000)
  spectra : ∃ j j' : Nat, a.jxs[18]? = some (j : Int) ∧ a.jxs[19]? = some (j' : Int) ∧ AtL a.xss j (ps.map fun p => (p.start : K)) ∧
    ∀ p ∈ ps, lawAt a awr none j' p.start = .ok p.spectrum ∧ p.spectrum.uncorrelated
  angles : ∃ j j' : Nat, a.jxs[16]? = some (j : Int) ∧ a.jxs[17]? = some (j' : Int) ∧ AtL a.xss j (ps.map fun p => (p.loc : K)) ∧
    ∀ p ∈ ps, p.loc = 0 ∨ p.cosines.length = p.energies.length ∧ (∀ c ∈ p.cosines, c.In a.xss j') ∧
      AtL a.xss (j' + p.loc - 1) ([(p.energies.length : K)] ++ p.energies ++ p.cosines.map Cosines.locator)

/-- The product is this photon. -/
def IsPhoton [ExpLog K] (grid : List K) (xs : Tab1D K) (p : Photon K) (r : Tab1D K × Law K × Angle K) : Prop :=
  p.production.Is grid xs r.1 ∧ r.2.1 = p.spectrum ∧
  (p.loc = 0 → ∃ e0 e1, r.1.x.head? = some e0 ∧ r.1.x.getLast? = some e1 ∧ r.2.2 = ⟨[e0, e1], [.uniform, .uniform]⟩) ∧
  (0 < p.loc → r.2.2.energy = p.energies.map (1000000 * ·) ∧ List.Forall₂ Cosines.Means p.cosines r.2.2.mu)

/-! ### Probability tables -/

/-- The table has probability tables (UNR block at JXS(23)): interpolation, flags, the energies in MeV, and at each energy six rows of `m` numbers, the last of them heating in MeV. -/
structure HoldsUrr (a : Arrays K) (interpolation inelastic absorption smooth : Int) (m : Nat) (energies : List K) (rows : List (List (List K))) : Prop where
  block : ∃ j : Nat, a.jxs[23]? = some (j : Int) ∧ 0 < j ∧ AtL a.xss j
    ([(energies.length : K), (m : K), (interpolation : K), (inelastic : K), (absorption : K), (smooth : K)] ++ energies ++ (rows.map List.flatten).flatten)
  tables : rows.length = energies.length
  six : ∀ t ∈ rows, t.length = 6 ∧ ∀ r ∈ t, r.length = m

/-- Heating in eV. -/
def heatingEv (t : List (List K)) : List (List K) := t.take 5 ++ (t.drop 5).map fun r => r.map (1000000 * ·)

end ASAPy.Dists
