import Verif.Decay.Model

/-!
# Specification of decay data and fission yields

Written from the ENDF-6 manual: file 8, sections 457 (radioactive decay), 454 and 459 (yields). Only the types of the attributes (`Mode`, `Disc`, `Contin`,
`Spectrum`, `Data`) and the layout of records (`Verif.Endf.Spec`) are shared with the model.
-/

namespace ASAPy.Decay
open ASAPy.Str ASAPy.Dec ASAPy.Endf ASAPy.AceData

/-- The modes of decay of the manual (table of RTYP). -/
inductive Kind where
  | gamma | betaMinus | betaPlus | it | alpha | neutron | fission | proton | electron | xray
deriving DecidableEq

/-- RTYP of a mode. -/
def Kind.code : Kind → Nat
  | .gamma => 0 | .betaMinus => 1 | .betaPlus => 2 | .it => 3 | .alpha => 4 | .neutron => 5 | .fission => 6 | .proton => 7 | .electron => 8 | .xray => 9

/-- The name of a mode. -/
def Kind.name : Kind → Line
  | .gamma => c!"gamma" | .betaMinus => c!"beta-" | .betaPlus => c!"ec/beta+" | .it => c!"IT" | .alpha => c!"alpha" | .neutron => c!"n" | .fission => c!"sf"
  | .proton => c!"p" | .electron => c!"e-" | .xray => c!"xray"

/-- The decimals of RTYP behind the point. -/
def tail : List Kind → ℚ
  | [] => 0
  | k :: ks => (k.code + tail ks) / 10

/-- RTYP of successive modes: the first is the digit before the point, the others follow. -/
def rtyp (k : Kind) (ks : List Kind) : ℚ := k.code + tail ks

/-- `q` is RTYP of the successive modes of the names: the first and the last are not `gamma` (whose code is 0), and there are no more than fit into a float. -/
def Rtyp (q : ℚ) (names : List Line) : Prop :=
  ∃ k ks, q = rtyp k ks ∧ names = (k :: ks).map Kind.name ∧ k ≠ .gamma ∧ (∀ l ∈ ks.getLast?, l ≠ .gamma) ∧ ks.length ≤ 17

/-- How many of the modes are of the kind. -/
def times (k : Kind) (ks : List Kind) : Int := ((ks.filter (· = k)).length : Int)

/-- Charge of the daughter. -/
def chargeAfter (z : Int) (ks : List Kind) : Int := z + times .betaMinus ks - times .betaPlus ks - 2 * times .alpha ks - times .proton ks

/-- Mass number of the daughter. -/
def massAfter (a : Int) (ks : List Kind) : Int := a - 4 * times .alpha ks - times .neutron ks - times .proton ks

/-- The name of a nuclide: symbol, mass number, and the state if it is not the ground state. -/
def nuclideName (sym : Line) (a m : Nat) : Line := if m = 0 then sym ++ natStr a else sym ++ natStr a ++ '_' :: 'm' :: natStr m

/-! ### Records -/

/-- The lines of a LIST record. -/
def ListRec (c : Cont) (vs : List ℚ) (ls : List Line) : Prop :=
  ∃ l rows, ls = l :: rows ∧ ContLine c l ∧ c.n1 = vs.length ∧ Lines (Starts floatEndf) 6 vs rows

/-- The lines of a TAB1 record. -/
def Tab1Rec (c : Cont) (regions : List (Int × Int)) (points : List (ℚ × ℚ)) (ls : List Line) : Prop :=
  ∃ l rl pl, ls = l :: (rl ++ pl) ∧ ContLine c l ∧ c.n1 = regions.length ∧ c.n2 = points.length ∧ Lines (StartsPairs pyInt pyInt) 3 regions rl ∧
    Lines (StartsPairs floatEndf floatEndf) 3 points pl

/-- A number and its uncertainty. -/
def U.Ok (u : U) : Prop := 0 ≤ u.s

/-- The six values of a mode of decay: RTYP, RFS, Q, dQ, BR, dBR. -/
def ModeValues (parent : Line) (m : Mode) (vs : List ℚ) : Prop :=
  ∃ (q : ℚ) (st : Nat), vs = [q, (st : ℚ), m.energy.n, m.energy.s, m.ratio.n, m.ratio.s] ∧ Rtyp q m.modes ∧ m.state = st ∧ m.parent = parent ∧
    0 ≤ m.energy.n ∧ m.energy.Ok ∧ 0 ≤ m.ratio.n ∧ m.ratio.Ok

/-- The types of transitions. -/
inductive TypeCode : ℚ → Option Line → Prop
  | none : TypeCode 0 none
  | allowed : TypeCode 1 (some c!"allowed")
  | first : TypeCode 2 (some c!"first-forbidden")
  | second : TypeCode 3 (some c!"second-forbidden")
  | third : TypeCode 4 (some c!"third-forbidden")
  | fourth : TypeCode 5 (some c!"fourth-forbidden")
  | fifth : TypeCode 6 (some c!"fifth-forbidden")

/-- STYP. -/
inductive Radiation : ℚ → Line → Prop
  | gamma : Radiation 0 c!"gamma"
  | betaMinus : Radiation 1 c!"beta-"
  | betaPlus : Radiation 2 c!"ec/beta+"
  | alpha : Radiation 4 c!"alpha"
  | neutron : Radiation 5 c!"n"
  | fission : Radiation 6 c!"sf"
  | proton : Radiation 7 c!"p"
  | electron : Radiation 8 c!"e-"
  | xray : Radiation 9 c!"xray"
  | antineutrino : Radiation 10 c!"anti-neutrino"
  | neutrino : Radiation 11 c!"neutrino"

/-- The pairs behind the intensity of a discrete line: none is named for most types, a positron intensity for `ec/beta+`; for `gamma` the internal pair
formation, then perhaps the total conversion, then perhaps those of the K and L shells. -/
inductive Extra : Line → Disc → List U → Prop
  | other {type : Line} {d : Disc} (us : List U) (h1 : type ≠ c!"ec/beta+") (h2 : type ≠ c!"gamma") (hp : d.positron = none) (hr : d.pair = none)
      (ht : d.total = none) (hk : d.kShell = none) (hl : d.lShell = none) : Extra type d us
  | positron {d : Disc} (p : U) (us : List U) (hp : d.positron = some p) (hr : d.pair = none) (ht : d.total = none) (hk : d.kShell = none)
      (hl : d.lShell = none) : Extra c!"ec/beta+" d (p :: us)
  | gamma1 {d : Disc} (p : U) (hp : d.positron = none) (hr : d.pair = some p) (ht : d.total = none) (hk : d.kShell = none) (hl : d.lShell = none) :
      Extra c!"gamma" d [p]
  | gamma2 {d : Disc} (p t : U) (hp : d.positron = none) (hr : d.pair = some p) (ht : d.total = some t) (hk : d.kShell = none) (hl : d.lShell = none) :
      Extra c!"gamma" d [p, t]
  | gamma4 {d : Disc} (p t k l : U) (hp : d.positron = none) (hr : d.pair = some p) (ht : d.total = some t) (hk : d.kShell = some k)
      (hl : d.lShell = some l) : Extra c!"gamma" d [p, t, k, l]

/-- The record of a discrete line: energy in C1 and C2, then RTYP, TYPE, intensity and the further pairs. -/
def DiscRec (type : Line) (d : Disc) (ls : List Line) : Prop :=
  ∃ (c : Cont) (q t : ℚ) (us : List U), ListRec c (q :: t :: (d.intensity :: us).flatMap fun u => [u.n, u.s]) ls ∧ d.energy = ⟨c.c1, c.c2⟩ ∧ d.energy.Ok ∧
    Rtyp q d.fromMode ∧ TypeCode t d.type ∧ d.intensity.Ok ∧ (∀ u ∈ us, u.Ok) ∧ Extra type d us

/-- The records of a continuous spectrum: TAB1 with RTYP in C1 and LCOV in L2, then the covariance, with its type in L2, if LCOV is not 0. -/
def ContRec (ci : Contin) (ls : List Line) : Prop :=
  ∃ (c : Cont) (a b : List Line), ls = a ++ b ∧ Tab1Rec c ci.regions ci.points a ∧ Rtyp c.c1 ci.type ∧
    ((c.l2 = 0 ∧ b = [] ∧ ci.cov = none) ∨
      (c.l2 ≠ 0 ∧ ∃ (c' : Cont) (ps : List (ℚ × ℚ)), ListRec c' (ps.flatMap fun p => [p.1, p.2]) b ∧ ci.cov = some (c'.l2, ps)))

/-- LCON: 0 for a discrete spectrum, 1 for a continuous one, 2 for both. -/
inductive Parts : Int → Spectrum → Nat → List Line → Prop
  | discrete {s : Spectrum} {ds : List Disc} {ls : List (List Line)} (hf : s.flag = c!"discrete") (hd : s.discrete = some ds) (hc : s.continuous = none)
      (h : List.Forall₂ (DiscRec s.type) ds ls) : Parts 0 s ds.length ls.flatten
  | continuous {s : Spectrum} {ci : Contin} {ls : List Line} (n : Nat) (hf : s.flag = c!"continuous") (hd : s.discrete = none) (hc : s.continuous = some ci)
      (h : ContRec ci ls) : Parts 1 s n ls
  | both {s : Spectrum} {ds : List Disc} {ls : List (List Line)} {ci : Contin} {ls' : List Line} (hf : s.flag = c!"both") (hd : s.discrete = some ds)
      (hc : s.continuous = some ci) (h : List.Forall₂ (DiscRec s.type) ds ls) (h' : ContRec ci ls') : Parts 2 s ds.length (ls.flatten ++ ls')

/-- The records of a spectrum: STYP in C2, LCON in L1, the number of discrete lines in N2; the three normalisations; the lines and the table. -/
def SpectrumRec (s : Spectrum) (ls : List Line) : Prop :=
  ∃ (c : Cont) (n : Nat) (a b : List Line), ls = a ++ b ∧
    ListRec c [s.discNorm.n, s.discNorm.s, s.energyAverage.n, s.energyAverage.s, s.contNorm.n, s.contNorm.s] a ∧ s.discNorm.Ok ∧ s.energyAverage.Ok ∧
    s.contNorm.Ok ∧ Radiation c.c2 s.type ∧ c.n2 = n ∧ Parts c.l1 s n b

/-- The names of the average energies: three components of the total, and 14 types of radiation. -/
def components : List Line := [c!"light", c!"electromagnetic", c!"heavy"]

def radiations : List Line := [c!"beta-", c!"beta+", c!"auger", c!"conversion", c!"gamma", c!"xray", c!"Bremsstrahlung", c!"annihilation", c!"alpha",
  c!"recoil", c!"SF", c!"neutron", c!"proton", c!"neutrino"]

/-- The HEAD record of a nuclide: 1000 Z + A, mass, excitation, isomeric state, stability, number of spectra. -/
def NuclideHead (d : Data) (nst nsp : Int) (l : Line) : Prop :=
  ∃ (z a m : Nat) (sym : Line), Element z sym ∧ a < 1000 ∧ d.z = z ∧ d.a = a ∧ d.m = m ∧ d.name = nuclideName sym a m ∧
    HeadLine ⟨1000 * z + a, d.mass, d.excited, m, nst, nsp⟩ l

/-- The section of a radioactive nuclide. -/
def RadioactiveSection (d : Data) (ls : List Line) : Prop :=
  ∃ (l : Line) (c c' : Cont) (hl : U) (us : List U) (vss : List (List ℚ)) (a b : List Line) (sps : List Spectrum) (sls : List (List Line)),
    ls = l :: (a ++ (b ++ sls.flatten)) ∧ NuclideHead d 0 sps.length l ∧ d.stable = false ∧
    -- half-life and average energies
    ListRec c (us.flatMap fun u => [u.n, u.s]) a ∧ d.halfLife = some hl ∧ hl = ⟨c.c1, c.c2⟩ ∧ hl.Ok ∧ (∀ u ∈ us, u.Ok) ∧
    ((us.length = 3 ∧ d.average = components.zip us) ∨ (us.length = 17 ∧ d.average = (components ++ radiations).zip us)) ∧
    -- spin, parity and modes
    ListRec c' vss.flatten b ∧ ((c'.c1 = -77777 / 1000 ∧ d.spin = none) ∨ (c'.c1 ≠ -77777 / 1000 ∧ d.spin = some c'.c1)) ∧ d.parity = c'.c2 ∧
    c'.n2 = vss.length ∧ List.Forall₂ (ModeValues d.name) d.modes vss ∧
    -- spectra
    List.Forall₂ SpectrumRec sps sls ∧ (sps.map (·.type)).Nodup ∧ d.spectra = sps.map fun s => (s.type, s)

/-- The section of a stable nuclide: two more records, the second with spin and parity. -/
def StableSection (d : Data) (ls : List Line) : Prop :=
  ∃ (l : Line) (nsp : Int) (c c' : Cont) (vs vs' : List ℚ) (a b rest : List Line), ls = l :: (a ++ (b ++ rest)) ∧ NuclideHead d 1 nsp l ∧ d.stable = true ∧
    ListRec c vs a ∧ ListRec c' vs' b ∧ c'.c1 ≠ -77777 / 1000 ∧ d.spin = some c'.c1 ∧ d.parity = c'.c2 ∧ d.halfLife = none ∧ d.average = [] ∧
    d.modes = [] ∧ d.spectra = []

/-! ### Yields -/

/-- A fission product: nuclide and yield. -/
structure Product where
  z : Nat
  a : Nat
  m : Nat
  sym : Line
  yield : U

def Product.Ok (p : Product) : Prop := Element p.z p.sym ∧ p.a < 1000 ∧ p.yield.Ok

/-- The record of an energy: the energy in C1, the number of products in N2, four values each. -/
def EnergyRec (e : ℚ × List Product) (ls : List Line) : Prop :=
  ∃ c : Cont, ListRec c (e.2.flatMap fun p => [((1000 * p.z + p.a : Nat) : ℚ), (p.m : ℚ), p.yield.n, p.yield.s]) ls ∧ c.c1 = e.1 ∧ c.n2 = e.2.length ∧
    (∀ p ∈ e.2, p.Ok) ∧ (e.2.map fun p => (p.z, p.a, p.m)).Nodup

/-- A section of yields: the number of energies in L1. -/
def YieldSection (es : List (ℚ × List Product)) (ls : List Line) : Prop :=
  ∃ (h : Head) (l : Line) (recs : List (List Line)) (rest : List Line), ls = l :: (recs.flatten ++ rest) ∧ HeadLine h l ∧ h.l1 = es.length ∧
    List.Forall₂ EnergyRec es recs

/-- The yields of an energy by name. -/
def byName (e : ℚ × List Product) : List (Line × U) := e.2.map fun p => (nuclideName p.sym p.a p.m, p.yield)

end ASAPy.Decay
