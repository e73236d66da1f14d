import Verif.AceData.Model

/-! # The layout of an ACE table (as in the MCNP manual), vocabulary of C78-C84

Positions are counted from 1. -/

namespace ASAPy.FromAce
open ASAPy.AceData

/-- `NXS(i)`. -/
def NXS {K : Type} (t : Table K) (i : Nat) : Option Int := t.nxs[i - 1]?

/-- `JXS(i)`. -/
def JXS {K : Type} (t : Table K) (i : Nat) : Option Int := t.jxs[i - 1]?

/-- `XSS(p)`. -/
def XSS {K : Type} (t : Table K) (p : Nat) : Option K := if p = 0 then none else t.xss[p - 1]?

/-- The numbers `vs` are at the positions `p`, `p + 1`, ... of `XSS`. -/
def At {K : Type} (t : Table K) (p : Nat) (vs : List K) : Prop := ∀ (k : Nat) (v : K), vs[k]? = some v → XSS t (p + k) = some v

/-- A reaction of the table: its MT, the number of the first point of the energy grid and the cross sections, and their place. -/
structure Entry (K : Type) where
  mt : Nat
  first : Nat
  vals : List K
  loc : Nat

/-- What the table says about cross sections: the energy grid (MeV), total, absorption and elastic cross sections, and the reactions. -/
structure Content (K : Type) where
  energies : List K
  total : List K
  absorption : List K
  elastic : List K
  reactions : List (Entry K)

variable {K : Type} [Field K] [LinearOrder K]

/-- The table has this content: the main block (ESZ, at JXS(1)), the MT numbers (MTR, at JXS(3)), the places of the cross sections (LSIG, at JXS(6)) and
the cross sections (SIG, at JXS(7)). -/
structure Holds (t : Table K) (c : Content K) : Prop where
  numEnergies : NXS t 3 = some (c.energies.length : Int)
  numReactions : NXS t 4 = some (c.reactions.length : Int)
  positive : ∀ e ∈ c.energies, 0 ≤ e
  main : ∃ j : Nat, JXS t 1 = some (j : Int) ∧ At t j (c.energies ++ c.total ++ c.absorption ++ c.elastic)
  lengths : c.total.length = c.energies.length ∧ c.absorption.length = c.energies.length ∧ c.elastic.length = c.energies.length
  lists : ∃ j3 j6 j7 : Nat, JXS t 3 = some (j3 : Int) ∧ JXS t 6 = some (j6 : Int) ∧ JXS t 7 = some (j7 : Int) ∧
    At t j3 (c.reactions.map fun r => (r.mt : K)) ∧ At t j6 (c.reactions.map fun r => (r.loc : K)) ∧
    ∀ r ∈ c.reactions, 0 < j7 ∧ 0 < r.loc ∧ At t (j7 + r.loc - 1) ([(r.first : K), (r.vals.length : K)] ++ r.vals) ∧
      0 < r.first ∧ r.first - 1 + r.vals.length ≤ c.energies.length

/-- The table has photons of reaction `mt`: one of the numbers in its list of photon reactions is `mt` followed by three digits. -/
def PhotonsOf (t : Table K) (mt : Nat) : Prop :=
  ∃ n j i p : Nat, NXS t 6 = some (n : Int) ∧ JXS t 13 = some (j : Int) ∧ i < n ∧ XSS t (j + i) = some ((1000 * mt + p : Nat) : K) ∧ p < 1000

/-- The energies of a reaction, in eV. -/
def Content.energiesOf (c : Content K) (r : Entry K) : List K :=
  ((c.energies.drop (r.first - 1)).take r.vals.length).map (· * 1000000)

/-- Cross sections with negative ones taken to be zero. -/
def cleaned (vs : List K) : List K := vs.map fun v => if v < 0 then 0 else v

/-- MT numbers of gas production and damage, which are left out. -/
def LeftOut (mt : Nat) : Prop := 200 < mt ∧ mt < 219 ∨ mt = 444

/-- `r` is the last reaction of the table with its MT. -/
def Content.Last (c : Content K) (i : Nat) (r : Entry K) : Prop :=
  c.reactions[i]? = some r ∧ ∀ (j : Nat) (r' : Entry K), i < j → c.reactions[j]? = some r' → r'.mt ≠ r.mt

/-- Position `p` is not inside a block of cross sections (where negative numbers are set to zero). -/
def NotXs (t : Table K) (c : Content K) (p : Nat) : Prop :=
  (∀ j : Nat, JXS t 1 = some (j : Int) → ¬ (j + 3 * c.energies.length ≤ p ∧ p < j + 4 * c.energies.length)) ∧
  ∀ j : Nat, JXS t 7 = some (j : Int) → ∀ r ∈ c.reactions, ¬ (j + r.loc + 1 ≤ p ∧ p < j + r.loc + 1 + r.vals.length)

/-- A table of values: interpolation regions, energies (MeV) and values. -/
structure Tab (K : Type) where
  breakpoints : List Nat
  laws : List Nat
  energies : List K
  values : List K

/-- How a table of values is written. -/
def Tab.numbers (n : Tab K) : List K :=
  [(n.breakpoints.length : K)] ++ n.breakpoints.map (fun v : Nat => (v : K)) ++ n.laws.map (fun v : Nat => (v : K)) ++ [(n.energies.length : K)] ++ n.energies ++
    n.values

/-- As many laws as breakpoints, as many values as energies. -/
def Tab.Fits (n : Tab K) : Prop :=
  n.laws.length = n.breakpoints.length ∧ n.values.length = n.energies.length ∧ (∀ v ∈ n.energies, 0 ≤ v) ∧ ∀ v ∈ n.values, 0 ≤ v

/-- The table has both prompt and total nu (NU block at JXS(2)), the total nu as a table. -/
def HoldsNu (t : Table K) (c : Content K) (nu : Tab K) : Prop :=
  ∃ j m : Nat, JXS t 2 = some (j : Int) ∧ 0 < j ∧ 0 < m ∧ XSS t j = some (-(m : K)) ∧ NotXs t c j ∧ At t (j + m + 1) (2 :: nu.numbers) ∧ nu.Fits

/-- The first nu of the table is that of prompt neutrons: both are given, or one is and there are delayed neutrons (JXS(24)). -/
def PromptFirst (t : Table K) (c : Content K) : Prop :=
  ∃ j : Nat, JXS t 2 = some (j : Int) ∧ 0 < j ∧ ∃ h, XSS t j = some h ∧
    (h < 0 ∧ NotXs t c j ∨ 0 < h ∧ ∃ d, JXS t 24 = some d ∧ 0 < d)

/-- Reaction `k` (from 0) is fission: the TYR block (JXS(5)) says 19, and it is one of the NXS(5) reactions with neutrons. -/
def IsFission (t : Table K) (k : Nat) : Prop :=
  ∃ (j : Nat) (n : Int), JXS t 5 = some (j : Int) ∧ XSS t (j + k) = some 19 ∧ NXS t 5 = some n ∧ (k : Int) < n

/-- A spectrum: energies (MeV), densities (1/MeV) and cumulated probabilities, and its place. -/
structure Spectrum (K : Type) where
  loc : Nat
  law : Nat
  energies : List K
  pdf : List K
  cdf : List K

/-- The first distribution of reaction `k` is of law 4, a spectrum for each incident energy (LDLW block at JXS(10), DLW block at JXS(11)), without
discrete lines. -/
def HoldsChi (t : Table K) (k : Nat) (incident : List K) (spectra : List (Spectrum K)) : Prop :=
  ∃ j10 j11 loc idat : Nat, ∃ breakpoints laws : List Nat, JXS t 10 = some (j10 : Int) ∧ JXS t 11 = some (j11 : Int) ∧ 0 < loc ∧ 0 < j11 ∧
    XSS t (j10 + k) = some (loc : K) ∧ XSS t (j11 + loc) = some 4 ∧ XSS t (j11 + loc + 1) = some (idat : K) ∧ 0 < idat ∧
    (∀ e ∈ incident, 0 ≤ e) ∧ laws.length = breakpoints.length ∧ spectra.length = incident.length ∧
    At t (j11 + idat - 1) ((⟨breakpoints, laws, incident, spectra.map fun s => (s.loc : K)⟩ : Tab K).numbers) ∧
    ∀ s ∈ spectra, 0 < s.loc ∧ s.law < 10 ∧ s.pdf.length = s.energies.length ∧ s.cdf.length = s.energies.length ∧
      (∀ v ∈ s.energies ++ s.pdf ++ s.cdf, 0 ≤ v) ∧
      At t (j11 + s.loc - 1) ([(s.law : K), (s.energies.length : K)] ++ s.energies ++ s.pdf ++ s.cdf)

/-- The distribution at `loc` of the block at `j` is of law 4, a spectrum for each incident energy, without discrete lines. -/
def Law4At (t : Table K) (j loc : Nat) (incident : List K) (spectra : List (Spectrum K)) : Prop :=
  ∃ idat : Nat, ∃ breakpoints laws : List Nat, 0 < loc ∧ 0 < j ∧ XSS t (j + loc) = some 4 ∧ XSS t (j + loc + 1) = some (idat : K) ∧ 0 < idat ∧
    (∀ e ∈ incident, 0 ≤ e) ∧ laws.length = breakpoints.length ∧ spectra.length = incident.length ∧
    At t (j + idat - 1) ((⟨breakpoints, laws, incident, spectra.map fun s => (s.loc : K)⟩ : Tab K).numbers) ∧
    ∀ s ∈ spectra, 0 < s.loc ∧ s.law < 10 ∧ s.pdf.length = s.energies.length ∧ s.cdf.length = s.energies.length ∧
      (∀ v ∈ s.energies ++ s.pdf ++ s.cdf, 0 ≤ v) ∧
      At t (j + s.loc - 1) ([(s.law : K), (s.energies.length : K)] ++ s.energies ++ s.pdf ++ s.cdf)

/-- The photon reactions of the table (MTRP block, at JXS(13)): the MT of the reaction followed by three digits. -/
def HoldsPhotons (t : Table K) (pms : List Nat) : Prop :=
  NXS t 6 = some (pms.length : Int) ∧ ∃ j : Nat, JXS t 13 = some (j : Int) ∧ At t j (pms.map fun m : Nat => (m : K))

/-- The numbers of those that are photons of reaction `mt`. -/
def photonNumbers (pms : List Nat) (mt : Nat) : List Nat := (List.range pms.length).filter fun i => pms[i]?.any fun m => m / 1000 = mt

/-- Photons number `i` have this spectrum (LDLWP block at JXS(18), DLWP block at JXS(19)). -/
def HoldsPhotonSpectrum (t : Table K) (i : Nat) (incident : List K) (spectra : List (Spectrum K)) : Prop :=
  ∃ j18 j19 loc : Nat, JXS t 18 = some (j18 : Int) ∧ JXS t 19 = some (j19 : Int) ∧ XSS t (j18 + i) = some (loc : K) ∧ Law4At t j19 loc incident spectra

end ASAPy.FromAce
