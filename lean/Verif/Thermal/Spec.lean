import Verif.Thermal.Model
import Verif.FromAce.Lemmas
import Verif.AceData.Spec

/-!
# Thermal scattering in an ACE table (as in the MCNP manual), vocabulary of C125-C129

Positions are positions in the array `xss` of the table, which starts with an additional zero so that they count from 1. `AtL l p vs` says that the numbers `vs` stand in `l` from position
`p` on. Energies in the table are in MeV.
-/

namespace ASAPy.Thermal

open ASAPy.Hdf5 (Text Dist Uni)
open ASAPy.FromAce (Arrays AtL)
open Dec

variable {K : Type} [Field K] [LinearOrder K]

/-- The neutrons after inelastic scattering, for each incident energy: discrete outgoing energies with their cosines, or a spectrum: outgoing energy, density, cumulated probability, cosines. -/
inductive Secondary (K : Type) where
  | discrete (skewed : Bool) (out : List (List (K × List K)))
  | continuous (locs : List Nat) (out : List (List (K × K × K × List K)))

/-- Elastic scattering: Bragg edges with cumulated structure factors, or a cross section with cosines for each energy. -/
inductive ElasticPart (K : Type) where
  | absent
  | coherent (edges : List (K × K))
  | incoherent (points : List (K × K)) (cosines : List (List K))

/-- What a table says: inelastic cross section (energy, barn), secondary neutrons, elastic scattering. -/
structure Sab (K : Type) where
  inelastic : List (K × K)
  secondary : Secondary K
  elastic : ElasticPart K

/-- A list of pairs is written as its length, all first and then all second numbers. -/
def pairsNumbers (l : List (K × K)) : List K := (l.length : K) :: (l.map Prod.fst ++ l.map Prod.snd)

/-- The secondary neutrons for `n` incident energies are in the table: block 3, NXS(3) about the number of cosines, NXS(4) the number of outgoing energies, NXS(7) the kind. -/
def Secondary.In (a : Arrays K) (n : Nat) : Secondary K → Prop
  | .discrete skewed out => ∃ p k m : Nat, a.jxs[3]? = some (p : Int) ∧ a.nxs[7]? = some (if skewed then 1 else 0) ∧ a.nxs[3]? = some (m : Int) ∧ a.nxs[4]? = some (k : Int) ∧
      out.length = n ∧ (∀ r ∈ out, r.length = k ∧ ∀ e ∈ r, e.2.length = m + 1) ∧ AtL a.xss p (out.flatten.map fun e => e.1 :: e.2).flatten
  | .continuous locs out => ∃ (p m : Nat) (k : Int), a.jxs[3]? = some (p : Int) ∧ a.nxs[7]? = some 2 ∧ a.nxs[3]? = some ((m : Int) + 1) ∧ a.nxs[4]? = some k ∧
      locs.length = n ∧ out.length = n ∧ (∀ r ∈ out, ∀ e ∈ r, e.2.2.2.length = m) ∧ AtL a.xss p (locs.map (fun l : Nat => (l : K)) ++ out.map fun r => (r.length : K)) ∧
      ∀ (i l : Nat) r, locs[i]? = some l → out[i]? = some r → AtL a.xss (l + 1) (r.map fun e => e.1 :: e.2.1 :: e.2.2.1 :: e.2.2.2).flatten

/-- The elastic part is in the table: block 4, cosines in block 6, NXS(5) is 4 in the coherent case, NXS(6) is the number of cosines minus 1. -/
def ElasticPart.In (a : Arrays K) : ElasticPart K → Prop
  | .absent => a.jxs[4]? = some 0 ∧ ∃ k, a.nxs[6]? = some k
  | .coherent edges => ∃ p : Nat, 0 < p ∧ a.jxs[4]? = some (p : Int) ∧ a.nxs[5]? = some 4 ∧ a.nxs[6]? = some (-1) ∧ AtL a.xss p (pairsNumbers edges)
  | .incoherent points cosines => ∃ (p q m : Nat) (k : Int), 0 < p ∧ a.jxs[4]? = some (p : Int) ∧ a.jxs[6]? = some (q : Int) ∧ a.nxs[5]? = some k ∧ k ≠ 4 ∧ a.nxs[6]? = some (m : Int) ∧
      AtL a.xss p (pairsNumbers points) ∧ cosines.length = points.length ∧ (∀ r ∈ cosines, r.length = m + 1) ∧ AtL a.xss q cosines.flatten

/-- The table says `s`. -/
structure Sab.In (a : Arrays K) (s : Sab K) : Prop where
  inelastic : ∃ p : Nat, a.jxs[1]? = some (p : Int) ∧ AtL a.xss p (pairsNumbers s.inelastic)
  secondary : s.secondary.In a s.inelastic.length
  elastic : s.elastic.In a

/-- The cross section as a function of the energy in eV, linear between the points. -/
def curve (l : List (K × K)) : Tab1D K where
  x := l.map fun p => p.1 * 1000000
  y := l.map fun p => p.2
  breakpoints := [(l.length : Int)]
  interpolation := [2]

/-- `m` cosines of equal probability; the cumulated probabilities are `1/m`, `2/m` and so on. -/
def equallyLikely (mu : List K) : Uni K :=
  .discrete mu (mu.map fun _ => 1 / (mu.length : K)) ((List.range mu.length).map fun k : Nat => ((k : K) + 1) / (mu.length : K))

/-- The spectrum in eV, density in 1/eV. -/
def spectrumEv (r : List (K × K × K × List K)) : Uni K := .tabular .linlin (r.map fun e => e.1 * 1000000) (r.map fun e => e.2.1 / 1000000) (r.map fun e => e.2.2.1)

/-- The data have at the temperature named `T`, and at no other, what the table says. -/
structure Sab.Read (T : Text) (s : Sab K) (d : Data K) : Prop where
  inelastic : d.inelasticXs = [(T, curve s.inelastic)]
  discrete : ∀ sk out, s.secondary = .discrete sk out → d.mode = some (if sk then c!"skewed" else c!"equal") ∧ d.inelasticE = [(T, out.map fun r => r.map fun e => e.1 * 1000000)] ∧
    d.inelasticMu = [(T, out.map fun r => r.map fun e => e.2)] ∧ d.inelasticDist = []
  continuous : ∀ locs out, s.secondary = .continuous locs out → d.mode = some c!"continuous" ∧ d.inelasticE = [] ∧ d.inelasticMu = [] ∧
    d.inelasticDist = [(T, .correlated ⟨[(s.inelastic.length : Int)], [2], s.inelastic.map fun p => p.1 * 1000000⟩ (out.map spectrumEv) (out.map fun r => r.map fun e => equallyLikely e.2.2.2))]
  absent : s.elastic = .absent → d.elasticXs = [] ∧ d.elasticMu = []
  coherent : ∀ edges, s.elastic = .coherent edges → d.elasticXs = [(T, .coherent (edges.map fun p => p.1 * 1000000) (edges.map fun p => p.2 * 1000000))] ∧ d.elasticMu = []
  incoherent : ∀ points cosines, s.elastic = .incoherent points cosines → d.elasticXs = [(T, .incoherent (curve points))] ∧ d.elasticMu = [(T, cosines)]

/-- The data have at the temperature named `T` what the table says, whatever they have at others. -/
structure Sab.At (T : Text) (s : Sab K) (d : Data K) : Prop where
  inelastic : Dict.get? d.inelasticXs T = some (curve s.inelastic)
  discrete : ∀ sk out, s.secondary = .discrete sk out → Dict.get? d.inelasticE T = some (out.map fun r => r.map fun e => e.1 * 1000000) ∧
    Dict.get? d.inelasticMu T = some (out.map fun r => r.map fun e => e.2) ∧ Dict.get? d.inelasticDist T = none
  continuous : ∀ locs out, s.secondary = .continuous locs out → Dict.get? d.inelasticE T = none ∧ Dict.get? d.inelasticMu T = none ∧
    Dict.get? d.inelasticDist T = some (.correlated ⟨[(s.inelastic.length : Int)], [2], s.inelastic.map fun p => p.1 * 1000000⟩ (out.map spectrumEv) (out.map fun r => r.map fun e => equallyLikely e.2.2.2))
  absent : s.elastic = .absent → Dict.get? d.elasticXs T = none ∧ Dict.get? d.elasticMu T = none
  coherent : ∀ edges, s.elastic = .coherent edges → Dict.get? d.elasticXs T = some (.coherent (edges.map fun p => p.1 * 1000000) (edges.map fun p => p.2 * 1000000)) ∧ Dict.get? d.elasticMu T = none
  incoherent : ∀ points cosines, s.elastic = .incoherent points cosines → Dict.get? d.elasticXs T = some (.incoherent (curve points)) ∧ Dict.get? d.elasticMu T = some cosines

/-- The data have nothing at `T`. -/
structure Data.Nothing (T : Text) (d : Data K) : Prop where
  elasticXs : Dict.get? d.elasticXs T = none
  elasticMu : Dict.get? d.elasticMu T = none
  inelasticXs : Dict.get? d.inelasticXs T = none
  inelasticE : Dict.get? d.inelasticE T = none
  inelasticMu : Dict.get? d.inelasticMu T = none
  inelasticDist : Dict.get? d.inelasticDist T = none

/-- The secondary neutrons, as a word. -/
def Secondary.kind : Secondary K → Text
  | .discrete skewed _ => if skewed then c!"skewed" else c!"equal"
  | .continuous _ _ => c!"continuous"

/-- A nuclide the data apply to, by the pairs in the table: for hydrogen and iron the isotope named there, for all other elements the element and all its natural isotopes. -/
def Applies (pairs : List (Int × K)) (nuclide : Text) : Prop :=
  ∃ (z a : Nat) (sym : Text) (w : K), (((1000 * z + a : Nat) : Int), w) ∈ pairs ∧ 0 < 1000 * z + a ∧ a < 1000 ∧ AceData.Element z sym ∧
    if sym = c!"H" ∨ sym = c!"Fe" then nuclide = sym ++ natStr a
    else nuclide = sym ++ c!"0" ∨ nuclide ∈ natural ∧ ∃ b : Nat, nuclide = sym ++ natStr b

end ASAPy.Thermal
