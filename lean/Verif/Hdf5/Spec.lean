import Verif.Hdf5.Model

/-!
# What has to come back from an HDF5 file
-/

namespace ASAPy.Hdf5

variable {K : Type} [Field K] [LinearOrder K]

/-- A distribution as it comes back: a uniform distribution is the histogram with one bin and the density `1 / (b - a)`; all others are unchanged. -/
def Uni.back : Uni K → Uni K
  | .uniform a b => .tabular .histogram [a, b] [1 / (b - a), 1 / (b - a)] [0, 1]
  | d => d

/-- The interpolations the file has a code for. -/
def Scheme.Simple (s : Scheme) : Prop := s = .histogram ∨ s = .linlin

/-- A table of a distribution: as many densities and cumulative values as points, at least one. -/
def Table (x p c : List K) : Prop := x ≠ [] ∧ p.length = x.length ∧ c.length = x.length

/-- Distributions of outgoing energies that can be stored; `signed` if negative densities are allowed when read. -/
def Uni.Out (signed : Bool) : Uni K → Prop
  | .uniform _ _ => False
  | .discrete x p c => Table x p c ∧ ∀ y ∈ p, 0 ≤ y
  | .tabular s x p c => Table x p c ∧ s.Simple ∧ (signed = false → ∀ y ∈ p, 0 ≤ y)
  | .mixture w dx dp dc s x p c => Table dx dp dc ∧ (∀ y ∈ dp, 0 ≤ y) ∧ Table x p c ∧ s.Simple ∧ (signed = false → ∀ y ∈ p, 0 ≤ y) ∧
      ∃ t, dc.getLast? = some t ∧ w = [t, 1 - t] ∧ 0 ≤ t ∧ 0 ≤ 1 - t

/-- Distributions of cosines that can be stored. -/
def Uni.Cosine (signed : Bool) : Uni K → Prop
  | .uniform a b => a < b
  | .tabular s x p c => (Uni.tabular s x p c).Out signed
  | _ => False

/-- Distributions of cosines in correlated distributions: lines are possible. -/
def Uni.CosineOrLines (d : Uni K) : Prop :=
  match d with
  | .discrete x p c => (Uni.discrete x p c).Out true
  | d => d.Cosine true

def Tab1D.Stored (t : Tab1D K) : Prop := t.x.length = t.y.length

def Head.Stored (h : Head K) (n : Nat) : Prop := h.breakpoints.length = h.interpolation.length ∧ h.energy.length = n

def Angle.Stored (a : Angle K) : Prop := a.energy.length = a.mu.length ∧ ∀ d ∈ a.mu, d.Cosine false

/-- Energy distributions that come back. -/
def Energy.Stored : Energy K → Prop
  | .maxwell t _ => Tab1D.Stored t
  | .evaporation t _ => Tab1D.Stored t
  | .watt a b _ => Tab1D.Stored a ∧ Tab1D.Stored b
  | .madlandNix .. => False
  | .discretePhoton .. => True
  | .level .. => True
  | .continuous h out => h.Stored out.length ∧ ∀ d ∈ out, d.Out false
  | .unwritable => False

/-- The points at which the parameters of Kalbach and Mann are given: all outgoing energies, lines first. -/
def Uni.points : Uni K → List K
  | .uniform a b => [a, b]
  | .discrete x _ _ => x
  | .tabular _ x _ _ => x
  | .mixture _ dx _ _ _ x _ _ => dx ++ x

/-- Distributions that come back. -/
def Dist.Stored : Dist K → Prop
  | .uncorrelated angle energy => (∀ a, angle = some a → a.Stored) ∧ ∀ e, energy = some e → e.Stored
  | .kalbach h out r a => h.Stored out.length ∧ (∀ d ∈ out, d.Out false) ∧ r.length = out.length ∧ a.length = out.length ∧
      (∀ i (hi : i < out.length) (hr : i < r.length), ∃ y, r[i] = Tab1D.linlin out[i].points y ∧ y.length = out[i].points.length) ∧
      ∀ i (hi : i < out.length) (ha : i < a.length), ∃ y, a[i] = Tab1D.linlin out[i].points y ∧ y.length = out[i].points.length
  | .correlated h out mu => h.Stored out.length ∧ (∀ d ∈ out, d.Out true ∧ ∀ w dx dp dc s x p c, d ≠ .mixture w dx dp dc s x p c) ∧ mu.length = out.length ∧
      (∀ i (hi : i < out.length) (hm : i < mu.length), mu[i].length = out[i].points.length) ∧ ∀ l ∈ mu, ∀ d ∈ l, d.CosineOrLines
  | .nbody .. => True

/-- What comes back: uniform cosines are tables. -/
def Dist.back : Dist K → Dist K
  | .uncorrelated angle energy => .uncorrelated (angle.map fun a => ⟨a.energy, a.mu.map Uni.back⟩) energy
  | .correlated h out mu => .correlated h out (mu.map fun l => l.map Uni.back)
  | d => d

end ASAPy.Hdf5
