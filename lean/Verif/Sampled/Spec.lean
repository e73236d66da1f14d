import Verif.Sampled.Model
import Verif.Editor.Spec
import Verif.MapGroups.Spec

/-! # Vocabulary of C25, C34, C35 -/

namespace ASAPy.Sampled
open ASAPy.Ace ASAPy.MapGroups

variable {K : Type*} [Field K] [LinearOrder K] [ExpLog K]

/-- The data of one MT that enter one sample: energies, base values, relative value per group, group bounds. -/
structure Data (K : Type*) where
  es : List K
  base : List K
  rel : Nat → K
  high : List K
  minE : K
  maxE : K

/-- `out` are the base values times the relative value of the group of each energy (1 outside the groups); a base
value of zero counts as one. -/
def Scaled (d : Data K) (out : List K) : Prop :=
  out.length = d.es.length ∧ ∀ (i : Nat) (e b o : K), d.es[i]? = some e → d.base[i]? = some b → out[i]? = some o →
    (∀ g, InGroup d.high d.maxE d.minE g e → o = d.rel g * (if b = 0 then 1 else b)) ∧
    ((e < d.minE ∨ d.maxE < e) → o = if b = 0 then 1 else b)

/-- `d` are the data of `inp` for sample `k`; the MT is an elementary one (no sum of others, and not chi); the group
structure is usable; no grid energy is equal to its lower end (see C28); a sampled nu-bar does not have the same value at all energies
(see `C01_flat_refuted`). -/
structure Fits (ed : Editor K) (k : Nat) (inp : Input K) (d : Data K) : Prop where
  notChi : inp.mt ≠ 1018
  elementary : ∀ c, ¬ Part inp.mt c
  energies : getEnergy ed inp.mt = .ok (.arr d.es)
  values : getSigma ed inp.mt none false = .ok (.arr d.base)
  length : d.base.length = d.es.length
  sample : ∃ col, inp.cols[k]? = some col ∧ ∀ g, 1 ≤ g → g ≤ d.high.length → col.get (g : Int) = some (d.rel g)
  bounds : ∃ low, inp.bounds = .ok (d.high, low) ∧ IsLeast {x | x ∈ low} d.minE
  max : IsGreatest {x | x ∈ d.high} d.maxE
  usable : Usable d.high d.maxE d.minE
  noMin : d.minE ∉ d.es
  nuVaries : inp.mt = 452 → ∀ out, Scaled d out → ¬ Flat (.arr out)

end ASAPy.Sampled
