import Verif.Photon.ModelHdf5
import Verif.Photon.Spec
import Verif.AceData.Spec
import Verif.Func.Spec

/-!
# What the HDF5 form of photon data has to hold
-/

namespace ASAPy.Photon
open ASAPy.Endf (Line)
open ASAPy.Hdf5 (Grp Node Val Attrs getAttr)

/-- The groups of the cross sections that are given at all common energies. -/
def xsNames : List (Int × Line) :=
  [(502, c!"coherent"), (504, c!"incoherent"), (515, c!"pair_production_electron"), (517, c!"pair_production_nuclear"), (522, c!"photoelectric")]

/-- The group of the element in a file. -/
def ElementGroup (f : Grp ℝ) (z : Int) (g : Grp ℝ) : Prop := ∃ sym, (z, sym) ∈ AceData.atomicSymbol ∧ f.group sym = .ok g

/-- The common energies: in ascending order, those of all reactions. -/
def CommonEnergies (p : PData) (grid : List ℝ) : Prop :=
  grid.Pairwise (· < ·) ∧ ∀ v, v ∈ grid ↔ ∃ r ∈ p.reactions, ∃ t, r.2.xs = some t ∧ v ∈ t.x

/-- The values of a table at energies. -/
def ValuesAt (t : Tab1D ℝ) (es ys : List ℝ) : Prop := List.Forall₂ (fun e y => t.eval e = .ok y) es ys

/-- The photon data can be written: an element, distinct reactions with cross sections, the three reactions that every element has, tables in order, a relaxation, if there is one, that knows the
shells, and profiles of one length. -/
structure Writable (p : PData) : Prop where
  element : ∃ sym, (p.z, sym) ∈ AceData.atomicSymbol
  nodup : (p.reactions.map Prod.fst).Nodup
  xs : ∀ r ∈ p.reactions, ∃ t, r.2.xs = some t ∧ Tab1D.WF t
  needed : ∀ mt ∈ [502, 504, 522], ∃ r, (mt, r) ∈ p.reactions
  tables : ∀ r ∈ p.reactions, ∀ t, (r.2.factor = some t ∨ r.2.real = some t ∨ r.2.imag = some t) → Tab1D.WF t
  momenta : ∀ r t, (502, r) ∈ p.reactions → r.factor = some t → ∀ v ∈ t.x, 0 ≤ v
  relax : ∀ q, p.relax = some q → ∃ ss, q = relaxOf ss ∧ (ss.map Shell.d).Nodup ∧ (∀ s ∈ ss, s.Known) ∧
    ∀ d : Nat, 1 ≤ d → d ≤ 39 → (∃ r, (533 + (d : Int), r) ∈ p.reactions) → ∃ s ∈ ss, s.d = d
  compton : ∀ c, p.compton = some c → c.profiles ≠ [] ∧ ∃ n, ∀ t ∈ c.profiles, t.y.length = n

end ASAPy.Photon
