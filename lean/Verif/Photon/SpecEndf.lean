import Verif.Photon.Spec
import Verif.Photon.ModelEndf

/-!
# What photoatomic evaluations and the files beside the module hold
-/

namespace ASAPy.Photon
open ASAPy.Endf
open ASAPy.EndfRx (TabRec)

/-- A section of the files 23 and 27: a HEAD record and a TAB1 record with the numbers `c` and the function; `none`: there is no such section. -/
def SecTab (sections : List ((Int × Int) × List Line)) (mf mt : Int) : Option (Cont × Tab1D ℚ) → Prop
  | none => Dict.get? sections (mf, mt) = none
  | some (c, t) => ∃ h l ls rest, Dict.get? sections (mf, mt) = some (l :: (ls ++ rest)) ∧ HeadLine h l ∧ TabRec c t ls

/-- `BREMX.DAT`: 37 words, the number `n` of electron energies (MeV) and `k` of reduced photon energies, both lists, then for each element 1 to 100 a table (mb) with a row of `k` numbers for each
electron energy. -/
def BremFile (ws : List Line) (xs ks : List ℚ) (tables : List (List (List ℚ))) : Prop :=
  ∃ (pre : List Line) (wn wk : Line) (wxs wks : List Line) (wts : List (List Line)) (rest : List Line), ws = pre ++ wn :: wk :: (wxs ++ wks ++ wts.flatten ++ rest) ∧ pre.length = 37 ∧
    pyInt wn = .ok (xs.length : Int) ∧ pyInt wk = .ok (ks.length : Int) ∧ List.Forall₂ (fun w v => pyFloat w = .ok v) wxs xs ∧ List.Forall₂ (fun w v => pyFloat w = .ok v) wks ks ∧
    tables.length = 100 ∧ (∀ t ∈ tables, t.length = xs.length ∧ ∀ r ∈ t, r.length = ks.length) ∧
    List.Forall₂ (fun wt (t : List (List ℚ)) => List.Forall₂ (fun w v => pyFloat w = .ok v) wt t.flatten) wts tables

variable {K : Type} [Field K]

/-- The files are complete: elements 1 to 100 with Compton profiles, 1 to 98 with stopping powers. -/
structure Complete (w : Files K) (cs : List (CGroup K)) (ss : List (SGroup K)) (xs ks : List ℚ) (tables : List (List (List ℚ))) : Prop where
  compton : cs.length = 100 ∧ ∀ i : Nat, 1 ≤ i → i ≤ 100 → w.compton i = cs[i - 1]?
  stopping : ss.length = 98 ∧ ∀ i : Nat, 1 ≤ i → i ≤ 98 → w.stopping i = ss[i - 1]?
  brem : BremFile w.brem xs ks tables

/-- Energies in MeV become eV. -/
def eV (xs : List K) : List K := xs.map (· * 1000000)

/-- The Compton profiles of a group. -/
def comptonData (pz : List K) (g : CGroup K) : Compton K := ⟨g.electrons, eV g.binding, g.j.map (.linlin pz)⟩

/-- The stopping powers of a group; there are none from element 99 on. -/
def stoppingData (energy : List K) (g : SGroup K) : List K × SGroup K := (eV energy, ⟨g.i, eV g.collision, eV g.radiative⟩)

/-- The cross sections of a table in b on the finer grid, for each reduced photon energy. -/
def bremData [ExpLog K] (toK : ℚ → K) (spline : List K → List K → K → K) (grid : List K) (xs : List ℚ) (k : Nat) (table : List (List ℚ)) : List (List K) :=
  (List.range k).map fun j => grid.map fun e => spline (xs.map fun x => ExpLog.log (toK x * 1000000)) (table.filterMap fun row => (row[j]?).map fun v => toK v / 1000) (ExpLog.log e)

end ASAPy.Photon
