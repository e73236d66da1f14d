import Verif.Photon.Spec
import Verif.Photon.ModelAce
import Verif.Tab1D.RealExpLog

/-!
# What a photoatomic ACE table holds

MCNP manual, tables of class p: ESZG at JXS(1) with the logarithms of energies (MeV) and of the incoherent, coherent, photoelectric and pair production cross sections, 0 for a cross section of 0;
JINC at JXS(2), JCOH at JXS(3); Compton profiles with JXS(6), (7), (9), (10); subshells (new tables) with JXS(11) to (16) and (18).
-/

namespace ASAPy.Photon
open ASAPy.Endf
open ASAPy.FromAce (Arrays AtL)

/-- How a cross section stands in the table. -/
noncomputable def logged (v : ℝ) : ℝ := if v = 0 then 0 else Real.log v

/-- How an energy in eV stands in the table. -/
noncomputable def loggedMeV (e : ℝ) : ℝ := Real.log (e / 1000000)

/-- The values of a cross section the table can tell apart: a cross section of 1 b has the logarithm 0. -/
def Told (v : ℝ) : Prop := v = 0 ∨ (0 < v ∧ v ≠ 1)

/-- The cross sections of a table. -/
structure Eszg where
  energy : List ℝ
  incoherent : List ℝ
  coherent : List ℝ
  photoelectric : List ℝ
  pair : List ℝ

structure Eszg.Ok (s : Eszg) : Prop where
  lengths : s.incoherent.length = s.energy.length ∧ s.coherent.length = s.energy.length ∧ s.photoelectric.length = s.energy.length ∧ s.pair.length = s.energy.length
  energies : ∀ e ∈ s.energy, 0 < e
  told : ∀ v ∈ s.incoherent ++ s.coherent ++ s.photoelectric ++ s.pair, Told v

/-- NES energies in NXS(3), then the block. -/
structure HoldsEszg (a : Arrays ℝ) (s : Eszg) : Prop where
  number : a.nxs[3]? = some (s.energy.length : Int)
  block : ∃ p : Nat, a.jxs[1]? = some (p : Int) ∧
    AtL a.xss p (s.energy.map loggedMeV ++ s.incoherent.map logged ++ s.coherent.map logged ++ s.photoelectric.map logged ++ s.pair.map logged)

/-- The form factors of a table: momentum transfer, values; for coherent scattering also values of the integral, which are not read. -/
structure Factors where
  xInc : List ℝ
  inc : List ℝ
  xCoh : List ℝ
  integ : List ℝ
  coh : List ℝ

/-- The points of old tables, in units of 1/1000. -/
def incPoints : List Nat := [0, 5, 10, 50, 100, 150, 200, 300, 400, 500, 600, 700, 800, 900, 1000, 1500, 2000, 3000, 4000, 5000, 8000]

/-- The points of old tables for coherent scattering, in units of 1/100. -/
def cohPoints : List Nat := [0, 1, 2, 3, 4, 5, 6, 8, 10, 12, 15, 18] ++ (List.range 9).map (fun i => 20 + 5 * i) ++ (List.range 14).map (fun i => 70 + 10 * i) ++ (List.range 20).map fun i => 220 + 20 * i

/-- The form factors stand in a new table (NXS(6) > 0) with their points, in an old one without them. -/
inductive HoldsFactors (a : Arrays ℝ) (f : Factors) : Prop
  | new (n : Int) (p : Nat) (hn : a.nxs[6]? = some n) (h0 : 0 < n) (hi : f.inc.length = f.xInc.length) (hc : f.integ.length = f.xCoh.length ∧ f.coh.length = f.xCoh.length)
      (h2 : a.jxs[2]? = some (p : Int)) (h3 : a.jxs[3]? = some ((p + 2 * f.xInc.length : Nat) : Int)) (h4 : a.jxs[4]? = some ((p + 2 * f.xInc.length + 3 * f.xCoh.length : Nat) : Int))
      (hat : AtL a.xss p (f.xInc ++ f.inc ++ f.xCoh ++ f.integ ++ f.coh))
  | old (n : Int) (p q : Nat) (hn : a.nxs[6]? = some n) (h0 : n ≤ 0) (hxi : f.xInc = incPoints.map fun n : Nat => (n : ℝ) / 1000) (hxc : f.xCoh = cohPoints.map fun n : Nat => (n : ℝ) / 100)
      (hi : f.inc.length = 21) (hc : f.integ.length = 55 ∧ f.coh.length = 55) (h2 : a.jxs[2]? = some (p : Int)) (h3 : a.jxs[3]? = some (q : Int))
      (hat : AtL a.xss p f.inc) (hat' : AtL a.xss q (f.integ ++ f.coh))

/-- A shell of the Compton profiles: electrons, binding energy in eV, scheme of interpolation, momenta and values. -/
structure CShell where
  electrons : ℝ
  energy : ℝ
  scheme : Nat
  pz : List ℝ
  pdf : List ℝ

/-- The profile of a shell stands behind its locator: scheme, number, momenta, values. -/
def HoldsProfile (a : Arrays ℝ) (q : Nat) (c : CShell) (loca : Nat) : Prop :=
  1 ≤ loca ∧ c.pdf.length = c.pz.length ∧ AtL a.xss (q + loca - 1) ((c.scheme : ℝ) :: (c.pz.length : ℝ) :: (c.pz ++ c.pdf))

/-- NSH in NXS(5), the electrons at JXS(6), the binding energies at JXS(7), the locators at JXS(9), relative to JXS(10). -/
structure HoldsCompton (a : Arrays ℝ) (cs : List CShell) : Prop where
  number : a.nxs[5]? = some (cs.length : Int)
  electrons : ∃ p : Nat, a.jxs[6]? = some (p : Int) ∧ AtL a.xss p (cs.map (·.electrons))
  binding : ∃ p : Nat, a.jxs[7]? = some (p : Int) ∧ AtL a.xss p (cs.map fun c => c.energy / 1000000)
  profiles : ∃ (p q : Nat) (locas : List Nat), a.jxs[9]? = some (p : Int) ∧ a.jxs[10]? = some (q : Int) ∧ AtL a.xss p (locas.map fun l : Nat => (l : ℝ)) ∧ List.Forall₂ (HoldsProfile a q) cs locas

/-- The cross sections of the subshells one after another at JXS(16). -/
def HoldsSubshells (a : Arrays ℝ) (xss : List (List ℝ)) : Prop := ∃ p : Nat, a.jxs[16]? = some (p : Int) ∧ AtL a.xss p (xss.flatMap fun xs => xs.map logged)

/-- A cross section on the energies of the table, log-log. -/
def loglog (x y : List ℝ) : Tab1D ℝ := ⟨x, y, [(x.length : Int)], [5]⟩

/-- The reactions of a table. -/
def aceReactions (s : Eszg) (f : Factors) : List (Int × PRx ℝ) :=
  [(502, { mt := 502, xs := some (loglog s.energy s.coherent), factor := some (.linlin f.xCoh f.coh) }),
   (504, { mt := 504, xs := some (loglog s.energy s.incoherent), factor := some (.linlin f.xInc f.inc) }),
   (515, { mt := 515, xs := some (loglog s.energy s.pair) }),
   (522, { mt := 522, xs := some (loglog s.energy s.photoelectric) })]

/-- The reactions of the subshells. -/
def aceSubshells (s : Eszg) (ss : List (Shell ℝ × List ℝ)) : List (Int × PRx ℝ) :=
  ss.map fun t => (533 + t.1.d, { mt := 533 + t.1.d, xs := some (loglog s.energy t.2), binding := some t.1.energy })

/-- The Compton profiles. -/
def comptonOf (cs : List CShell) : Compton ℝ := ⟨cs.map (·.electrons), cs.map (·.energy), cs.map fun c => ⟨c.pz, c.pdf, [(c.pz.length : Int)], [c.scheme]⟩⟩

end ASAPy.Photon
