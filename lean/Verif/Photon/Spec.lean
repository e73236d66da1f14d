import Verif.Photon.Model
import Verif.EndfRx.Spec
import Verif.FromAce.Lemmas

/-!
# What atomic relaxation data say

ENDF-102, file 28: subshells are numbered from 1 (K) on through the shells L to Q, 0 stands for radiative transitions (no subshell). The ACE table (class p, MCNP manual) has the same numbers,
energies in MeV and the probabilities of transitions added up from the first on.
-/

namespace ASAPy.Photon
open ASAPy.Endf
open ASAPy.Decay (ListRec)
open ASAPy.FromAce (Arrays AtL)

/-- The names of the subshells: K, then L1 to L3, M1 to M5 and so on. -/
def shellNames : List Line := c!"K" :: [('L', 3), ('M', 5), ('N', 7), ('O', 9), ('P', 11), ('Q', 3)].flatMap fun p =>
  (List.range p.2).map fun i => p.1 :: Dec.natStr (i + 1)

/-- The name of a number; 0 has none. -/
def shellName (d : Nat) : Option Line := if d = 0 then none else shellNames[d - 1]?

/-- A transition: numbers of the subshells, energy (eV) and probability. -/
structure Jump (K : Type) where
  j : Nat
  k : Nat
  energy : K
  probability : K

/-- A subshell: number, binding energy (eV), number of electrons and transitions into it. -/
structure Shell (K : Type) where
  d : Nat
  energy : K
  electrons : K
  jumps : List (Jump K)

variable {K : Type}

section
variable [Zero K] [LE K]

/-- The numbers of subshells have a meaning: 0 (none) to 39 (Q3). -/
def Shell.Known (s : Shell K) : Prop := s.d ≤ 39 ∧ ∀ t ∈ s.jumps, t.j ≤ 39 ∧ t.k ≤ 39

/-- It is a subshell, its energy and number of electrons are not negative. -/
def Shell.Ok (s : Shell K) : Prop := s.Known ∧ 1 ≤ s.d ∧ 0 ≤ s.energy ∧ 0 ≤ s.electrons

end

/-- The data of the subshells. -/
def relaxOf (ss : List (Shell K)) : Relax K where
  binding := ss.map fun s => (shellName s.d, s.energy)
  electrons := ss.map fun s => (shellName s.d, s.electrons)
  transitions := (ss.filter fun s => !s.jumps.isEmpty).map fun s => (shellName s.d, s.jumps.map fun t => ⟨shellName t.j, shellName t.k, t.energy, t.probability⟩)

/-- The record of a subshell: SUBI in C1, NTR in N2; EBI, ELN and four zeros, then for each transition SUBJ, SUBK, ETR, FTR and two zeros. The numbers in the places of the zeros are not
looked at. -/
def ShellRec (s : Shell ℚ) (ls : List Line) : Prop :=
  ∃ (c : Cont) (z1 z2 z3 z4 : ℚ) (zs : List (ℚ × ℚ)), c.c1 = s.d ∧ c.n2 = s.jumps.length ∧ zs.length = s.jumps.length ∧
    ListRec c (s.energy :: s.electrons :: z1 :: z2 :: z3 :: z4 :: (s.jumps.zip zs).flatMap fun t => [(t.1.j : ℚ), t.1.k, t.1.energy, t.1.probability, t.2.1, t.2.2]) ls

/-- Section (28, 533): NSS in N1 of the first record, then the subshells. -/
def RelaxSection (ss : List (Shell ℚ)) (ls : List Line) : Prop :=
  ∃ (h : Head) (l : Line) (bs : List (List Line)) (rest : List Line), ls = l :: (bs.flatten ++ rest) ∧ HeadLine h l ∧ h.n1 = ss.length ∧ List.Forall₂ ShellRec ss bs

variable [Field K]

/-- The rows of the transitions of a subshell in the ACE table: numbers, energy in MeV, probability of this transition and all before it. -/
def aceRows (js : List (Jump K)) : List K :=
  (List.range js.length).flatMap fun i => match js[i]? with
    | none => []
    | some t => [(t.j : K), (t.k : K), t.energy / 1000000, ((js.take (i + 1)).map (·.probability)).sum]

/-- The table has these subshells: SUBSH at JXS(11), electrons at JXS(12), binding energies at JXS(13), numbers of transitions at JXS(15), transitions at JXS(18). Arrays start with a zero, so
that positions count from 1. -/
structure HoldsRelax (a : Arrays K) (ss : List (Shell K)) : Prop where
  number : a.nxs[7]? = some (ss.length : Int)
  shells : ∃ p : Nat, a.jxs[11]? = some (p : Int) ∧ AtL a.xss p (ss.map fun s => (s.d : K))
  electrons : ∃ p : Nat, a.jxs[12]? = some (p : Int) ∧ AtL a.xss p (ss.map fun s => s.electrons)
  binding : ∃ p : Nat, a.jxs[13]? = some (p : Int) ∧ AtL a.xss p (ss.map fun s => s.energy / 1000000)
  counts : ∃ p : Nat, a.jxs[15]? = some (p : Int) ∧ AtL a.xss p (ss.map fun s => (s.jumps.length : K))
  rows : ∃ p : Nat, a.jxs[18]? = some (p : Int) ∧ AtL a.xss p (ss.flatMap fun s => aceRows s.jumps)

end ASAPy.Photon
