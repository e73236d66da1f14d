import Verif.Photon.Model
import Verif.AceData.Model

/-!
# Model of photon data read from ACE tables (ASAPy/data/photon.py)

`PhotonReaction` 791-949 with `from_ace`, `IncidentPhoton` 379-521 with `from_ace`. A table that came from `get_table` is the argument. A negative scheme of interpolation, which no table has,
becomes 0.
-/

namespace ASAPy.Photon
open ASAPy.Endf
open ASAPy.FromAce (Arrays item slice pyTrunc)

/-- `PhotonReaction`, lines 814-819; the last two attributes exist only where they are set (513, 976-979). -/
structure PRx (K : Type) where
  mt : Int
  xs : Option (Tab1D K) := none
  factor : Option (Tab1D K) := none
  real : Option (Tab1D K) := none
  imag : Option (Tab1D K) := none
  binding : Option K := none
  fluorescence : Option K := none
deriving DecidableEq

/-- `compton_profiles`: number of electrons, binding energies and profiles of the shells. -/
structure Compton (K : Type) where
  electrons : List K
  binding : List K
  profiles : List (Tab1D K)
deriving DecidableEq

/-- `IncidentPhoton` as far as ACE tables give it, lines 379-385. -/
structure Photon (K : Type) where
  z : Int
  reactions : List (Int × PRx K) := []
  relax : Option (Relax K) := none
  compton : Option (Compton K) := none
deriving DecidableEq

section
variable {K : Type} [Field K] [LinearOrder K] [FloorRing K] [ExpLog K]

/-- `xs[nonzero] = np.exp(xs[nonzero])`, lines 504-506 and 908-910. -/
def unlog (v : K) : K := if v ≠ 0 then ExpLog.exp v else v

/-- Lines 919-926. -/
def oldCoherent : List K :=
  [0, 0.01, 0.02, 0.03, 0.04, 0.05, 0.06, 0.08, 0.1, 0.12,
   0.15, 0.18, 0.2, 0.25, 0.3, 0.35, 0.4, 0.45, 0.5, 0.55,
   0.6, 0.7, 0.8, 0.9, 1.0, 1.1, 1.2, 1.3, 1.4, 1.5, 1.6,
   1.7, 1.8, 1.9, 2.0, 2.2, 2.4, 2.6, 2.8, 3.0, 3.2, 3.4,
   3.6, 3.8, 4.0, 4.2, 4.4, 4.6, 4.8, 5.0, 5.2, 5.4, 5.6,
   5.8, 6.0]

/-- Lines 938-941. -/
def oldIncoherent : List K :=
  [0, 0.005, 0.01, 0.05, 0.1, 0.15, 0.2, 0.3, 0.4, 0.5, 0.6,
   0.7, 0.8, 0.9, 1.0, 1.5, 2.0, 3.0, 4.0, 5.0, 8.0]

/-- Lines 892-905: where the cross section begins. -/
def xsAt (a : Arrays K) (mt n : Int) : Except PyErr Int :=
  if mt = 502 then do
    let j ← item a.jxs 1
    return j + 2 * n
  else if mt = 504 then do
    let j ← item a.jxs 1
    return j + n
  else if mt = 515 then do
    let j ← item a.jxs 1
    return j + 4 * n
  else if mt = 522 then do
    let j ← item a.jxs 1
    return j + 3 * n
  else .error .valueError

/-- Lines 912-947: the form factor. -/
def factorFromAce (a : Arrays K) (mt : Int) : Except PyErr (Option (Tab1D K)) := do
  let f ← item a.nxs 6
  if mt = 502 then do
    let idx ← item a.jxs 3
    if f > 0 then do
      let j4 ← item a.jxs 4
      let n := (j4 - idx) / 3
      return some (.linlin (slice a.xss idx (idx + n)) (slice a.xss (idx + n + n) (idx + n + 2 * n)))
    else
      let n : Int := (oldCoherent (K := K)).length
      return some (.linlin oldCoherent (slice a.xss (idx + n) (idx + 2 * n)))
  else if mt = 504 then do
    let idx ← item a.jxs 2
    if f > 0 then do
      let j3 ← item a.jxs 3
      let n := (j3 - idx) / 2
      return some (.linlin (slice a.xss idx (idx + n)) (slice a.xss (idx + n) (idx + n + n)))
    else
      let n : Int := (oldIncoherent (K := K)).length
      return some (.linlin oldIncoherent (slice a.xss idx (idx + n)))
  else return none

/-- `PhotonReaction.from_ace`, lines 866-949. -/
def rxFromAce (a : Arrays K) (mt : Int) : Except PyErr (PRx K) := do
  let n ← item a.nxs 3
  let j1 ← item a.jxs 1
  let energy := (slice a.xss j1 (j1 + n)).map fun v => ExpLog.exp v * 1000000
  let idx ← xsAt a mt n
  let xs := (slice a.xss idx (idx + n)).map unlog
  let factor ← factorFromAce a mt
  return { mt := mt, xs := some ⟨energy, xs, [n], [5]⟩, factor := factor }

/-- Lines 472-485: the profile of the `k`-th shell. -/
def profile (a : Arrays K) (k : Nat) : Except PyErr (Tab1D K) := do
  let j9 ← item a.jxs 9
  let v ← item a.xss (j9 + k)
  let loca := pyTrunc v
  let j10 ← item a.jxs 10
  let v ← item a.xss (j10 + loca - 1)
  let jj := pyTrunc v
  let v ← item a.xss (j10 + loca)
  let m := pyTrunc v
  let idx := j10 + loca + 1
  return ⟨slice a.xss idx (idx + m), slice a.xss (idx + m) (idx + 2 * m), [m], [jj.toNat]⟩

/-- Lines 457-486. -/
def comptonFromAce (a : Arrays K) : Except PyErr (Option (Compton K)) := do
  let n ← item a.nxs 5
  if n ≠ 0 then do
    let j6 ← item a.jxs 6
    let j7 ← item a.jxs 7
    let ps ← (List.range n.toNat).mapM (profile a)
    return some ⟨slice a.xss j6 (j6 + n), (slice a.xss j7 (j7 + n)).map (· * 1000000), ps⟩
  else return none

/-- The loop of lines 503-519. -/
def subshellRxs (a : Arrays K) (relax : Relax K) (n : Int) (energy : List K) : List Int → Int → List (Int × PRx K) → Except PyErr (List (Int × PRx K))
  | [], _, rs => .ok rs
  | d :: ds, idx, rs => do
    let xs := (slice a.xss idx (idx + n)).map unlog
    let shell ← subshell d
    match Dict.get? relax.binding shell with
    | none => .error .keyError
    | some e => subshellRxs a relax n energy ds (idx + n) (Dict.set rs (533 + d) { mt := 533 + d, xs := some ⟨energy, xs, [n], [5]⟩, binding := some e })

/-- `IncidentPhoton.from_ace`, lines 426-521, of a table with this name. -/
def photonFromAce (name : Line) (a : Arrays K) : Except PyErr (Photon K) := do
  let zaid ← pyInt (name.takeWhile (· ≠ '.'))
  let m ← AceData.getMetadata zaid .nndc
  let rs ← [502, 504, 515, 522].mapM (rxFromAce a)
  let rs := rs.foldl (fun d r => Dict.set d r.mt r) []
  let compton ← comptonFromAce a
  let n7 ← item a.nxs 7
  if n7 > 0 then do
    let relax ← relaxFromAce a
    let j11 ← item a.jxs 11
    let ds := (slice a.xss j11 (j11 + n7)).map pyTrunc
    let n ← item a.nxs 3
    let j1 ← item a.jxs 1
    let energy := (slice a.xss j1 (j1 + n)).map fun v => ExpLog.exp v * 1000000
    let j16 ← item a.jxs 16
    let rs ← subshellRxs a relax n energy ds j16 rs
    return ⟨m.z, rs, some relax, compton⟩
  else return ⟨m.z, rs, none, compton⟩

end

end ASAPy.Photon
