import Verif.Recon.Model
import Verif.Res.Model
import Verif.Tab1D.RealExpLog
import Verif.Elastic0K.Model

/-!
# Model of cross sections with the resonances of an evaluation

The resonances of file 2 as `Resonances.from_endf` reads them (`Verif.Res.Model`), handed to `reconstruct` (`Verif.Recon.Model`), and `ResonancesWithBackground`
(ASAPy/data/function.py 592-669), which adds them to a background. The extension is there (`C200_unavailable` is about its absence). The ranges are as they were read: what
they remember of earlier calls makes no difference (`C201_histories_partial`), so each call starts from new ones.
-/

namespace ASAPy.ReconEval
open ASAPy.Recon
open ASAPy.Elastic0K (resolved limits addWithin)

noncomputable section

/-- `NEUTRON_MASS`, data.py 380. -/
def neutronWeight : ℝ := 1.00866491588

/-- A table of a file as `Tabulated1D` (endf.py 250-268). -/
def table (regions : List (Int × Int)) (points : List (ℚ × ℚ)) : Tab1D ℝ :=
  ⟨points.map fun p => (p.1 : ℝ), points.map fun p => (p.2 : ℝ), regions.map (·.1), regions.map fun r => r.2.toNat⟩

/-- A radius called with an energy: the polynomials of resonance.py 344, 359, 619 and 626, or a table. A call of a table that raises gives zero here. -/
def radius : Res.Radius → ℝ → ℝ
  | .const r, _ => r
  | .fromMass a, _ => 0.123 * (neutronWeight * a) ^ (1 / 3 : ℝ) + 0.08
  | .table regions points, E => match (table regions points).eval E with
    | .ok v => v
    | .error _ => 0

/-- A dict of radii. -/
def radii (d : List (Int × Res.Radius)) (l : ℤ) : Option (ℝ → ℝ) := (Dict.get? d l).map radius

/-- Attributes of a range, resonance.py 393-401 and 653-660. -/
def baseData (b : Res.Base) (awri : ℚ) : Base := ⟨b.spin, awri, radii b.channel, radii b.scattering⟩

/-- A Breit-Wigner range as `reconstruct` finds it. -/
def bwData (r : Res.Bw) : Bw := ⟨baseData r.base r.awri, r.rows.map fun q => ⟨q.energy, q.l, q.j, q.gt, q.gn, q.gg, q.gf, q.gx⟩⟩

/-- A Reich-Moore range as `reconstruct` finds it. -/
def rmData (r : Res.Rm) : Rm := ⟨baseData r.base r.awri, r.rows.map fun q => ⟨q.energy, q.l, q.j, q.gn, q.gg, q.gfa, q.gfb⟩⟩

/-- `r.reconstruct(e)` of a range. R-matrix ranges have no method `_prepare_resonances` (resonance.py 698-868), and neither have the other classes. -/
def reconstructRange (r : Res.Range) (e : Energies) : Except PyErr Result :=
  match r with
  | .bw b => if b.multi then (reconstruct true mlbwF (fresh (bwData b)) 0 e).1 else (reconstruct true slbwF (fresh (bwData b)) 0 e).1
  | .rm b => (reconstruct true rmF (fresh (rmData b)) 0 e).1
  | _ => .error .attributeError

/-- `resonant_xs[self.mt]` of numbers, resonance.py 248. -/
def pick (mt : ℤ) : Result → Except PyErr ℝ
  | .number x => if mt = 2 then .ok x.elastic else if mt = 102 then .ok x.capture else if mt = 18 then .ok x.fission else .error .keyError
  | _ => .error .typeError

/-- `resonant_xs[self.mt]` of arrays. -/
def pickAll (mt : ℤ) : Result → Except PyErr (List ℝ)
  | .floats a b c => if mt = 2 then .ok a else if mt = 102 then .ok b else if mt = 18 then .ok c else .error .keyError
  | _ => .error .typeError

/-- One range for one energy: function.py 625-627, 637-639. -/
def addRange (mt : ℤ) (E xs : ℝ) (r : Res.Range) : Except PyErr ℝ :=
  if resolved r = false then .ok xs
  else if (limits r).1 ≤ E ∧ E ≤ (limits r).2 then do
    let x ← reconstructRange r (.number E)
    let v ← pick mt x
    return xs + v
  else .ok xs

/-- `ResonancesWithBackground.__call__` with a number, function.py 621-641. -/
def call (mt : ℤ) (background : ℝ → ℝ) (rs : List Res.Range) (E : ℝ) : Except PyErr ℝ := rs.foldlM (addRange mt E) (background E)

/-- One range for an array of energies: function.py 625-635. `reconstruct` is called even if no energy is within the range. -/
def addRangeAll (mt : ℤ) (es xs : List ℝ) (r : Res.Range) : Except PyErr (List ℝ) :=
  if resolved r = false then .ok xs
  else do
    let within := es.map fun e => decide ((limits r).1 ≤ e ∧ e ≤ (limits r).2)
    let x ← reconstructRange r (.floats (((es.zip within).filter (·.2)).map (·.1)))
    let v ← pickAll mt x
    return addWithin (within.zip xs) v

/-- `ResonancesWithBackground.__call__` with an array of floats. -/
def callAll (mt : ℤ) (background : ℝ → ℝ) (rs : List Res.Range) (es : List ℝ) : Except PyErr (List ℝ) := rs.foldlM (addRangeAll mt es) (es.map background)

end
end ASAPy.ReconEval
