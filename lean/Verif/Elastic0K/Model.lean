import Verif.Py
import Verif.Dict
import Verif.Chars
import Verif.Grid.Model
import Verif.Res.Model
import Verif.Tab1D.Model
import Mathlib.Analysis.SpecialFunctions.Pow.Real
import Mathlib.Analysis.SpecialFunctions.Log.Base
import Mathlib.Data.Finset.Sort

/-!
# Model of the elastic cross section at 0 K

`IncidentNeutron.add_elastic_0K_from_endf` (ASAPy/data/neutron.py 285-375) and the call of `ResonancesWithBackground` (ASAPy/data/function.py 621-641). Numbers are real: rounding is not modelled.
The evaluation has been read (`Verif.EndfRx.Nuclide`); the elastic cross section read from it is a function. The cross section reconstructed from the parameters of a range
(`reconstruct`, a C extension) is an arbitrary function of the energy.
-/

namespace ASAPy.Elastic0K
open ASAPy.Endf (Line)

noncomputable section

/-! ### Cross sections with resonances -/

/-- `isinstance(r, resonance._RESOLVED)`, resonance.py 1070-1071. -/
def resolved : Res.Range → Bool
  | .bw _ => true
  | .rm _ => true
  | .rml _ => true
  | _ => false

/-- `energy_min` and `energy_max` of a range. -/
def limits : Res.Range → ℝ × ℝ
  | .radius b => (b.emin, b.emax)
  | .bw r => (r.base.emin, r.base.emax)
  | .rm r => (r.base.emin, r.base.emax)
  | .rml r => (r.emin, r.emax)
  | .unr r => (r.emin, r.emax)

/-- Lines 625-627 and 637-639 of function.py: one range for one energy. `rec` is `reconstruct(x)[mt]`. -/
def addRange (rec : Res.Range → ℝ → ℝ) (x : ℝ) (xs : ℝ) (r : Res.Range) : ℝ :=
  if resolved r = false then xs else if (limits r).1 ≤ x ∧ x ≤ (limits r).2 then xs + rec r x else xs

/-- `ResonancesWithBackground.__call__` with a number, function.py 621-641. -/
def withBackground (rec : Res.Range → ℝ → ℝ) (background : ℝ → ℝ) (ranges : List Res.Range) (x : ℝ) : ℝ :=
  ranges.foldl (addRange rec x) (background x)

/-- Line 635: `xs[within] += resonant_xs[mt]`, where `resonant_xs` is for the energies within, in order. -/
def addWithin : List (Bool × ℝ) → List ℝ → List ℝ
  | [], _ => []
  | (false, v) :: l, rs => v :: addWithin l rs
  | (true, v) :: l, r :: rs => (v + r) :: addWithin l rs
  | (true, v) :: l, [] => v :: addWithin l []

/-- Lines 625-635: one range for an array of energies. -/
def addRangeAll (rec : Res.Range → ℝ → ℝ) (x : List ℝ) (xs : List ℝ) (r : Res.Range) : List ℝ :=
  if resolved r = false then xs
  else
    let within := x.map fun e => decide ((limits r).1 ≤ e ∧ e ≤ (limits r).2)
    addWithin (within.zip xs) (((x.zip within).filter (·.2)).map fun p => rec r p.1)

/-- `ResonancesWithBackground.__call__` with an array. -/
def withBackgroundAll (rec : Res.Range → ℝ → ℝ) (background : ℝ → ℝ) (ranges : List Res.Range) (x : List ℝ) : List ℝ :=
  ranges.foldl (addRangeAll rec x) (x.map background)

/-! ### The energies -/

/-- `np.logspace(a, b, n)` for `n` of at least two: equal steps of the exponent of 10. -/
def logspace (a b : ℝ) (n : Nat) : List ℝ := (List.range n).map fun i : ℕ => (10 : ℝ) ^ (a + i * ((b - a) / (n - 1 : ℕ)))

/-- `_RESONANCE_ENERGY_GRID`, line 32. -/
def widths : List ℝ := logspace (-3) 3 61

/-- Lines 313-327: energies and widths of the resonances of a range, as they are listed. An R-matrix range is refused, an unresolved one is left out (`none`), and a range
with a scattering radius only has no attribute `parameters`. -/
def peaks : Res.Range → Except PyErr (Option (List (ℝ × ℝ)))
  | .rml _ => .error .typeError
  | .unr _ => .ok none
  | .bw r => .ok (some (r.rows.map fun p => ((p.energy : ℝ), (p.gt : ℝ))))
  | .rm r => .ok (some (r.rows.map fun p => ((p.energy : ℝ), (p.gn : ℝ) + p.gg + |(p.gfa : ℝ)| + |(p.gfb : ℝ)|)))
  | .radius _ => .error .attributeError

/-- Lines 330-333. -/
def inRange (lim : ℝ × ℝ) (ps : List (ℝ × ℝ)) : List (ℝ × ℝ) := ps.filter fun p => decide (p.1 > lim.1 ∧ p.1 < lim.2)

/-- `(e_peak[1:] + e_peak[:-1])/2`. -/
def middles : List ℝ → List ℝ
  | a :: b :: l => (b + a) / 2 :: middles (b :: l)
  | _ => []

/-- Lines 337-338: `e_mid`. -/
def bounds (lim : ℝ × ℝ) (es : List ℝ) : List ℝ := lim.1 :: (middles es ++ [lim.2])

/-- Lines 347-350: the energies for one resonance, between two bounds. -/
def around (p : ℝ × ℝ) (lo hi : ℝ) : List ℝ :=
  ((widths.map fun w => p.1 - p.2 * w).filter fun e => decide (e > lo)).reverse ++
    (widths.tail.map fun w => p.1 + p.2 * w).filter fun e => decide (e < hi)

/-- Lines 344-350: the energies for each resonance. -/
def aroundAll (lim : ℝ × ℝ) (ps : List (ℝ × ℝ)) : List (List ℝ) :=
  let mid := bounds lim (ps.map (·.1))
  (ps.zip (mid.zip mid.tail)).map fun q => around q.1 q.2.1 q.2.2

/-- Lines 353-358: `np.concatenate` of no arrays raises ValueError, and so does the logarithm of zero. `union1d` gives increasing energies without repetitions. -/
def energies (lim : ℝ × ℝ) (ps : List (ℝ × ℝ)) : Except PyErr (List ℝ) :=
  let a := aroundAll lim (inRange lim ps)
  if a = [] then .error .valueError
  else if lim.1 ≤ 0 ∨ lim.2 ≤ 0 then .error .valueError
  else .ok ((logspace (Real.logb 10 lim.1) (Real.logb 10 lim.2) 1000 ++ a.flatten).toFinset.sort (· ≤ ·))

/-- `linearize` then `thin`, lines 361-362, with the default tolerance; `none` means more steps of `linearize` than `k`. -/
def linearThin (k : Nat) (f : ℝ → ℝ) (xs : List ℝ) : Option (List (ℝ × ℝ)) :=
  (Grid.linearize (1 / 1000) f k xs).map fun l =>
    (Grid.thin (1 / 1000) (fun i => (l.map (·.1)).getD i 0) (fun i => (l.map (·.2)).getD i 0) l.length).map fun i => l.getD i (0, 0)

/-- Lines 310-367: the points of all ranges. The outer `none` means more steps than `k`. -/
def rangePoints (k : Nat) (f : ℝ → ℝ) : List Res.Range → Option (Except PyErr (List (ℝ × ℝ)))
  | [] => some (.ok [])
  | r :: l =>
    match peaks r with
    | .error e => some (.error e)
    | .ok none => rangePoints k f l
    | .ok (some ps) =>
      match energies (limits r) ps with
      | .error e => some (.error e)
      | .ok es =>
        match linearThin k f es with
        | none => none
        | some p => (rangePoints k f l).map fun q => q.map (p ++ ·)

/-! ### The nuclide -/

/-- What the method uses and changes of a nuclide: its energies by temperature and the cross sections of its reactions by temperature. -/
structure Nuclide where
  energy : List (Line × List ℝ)
  reactions : List (Int × List (Line × Tab1D ℝ))

/-- What is read from the evaluation: resonances and the elastic cross section at 0 K (evaluations without one are left out), with its energies if it is a table. -/
structure Data where
  resonances : Option (List Res.Range)
  elastic : ℝ → ℝ
  grid : List ℝ

/-- Lines 309-371: the points. -/
def points (k : Nat) (d : Data) : Option (Except PyErr (List (ℝ × ℝ))) :=
  match d.resonances with
  | some rs => rangePoints k d.elastic rs
  | none => (linearThin k d.elastic d.grid).map .ok

/-- Lines 373-375: the energies are set first. -/
def store (n : Nuclide) (p : List (ℝ × ℝ)) : Except PyErr Unit × Nuclide :=
  let n' : Nuclide := { n with energy := Dict.set n.energy c!"0K" (p.map (·.1)) }
  match Dict.get? n.reactions 2 with
  | none => (.error .keyError, n')
  | some xs => (.ok (), { n' with reactions := Dict.set n.reactions 2 (Dict.set xs c!"0K" (Tab1D.linlin (p.map (·.1)) (p.map (·.2)))) })

/-- `add_elastic_0K_from_endf`, lines 285-375, where reading the file gives `data`: what is returned or raised, and the nuclide then. -/
def addElastic (k : Nat) (n : Nuclide) (data : Except PyErr Data) (overwrite : Bool) : Option (Except PyErr Unit × Nuclide) :=
  if (Dict.get? n.energy c!"0K").isSome ∧ overwrite = false then some (.error .valueError, n)
  else
    match data with
    | .error e => some (.error e, n)
    | .ok d => (points k d).map fun r => match r with
      | .error e => (.error e, n)
      | .ok p => store n p

end

end ASAPy.Elastic0K
