import Verif.Py
import Verif.Endf.Model
import Mathlib.Analysis.SpecialFunctions.Trigonometric.Arctan
import Mathlib.Analysis.SpecialFunctions.Trigonometric.Basic
import Mathlib.Analysis.SpecialFunctions.Complex.Circle
import Mathlib.LinearAlgebra.Matrix.NonsingularInverse
import Mathlib.Data.Real.Sqrt
import Mathlib.Data.Complex.Basic

/-!
# Model of cross sections reconstructed from resonance parameters

ASAPy/data/reconstruct.pyx (all of it) and, of ASAPy/data/resonance.py, `_prepare_resonances` (405-450, 664-695), `reconstruct` (215-250) and `__copy__` (166-171).
Unless another file is named, line numbers are those of reconstruct.pyx.

Numbers are real: rounding is not modelled, and a division by zero, which gives an infinity or not a number in C, gives zero here (the theorems ask for data where there
is none, except where the code passes an infinity to `atan`, which is modelled). A radius is a function of energy, a dict is a function to `Option`.
Lines 173-179, 213-214, 300-306 and 324-325 (competitive widths) are left out: they need a resonance of positive competitive width, and `_prepare_resonances` raises an
exception for each of them (`prepBwRow`). Memory outside of the arrays of lines 189 and 195, which C reads and writes unchecked, is modelled as an exception.
-/

namespace ASAPy.Recon

noncomputable section

/-! ### Wave number, penetration, shift, phase shift -/

/-- `NEUTRON_MASS_ENERGY`, line 18. -/
def neutronMass : ℝ := 939.5654133e6

/-- `HBAR_C`, line 19. -/
def hbarC : ℝ := 197.3269788e5

/-- `wave_number` and `_wave_number`, lines 23-49. -/
def waveNumber (A E : ℝ) : ℝ := A / (A + 1) * √(2 * neutronMass * |E|) / hbarC

/-- `atan(n/d)` in C: a division by zero gives an infinity, whose arc tangent is a right angle. -/
def atanDiv (n d : ℝ) : ℝ :=
  if d = 0 then (if 0 < n then Real.pi / 2 else if n < 0 then -(Real.pi / 2) else 0) else Real.arctan (n / d)

/-- `phaseshift`, lines 53-78. A C function that ends without `return` returns zero. -/
def phaseshift (l : ℤ) (rho : ℝ) : ℝ :=
  if l = 0 then rho
  else if l = 1 then rho - Real.arctan rho
  else if l = 2 then rho - atanDiv (3 * rho) (3 - rho ^ 2)
  else if l = 3 then rho - atanDiv (15 * rho - rho ^ 3) (15 - 6 * rho ^ 2)
  else if l = 4 then rho - atanDiv (105 * rho - 10 * rho ^ 3) (105 - 45 * rho ^ 2 + rho ^ 4)
  else 0

/-- `penetration_shift`, lines 82-116. -/
def penetrationShift (l : ℤ) (rho : ℝ) : Option (ℝ × ℝ) :=
  if l = 0 then some (rho, 0)
  else if l = 1 then
    let den := 1 + rho ^ 2
    some (rho ^ 3 / den, -1 / den)
  else if l = 2 then
    let den := 9 + 3 * rho ^ 2 + rho ^ 4
    some (rho ^ 5 / den, -(18 + 3 * rho ^ 2) / den)
  else if l = 3 then
    let den := 225 + 45 * rho ^ 2 + 6 * rho ^ 4 + rho ^ 6
    some (rho ^ 7 / den, -(675 + 90 * rho ^ 2 + 6 * rho ^ 4) / den)
  else if l = 4 then
    let den := 11025 + 1575 * rho ^ 2 + 135 * rho ^ 4 + 10 * rho ^ 6 + rho ^ 8
    some (rho ^ 9 / den, -(44100 + 4725 * rho ^ 2 + 270 * rho ^ 4 + 10 * rho ^ 6) / den)
  else none

/-- `p, s = penetration_shift(l, rho)`: `None` cannot be unpacked. -/
def unpack : Option (ℝ × ℝ) → Except PyErr (ℝ × ℝ)
  | some p => .ok p
  | none => .error .typeError

/-- `d[l](E)` of a dict of radii. -/
def radiusAt (d : ℤ → Option (ℝ → ℝ)) (l : ℤ) (E : ℝ) : Except PyErr ℝ :=
  match d l with
  | some f => .ok (f E)
  | none => .error .keyError

/-- `int(x)`: cut towards zero. -/
def trunc (x : ℝ) : ℤ := if x < 0 then ⌈x⌉ else ⌊x⌋

/-- Attributes shared by the ranges (resonance.py 156-161). -/
structure Base where
  spin : ℝ
  awr : ℝ
  channel : ℤ → Option (ℝ → ℝ)
  scattering : ℤ → Option (ℝ → ℝ)

/-- Penetration, shift and phase shift at an energy: lines 165-168, 288-291, 399-406. -/
def waves (b : Base) (l : ℤ) (E : ℝ) : Except PyErr (ℝ × ℝ × ℝ) := do
  let k := waveNumber b.awr E
  let a ← radiusAt b.channel l E
  let ahat ← radiusAt b.scattering l E
  let (p, s) ← unpack (penetrationShift l (k * a))
  return (p, s, phaseshift l (k * ahat))

/-- Lines 424-428 and 682-685 of resonance.py: penetration and shift at the energy of a resonance. The scattering radius is looked up and not used. -/
def prepRow (b : Base) (l : ℤ) (E : ℝ) : Except PyErr (ℝ × ℝ) := do
  let k := waveNumber b.awr E
  let a ← radiusAt b.channel l E
  let _ ← radiusAt b.scattering l E
  unpack (penetrationShift l (k * a))

/-! ### Breit-Wigner -/

/-- A row of the parameters (resonance.py 392-394). -/
structure BwRow where
  energy : ℝ
  l : ℤ
  j : ℝ
  gt : ℝ
  gn : ℝ
  gg : ℝ
  gf : ℝ
  gx : ℝ

/-- The attributes of `MultiLevelBreitWigner` and `SingleLevelBreitWigner` that are used. -/
structure Bw extends Base where
  rows : List BwRow

/-- A row with the columns `p` and `s` (resonance.py 440-441). The columns `px` and `sx` are zero. -/
structure BwPrep extends BwRow where
  p : ℝ
  s : ℝ

/-- A turn of the loop, resonance.py 419-438. `self.q[l]` of line 433 raises: the attribute is called `q_value`. -/
def prepBwRow (b : Base) (r : BwRow) : Except PyErr BwPrep := do
  let (p, s) ← prepRow b r.l r.energy
  if 0 < r.gx then .error .attributeError
  else return ⟨r, p, s⟩

/-- Lines 420-422: each value at its first occurrence. -/
def firsts {α : Type} [DecidableEq α] (seen : List α) : List α → List α
  | [] => seen
  | a :: l => firsts (if a ∈ seen then seen else seen ++ [a]) l

/-- The dict `_parameter_matrix` of a Breit-Wigner range. -/
abbrev BwMatrix := ℤ → Option (List BwPrep)

/-- `MultiLevelBreitWigner._prepare_resonances`, resonance.py 405-450: `_l_values` and the dict of rows by l, which keeps the keys it had. -/
def prepareBw (r : Bw) (m : BwMatrix) : Except PyErr (List ℤ × BwMatrix) := do
  let rows ← r.rows.mapM (prepBwRow r.toBase)
  let ls := firsts [] (r.rows.map (·.l))
  return (ls, fun l => if l ∈ ls then some (rows.filter fun q => q.l = l) else m l)

/-- Elastic, capture, fission. -/
structure Xs where
  elastic : ℝ
  capture : ℝ
  fission : ℝ

/-- Width at energy `E` for neutrons, total width, energy of the peak: lines 211-216 and 322-327. -/
def bwWidths (P S : ℝ) (q : BwPrep) : ℝ × ℝ × ℝ :=
  let gnE := P * q.gn / q.p
  (gnE, gnE + q.gg + q.gf, q.energy + (q.s - S) / (2 * q.p) * q.gn)

/-- Sums of the loop over the resonances of an l: `s` by the index of J, capture and fission. -/
structure MlState where
  s : ℤ → ℝ × ℝ
  capture : ℝ
  fission : ℝ

/-- `g[ij]`, lines 191-192. -/
def gJ (I jmin : ℝ) (ij : ℤ) : ℝ := (2 * (jmin + ij) + 1) / (4 * I + 2)

/-- A turn of the loop, lines 196-223. -/
def mlbwRow (I E P S jmin : ℝ) (nJ : ℤ) (t : MlState) (q : BwPrep) : Except PyErr MlState :=
  let ij := trunc (q.j - jmin)
  let (gnE, gtE, Eprime) := bwWidths P S q
  let x := 2 * (E - Eprime) / gtE
  let f := 2 * gnE / (gtE * (1 + x * x))
  if ij < 0 ∨ nJ ≤ ij then .error .exception
  else .ok ⟨Function.update t.s ij ((t.s ij).1 + f, (t.s ij).2 + f * x), t.capture + f * gJ I jmin ij * q.gg / gtE,
    if 0 < q.gf then t.fission + f * gJ I jmin ij * q.gf / gtE else t.fission⟩

/-- `jmin`, line 183. -/
def jmin (I : ℝ) (l : ℤ) : ℝ := |(|I - l| - 0.5)|

/-- `nJ`, lines 184-185. -/
def nJ (I : ℝ) (l : ℤ) : ℤ := trunc (I + l + 0.5 - jmin I l + 1)

/-- The factor `Dl`, lines 188-193. -/
def dl (I : ℝ) (l : ℤ) : ℝ := 2 * l + 1 - ((List.range (nJ I l).toNat).map fun ij : ℕ => gJ I (jmin I l) ij).sum

/-- What an l adds, lines 165-231. -/
def mlbwAt (b : Base) (E : ℝ) (l : ℤ) (rows : List BwPrep) : Except PyErr Xs := do
  let (P, S, phi) ← waves b l E
  let cos2phi := Real.cos (2 * phi)
  let sin2phi := Real.sin (2 * phi)
  let t ← rows.foldlM (mlbwRow b.spin E P S (jmin b.spin l) (nJ b.spin l)) ⟨fun _ => (0, 0), 0, 0⟩
  let sum := ((List.range (nJ b.spin l).toNat).map fun ij : ℕ =>
    gJ b.spin (jmin b.spin l) ij * ((1 - cos2phi - (t.s ij).1) ^ 2 + (sin2phi + (t.s ij).2) ^ 2)).sum
  return ⟨sum + 2 * dl b.spin l * (1 - cos2phi), t.capture, t.fission⟩

/-- `_parameter_matrix[l]` -/
def rowsAt {α β : Type} (m : α → Option β) (l : α) : Except PyErr β :=
  match m l with
  | some v => .ok v
  | none => .error .keyError

/-- `reconstruct_mlbw`, lines 122-241. -/
def mlbw (r : Bw) (ls : List ℤ) (m : BwMatrix) (E : ℝ) : Except PyErr Xs := do
  let k := waveNumber r.awr E
  let t ← ls.foldlM (fun (t : Xs) l => do
    let rows ← rowsAt m l
    let d ← mlbwAt r.toBase E l rows
    return (⟨t.elastic + d.elastic, t.capture + d.capture, t.fission + d.fission⟩ : Xs)) ⟨0, 0, 0⟩
  return ⟨t.elastic * (Real.pi / (k * k)), t.capture * (2 * Real.pi / (k * k)), t.fission * (2 * Real.pi / (k * k))⟩

/-- A turn of the loop over the resonances, lines 308-343. -/
def slbwRow (I E k P S phi : ℝ) (t : Xs) (q : BwPrep) : Xs :=
  let (gnE, gtE, Eprime) := bwWidths P S q
  let g := (2 * q.j + 1) / (4 * I + 2)
  let f := Real.pi / (k * k) * g * gnE / ((E - Eprime) ^ 2 + gtE ^ 2 / 4)
  ⟨t.elastic + f * (gnE * Real.cos (2 * phi) - 2 * (q.gg + q.gf) * Real.sin phi ^ 2 + 2 * (E - Eprime) * Real.sin (2 * phi)),
    t.capture + f * q.gg, if 0 < q.gf then t.fission + f * q.gf else t.fission⟩

/-- `reconstruct_slbw`, lines 247-345. -/
def slbw (r : Bw) (ls : List ℤ) (m : BwMatrix) (E : ℝ) : Except PyErr Xs := do
  let k := waveNumber r.awr E
  ls.foldlM (fun (t : Xs) l => do
    let rows ← rowsAt m l
    let (P, S, phi) ← waves r.toBase l E
    return rows.foldl (slbwRow r.spin E k P S phi)
      (⟨t.elastic + 4 * Real.pi / (k * k) * (2 * l + 1) * Real.sin phi ^ 2, t.capture, t.fission⟩ : Xs)) ⟨0, 0, 0⟩

/-! ### Reich-Moore -/

/-- A row of the parameters (resonance.py 649-650). -/
structure RmRow where
  energy : ℝ
  l : ℤ
  j : ℝ
  gn : ℝ
  gg : ℝ
  gfa : ℝ
  gfb : ℝ

/-- The attributes of `ReichMoore` that are used. -/
structure Rm extends Base where
  rows : List RmRow

/-- A row with the column `p`; the column `s` is not used. -/
structure RmPrep extends RmRow where
  p : ℝ

/-- A turn of the loop, resonance.py 675-685. -/
def prepRmRow (b : Base) (r : RmRow) : Except PyErr RmPrep := do
  let (p, _) ← prepRow b r.l r.energy
  return ⟨r, p⟩

/-- The dict `_parameter_matrix` of a Reich-Moore range, by l and the absolute value of J. -/
abbrev RmMatrix := ℤ × ℝ → Option (List RmPrep)

/-- `ReichMoore._prepare_resonances`, resonance.py 664-695. -/
def prepareRm (r : Rm) (m : RmMatrix) : Except PyErr (List ℤ × RmMatrix) := do
  let rows ← r.rows.mapM (prepRmRow r.toBase)
  let lj := firsts [] (r.rows.map fun q => (q.l, |q.j|))
  return (firsts [] (r.rows.map (·.l)), fun k => if k ∈ lj then some (rows.filter fun q => q.l = k.1 ∧ |q.j| = k.2) else m k)

/-- The upper triangle of the matrix K and `hasfission`. -/
structure KState where
  k00 : ℂ
  k01 : ℂ
  k02 : ℂ
  k11 : ℂ
  k12 : ℂ
  k22 : ℂ
  fission : Bool

/-- Lines 470-471: the root of the size of the width, with its sign. -/
def signedRoot (g : ℝ) : ℝ := (if g < 0 then -1 else 1) * √|g|

/-- A turn of the loop over the resonances, lines 446-478. -/
def rmRow (E P smin smax s : ℝ) (l : ℤ) (t : KState) (q : RmPrep) : KState :=
  if 0 < l ∧ ((q.j < 0 ∧ s ≠ smin) ∨ (0 < q.j ∧ s ≠ smax)) then t
  else
    let gn := √(P * q.gn / q.p)
    let factor : ℂ := 0.5 * Complex.I / ((q.energy : ℂ) - E - 0.5 * Complex.I * q.gg)
    if q.gfa ≠ 0 ∨ q.gfb ≠ 0 then
      let a := signedRoot q.gfa
      let b := signedRoot q.gfb
      ⟨t.k00 + gn * gn * factor, t.k01 + gn * a * factor, t.k02 + gn * b * factor, t.k11 + a * a * factor, t.k12 + a * b * factor, t.k22 + b * b * factor, true⟩
    else { t with k00 := t.k00 + gn * gn * factor }

/-- Sums of the loops: elastic, total, fission. -/
structure RmSum where
  elastic : ℝ
  total : ℝ
  fission : ℝ

/-- The matrix K, lines 484-486. -/
def KState.matrix (t : KState) : Matrix (Fin 3) (Fin 3) ℂ := !![t.k00, t.k01, t.k02; t.k01, t.k11, t.k12; t.k02, t.k12, t.k22]

/-- What a channel of given J adds, lines 481-512. `inv` raises for a singular matrix. -/
def rmChannel (I phi J : ℝ) (t : KState) : Except PyErr RmSum :=
  let g := (2 * J + 1) / (4 * I + 2)
  let ubar := Complex.exp (-2 * Complex.I * phi)
  if t.fission then
    if (1 - t.matrix).det = 0 then .error .linAlgError
    else
      let imat := (1 - t.matrix)⁻¹
      let u := ubar * (2 * imat 0 0 - 1)
      .ok ⟨g * ‖1 - u‖ ^ 2, 2 * g * (1 - u.re), 4 * g * (‖imat 1 0‖ ^ 2 + ‖imat 2 0‖ ^ 2)⟩
  else
    let u := ubar * (2 / (1 - t.k00) - 1)
    if |t.k00.re| < 3e-4 ∧ |phi| < 3e-4 then
      let kr := t.k00.re
      let ki := t.k00.im
      let x := 2 * (-kr + (kr * kr + ki * ki) * (1 - phi * phi) + phi * phi - Real.sin (2 * phi) * ki) / ((1 - kr) * (1 - kr) + ki * ki)
      .ok ⟨g * (x * x + u.im ^ 2), 2 * g * x, 0⟩
    else .ok ⟨g * ‖1 - u‖ ^ 2, 2 * g * (1 - u.re), 0⟩

/-- `smin` and `smax`, lines 414-415. -/
def smin (I : ℝ) : ℝ := |I - 0.5|
def smax (I : ℝ) : ℝ := I + 0.5

/-- The channel spins, lines 416-419. -/
def spins (I : ℝ) : List ℝ := (List.range (trunc (smax I - smin I + 1)).toNat).map fun i : ℕ => (i : ℝ) + smin I

/-- The total angular momenta of a channel spin, lines 423-428. -/
def momenta (l : ℤ) (s : ℝ) : List ℝ := (List.range (trunc (l + s - |l - s| + 1)).toNat).map fun i : ℕ => (i : ℝ) + |l - s|

/-- The pairs of s and J of the two loops, lines 418-428. -/
def channels (I : ℝ) (l : ℤ) : List (ℝ × ℝ) := (spins I).flatMap fun s => (momenta l s).map fun J => (s, J)

/-- Lines 431-478: the matrix K of a channel. -/
def kOf (I E P : ℝ) (l : ℤ) (m : RmMatrix) (c : ℝ × ℝ) : KState :=
  match m (l, c.2) with
  | some rows => rows.foldl (rmRow E P (smin I) (smax I) c.1 l) ⟨0, 0, 0, 0, 0, 0, false⟩
  | none => ⟨0, 0, 0, 0, 0, 0, false⟩

/-- What an l adds, lines 399-512. -/
def rmAt (b : Base) (m : RmMatrix) (E : ℝ) (t : RmSum) (l : ℤ) : Except PyErr RmSum := do
  let (P, _, phi) ← waves b l E
  (channels b.spin l).foldlM (fun (t : RmSum) c => do
    let d ← rmChannel b.spin phi c.2 (kOf b.spin E P l m c)
    return (⟨t.elastic + d.elastic, t.total + d.total, t.fission + d.fission⟩ : RmSum)) t

/-- `reconstruct_rm`, lines 351-522. -/
def rm (r : Rm) (ls : List ℤ) (m : RmMatrix) (E : ℝ) : Except PyErr Xs := do
  let k := waveNumber r.awr E
  let t ← ls.foldlM (rmAt r.toBase m E) ⟨0, 0, 0⟩
  return ⟨t.elastic * (Real.pi / (k * k)), (t.total - t.elastic - t.fission) * (Real.pi / (k * k)), t.fission * (Real.pi / (k * k))⟩

/-! ### `reconstruct` of a range, with its memory -/

/-- The parts of a range in which the formalisms differ: data `D`, the dict `M`. -/
structure Formalism (D M : Type) where
  prepare : D → M → Except PyErr (List ℤ × M)
  eval : D → List ℤ → M → ℝ → Except PyErr Xs

/-- The three formalisms (resonance.py 308, 507, 569). -/
def mlbwF : Formalism Bw BwMatrix := ⟨prepareBw, mlbw⟩
def slbwF : Formalism Bw BwMatrix := ⟨prepareBw, slbw⟩
def rmF : Formalism Rm RmMatrix := ⟨prepareRm, rm⟩

/-- A range: its data, `_prepared` and `_l_values`. -/
structure Obj (D : Type) where
  data : D
  prepared : Bool
  ls : List ℤ

/-- A range and its copies: they share the dict `_parameter_matrix` (`__copy__`, resonance.py 166-171). -/
structure Family (D M : Type) where
  objs : List (Obj D)
  matrix : M

/-- Argument of `reconstruct`: a number, an array or list of numbers, an array or list of whole numbers. -/
inductive Energies where
  | number (E : ℝ)
  | floats (l : List ℝ)
  | ints (l : List ℤ)

/-- What `reconstruct` returns: numbers or arrays, for the reactions 2, 102 and 18. -/
inductive Result where
  | number (x : Xs)
  | floats (elastic capture fission : List ℝ)
  | ints (elastic capture fission : List ℤ)

/-- Lines 235-248 of resonance.py. `np.zeros_like` of whole numbers is an array of whole numbers, whose items are cut when they are set. -/
def evalAll {D M : Type} (F : Formalism D M) (d : D) (ls : List ℤ) (m : M) : Energies → Except PyErr Result
  | .number E => do return .number (← F.eval d ls m E)
  | .floats l => do
    let xs ← l.mapM (F.eval d ls m)
    return .floats (xs.map (·.elastic)) (xs.map (·.capture)) (xs.map (·.fission))
  | .ints l => do
    let xs ← l.mapM fun E : ℤ => F.eval d ls m E
    return .ints (xs.map fun x => trunc x.elastic) (xs.map fun x => trunc x.capture) (xs.map fun x => trunc x.fission)

/-- Lines 231-233 of resonance.py: the values of l and the dict after the resonances have been prepared, if they were not. -/
def ensure {D M : Type} (F : Formalism D M) (o : Obj D) (m : M) : Except PyErr (List ℤ × M) :=
  if o.prepared then .ok (o.ls, m) else F.prepare o.data m

/-- `reconstruct` of the `i`-th range of a family, resonance.py 215-250: the result and the family afterwards. Without the extension (`available`, the variable
`_reconstruct` of resonance.py 10-15) it raises. -/
def reconstruct {D M : Type} (available : Bool) (F : Formalism D M) (f : Family D M) (i : ℕ) (e : Energies) : Except PyErr Result × Family D M :=
  match f.objs[i]? with
  | none => (.error .indexError, f)
  | some o =>
    if available = false then (.error .runtimeError, f)
    else match ensure F o f.matrix with
    | .error x => (.error x, f)
    | .ok (ls, m) => (evalAll F o.data ls m e, ⟨f.objs.set i ⟨o.data, true, ls⟩, m⟩)

/-- What a program does with a range and its copies. -/
inductive Op (D : Type) where
  | copy (i : ℕ)
  | assign (i : ℕ) (d : D)
  | reconstruct (i : ℕ) (e : Energies)

/-- One step: `copy.copy`, the assignment of attributes (parameters, radii, spin, mass), `reconstruct`. -/
def step {D M : Type} (available : Bool) (F : Formalism D M) (f : Family D M) : Op D → Family D M
  | .copy i => match f.objs[i]? with
    | some o => ⟨f.objs ++ [⟨o.data, false, o.ls⟩], f.matrix⟩
    | none => f
  | .assign i d => match f.objs[i]? with
    | some o => ⟨f.objs.set i ⟨d, o.prepared, o.ls⟩, f.matrix⟩
    | none => f
  | .reconstruct i e => (reconstruct available F f i e).2

/-- A new range: nothing prepared, an empty dict (resonance.py 163-164). -/
def fresh {D K V : Type} (d : D) : Family D (K → Option V) := ⟨[⟨d, false, []⟩], fun _ => none⟩

end
end ASAPy.Recon
