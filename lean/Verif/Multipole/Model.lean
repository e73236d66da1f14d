import Mathlib.Analysis.SpecialFunctions.Gaussian.GaussianIntegral
import Mathlib.Analysis.SpecialFunctions.Complex.Arg
import Verif.FromAce.Model

/-!
# Model of windowed multipole cross sections (ASAPy/data/multipole.py)

`_faddeeva`, `_broaden_wmp_polynomials`, `WindowedMultipole._evaluate` and `__call__`. Numbers are real and complex: rounding is not modelled. A complex number divided by zero is not
NaN but zero in the model; this concerns only poles on the real axis.
-/

namespace ASAPy.Multipole
open ASAPy.FromAce (item)

/-- `math.erf`: `2/√π ∫₀ˣ exp(-t²) dt`. -/
noncomputable def erf (x : ℝ) : ℝ := 2 / Real.sqrt Real.pi * ∫ t in (0 : ℝ)..x, Real.exp (-t ^ 2)

/-- The complementary error function of a complex number: `2/√π` times the integral of `exp(-t²)` from `w` to the right. -/
noncomputable def erfc (w : ℂ) : ℂ := 2 / (Real.sqrt Real.pi : ℂ) * ∫ x in Set.Ioi (0 : ℝ), Complex.exp (-(w + x) ^ 2)

/-- `scipy.special.wofz`: `exp(-z²) erfc(-iz)`, as documented in lines 40-41. -/
noncomputable def wofz (z : ℂ) : ℂ := Complex.exp (-z ^ 2) * erfc (-(Complex.I * z))

/-- `_faddeeva`, lines 27-68. `np.angle` is the argument in `(-π, π]`. -/
noncomputable def faddeeva (z : ℂ) : ℂ :=
  if 0 < z.arg then wofz z else -(starRingEnd ℂ) (wofz ((starRingEnd ℂ) z))

/-- One round of the loop of lines 119-124, on the array `f`. -/
noncomputable def factorStep (E h q : ℝ) (f : List ℝ) (i : ℕ) : List ℝ :=
  if i ≠ 1 then
    f.set (i + 2) (-(f.getD (i - 2) 0) * ((i : ℝ) - 1) * i * q + f.getD i 0 * (E + (1 + 2 * (i : ℝ)) * h))
  else f.set (i + 2) (f.getD i 0 * (E + (1 + 2 * (i : ℝ)) * h))

/-- Lines 106-126 from `erf_beta` and `exp_m_beta2` on. An array of fewer than three elements raises. -/
noncomputable def factorsOf (E dopp erfBeta expBeta : ℝ) (n : ℕ) : Except PyErr (List ℝ) :=
  let sqrtE := Real.sqrt E
  let beta := sqrtE * dopp
  let h := 0.5 / dopp ^ 2
  let f0 := erfBeta / E
  if n < 3 then .error .indexError
  else
    let f := (((List.replicate n (0 : ℝ)).set 0 f0).set 1 (1 / sqrtE)).set 2 (f0 * (h + E) + expBeta / (beta * Real.sqrt Real.pi))
    .ok ((List.range' 1 (n - 3)).foldl (factorStep E h (h ^ 2)) f)

/-- `_broaden_wmp_polynomials`, lines 71-126. -/
noncomputable def broadenPolynomials (E dopp : ℝ) (n : ℕ) : Except PyErr (List ℝ) :=
  let beta := Real.sqrt E * dopp
  if 6 < beta then factorsOf E dopp 1 0 n
  else factorsOf E dopp (erf beta) (Real.exp (-beta ^ 2)) n

/-- A `WindowedMultipole` whose attributes are set, lines 172-181. `cols` is `data.shape[1]`, `terms` and `channels` are `curvefit.shape[1]` and `curvefit.shape[2]`: arrays
without elements have shapes too. -/
structure Wmp where
  name : List Char
  spacing : ℝ
  sqrtAWR : ℝ
  eMin : ℝ
  eMax : ℝ
  cols : ℕ
  data : List (List ℂ)
  windows : List (List Int)
  broaden : List Bool
  terms : ℕ
  channels : ℕ
  curvefit : List (List (List ℝ))

/-- `fissionable`, lines 191-193. -/
def Wmp.fissionable (m : Wmp) : Bool := m.cols = 4

/-- `K_BOLTZMANN`, data.py 370. -/
noncomputable def boltzmann : ℝ := 8.6173303e-5

/-- `math.sqrt`. -/
noncomputable def sqrt (x : ℝ) : Except PyErr ℝ := if x < 0 then .error .valueError else .ok (Real.sqrt x)

/-- `a[i, j]`. -/
def item2 {α : Type} (a : List (List α)) (i j : Int) : Except PyErr α := do
  let r ← item a i
  item r j

/-- `a[i, j, k]`. -/
def item3 {α : Type} (a : List (List (List α))) (i j k : Int) : Except PyErr α := do
  let r ← item a i
  item2 r j k

/-- The three cross sections `sig_s`, `sig_a`, `sig_f`. -/
structure Sigma where
  s : ℝ
  a : ℝ
  f : ℝ

/-- Lines 428-434 and 438-441: what the term `p` with the value `v` adds. -/
noncomputable def addTerm (m : Wmp) (w : Int) (p : ℕ) (v : ℝ) (x : Sigma) : Except PyErr Sigma := do
  let cs ← item3 m.curvefit w p 0
  let ca ← item3 m.curvefit w p 1
  if m.fissionable then do
    let cf ← item3 m.curvefit w p 2
    return ⟨x.s + cs * v, x.a + ca * v, x.f + cf * v⟩
  else return ⟨x.s + cs * v, x.a + ca * v, x.f⟩

/-- Lines 427-434: the broadened terms. -/
noncomputable def curveBroadened (m : Wmp) (w : Int) (fs : List ℝ) : Except PyErr Sigma :=
  (List.range m.terms).foldlM (fun (x : Sigma) (p : ℕ) => do
    let v ← item fs (p : Int)
    addTerm m w p v x) ⟨0, 0, 0⟩

/-- Lines 436-442: the terms as they are; `temp` goes from `1/E` up in steps of `sqrtE`. -/
noncomputable def curvePlain (m : Wmp) (w : Int) (sqrtE invE : ℝ) : Except PyErr (Sigma × ℝ) :=
  (List.range m.terms).foldlM (fun (x : Sigma × ℝ) (p : ℕ) => do
    let y ← addTerm m w p x.2 x.1
    return (y, x.2 * sqrtE)) (⟨0, 0, 0⟩, invE)

/-- Lines 452-455 and 463-466: what a pole adds if its residues are multiplied by `c`. -/
noncomputable def addPole (m : Wmp) (i : Int) (c : ℂ) (x : Sigma) : Except PyErr Sigma := do
  let rs ← item2 m.data i 1
  let ra ← item2 m.data i 2
  if m.fissionable then do
    let rf ← item2 m.data i 3
    return ⟨x.s + (rs * c).re, x.a + (ra * c).re, x.f + (rf * c).re⟩
  else return ⟨x.s + (rs * c).re, x.a + (ra * c).re, x.f⟩

/-- `range(a, b)`. -/
def pyRange (a b : Int) : List Int := (List.range (b - a).toNat).map fun k : ℕ => a + (k : Int)

/-- Lines 447-455: the poles at 0 K. -/
noncomputable def polesCold (m : Wmp) (ps : List Int) (E sqrtE : ℝ) (x : Sigma) : Except PyErr Sigma :=
  ps.foldlM (fun x i => do
    let p ← item2 m.data i 0
    addPole m i (-Complex.I / (p - (sqrtE : ℂ)) / (E : ℂ)) x) x

/-- Lines 457-466: the poles at a temperature. -/
noncomputable def polesWarm (m : Wmp) (ps : List Int) (sqrtE invE dopp : ℝ) (x : Sigma) : Except PyErr Sigma :=
  ps.foldlM (fun x i => do
    let p ← item2 m.data i 0
    let z := ((sqrtE : ℂ) - p) * (dopp : ℂ)
    addPole m i (faddeeva z * (dopp : ℂ) * (invE : ℂ) * (Real.sqrt Real.pi : ℂ)) x) x

/-- Lines 423-442. -/
noncomputable def curve (m : Wmp) (w : Int) (E sqrtkT sqrtE : ℝ) : Except PyErr Sigma := do
  let b ← if sqrtkT ≠ 0 then item m.broaden w else pure false
  if b then do
    let fs ← broadenPolynomials E (m.sqrtAWR / sqrtkT) m.terms
    curveBroadened m w fs
  else do
    let r ← curvePlain m w sqrtE (1 / E)
    return r.1

/-- `_evaluate` within the limits, lines 394-468. -/
noncomputable def within (m : Wmp) (E T : ℝ) : Except PyErr Sigma := do
  let sqrtkT ← sqrt (boltzmann * T)
  let sqrtE ← sqrt E
  if E = 0 then .error .zeroDivision
  else do
    let lo ← sqrt m.eMin
    let w : Int := ⌊(sqrtE - lo) / m.spacing⌋
    let a ← item2 m.windows w 0
    let b ← item2 m.windows w 1
    let x ← curve m w E sqrtkT sqrtE
    if sqrtkT = 0 then polesCold m (pyRange (a - 1) b) E sqrtE x
    else polesWarm m (pyRange (a - 1) b) sqrtE (1 / E) (m.sqrtAWR / sqrtkT) x

/-- `_evaluate`, lines 370-468. The flag says that the three numbers are the whole numbers of lines 388-389. -/
noncomputable def evaluate (m : Wmp) (E T : ℝ) : Except PyErr (Sigma × Bool) :=
  if E < m.eMin then .ok (⟨0, 0, 0⟩, true)
  else if m.eMax < E then .ok (⟨0, 0, 0⟩, true)
  else do
    let x ← within m E T
    return (x, false)

/-- A value put into an array of whole numbers: `int(x)`. -/
noncomputable def asInt (x : Sigma) : Sigma :=
  ⟨(FromAce.pyTrunc x.s : ℝ), (FromAce.pyTrunc x.a : ℝ), (FromAce.pyTrunc x.f : ℝ)⟩

/-- `__call__`, lines 470-489, on an array. `np.vectorize` evaluates the first element to find the types of the three arrays that it returns; it refuses an empty array. -/
noncomputable def call (m : Wmp) (es : List ℝ) (T : ℝ) : Except PyErr (List Sigma) :=
  match es with
  | [] => .error .valueError
  | e :: _ => do
    let first ← evaluate m e T
    let rs ← es.mapM fun e => evaluate m e T
    return rs.map fun r => if first.2 then asInt r.1 else r.1

end ASAPy.Multipole
