import Verif.Endf.Props
import Verif.AceData.Props
import Verif.Chars
import Mathlib.Analysis.SpecialFunctions.Log.Basic

/-!
# Model of the decay data and fission yields (ASAPy/data/decay.py)

Line numbers are those of ASAPy/data/decay.py. The records are read with the model of the ENDF reader (`Verif.Endf.Model`), whose numbers are the
rational values of the decimal numerals. A section of an evaluation is the list of its lines.
-/

namespace ASAPy.Decay
open ASAPy.Str ASAPy.Dec ASAPy.Endf ASAPy.AceData

/-! ### Decay modes -/

/-- `_DECAY_MODES`, lines 19-31: name and changes of (A, Z). -/
def decayTable : List (Nat × Line × Option (Int × Int)) := [
  (0, c!"gamma", some (0, 0)), (1, c!"beta-", some (0, 1)), (2, c!"ec/beta+", some (0, -1)), (3, c!"IT", some (0, 0)),
  (4, c!"alpha", some (-4, -2)), (5, c!"n", some (-1, 0)), (6, c!"sf", none), (7, c!"p", some (-1, -1)), (8, c!"e-", some (0, 0)),
  (9, c!"xray", some (0, 0)), (10, c!"unknown", none)]

/-- `_RADIATION_TYPES`, lines 33-45; the keys are compared with floats. -/
def radiationTable : List (ℚ × Line) := [
  (0, c!"gamma"), (1, c!"beta-"), (2, c!"ec/beta+"), (4, c!"alpha"), (5, c!"n"), (6, c!"sf"), (7, c!"p"), (8, c!"e-"), (9, c!"xray"),
  (10, c!"anti-neutrino"), (11, c!"neutrino")]

/-- The decimals of a number between 0 and 1, without zeros at the end; at most as many as the first argument. -/
def fracDigits : Nat → ℚ → Line
  | 0, _ => []
  | n + 1, x => if x = 0 then [] else digitChar ⌊10 * x⌋.toNat :: fracDigits n (10 * x - ⌊10 * x⌋)

/-- `str(x)` of a float that is 0 or whose absolute value is at least 1e-4 and less than 1e16; the float is given by its shortest decimal numeral (which has
at most 17 digits). -/
def floatStr (x : ℚ) : Line :=
  let y := |x|
  let fr := fracDigits 17 (y - ⌊y⌋)
  (if x < 0 then ['-'] else []) ++ natStr ⌊y⌋.toNat ++ '.' :: (if fr = [] then ['0'] else fr)

/-- `s.strip('0')`. -/
def strip0 (s : Line) : Line := ((s.dropWhile (· = '0')).reverse.dropWhile (· = '0')).reverse

/-- `_DECAY_MODES[int(x)][0]` of a character, lines 62-63. -/
def modeOf (x : Char) : Except PyErr Line :=
  if isDigit x = true then
    match Dict.get? decayTable (digitVal x) with
    | none => .error .keyError
    | some e => .ok e.1
  else .error .valueError

/-- `get_decay_modes`, lines 48-63. The text of a very small or very large number has an `e`, of which `int` makes a `ValueError`. -/
def decayModes (value : ℚ) : Except PyErr (List Line) :=
  if (value ≠ 0 ∧ |value| < 1 / 10000) ∨ 10 ^ 16 ≤ |value| then .error .valueError
  else ((strip0 (floatStr value)).filter (· ≠ '.')).mapM modeOf

/-! ### Numbers with uncertainties -/

/-- `ufloat(n, s)`: nominal value and standard deviation. -/
structure U where
  n : ℚ
  s : ℚ
deriving DecidableEq

/-- `ufloat(n, s)`; `NegativeStdDev` for a negative deviation. -/
def ufloat (n s : ℚ) : Except PyErr U := if s < 0 then .error .exception else .ok ⟨n, s⟩

/-- `ufloat(*values[a:a+2])`; an error if there are not two values. -/
def uAt (vs : List ℚ) (a : Nat) : Except PyErr U :=
  match (vs.drop a).take 2 with
  | [n, s] => ufloat n s
  | _ => .error .typeError

/-- `values[i]`. -/
def nth (vs : List ℚ) (i : Nat) : Except PyErr ℚ :=
  match vs[i]? with
  | none => .error .indexError
  | some v => .ok v

/-! ### Modes of decay -/

/-- `DecayMode`. -/
structure Mode where
  parent : Line
  modes : List Line
  state : Int
  energy : U
  ratio : U
deriving DecidableEq

/-- `DecayMode(...)` of numbers with uncertainties, lines 206-212 with the setters 256-284. `ufloat` has made sure that no deviation is negative. A
warning (for a ratio of 0) is not modelled. -/
def mkMode (parent : Line) (modes : List Line) (state : Int) (energy ratio : U) : Except PyErr Mode :=
  if energy.n < 0 then .error .valueError
  else if energy.s < 0 then .error .valueError
  else if ratio.n < 0 then .error .valueError
  else if ratio.s < 0 then .error .valueError
  else .ok ⟨parent, modes, state, energy, ratio⟩

/-- The inner loop of lines 232-237 over the table: (A, Z). -/
def applyMode (mode : Line) : List (Nat × Line × Option (Int × Int)) → Int × Int → Int × Int
  | [], az => az
  | (_, name, changes) :: t, (a, z) =>
    applyMode mode t (if name = mode then (match changes with | none => (a, z) | some (da, dz) => (a + da, z + dz)) else (a, z))

/-- Lines 231-237: all modes. -/
def applyModes : List Line → Int × Int → Int × Int
  | [], az => az
  | m :: ms, az => applyModes ms (applyMode m decayTable az)

/-- `DecayMode.daughter`, lines 224-242; `re.match` gives `None`, which has no `groups`, for a text that is no name. -/
def daughter (m : Mode) : Except PyErr Line :=
  match matchName m.parent with
  | none => .error .exception
  | some (sym, a, _) => match Dict.get? atomicNumber sym with
    | none => .error .keyError
    | some z => gndName (applyModes m.modes ((natVal a : Int), z)).2 (applyModes m.modes ((natVal a : Int), z)).1 m.state

/-! ### Decay data -/

/-- An entry of `spectrum['discrete']`; `none` for a missing key. -/
structure Disc where
  energy : U
  fromMode : List Line
  type : Option Line
  intensity : U
  positron : Option U
  pair : Option U
  total : Option U
  kShell : Option U
  lShell : Option U
deriving DecidableEq

/-- `spectrum['continuous']`: the table (regions and points), the modes, and the covariance with its type. -/
structure Contin where
  regions : List (Int × Int)
  points : List (ℚ × ℚ)
  type : List Line
  cov : Option (Int × List (ℚ × ℚ))
deriving DecidableEq

structure Spectrum where
  type : Line
  flag : Line
  discNorm : U
  energyAverage : U
  contNorm : U
  discrete : Option (List Disc)
  continuous : Option Contin
deriving DecidableEq

/-- The attributes of a `Decay`. The half-life is `none` for `ufloat(inf, inf)`. -/
structure Data where
  z : Int
  a : Int
  m : Int
  name : Line
  mass : ℚ
  excited : Int
  stable : Bool
  spin : Option ℚ
  parity : ℚ
  halfLife : Option U
  average : List (Line × U)
  modes : List Mode
  spectra : List (Line × Spectrum)
deriving DecidableEq

/-- `zip(values[::2], values[1::2])`. -/
def pairs : List ℚ → List (ℚ × ℚ)
  | x :: y :: r => (x, y) :: pairs r
  | _ => []

/-- `ufloat(*pairs[i])`. -/
def pairAt (ps : List (ℚ × ℚ)) (i : Nat) : Except PyErr U :=
  match ps[i]? with
  | none => .error .indexError
  | some p => ufloat p.1 p.2

/-- The keys of lines 354-371, in their order. -/
def averageNames : List Line := [c!"light", c!"electromagnetic", c!"heavy", c!"beta-", c!"beta+", c!"auger", c!"conversion", c!"gamma", c!"xray",
  c!"Bremsstrahlung", c!"annihilation", c!"alpha", c!"recoil", c!"SF", c!"neutron", c!"proton", c!"neutrino"]

/-- `ex[name] = ufloat(*pairs[i])` for the names in a row, from the `i`-th pair on. -/
def averagesFrom (ps : List (ℚ × ℚ)) : Nat → List Line → Except PyErr (List (Line × U))
  | _, [] => .ok []
  | i, n :: ns => do
    let u ← pairAt ps i
    let r ← averagesFrom ps (i + 1) ns
    return ((n, u) :: r)

/-- Lines 351-371. -/
def averages (n1 : Int) (vs : List ℚ) : Except PyErr (List (Line × U)) :=
  averagesFrom (pairs vs) 0 (if n1 / 2 = 17 then averageNames else averageNames.take 3)

/-- Lines 383-391: the modes from the `i`-th on, `k` of them. -/
def readModes (parent : Line) (vs : List ℚ) : Nat → Nat → Except PyErr (List Mode)
  | _, 0 => .ok []
  | i, k + 1 => do
    let v ← nth vs (6 * i)
    let ms ← decayModes v
    let st ← nth vs (6 * i + 1)
    let e ← uAt vs (6 * i + 2)
    let b ← uAt vs (6 * i + 4)
    let m ← mkMode parent ms (trunc st) e b
    let r ← readModes parent vs (i + 1) k
    return (m :: r)

/-- `discrete_type`, lines 393-395. -/
def discreteTable : List (ℚ × Option Line) := [(0, none), (1, some c!"allowed"), (2, some c!"first-forbidden"), (3, some c!"second-forbidden"),
  (4, some c!"third-forbidden"), (5, some c!"fourth-forbidden"), (6, some c!"fifth-forbidden")]

/-- `d[k]`. -/
def look {κ α : Type} [DecidableEq κ] (d : List (κ × α)) (k : κ) : Except PyErr α :=
  match Dict.get? d k with
  | none => .error .keyError
  | some a => .ok a

/-- A key that is set only under a condition. -/
def optU (b : Bool) (r : Except PyErr U) : Except PyErr (Option U) := if b = true then r.map some else .ok none

/-- Lines 418-431: an entry of the discrete spectrum of the type. -/
def discOf (type : Line) (c : Cont) (vs : List ℚ) : Except PyErr Disc := do
  let e ← ufloat c.c1 c.c2
  let v0 ← nth vs 0
  let ms ← decayModes v0
  let v1 ← nth vs 1
  let t ← look discreteTable v1
  let i ← uAt vs 2
  let pos ← optU (type = c!"ec/beta+") (uAt vs 4)
  let pr ← optU (type = c!"gamma") (uAt vs 4)
  let tot ← optU (type = c!"gamma" ∧ 8 ≤ vs.length) (uAt vs 6)
  let k ← optU (type = c!"gamma" ∧ vs.length = 12) (uAt vs 8)
  let l ← optU (type = c!"gamma" ∧ vs.length = 12) (uAt vs 10)
  return ⟨e, ms, t, i, pos, pr, tot, k, l⟩

/-- Lines 416-432: `k` entries. -/
def readDisc (type : Line) : Nat → List Line → Except PyErr (List Disc × List Line)
  | 0, f => .ok ([], f)
  | k + 1, f => do
    let (c, vs, f) ← getList f
    let d ← discOf type c vs
    let (r, f) ← readDisc type k f
    return (d :: r, f)

/-- Lines 436-445. The `zip` object of line 445 is given by what it yields (the first time it is run through). -/
def readCont (f : List Line) : Except PyErr (Contin × List Line) := do
  let (p, regions, points, f) ← getTab1 f
  let ms ← decayModes p.1
  if p.2.2.2 ≠ 0 then do
    let (c, vs, f) ← getList f
    return (⟨regions, points, ms, some (c.l2, pairs vs)⟩, f)
  else return (⟨regions, points, ms, none⟩, f)

/-- Lines 405-406. -/
def flagTable : List (Int × Line) := [(0, c!"discrete"), (1, c!"continuous"), (2, c!"both")]

/-- Lines 413-432: `spectrum['discrete']`. -/
def discPart (flag type : Line) (n : Nat) (f : List Line) : Except PyErr (Option (List Disc) × List Line) :=
  if flag = c!"continuous" then .ok (none, f) else (readDisc type n f).map fun r => (some r.1, r.2)

/-- Lines 434-447: `spectrum['continuous']`. -/
def contPart (flag : Line) (f : List Line) : Except PyErr (Option Contin × List Line) :=
  if flag = c!"discrete" then .ok (none, f) else (readCont f).map fun r => (some r.1, r.2)

/-- Lines 399-447: one spectrum. -/
def readSpectrum (f : List Line) : Except PyErr (Spectrum × List Line) := do
  let (c, vs, f) ← getList f
  let type ← look radiationTable c.c2
  let flag ← look flagTable c.l1
  let dn ← uAt vs 0
  let ea ← uAt vs 2
  let cn ← uAt vs 4
  let (d, f) ← discPart flag type c.n2.toNat f
  let (ci, f) ← contPart flag f
  return (⟨type, flag, dn, ea, cn, d, ci⟩, f)

/-- Lines 398-450: `k` spectra, put into the dictionary. -/
def readSpectra : Nat → List (Line × Spectrum) → List Line → Except PyErr (List (Line × Spectrum))
  | 0, d, _ => .ok d
  | k + 1, d, f => do
    let (s, f) ← readSpectrum f
    readSpectra k (Dict.set d s.type s) f

/-- Lines 345-450: a nuclide that is not stable. -/
def readUnstable (h : Head) (name : Line) (f : List Line) : Except PyErr Data := do
  let (c, vs, f) ← getList f
  let hl ← ufloat c.c1 c.c2
  let av ← averages c.n1 vs
  let (c, vs, f) ← getList f
  let ms ← readModes name vs 0 c.n2.toNat
  let sp ← readSpectra h.n2.toNat [] f
  return ⟨h.za / 1000, h.za % 1000, h.l2, name, h.awr, h.l1, false, if c.c1 = -77777 / 1000 then none else some c.c1, c.c2, some hl, av, ms, sp⟩

/-- Lines 452-457: a stable nuclide. -/
def readStable (h : Head) (name : Line) (f : List Line) : Except PyErr Data := do
  let (_, _, f) ← getList f
  let (c, _, _) ← getList f
  return ⟨h.za / 1000, h.za % 1000, h.l2, name, h.awr, h.l1, true, some c.c1, c.c2, none, [], [], []⟩

/-- `Decay.__init__`, lines 314-457, from the text of section (8, 457). -/
def readDecay (f : List Line) : Except PyErr Data := do
  let (h, f) ← getHead f
  let name ← gndName (h.za / 1000) (h.za % 1000) h.l2
  if h.n1 = 1 then readStable h name f else readUnstable h name f

/-- `Decay(ev)`: the sections of an evaluation by their numbers. -/
def decayOf (sections : List ((Int × Int) × List Line)) : Except PyErr Data := do
  let f ← look sections (8, 457)
  readDecay f

/-- `Decay.decay_constant`, lines 460-465: `log(2.)/half_life`. The deviation of a quotient is that of first-order propagation: the absolute derivative
`log(2)/n^2` times the deviation. -/
noncomputable def decayConstant (n s : ℝ) : Except PyErr (ℝ × ℝ) :=
  if n = 0 then .error .exception else .ok (Real.log 2 / n, |(-Real.log 2) / n ^ 2| * s)

/-! ### Fission product yields -/

/-- Lines 119-125: one product. -/
def productOf (vs : List ℚ) (j : Nat) : Except PyErr (Line × U) := do
  let za ← nth vs (4 * j)
  let st ← nth vs (4 * j + 1)
  let name ← gndName (trunc za / 1000) (trunc za % 1000) (trunc st)
  let y ← nth vs (4 * j + 2)
  let dy ← nth vs (4 * j + 3)
  let u ← ufloat y dy
  return (name, u)

/-- Lines 118-125: `k` products from the `j`-th on, put into the dictionary. -/
def products (vs : List ℚ) : Nat → Nat → List (Line × U) → Except PyErr (List (Line × U))
  | _, 0, d => .ok d
  | j, k + 1, d => do
    let p ← productOf vs j
    products vs (j + 1) k (Dict.set d p.1 p.2)

/-- Lines 110-127: `k` energies. -/
def yieldsLoop : Nat → List Line → Except PyErr (List (ℚ × List (Line × U)))
  | 0, _ => .ok []
  | k + 1, f => do
    let (c, vs, f) ← getList f
    let d ← products vs 0 c.n2.toNat []
    let r ← yieldsLoop k f
    return ((c.c1, d) :: r)

/-- `get_yields`, lines 104-129; `np.zeros` rejects a negative size. -/
def getYields (f : List Line) : Except PyErr (List ℚ × List (List (Line × U))) := do
  let (h, f) ← getHead f
  if h.l1 < 0 then .error .valueError
  else do
    let r ← yieldsLoop h.l1.toNat f
    return (r.map (·.1), r.map (·.2))

/-- `np.all(a == b)` of two vectors: equal lengths are compared, one value is compared with all, other lengths are not equal. -/
def allEq (a b : List ℚ) : Bool :=
  if a.length = b.length then a = b
  else if a.length = 1 then b.all (fun x => a.all (· = x))
  else if b.length = 1 then a.all (fun x => b.all (· = x))
  else false

/-- The attributes `energies` and `independent`, and `cumulative`; `none` for a missing attribute. -/
structure Yields where
  energies : Option (List ℚ)
  independent : Option (List (List (Line × U)))
  cumulative : Option (List (List (Line × U)))
deriving DecidableEq

/-- Lines 146-148. -/
def readIndependent (sections : List ((Int × Int) × List Line)) : Except PyErr (Option (List ℚ × List (List (Line × U)))) :=
  match Dict.get? sections (8, 454) with
  | none => .ok none
  | some f => (getYields f).map some

/-- Lines 151-154; `self.energies` is an `AttributeError` without independent yields. -/
def readCumulative (sections : List ((Int × Int) × List Line)) (ind : Option (List ℚ × List (List (Line × U)))) :
    Except PyErr (Option (List (List (Line × U)))) :=
  match Dict.get? sections (8, 459) with
  | none => .ok none
  | some f => match getYields f with
    | .error e => .error e
    | .ok r => match ind with
      | none => .error .exception
      | some i => if allEq r.1 i.1 = true then .ok (some r.2) else .error .assertionError

/-- `FissionProductYields.__init__`, lines 101-154; the properties of the fissioning nuclide are those of the evaluation (C73). -/
def readYields (sections : List ((Int × Int) × List Line)) : Except PyErr Yields := do
  let ind ← readIndependent sections
  let cum ← readCumulative sections ind
  return ⟨ind.map (·.1), ind.map (·.2), cum⟩

end ASAPy.Decay
