import Verif.EndfRx.Model
import Verif.FromAce.Model
import Verif.Chars

/-!
# Model of atomic relaxation (ASAPy/data/photon.py)

`_SUBSHELLS` 22-34, `AtomicRelaxation` 110-327: the constructor with its checks, `from_ace`, `from_endf`. A `DataFrame` of transitions is the list of its rows. IOError is `PyErr.exception`.
-/

namespace ASAPy.Photon
open ASAPy.Endf
open ASAPy.FromAce (Arrays item slice pyTrunc)
open ASAPy.Res (Reader)

/-- `_SUBSHELLS`, lines 22-26. -/
def subshells : List Line :=
  [c!"K", c!"L1", c!"L2", c!"L3", c!"M1", c!"M2", c!"M3", c!"M4", c!"M5", c!"N1", c!"N2", c!"N3", c!"N4", c!"N5", c!"N6", c!"N7", c!"O1", c!"O2",
   c!"O3", c!"O4", c!"O5", c!"O6", c!"O7", c!"O8", c!"O9", c!"P1", c!"P2", c!"P3", c!"P4", c!"P5", c!"P6", c!"P7", c!"P8", c!"P9", c!"P10", c!"P11",
   c!"Q1", c!"Q2", c!"Q3"]

/-- `_subshell`, lines 30-34. -/
def subshell (i : Int) : Except PyErr (Option Line) := if i = 0 then .ok none else (item subshells (i - 1)).map some

/-- A row of the table of transitions, lines 242 and 302. -/
structure Trans (K : Type) where
  secondary : Option Line
  tertiary : Option Line
  energy : K
  probability : K
deriving DecidableEq

/-- `AtomicRelaxation`; `None` can be a key until the constructor has looked at the keys. -/
structure Relax (K : Type) where
  binding : List (Option Line × K)
  electrons : List (Option Line × K)
  transitions : List (Option Line × List (Trans K))
deriving DecidableEq

section
variable {K : Type} [Field K] [LinearOrder K]

/-- `AtomicRelaxation(binding_energy, num_electrons, transitions)` with the setters, lines 161-207. Keys that `_subshell` returns are `None` or in the list. -/
def mkRelax (r : Relax K) : Except PyErr (Relax K) :=
  if (r.binding.all fun p => p.1.isSome && decide (0 ≤ p.2)) && (r.electrons.all fun p => p.1.isSome && decide (0 ≤ p.2)) && (r.transitions.all fun p => p.1.isSome)
  then .ok r else .error .valueError

variable [FloorRing K]

/-- Lines 250-259: so many transitions from the `j`-th one and from the position `idx` on, and the position behind them. -/
def aceTrans (a : Arrays K) : Nat → Nat → Int → Except PyErr (List (Trans K) × Int)
  | 0, _, idx => .ok ([], idx)
  | n + 1, j, idx => do
    let v ← item a.xss idx
    let subj ← subshell (pyTrunc v)
    let v ← item a.xss (idx + 1)
    let subk ← subshell (pyTrunc v)
    let e ← item a.xss (idx + 2)
    let f ← item a.xss (idx + 3)
    let ftr ← if j = 0 then pure f else do
      let g ← item a.xss (idx - 1)
      pure (f - g)
    let (ts, idx) ← aceTrans a n (j + 1) (idx + 4)
    return (⟨subj, subk, e * 1000000, ftr⟩ :: ts, idx)

/-- The loop of lines 246-263 from the `i`-th shell on. -/
def aceTransitions (a : Arrays K) (j15 : Int) : List (Option Line) → Nat → Int → List (Option Line × List (Trans K)) → Except PyErr (List (Option Line × List (Trans K)))
  | [], _, _, d => .ok d
  | s :: shells, i, idx, d => do
    let v ← item a.xss (j15 + i)
    if pyTrunc v > 0 then do
      let (ts, idx) ← aceTrans a (pyTrunc v).toNat 0 idx
      aceTransitions a j15 shells (i + 1) idx (Dict.set d s ts)
    else aceTransitions a j15 shells (i + 1) idx d

/-- `AtomicRelaxation.from_ace`, lines 208-265. `jxs[15]` is looked up in the loop of the code. -/
def relaxFromAce (a : Arrays K) : Except PyErr (Relax K) := do
  let n ← item a.nxs 7
  let idx ← item a.jxs 11
  let shells ← (slice a.xss idx (idx + n)).mapM fun v => subshell (pyTrunc v)
  let idx ← item a.jxs 12
  let electrons := (shells.zip (slice a.xss idx (idx + n))).foldl (fun d p => Dict.set d p.1 p.2) []
  let idx ← item a.jxs 13
  let binding := (shells.zip (slice a.xss idx (idx + n))).foldl (fun d p => Dict.set d p.1 (p.2 * 1000000)) []
  let idx ← item a.jxs 18
  let j15 ← if shells = [] then pure 0 else item a.jxs 15
  let transitions ← aceTransitions a j15 shells 0 idx []
  mkRelax ⟨binding, electrons, transitions⟩

end

/-- Lines 316-320: the `j`-th transition of a shell. -/
def endfTrans (items : List ℚ) (j : Nat) : Except PyErr (Trans ℚ) := do
  let v ← item items (6 * (j + 1))
  let subj ← subshell (trunc v)
  let v ← item items (6 * (j + 1) + 1)
  let subk ← subshell (trunc v)
  let e ← item items (6 * (j + 1) + 2)
  let f ← item items (6 * (j + 1) + 3)
  return ⟨subj, subk, e, f⟩

/-- Lines 306-325: one subshell. -/
def endfShell (r : Relax ℚ) : Reader (Relax ℚ) := fun f => do
  let (c, items, f) ← getList f
  let subi ← subshell (trunc c.c1)
  let e ← item items 0
  let n ← item items 1
  let r := { r with binding := Dict.set r.binding subi e, electrons := Dict.set r.electrons subi n }
  if c.n2 > 0 then do
    let ts ← (List.range c.n2.toNat).mapM (endfTrans items)
    return ({ r with transitions := Dict.set r.transitions subi ts }, f)
  else return (r, f)

/-- The loop of line 305. -/
def endfShells : Nat → Relax ℚ → Reader (Relax ℚ)
  | 0, r, f => .ok (r, f)
  | n + 1, r, f => do
    let (r, f) ← endfShell r f
    endfShells n r f

/-- `AtomicRelaxation.from_endf`, lines 267-327, of the sections of an evaluation. -/
def relaxFromEndf (sections : List ((Int × Int) × List Line)) : Except PyErr (Relax ℚ) :=
  match Dict.get? sections (28, 533) with
  | none => .error .exception
  | some f => do
    let (h, f) ← getHead f
    let (r, _) ← endfShells h.n1.toNat ⟨[], [], []⟩ f
    mkRelax r

end ASAPy.Photon
