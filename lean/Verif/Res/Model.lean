import Verif.Endf.Model
import Verif.Decay.Model

/-!
# Model of resonance parameters read from an evaluation (ASAPy/data/resonance.py)

Line numbers are those of ASAPy/data/resonance.py. A file is the list of its lines, as in `Verif.Endf.Model`. The radius computed from the mass (equation D.14
of ENDF-102) is kept as a symbol with the mass it is computed from, `RMatrixLimited` without the records of background R-matrices and phase shifts, whose
contents are read and dropped. Reconstruction of cross sections: `Verif.Recon`.
-/

namespace ASAPy.Res
open ASAPy.Endf

/-- A radius as a function of energy: a constant, the constant computed from the mass (lines 209, 359, 619), or a table. -/
inductive Radius where
  | const (r : ℚ)
  | fromMass (awri : ℚ)
  | table (regions : List (Int × Int)) (points : List (ℚ × ℚ))
deriving DecidableEq

/-- Spin of the target, limits of the range, channel and scattering radii by l. -/
structure Base where
  spin : ℚ
  emin : ℚ
  emax : ℚ
  channel : List (Int × Radius)
  scattering : List (Int × Radius)
deriving DecidableEq

/-- A row of the parameters of Breit-Wigner ranges, lines 389-390. -/
structure BwRow where
  energy : ℚ
  l : Int
  j : ℚ
  gt : ℚ
  gn : ℚ
  gg : ℚ
  gf : ℚ
  gx : ℚ
deriving DecidableEq

/-- `SingleLevelBreitWigner` and `MultiLevelBreitWigner`. -/
structure Bw where
  multi : Bool
  base : Base
  q : List (Int × ℚ)
  awri : ℚ
  rows : List BwRow
deriving DecidableEq

/-- A row of the parameters of Reich-Moore ranges, lines 646-647. -/
structure RmRow where
  energy : ℚ
  l : Int
  j : ℚ
  gn : ℚ
  gg : ℚ
  gfa : ℚ
  gfb : ℚ
deriving DecidableEq

/-- `ReichMoore`. -/
structure Rm where
  base : Base
  rows : List RmRow
  angle : Bool
  conv : Int
  awri : ℚ
deriving DecidableEq

/-- A particle of a pair, lines 776-783. -/
structure Particle where
  mass : ℚ
  z : Int
  spin : ℚ
  parity : ℚ
deriving DecidableEq

/-- `ParticlePair`, lines 870-878. -/
structure Pair where
  first : Particle
  second : Particle
  q : ℚ
  penetrability : ℚ
  shift : ℚ
  mt : Int
deriving DecidableEq

/-- A channel, lines 807-815. -/
structure Channel where
  pair : Pair
  l : ℚ
  spin : ℚ
  boundary : ℚ
  effective : ℚ
  true : ℚ
deriving DecidableEq

/-- The name of a column of widths, lines 828-838. -/
inductive Column where
  | neutron
  | fission
  | capture
  | mt (n : Int)
deriving DecidableEq

/-- `SpinGroup`, lines 881-901; the parity is `true` for `'+'`. -/
structure Group where
  spin : ℚ
  parity : Bool
  channels : List Channel
  columns : List Column
  rows : List (List ℚ)
deriving DecidableEq

/-- `RMatrixLimited`. -/
structure Rml where
  emin : ℚ
  emax : ℚ
  reduced : Bool
  formalism : Int
  pairs : List Pair
  groups : List Group
deriving DecidableEq

/-- A row of case A, line 995. -/
structure RowA where
  l : Int
  j : ℚ
  d : ℚ
  amun : ℚ
  gn : ℚ
  gg : ℚ
  gf : ℚ
deriving DecidableEq

/-- A row of case B, line 1025. -/
structure RowB where
  l : Int
  j : ℚ
  d : ℚ
  amun : ℚ
  gn0 : ℚ
  gg : ℚ
  gf : List ℚ
deriving DecidableEq

/-- A row of case C, line 1052. -/
structure RowC where
  l : Int
  j : ℚ
  e : ℚ
  d : ℚ
  gx : ℚ
  gn0 : ℚ
  gg : ℚ
  gf : ℚ
deriving DecidableEq

/-- The parameters of an unresolved range. -/
inductive UnrPar where
  | a (rows : List RowA)
  | b (tables : List (List RowB))
  | c (rows : List RowC)
deriving DecidableEq

/-- `Unresolved`. -/
structure Unr where
  spin : ℚ
  emin : ℚ
  emax : ℚ
  scattering : Radius
  energies : Option (List ℚ)
  par : UnrPar
  background : Bool
deriving DecidableEq

/-- A range. -/
inductive Range where
  | radius (b : Base)
  | bw (r : Bw)
  | rm (r : Rm)
  | rml (r : Rml)
  | unr (r : Unr)
deriving DecidableEq

/-- A part of a file that is read. -/
abbrev Reader (α : Type) := List Line → Except PyErr (α × List Line)

/-- The same part so many times. -/
def many {α : Type} (rd : Reader α) : Nat → Reader (List α)
  | 0, f => .ok ([], f)
  | n + 1, f => do
    let (a, f) ← rd f
    let (as, f) ← many rd n f
    return (a :: as, f)

/-- So many rows, from the `i`-th on. -/
def rowsFrom {α : Type} (row : Nat → Except PyErr α) : Nat → Nat → Except PyErr (List α)
  | _, 0 => .ok []
  | i, n + 1 => do
    let a ← row i
    let as ← rowsFrom row (i + 1) n
    return (a :: as)

open ASAPy.Decay (nth)

/-- The number of elements of `values[0::6]`. -/
def count6 (vs : List ℚ) : Nat := (vs.length + 5) / 6

/-- The energy-dependent scattering radius, lines 337-338, 597-598, 971-972: it is there if NRO is not 0. -/
def readRadius (nro : Int) : Reader (Option Radius) := fun f =>
  if nro ≠ 0 then do
    let (_, regions, points, f) ← getTab1 f
    return (some (.table regions points), f)
  else .ok (none, f)

/-! ### Scattering radius only -/

/-- `ResonanceRange.from_endf`, lines 174-211; the mass is that of the target. -/
def readOnly (mass : ℚ) (items : Cont) : Reader Range := fun f =>
  if items.n1 ≠ 0 then .error .assertionError
  else do
    let (c, f) ← getCont f
    return (.radius ⟨c.c1, items.c1, items.c2, [(0, .fromMass mass)], [(0, .const c.c2)]⟩, f)

/-! ### Breit-Wigner -/

/-- The `i`-th record, lines 377-390. -/
def bwRow (l : Int) (competitive : Int) (vs : List ℚ) (i : Nat) : Except PyErr BwRow := do
  let e ← nth vs (6 * i)
  let j ← nth vs (6 * i + 1)
  let gt ← nth vs (6 * i + 2)
  let gn ← nth vs (6 * i + 3)
  let gg ← nth vs (6 * i + 4)
  let gf ← nth vs (6 * i + 5)
  return ⟨e, l, j, gt, gn, gg, gf, if competitive > 0 then gt - (gn + gg + gf) else 0⟩

/-- A turn of the loop over l, lines 351-390: the items of the record and its rows. -/
def bwBlock : Reader (Cont × List BwRow) := fun f => do
  let (c, vs, f) ← getList f
  let rows ← rowsFrom (bwRow c.l1 c.l2 vs) 0 (count6 vs)
  return ((c, rows), f)

/-- Lines 361-375. -/
def bwRadii (nro naps : Int) (ap : Radius) (ape : Option Radius) (d : List (Int × Radius) × List (Int × Radius)) (c : Cont) :
    List (Int × Radius) × List (Int × Radius) :=
  if nro = 0 then
    (if naps = 0 then Dict.set d.1 c.l1 (.fromMass c.c1) else if naps = 1 then Dict.set d.1 c.l1 ap else d.1, Dict.set d.2 c.l1 ap)
  else if nro = 1 then
    (if naps = 0 then Dict.set d.1 c.l1 (.fromMass c.c1) else if naps = 1 then Dict.set d.1 c.l1 (ape.getD ap)
      else if naps = 2 then Dict.set d.1 c.l1 ap else d.1, Dict.set d.2 c.l1 (ape.getD ap))
  else d

/-- `MultiLevelBreitWigner.from_endf`, lines 313-403. -/
def readBw (multi : Bool) (items : Cont) : Reader Range := fun f => do
  let (ape, f) ← readRadius items.n1 f
  let (c, f) ← getCont f
  let (blocks, f) ← many bwBlock c.n1.toNat f
  match blocks.getLast? with
  | none => .error .unboundLocal
  | some last =>
    let d := (blocks.map (·.1)).foldl (bwRadii items.n1 items.n2 (.const c.c2) ape) ([], [])
    return (.bw ⟨multi, ⟨c.c1, items.c1, items.c2, d.1, d.2⟩, blocks.foldl (fun q b => Dict.set q b.1.l1 b.1.c2) [], last.1.c1, blocks.flatMap (·.2)⟩, f)

/-! ### Reich-Moore -/

/-- The `i`-th record, lines 638-647. -/
def rmRow (l : Int) (vs : List ℚ) (i : Nat) : Except PyErr RmRow := do
  let e ← nth vs (6 * i)
  let j ← nth vs (6 * i + 1)
  let gn ← nth vs (6 * i + 2)
  let gg ← nth vs (6 * i + 3)
  let gfa ← nth vs (6 * i + 4)
  let gfb ← nth vs (6 * i + 5)
  return ⟨e, l, j, gn, gg, gfa, gfb⟩

/-- A turn of the loop over l, lines 612-647. -/
def rmBlock : Reader (Cont × List RmRow) := fun f => do
  let (c, vs, f) ← getList f
  let rows ← rowsFrom (rmRow c.l1 vs) 0 (count6 vs)
  return ((c, rows), f)

/-- Line 614: the radius of this l, or that of the range. -/
def apl (ap : ℚ) (c : Cont) : Radius := if c.c2 ≠ 0 then .const c.c2 else .const ap

/-- Lines 621-636. -/
def rmRadii (nro naps : Int) (ap : ℚ) (ape : Option Radius) (d : List (Int × Radius) × List (Int × Radius)) (c : Cont) :
    List (Int × Radius) × List (Int × Radius) :=
  if nro = 0 then
    (if naps = 0 then Dict.set d.1 c.l1 (.fromMass c.c1) else if naps = 1 then Dict.set d.1 c.l1 (apl ap c) else d.1, Dict.set d.2 c.l1 (apl ap c))
  else if nro = 1 then
    if naps = 0 then (Dict.set d.1 c.l1 (.fromMass c.c1), Dict.set d.2 c.l1 (ape.getD (.const ap)))
    else if naps = 1 then (Dict.set d.1 c.l1 (ape.getD (.const ap)), Dict.set d.2 c.l1 (ape.getD (.const ap)))
    else if naps = 2 then (Dict.set d.1 c.l1 (apl ap c), Dict.set d.2 c.l1 (ape.getD (.const ap)))
    else d
  else d

/-- `ReichMoore.from_endf`, lines 574-662. -/
def readRm (items : Cont) : Reader Range := fun f => do
  let (ape, f) ← readRadius items.n1 f
  let (c, f) ← getCont f
  let (blocks, f) ← many rmBlock c.n1.toNat f
  match blocks.getLast? with
  | none => .error .unboundLocal
  | some last =>
    let d := (blocks.map (·.1)).foldl (rmRadii items.n1 items.n2 c.c2 ape) ([], [])
    return (.rm ⟨⟨c.c1, items.c1, items.c2, d.1, d.2⟩, blocks.flatMap (·.2), decide (c.l2 = 1), c.n2, last.1.c1⟩, f)

/-! ### R-matrix limited -/

/-- Lines 775-790. -/
def pairOf (vs : List ℚ) (i : Nat) : Except PyErr Pair := do
  let m1 ← nth vs (12 * i)
  let z1 ← nth vs (12 * i + 2)
  let s1 ← nth vs (12 * i + 4)
  let p1 ← nth vs (12 * i + 10)
  let m2 ← nth vs (12 * i + 1)
  let z2 ← nth vs (12 * i + 3)
  let s2 ← nth vs (12 * i + 5)
  let p2 ← nth vs (12 * i + 11)
  let q ← nth vs (12 * i + 6)
  let pen ← nth vs (12 * i + 7)
  let sh ← nth vs (12 * i + 8)
  let mt ← nth vs (12 * i + 9)
  return ⟨⟨m1, trunc z1, s1, p1⟩, ⟨m2, trunc z2, s2, p2⟩, q, pen, sh, trunc mt⟩

/-- `list[k - 1]`, lines 808-809: for 0 it is the last element, as for any negative index that is in range. -/
def pairAt (pairs : List Pair) (k : Int) : Except PyErr Pair :=
  match if k - 1 < 0 then (if k - 1 + pairs.length < 0 then none else pairs[(k - 1 + pairs.length).toNat]?) else pairs[(k - 1).toNat]? with
  | none => .error .indexError
  | some p => .ok p

/-- Lines 806-815. -/
def channelOf (pairs : List Pair) (vs : List ℚ) (j : Nat) : Except PyErr Channel := do
  let k ← nth vs (6 * j)
  let p ← pairAt pairs (trunc k)
  let l ← nth vs (6 * j + 1)
  let s ← nth vs (6 * j + 2)
  let b ← nth vs (6 * j + 3)
  let e ← nth vs (6 * j + 4)
  let t ← nth vs (6 * j + 5)
  return ⟨p, l, s, b, e, t⟩

/-- Lines 821-825: energy and widths of a resonance. -/
def groupRow (n m : Nat) (vs : List ℚ) (j : Nat) : Except PyErr (List ℚ) := do
  let e ← nth vs (6 * m * j)
  let ws ← rowsFrom (fun k => nth vs (6 * m * j + k + 1)) 0 n
  return (e :: ws)

/-- Lines 828-838. -/
def columnOf (c : Channel) : Column :=
  if c.pair.mt = 2 then .neutron else if c.pair.mt = 18 then .fission else if c.pair.mt = 102 then .capture else .mt c.pair.mt

/-- Lines 847-861: an optional extension, read and dropped. -/
def readExtension (k : Int) : Reader Unit := fun f =>
  if k > 0 then do
    let (c, _, f) ← getList f
    if c.n1 = 1 then do
      let (_, _, _, f) ← getTab1 f
      let (_, _, _, f) ← getTab1 f
      return ((), f)
    else return ((), f)
  else .ok ((), f)

/-- Lines 796-801: spin and parity. -/
def spinParity (c : Cont) : ℚ × Bool := if c.c1 = 0 then (c.c1, decide (c.c2 = 1)) else (|c.c1|, decide (0 < c.c1))

/-- A spin group, lines 794-861. -/
def readGroup (pairs : List Pair) : Reader Group := fun f => do
  let (c, vs, f) ← getList f
  let chs ← rowsFrom (channelOf pairs vs) 0 c.n2.toNat
  let (c', vs', f) ← getList f
  let rows ← rowsFrom (groupRow c.n2.toNat (c.n2 / 6 + 1).toNat vs') 0 c'.l2.toNat
  let (_, f) ← readExtension c.l1 f
  let (_, f) ← readExtension c.l2 f
  return (⟨(spinParity c).1, (spinParity c).2, chs, chs.map columnOf, rows⟩, f)

/-- `RMatrixLimited.from_endf`, lines 743-867. -/
def readRml (items : Cont) : Reader Range := fun f => do
  let (c, f) ← getCont f
  let (c', vs, f) ← getList f
  let pairs ← rowsFrom (pairOf vs) 0 (c'.n2 / 2).toNat
  let (groups, f) ← many (readGroup pairs) c.n1.toNat f
  return (.rml ⟨items.c1, items.c2, decide (c.l1 = 1), c.l2, pairs, groups⟩, f)

/-! ### Unresolved -/

/-- Lines 993-995. -/
def rowA (l : Int) (vs : List ℚ) (i : Nat) : Except PyErr RowA := do
  -- unpacking of a slice of less than five values is a ValueError
  match (vs.drop (6 * i)).take 5 with
  | [d, j, amun, gn, gg] => .ok ⟨l, j, d, amun, gn, gg, 0⟩
  | _ => .error .valueError

/-- Lines 989-995. -/
def blockA : Reader (List RowA) := fun f => do
  let (c, vs, f) ← getList f
  let rows ← rowsFrom (rowA c.l1 vs) 0 c.n2.toNat
  return (rows, f)

/-- Lines 1016-1025, without the distribution over energies: the row and the number of times it is appended. -/
def rowB (l : Int) : Reader (RowB × Nat) := fun f => do
  let (_, vs, f) ← getList f
  let d ← nth vs 0
  let j ← nth vs 1
  let amun ← nth vs 2
  let gn0 ← nth vs 3
  let gg ← nth vs 4
  return ((⟨l, j, d, amun, gn0, gg, vs.drop 6⟩, (vs.drop 6).length), f)

/-- Lines 1011-1016. -/
def blockB : Reader (List (RowB × Nat)) := fun f => do
  let (c, f) ← getCont f
  many (rowB c.l1) c.n1.toNat f

/-- Lines 1024-1025: the row is appended to the tables of the first energies; an energy that is not there is an IndexError. -/
def spreadB (tables : List (List RowB)) (r : RowB × Nat) : Except PyErr (List (List RowB)) :=
  if tables.length < r.2 then .error .indexError else .ok (tables.mapIdx fun k t => if k < r.2 then t ++ [r.1] else t)

/-- The rows of all blocks. Simplification: the code appends the rows while it reads; an exception of one or the other is the only difference. -/
def spreadAll : List (List RowB) → List (RowB × Nat) → Except PyErr (List (List RowB))
  | ts, [] => .ok ts
  | ts, r :: rs => do
    let ts ← spreadB ts r
    spreadAll ts rs

/-- Lines 1044-1052. -/
def rowC (l : Int) (j : ℚ) (vs : List ℚ) (k : Nat) : Except PyErr RowC := do
  let e ← nth vs (6 * k)
  let d ← nth vs (6 * k + 1)
  let gx ← nth vs (6 * k + 2)
  let gn0 ← nth vs (6 * k + 3)
  let gg ← nth vs (6 * k + 4)
  let gf ← nth vs (6 * k + 5)
  return ⟨l, j, e, d, gx, gn0, gg, gf⟩

/-- Lines 1038-1052; lines 1041-1044 need six values. -/
def rowsC (l : Int) : Reader (List RowC) := fun f => do
  let (c, vs, f) ← getList f
  let _ ← nth vs 5
  let rows ← rowsFrom (rowC l c.c1 vs) 1 c.n2.toNat
  return (rows, f)

/-- Lines 1034-1052. -/
def blockC : Reader (List RowC) := fun f => do
  let (c, f) ← getCont f
  let (rs, f) ← many (rowsC c.l1) c.n1.toNat f
  return (rs.flatten, f)

/-- `Unresolved.from_endf`, lines 948-1061. -/
def readUnr (fission : Bool) (items : Cont) : Reader Range := fun f => do
  let (ape, f) ← readRadius items.n1 f
  if fission = true ∧ items.l2 = 1 then do
    let (c, es, f) ← getList f
    let (bs, f) ← many blockB c.n2.toNat f
    let ts ← spreadAll (es.map fun _ => []) bs.flatten
    return (.unr ⟨c.c1, items.c1, items.c2, ape.getD (.const c.c2), some es, .b ts, decide (c.l1 = 0)⟩, f)
  else do
    let (c, f) ← getCont f
    if items.l2 = 1 then do
      let (bs, f) ← many blockA c.n1.toNat f
      return (.unr ⟨c.c1, items.c1, items.c2, ape.getD (.const c.c2), none, .a bs.flatten, decide (c.l1 = 0)⟩, f)
    else if items.l2 = 2 then do
      let (bs, f) ← many blockC c.n1.toNat f
      return (.unr ⟨c.c1, items.c1, items.c2, ape.getD (.const c.c2), none, .c bs.flatten, decide (c.l1 = 0)⟩, f)
    else .error .unboundLocal

/-! ### The section -/

/-- `_FORMALISMS[formalism].from_endf`, lines 110 and 1064-1068. -/
def readResolved (mass : ℚ) (items : Cont) : Reader Range :=
  if items.l2 = 0 then readOnly mass items
  else if items.l2 = 1 then readBw false items
  else if items.l2 = 2 then readBw true items
  else if items.l2 = 3 then readRm items
  else if items.l2 = 7 then readRml items
  else fun _ => .error .keyError

/-- A turn of the inner loop, lines 103-117: the range, or nothing for other flags. -/
def readRange (mass : ℚ) (fission : Bool) : Reader (Option Range) := fun f => do
  let (items, f) ← getCont f
  if items.l1 = 0 ∨ items.l1 = 1 then do
    let (r, f) ← readResolved mass items f
    return (some r, f)
  else if items.l1 = 2 then do
    let (r, f) ← readUnr fission items f
    return (some r, f)
  else return (none, f)

/-- The ranges of an isotope. The variable `erange` keeps the last one: for a flag that is none of 0, 1, 2 it is appended again. -/
def readRanges (mass : ℚ) (fission : Bool) : Nat → List Range → Reader (List Range)
  | 0, acc, f => .ok (acc, f)
  | n + 1, acc, f => do
    let (r, f) ← readRange mass fission f
    match r with
    | some r => readRanges mass fission n (acc ++ [r]) f
    | none =>
      match acc.getLast? with
      | none => .error .unboundLocal
      | some r => readRanges mass fission n (acc ++ [r]) f

/-- The isotopes, lines 97-117. -/
def readIsotopes (mass : ℚ) : Nat → List Range → Reader (List Range)
  | 0, acc, f => .ok (acc, f)
  | n + 1, acc, f => do
    let (c, f) ← getCont f
    let (acc, f) ← readRanges mass (decide (c.l2 = 1)) c.n1.toNat acc f
    readIsotopes mass n acc f

/-- `Resonances.from_endf`, lines 76-119, of section (2, 151). -/
def fromEndf (mass : ℚ) (f : List Line) : Except PyErr (List Range) := do
  let (h, f) ← getHead f
  let (rs, _) ← readIsotopes mass h.n1.toNat [] f
  return rs

/-- Is the range one of class `Unresolved`? -/
def Range.isUnr : Range → Bool
  | .unr _ => true
  | _ => false

/-- `Resonances.resolved`, lines 50-59. -/
def resolved (rs : List Range) : Except PyErr (Option Range) :=
  match rs.filter fun r => !r.isUnr with
  | [] => .ok none
  | [r] => .ok (some r)
  | _ => .error .valueError

/-- `Resonances.unresolved`, lines 61-67. -/
def unresolved (rs : List Range) : Option Range := rs.find? Range.isUnr

end ASAPy.Res
