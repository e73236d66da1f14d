import Verif.Res.Model

/-!
# Model of covariances of resonance parameters (ASAPy/data/resonance_covariance.py)

Line numbers are those of ASAPy/data/resonance_covariance.py. A matrix is a size and a function of two indices; only the entries below the size belong to it.
Single- and multi-level Breit-Wigner ranges have the same code (they differ in the name of the formalism), Reich-Moore ranges a copy of it with other columns; the
common text is modelled once, with what differs in `Fmt`. Warnings are not modelled.
-/

namespace ASAPy.ResCov
open ASAPy.Endf ASAPy.Res
open ASAPy.Decay (nth)

/-- A square matrix. -/
structure Cov where
  n : Nat
  val : Nat → Nat → ℚ

/-- `np.triu_indices(n)`: the upper triangle by rows. -/
def triuIdx (n : Nat) : List (Nat × Nat) := (List.range n).flatMap fun i => (List.range (n - i)).map fun k => (i, i + k)

/-- `cov = np.zeros([n, n]); cov[np.triu_indices(n)] = vals`, lines 207-209, 416-418, 652-654: the values in order, one value for all (broadcasting), or a ValueError. -/
def setTriu (n : Nat) (vals : List ℚ) : Except PyErr Cov :=
  if vals.length = (triuIdx n).length then .ok ⟨n, fun i j => (((triuIdx n).zip vals).lookup (i, j)).getD 0⟩
  else
    match vals with
    | [v] => .ok ⟨n, fun i j => if i ≤ j ∧ j < n then v else 0⟩
    | _ => .error .valueError

/-- What differs between Breit-Wigner and Reich-Moore. -/
structure Fmt (ρ : Type) where
  /-- a row of `parameters` from six values; l and the competitive width follow -/
  row : ℚ → ℚ → ℚ → ℚ → ℚ → ℚ → ρ
  /-- lines 38-40: l, and the competitive width where there is the column, of the row of file 2 -/
  add : ρ → ρ → ρ
  energy : ρ → ℚ
  /-- the columns `params` of lines 245-246, 277-278 -/
  five : ρ → List ℚ
  /-- the uncertainties that are kept in the compact format, lines 437-443, 671 -/
  unc : List ℚ → List ℚ
  /-- is there a branch for LCOMP = 0? -/
  compat : Bool
  /-- the parameters of a range of file 2 -/
  ofRange : Range → Option (List ρ)
  /-- file 2 with other parameters -/
  toRange : Range → List ρ → Range

/-- Lines 437-443: the uncertainties of energy, neutron and capture width are kept, the others if they are not 0. Simplification:
less than six values are an IndexError in the code. -/
def bwUnc (vs : List ℚ) : List ℚ :=
  (vs.zipIdx.filter fun v => (v.2 = 1 ∨ v.2 = 2 ∨ v.2 = 5) ∧ v.1 ≠ 0 ∨ (v.2 = 0 ∨ v.2 = 3 ∨ v.2 = 4)).map (·.1)

/-- Line 671: all that are not 0 are kept. -/
def rmUnc (vs : List ℚ) : List ℚ := vs.filter fun v => v ≠ 0

/-- Breit-Wigner: lines 403-412 for the row. -/
def bwFmt : Fmt BwRow where
  row := fun e j gt gn gg gf => ⟨e, 0, j, gt, gn, gg, gf, 0⟩
  add := fun r f => { r with l := f.l, gx := f.gx }
  energy := fun r => r.energy
  five := fun r => [r.energy, r.gn, r.gg, r.gf, r.gx]
  unc := bwUnc
  compat := true
  ofRange := fun r => match r with | .bw b => some b.rows | _ => none
  toRange := fun r rows => match r with | .bw b => .bw { b with rows := rows } | r => r

/-- Reich-Moore: lines 639-648 for the row. -/
def rmFmt : Fmt RmRow where
  row := fun e j gn gg gfa gfb => ⟨e, 0, j, gn, gg, gfa, gfb⟩
  add := fun r f => { r with l := f.l }
  energy := fun r => r.energy
  five := fun r => [r.energy, r.gn, r.gg, r.gfa, r.gfb]
  unc := rmUnc
  compat := false
  ofRange := fun r => match r with | .rm b => some b.rows | _ => none
  toRange := fun r rows => match r with | .rm b => .rm { b with rows := rows } | r => r

/-- A covariance range: limits, `parameters` with their index, covariance, `mpar`, LCOMP, and the range of file 2 with the index of its parameters. -/
structure CovRange (ρ : Type) where
  emin : ℚ
  emax : ℚ
  rows : List ρ
  cov : Cov
  mpar : Nat
  lcomp : Int
  file2 : Range
  /-- `file2res.parameters` with the index of the DataFrame -/
  par2 : List (Nat × ρ)

section
variable {ρ : Type} (fmt : Fmt ρ)

/-! ### Reading -/

/-- `_add_file2_contributions`, lines 14-43. pandas sorts with quicksort; simplification: here equal energies keep their order. -/
def addFile2 (rows file2 : List ρ) : Except PyErr (List ρ) :=
  let s2 := file2.mergeSort fun a b => decide (fmt.energy a ≤ fmt.energy b)
  let s32 := rows.zipIdx.mergeSort fun a b => decide (fmt.energy a.1 ≤ fmt.energy b.1)
  if s2.length ≠ s32.length then .error .valueError
  else .ok (((s32.zipWith (fun r f => (fmt.add r.1 f, r.2)) s2).mergeSort fun a b => decide (a.2 ≤ b.2)).map (·.1))

/-- A row of `res_values[k::6]`, lines 403-412, 639-648, and of `values[k::12]`. -/
def rowAt (w : Nat) (vs : List ℚ) (i : Nat) : Except PyErr ρ := do
  let a ← nth vs (w * i)
  let b ← nth vs (w * i + 1)
  let c ← nth vs (w * i + 2)
  let d ← nth vs (w * i + 3)
  let e ← nth vs (w * i + 4)
  let f ← nth vs (w * i + 5)
  return fmt.row a b c d e f

/-- The number of elements of `vs[0::w]`. -/
def strided (w : Nat) (vs : List ℚ) : Nat := (vs.length + (w - 1)) / w

/-- A block of LCOMP = 1, lines 396-418, 632-654. -/
def blockGeneral : Reader (List ρ × Cov) := fun f => do
  let (c, vs, f) ← getList f
  let res := vs.take (c.n2.toNat * 6)
  let rows ← rowsFrom (rowAt fmt 6 res) 0 (strided 6 res)
  let cov ← setTriu (c.l1 * c.n2).toNat (vs.drop (c.n2.toNat * 6))
  return ((rows, cov), f)

/-- LCOMP = 1, lines 386-418, 621-654: the records of all short-range blocks, the matrix of the last one. The long-range blocks are not read. -/
def readGeneral : Reader (List ρ × Option Cov) := fun f => do
  let (c, f) ← getCont f
  let (bs, f) ← many (blockGeneral fmt) c.n1.toNat f
  return ((bs.flatMap (·.1), bs.getLast?.map (·.2)), f)

/-- LCOMP = 2, lines 422-451, 658-680. -/
def readCompact : Reader (List ρ × Option Cov) := fun f => do
  let (c, vs, f) ← getList f
  let unc := (List.range c.n2.toNat).flatMap fun i => fmt.unc ((vs.drop (12 * i + 6)).take 6)
  let rows ← rowsFrom (rowAt fmt 12 vs) 0 (strided 12 vs)
  let ⟨n, corr, f⟩ ← getIntg f
  if unc.length = n then
    return ((rows, some ⟨n, fun i j => if h' : i < n ∧ j < n then unc.getD i 0 * corr ⟨i, h'.1⟩ ⟨j, h'.2⟩ * unc.getD j 0 else 0⟩), f)
  else .error .valueError

/-- `cov[i, j] = v`. -/
def Cov.set (m : Cov) (i j : Nat) (v : ℚ) : Except PyErr Cov :=
  if i < m.n ∧ j < m.n then .ok { m with val := fun a b => if a = i ∧ b = j then v else m.val a b } else .error .indexError

/-- `np.pad(cov, ((0, 4), (0, 4)))`. -/
def Cov.pad (m : Cov) : Cov := ⟨m.n + 4, fun a b => if a < m.n ∧ b < m.n then m.val a b else 0⟩

/-- The assignments for one resonance, lines 469-474. The slice of line 470 has one element. -/
def setCompat (m : Cov) (k : Nat) (vs : List ℚ) : Except PyErr Cov := do
  let m ← m.set k k (← nth vs 0)
  let m ← m.set (k + 1) (k + 1) (← nth vs 1)
  let m ← m.set (k + 1) (k + 3) (← nth vs 4)
  let m ← m.set (k + 2) (k + 2) (← nth vs 3)
  let m ← m.set (k + 2) (k + 3) (← nth vs 5)
  m.set (k + 3) (k + 3) (← nth vs 6)

/-- The resonances of one l, lines 461-479: those left, the number of the present one in the block, the number of all before it. -/
def compatRows (vs : List ℚ) : Nat → Nat → Nat → Cov → Except PyErr (List ρ × Nat × Cov)
  | 0, _, k, m => .ok ([], k, m)
  | left + 1, j, k, m => do
    let one := (vs.drop (18 * j)).take 18
    let r ← rowAt fmt 6 one 0
    let m ← setCompat m (4 * k) (one.drop 6)
    let m := if left = 0 then m else m.pad
    let (rs, k, m) ← compatRows vs left (j + 1) (k + 1) m
    return (r :: rs, k, m)

/-- The blocks of all l, lines 458-479. -/
def compatBlocks : Nat → Nat → Cov → Reader (List ρ × Cov)
  | 0, _, m, f => .ok (([], m), f)
  | n + 1, k, m, f => do
    let (c, vs, f) ← getList f
    let (rs, k, m) ← compatRows fmt vs c.n2.toNat 0 k m
    let ((rss, m), f) ← compatBlocks n k m f
    return ((rs ++ rss, m), f)

/-- LCOMP = 0, lines 454-479. -/
def readCompat (nls : Nat) : Reader (List ρ × Option Cov) := fun f => do
  let ((rs, m), f) ← compatBlocks fmt nls 0 ⟨4, fun _ _ => 0⟩ f
  return ((rs, some m), f)

/-- `from_endf`, lines 350-497, 583-699: `items` is the first record of the range, `resonance` the range of file 2. A range of file 2 of another formalism has other
columns; simplification: that is a KeyError here. -/
def readCov (items : Cont) (resonance : Range) : Reader (CovRange ρ) := fun f => do
  let (_, f) ← readRadius items.n1 f
  let (c, f) ← getCont f
  let ((rows, cov), f) ←
    (if c.l2 = 1 then readGeneral fmt f
    else if c.l2 = 2 then readCompact fmt f
    else if c.l2 = 0 ∧ fmt.compat = true then readCompat fmt c.n1.toNat f
    else .error .unboundLocal)
  match cov with
  | none => .error .unboundLocal
  | some m =>
    -- ZeroDivisionError
    if rows.length = 0 then .error .exception
    else
      match fmt.ofRange resonance with
      | none => .error .keyError
      | some par => do
        let rows' ← addFile2 fmt rows par
        return (⟨items.c1, items.c2, rows', m, m.n / rows.length, c.l2, resonance, (List.range par.length).zip par⟩, f)

/-! ### Sampling -/

/-- Line 238: `cov + cov.T - np.diag(cov.diagonal())`. -/
def Cov.symm (m : Cov) : Cov := ⟨m.n, fun i j => m.val i j + m.val j i - (if i = j then m.val i i else 0)⟩

/-- Lines 245-251, 277-283: what is handed to `multivariate_normal`, a ValueError of that function if the sizes differ. -/
def sampleCall (r : CovRange ρ) : Except PyErr (List ℚ × Cov) :=
  let mean := r.rows.flatMap fun x => (fmt.five x).take r.mpar
  if mean.length = r.cov.n then .ok (mean, r.cov.symm) else .error .valueError

end

/-- `sample[k::m]`. -/
def stride {α : Type} (s : List α) (k m : Nat) : List α :=
  (List.range ((s.length - k + (m - 1)) / m)).filterMap fun i => s[k + m * i]?

/-- `xs[i]`. -/
def item {α : Type} (xs : List α) (i : Nat) : Except PyErr α :=
  match xs[i]? with
  | none => .error .indexError
  | some x => .ok x

/-- Addition of arrays, with broadcasting. -/
def npAdd (a b : List ℚ) : Except PyErr (List ℚ) :=
  if a.length = b.length then .ok (a.zipWith (· + ·) b)
  else
    match a, b with
    | [x], b => .ok (b.map (x + ·))
    | a, [y] => .ok (a.map (· + y))
    | _, _ => .error .valueError

/-- Lines 252-269: the parameters of a draw. -/
def decodeBw (rows : List BwRow) (mpar : Nat) (s : List ℚ) : Except PyErr (List BwRow) := do
  -- a step of 0 is a ValueError
  if mpar = 0 then .error .valueError
  else do
    let e := stride s 0 mpar
    let gn := stride s 1 mpar
    let gg := stride s 2 mpar
    let gf := if mpar > 3 then stride s 3 mpar else rows.map (·.gf)
    let gx := if mpar > 4 then stride s 4 mpar else rows.map (·.gx)
    let t ← npAdd gn gg
    let t ← npAdd t gf
    let gt ← npAdd t gx
    rowsFrom (fun i => do
      let e ← item e i
      let r ← item rows i
      let gt ← item gt i
      let gn ← item gn i
      let gg ← item gg i
      let gf ← item gf i
      let gx ← item gx i
      return ⟨e, r.l, r.j, gt, gn, gg, gf, gx⟩) 0 e.length

/-- Lines 284-300: the parameters of a draw; line 291 asks for `mpar > 3` where the fifth parameter is taken. -/
def decodeRm (rows : List RmRow) (mpar : Nat) (s : List ℚ) : Except PyErr (List RmRow) := do
  if mpar = 0 then .error .valueError
  else do
    let e := stride s 0 mpar
    let gn := stride s 1 mpar
    let gg := stride s 2 mpar
    let gfa := if mpar > 3 then stride s 3 mpar else rows.map (·.gfa)
    let gfb := if mpar > 3 then stride s 4 mpar else rows.map (·.gfb)
    rowsFrom (fun i => do
      let e ← item e i
      let r ← item rows i
      let gn ← item gn i
      let gg ← item gg i
      let gfa ← item gfa i
      let gfb ← item gfb i
      return ⟨e, r.l, r.j, gn, gg, gfa, gfb⟩) 0 e.length

/-- All draws. -/
def mapE {α β : Type} (f : α → Except PyErr β) : List α → Except PyErr (List β)
  | [] => .ok []
  | a :: as => do
    let b ← f a
    let bs ← mapE f as
    return (b :: bs)

/-- `sample`, lines 215-306; the draws that `multivariate_normal` returns are a function of what it is given. -/
def sample {ρ : Type} (fmt : Fmt ρ) (decode : List ρ → Nat → List ℚ → Except PyErr (List ρ)) (normal : List ℚ → Cov → List (List ℚ)) (r : CovRange ρ) :
    Except PyErr (List Range) := do
  let (mean, cov) ← sampleCall fmt r
  let pars ← mapE (decode r.rows r.mpar) (normal mean cov)
  return pars.map (fmt.toRange r.file2)

/-! ### Subsets -/

section
variable {ρ : Type}

/-- `cov[i, j]`. -/
def Cov.get (m : Cov) (i j : Nat) : Except PyErr ℚ := if i < m.n ∧ j < m.n then .ok (m.val i j) else .error .indexError

/-- The pairs of indices of lines 199-205: those of the upper triangle, for the resonances with these labels. -/
def subsetIdx (mpar : Nat) (idx : List Nat) : List (Nat × Nat) :=
  idx.flatMap fun a => (List.range mpar).flatMap fun i => idx.flatMap fun b => ((List.range mpar).filter fun j => a * mpar + i ≤ b * mpar + j).map fun j =>
    (a * mpar + i, b * mpar + j)

/-- `subset`, lines 164-213, for the column `value`. -/
def subset (fmt : Fmt ρ) (value : ρ → ℚ) (lo hi : ℚ) (r : CovRange ρ) : Except PyErr (CovRange ρ) := do
  let kept := r.par2.filter fun p => lo ≤ value p.2 ∧ value p.2 ≤ hi
  let vals ← mapE (fun p => r.cov.get p.1 p.2) (subsetIdx r.mpar (kept.map (·.1)))
  let m ← setTriu (kept.length * r.mpar) vals
  return { r with rows := kept.map (·.2), cov := m, file2 := fmt.toRange r.file2 (kept.map (·.2)), par2 := kept }

end

/-! ### The section -/

/-- A covariance range of the section. -/
inductive Any where
  | bw (multi : Bool) (r : CovRange BwRow)
  | rm (r : CovRange RmRow)

/-- `_FORMALISMS[formalism].from_endf`, lines 119 and 702-708. -/
def readAny (items : Cont) (resonance : Range) : Reader Any := fun f =>
  if items.l2 = 1 then do
    let (r, f) ← readCov bwFmt items resonance f
    return (.bw false r, f)
  else if items.l2 = 2 then do
    let (r, f) ← readCov bwFmt items resonance f
    return (.bw true r, f)
  else if items.l2 = 3 then do
    let (r, f) ← readCov rmFmt items resonance f
    return (.rm r, f)
  else .error .keyError

/-- The ranges of an isotope, lines 102-126: for each one, its number in the isotope is that of the range of file 2. Formalisms 0 and 7 are a NotImplementedError, which is
a RuntimeError. -/
def covRanges (ranges : List Range) : Nat → Nat → List Any → Reader (List Any)
  | 0, _, acc, f => .ok (acc, f)
  | n + 1, j, acc, f => do
    let (items, f) ← getCont f
    if items.l2 = 0 ∨ items.l2 = 7 then .error .runtimeError
    else if items.l1 = 0 ∨ items.l1 = 1 then do
      let res ← item ranges j
      let (r, f) ← readAny items res f
      covRanges ranges n (j + 1) (acc ++ [r]) f
    else covRanges ranges n (j + 1) acc f

/-- The isotopes, lines 96-126. -/
def covIsotopes (ranges : List Range) : Nat → List Any → Reader (List Any)
  | 0, acc, f => .ok (acc, f)
  | n + 1, acc, f => do
    let (c, f) ← getCont f
    let (acc, f) ← covRanges ranges c.n1.toNat 0 acc f
    covIsotopes ranges n acc f

/-- `ResonanceCovariances.from_endf`, lines 71-128, of section (32, 151). -/
def fromEndf (ranges : List Range) (f : List Line) : Except PyErr (List Any) := do
  let (h, f) ← getHead f
  let (rs, _) ← covIsotopes ranges h.n1.toNat [] f
  return rs

end ASAPy.ResCov
