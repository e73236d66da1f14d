import Verif.Tab1D.Model
import Verif.Dict
import Mathlib.Data.List.Sort
import Mathlib.Data.List.Dedup
import Mathlib.Algebra.Order.Floor.Ring

/-!
# Model of sums of functions and of the energy released by fission (ASAPy/data/function.py 17-54, 403-590; ASAPy/data/fission_energy.py)

Functions are tabulated or polynomials. Reading the records of MF 1, MT 458 is modelled from the numbers on (`Verif.Endf` models the records); HDF5 is left out.
-/

namespace ASAPy.Func

/-- A `Tabulated1D` or a `Polynomial` (its coefficients, the constant first). -/
inductive Fn (K : Type*) where
  | tab (t : Tab1D K)
  | poly (c : List K)
deriving DecidableEq

variable {K : Type*} [Field K] [LinearOrder K] [ExpLog K]

/-- `numpy.polynomial.Polynomial.__call__` with its default domain and window. -/
def polyEval : List K → K → K
  | [], _ => 0
  | c :: cs, v => c + v * polyEval cs v

/-- `f(v)` for a number. -/
def Fn.eval : Fn K → K → Except PyErr K
  | .tab t, v => t.eval v
  | .poly c, v => .ok (polyEval c v)

/-- `np.union1d`: sorted, without repetitions. -/
def union1d (a b : List K) : List K := (a ++ b).dedup.insertionSort (· ≤ ·)

/-- function.py 36-41: the arguments of the tabulated functions. -/
def tabs : List (Fn K) → List (Tab1D K)
  | [] => []
  | .tab t :: fs => t :: tabs fs
  | .poly _ :: fs => tabs fs

def polys : List (Fn K) → List (List K)
  | [] => []
  | .tab _ :: fs => polys fs
  | .poly c :: fs => c :: polys fs

/-- function.py 45: `reduce(np.union1d, xs)`. One list is taken as it is. -/
def unionAll : List (List K) → List K
  | [] => []
  | x :: xs => xs.foldl union1d x

/-- function.py 53: `[sum(x) for x in zip_longest(*funcs, fillvalue=0.0)]`, two at a time. -/
def addCoeffs : List K → List K → List K
  | [], b => b
  | a, [] => a
  | x :: a, y :: b => (x + y) :: addCoeffs a b

/-- function.py 48, one element: the sum of the values at `v`. -/
def sumAt (fs : List (Fn K)) (v : K) : Except PyErr K := (fs.mapM fun f => Fn.eval f v).map List.sum

/-- function.py 17-54. Without any function (53-54) `Polynomial([])` raises ValueError. -/
def sumFunctions (fs : List (Fn K)) : Except PyErr (Fn K) :=
  if (tabs fs).any fun t => t.interpolation.any fun l => decide (l ≠ 2) then .error .valueError      -- 39-41
  else if tabs fs ≠ [] then
    let x := unionAll ((tabs fs).map (·.x))
    match x.mapM (sumAt fs) with                                     -- 48
    | .error e => .error e
    | .ok y => .ok (.tab (Tab1D.linlin x y))
  else if (polys fs).foldl addCoeffs [] = [] then .error .valueError
  else .ok (.poly ((polys fs).foldl addCoeffs []))

/-! ### Evaluation at a list of integers -/

/-- Conversion of a number to an integer, as numpy does on assignment into an integer array. -/
def trunc [FloorRing K] (v : K) : Int := if 0 ≤ v then ⌊v⌋ else ⌈v⌉

/-- `Tabulated1D.__call__` (function.py 154-210) for an iterable of integers: `np.array(x)` is an integer array and so is `np.zeros_like(x)`; what is assigned to it (186-208) is
truncated. An empty iterable gives an array of floats. -/
def callInts [FloorRing K] (t : Tab1D K) (vs : List Int) : Except PyErr (List Int) := (vs.mapM fun (v : Int) => t.eval (v : K)).map (·.map trunc)

/-- An element of the argument list: a float or an integer. -/
inductive Arg (K : Type*) where
  | flt (v : K)
  | int (v : Int)

/-- The number. -/
def Arg.val : Arg K → K
  | .flt v => v
  | .int v => (v : K)

/-- The integers, if there are only integers. -/
def intsOf : List (Arg K) → Option (List Int)
  | [] => some []
  | .flt _ :: _ => none
  | .int v :: l => (intsOf l).map (v :: ·)

/-- function.py 156-158, 210: the call for a list. If one element is a float, `np.array(x)` is an array of floats. -/
def callList [FloorRing K] (t : Tab1D K) (vs : List (Arg K)) : Except PyErr (List K) :=
  match intsOf vs with
  | some l => (callInts t l).map (·.map fun (i : Int) => (i : K))
  | none => vs.mapM fun a => t.eval a.val

/-! ### Regions1D -/

/-- function.py 563-571 for a number: `functions[searchsorted(breakpoints, x)](x)`. -/
def regions1D (fns : List (Fn K)) (breakpoints : List K) (v : K) : Except PyErr K :=
  match fns[Np.searchsortedLeft breakpoints v]? with
  | some f => f.eval v
  | none => .error .indexError

/-! ### FissionEnergyRelease -/

/-- fission_energy.py 92-100. -/
structure Release (K : Type*) where
  fragments : Fn K
  promptNeutrons : Fn K
  delayedNeutrons : Fn K
  promptPhotons : Fn K
  delayedPhotons : Fn K
  betas : Fn K
  neutrinos : Fn K

/-- fission_energy.py 131-135. -/
def Release.recoverable (r : Release K) : Except PyErr (Fn K) :=
  sumFunctions [r.fragments, r.promptNeutrons, r.delayedNeutrons, r.promptPhotons, r.delayedPhotons, r.betas]

/-- fission_energy.py 137-142. -/
def Release.total (r : Release K) : Except PyErr (Fn K) :=
  sumFunctions [r.fragments, r.promptNeutrons, r.delayedNeutrons, r.promptPhotons, r.delayedPhotons, r.betas, r.neutrinos]

/-- fission_energy.py 144-149. -/
def Release.qPrompt (r : Release K) : Except PyErr (Fn K) :=
  sumFunctions [r.fragments, r.promptNeutrons, r.promptPhotons, .poly [0, -1]]

/-- fission_energy.py 151-154. -/
def Release.qRecoverable (r : Release K) : Except PyErr (Fn K) := do
  let f ← r.recoverable
  sumFunctions [f, .poly [0, -1]]

/-- fission_energy.py 156-159. -/
def Release.qTotal (r : Release K) : Except PyErr (Fn K) := do
  let f ← r.total
  sumFunctions [f, .poly [0, -1]]

/-- Python's `data[i::18]`. -/
def every18 (data : List K) (i : Nat) : List K := (List.range ((data.length - i + 17) / 18)).filterMap fun k => data[i + 18 * k]?

/-- fission_energy.py 17-21, `_NAMES`. -/
inductive Name where
  | fragments | promptNeutrons | delayedNeutrons | promptPhotons | delayedPhotons | betas | neutrinos | recoverable | total
deriving DecidableEq

def names : List Name := [.fragments, .promptNeutrons, .delayedNeutrons, .promptPhotons, .delayedPhotons, .betas, .neutrinos, .recoverable, .total]

/-- fission_energy.py 255-261: a second order coefficient given in MeV is converted. -/
def fixSecond (npoly : Nat) (c : List K) : Except PyErr (List K) :=
  if npoly = 2 then match c[2]? with
    | none => .error .indexError
    | some s => .ok (if |s| * (5 * 10 ^ 6) ^ 2 > 10 ^ 8 then c.set 2 (s / 10 ^ 6) else c)
  else .ok c

/-- fission_energy.py 302-313: the Sher-Beck formula for prompt neutrons. -/
def sherBeck (z : K) : Fn K → Except PyErr (Fn K)
  | .tab t => match t.y.head? with
    | none => .error .indexError
    | some y0 => .ok (.tab { t with y := List.zipWith (fun x y => z + 1307 / 1000 * x - 807 * 10 ^ 4 * (y - y0)) t.x t.y })
  | .poly c =>
    if c.length = 1 then .ok (.poly [z, 1307 / 1000])
    else match c[1]? with
      | none => .error .indexError
      | some c1 => .ok (.poly ([z, 1307 / 1000 - 807 * 10 ^ 4 * c1] ++ (c.drop 2).map fun a => -(807 * 10 ^ 4) * a))

/-- fission_energy.py 255-315 for one component: `coeffs` to a function. `nu` is the yield of prompt or total neutrons, or the exception raised looking for it (282-301). -/
def component (npoly : Nat) (nu : Except PyErr (Fn K)) (name : Name) (c : List K) : Except PyErr (Fn K) := do
  let c ← fixSecond npoly c
  if npoly > 0 then .ok (.poly c)                                                     -- 265-267
  else match c.head? with                                                             -- 271
    | none => .error .indexError
    | some z => match name with
      | .delayedPhotons | .betas => .ok (.poly [z, -(75 / 1000)])                     -- 272-273
      | .neutrinos => .ok (.poly [z, -(105 / 1000)])                                  -- 274-275
      | .promptNeutrons => do
        let f ← nu
        sherBeck z f
      | _ => .ok (.poly c)                                                            -- 314-315

/-- fission_energy.py 320-330: tabulated components replace others. `_NAMES[ifc - 1]` with Python's negative indices. -/
def replace : List (Int × Tab1D K) → List (Name × Fn K) → Except PyErr (List (Name × Fn K))
  | [], d => .ok d
  | (ifc, t) :: rest, d => match pyGet names (ifc - 1) with
    | none => .error .indexError
    | some n => replace rest (Dict.set d n (.tab t))

/-- fission_energy.py 333: `cls(**functions)`: all seven names and no others. -/
def build (d : List (Name × Fn K)) : Except PyErr (Release K) :=
  if (Dict.keys d).any fun n => decide (n = .recoverable ∨ n = .total) then .error .typeError
  else match Dict.get? d .fragments, Dict.get? d .promptNeutrons, Dict.get? d .delayedNeutrons, Dict.get? d .promptPhotons, Dict.get? d .delayedPhotons, Dict.get? d .betas,
      Dict.get? d .neutrinos with
  | some a, some b, some c, some e, some f, some g, some h => .ok ⟨a, b, c, e, f, g, h⟩
  | _, _, _, _, _, _, _ => .error .typeError

/-- fission_energy.py 233-333: `npoly`, the numbers of the LIST record, and the TAB1 records with their `ifc` (none unless `lfc` is 1). -/
def fromEndf (npoly : Nat) (data : List K) (nu : Except PyErr (Fn K)) (tab1 : List (Int × Tab1D K)) : Except PyErr (Release K) := do
  let d ← (names.take 7).zipIdx.mapM fun (n, i) => do
    let f ← component npoly nu n (every18 data (2 * i))
    return (n, f)
  let d ← replace tab1 d
  build d

end ASAPy.Func
