import Verif.Multipole.Model
import Verif.Dict
import Verif.Chars

/-!
# Model of the HDF5 form of windowed multipole data (ASAPy/data/multipole.py)

The setters of lines 231-310, `from_hdf5`, 312-368, and `export_to_hdf5`, 491-535. A file holds the version and groups; datasets have a shape and a type of numbers. Names of nuclides
hold no `/`. What an export that raises leaves in the file is not modelled. `IOError` is `PyErr.exception`.
-/

namespace ASAPy.Multipole

/-- The types of numbers, `dtype`. -/
inductive DType where
  | complex
  | float
  | int
  | bool
deriving DecidableEq

/-- An array in a file; `val` are the elements as nested lists. -/
structure Arr (α : Type) where
  shape : List ℕ
  dtype : DType
  val : α

/-- The datasets of a group, lines 521-535. `none` is one that is missing. -/
structure WGroup where
  spacing : Option ℝ := none
  sqrtAWR : Option ℝ := none
  eMin : Option ℝ := none
  eMax : Option ℝ := none
  data : Option (Arr (List (List ℂ))) := none
  windows : Option (Arr (List (List Int))) := none
  broaden : Option (Arr (List Int)) := none
  curvefit : Option (Arr (List (List (List ℝ)))) := none

/-- `group[k].value`. -/
def dsetOf {α : Type} : Option α → Except PyErr α
  | none => .error .keyError
  | some v => .ok v

/-- `check_greater_than` with `equality=False`, lines 236-248 and 257-262. -/
noncomputable def checkPositive (x : ℝ) : Except PyErr ℝ := if 0 < x then .ok x else .error .valueError

/-- `check_greater_than` with `equality=True`, lines 250-255. -/
noncomputable def checkNonneg (x : ℝ) : Except PyErr ℝ := if 0 ≤ x then .ok x else .error .valueError

/-- The setter of `data`, lines 264-277. -/
def checkData (a : Arr (List (List ℂ))) : Except PyErr (ℕ × List (List ℂ)) :=
  match a.shape with
  | [_, c] =>
    if ¬ (c = 3 ∨ c = 4) then .error .valueError
    else if a.dtype ≠ .complex then .error .typeError
    else .ok (c, a.val)
  | _ => .error .valueError

/-- The setter of `windows`, lines 279-288; with it the length. -/
def checkWindows (a : Arr (List (List Int))) : Except PyErr (ℕ × List (List Int)) :=
  match a.shape with
  | [n, _] => if a.dtype ≠ .int then .error .typeError else .ok (n, a.val)
  | _ => .error .valueError

/-- The setter of `broaden_poly` after `astype(np.bool)`, lines 290-299 and 358; with it the length. -/
def checkBroaden (a : Arr (List Int)) : Except PyErr (ℕ × List Bool) :=
  match a.shape with
  | [n] => .ok (n, a.val.map fun v => decide (v ≠ 0))
  | _ => .error .valueError

/-- The setter of `curvefit`, lines 301-310; with it the shape. -/
def checkCurvefit (a : Arr (List (List (List ℝ)))) : Except PyErr ((ℕ × ℕ × ℕ) × List (List (List ℝ))) :=
  match a.shape with
  | [n, t, c] =>
    if ¬ (c = 2 ∨ c = 3) then .error .valueError
    else if a.dtype ≠ .float then .error .typeError
    else .ok ((n, t, c), a.val)
  | _ => .error .valueError

/-- `from_hdf5` from a group, lines 339-368. -/
noncomputable def fromGroup (name : List Char) (g : WGroup) : Except PyErr Wmp := do
  let spacing ← dsetOf g.spacing >>= checkPositive
  let sqrtAWR ← dsetOf g.sqrtAWR >>= checkPositive
  let eMin ← dsetOf g.eMin >>= checkNonneg
  let eMax ← dsetOf g.eMax >>= checkPositive
  let data ← dsetOf g.data >>= checkData
  let windows ← dsetOf g.windows >>= checkWindows
  let broaden ← dsetOf g.broaden >>= checkBroaden
  if broaden.1 ≠ windows.1 then .error .valueError
  else do
    let curvefit ← dsetOf g.curvefit >>= checkCurvefit
    if curvefit.1.1 ≠ windows.1 then .error .valueError
    else if curvefit.1.2.1 < 3 then .error .valueError
    else return { name := name, spacing := spacing, sqrtAWR := sqrtAWR, eMin := eMin, eMax := eMax, cols := data.1, data := data.2, windows := windows.2,
                  broaden := broaden.2, terms := curvefit.1.2.1, channels := curvefit.1.2.2, curvefit := curvefit.2 }

/-- A file: the version and the groups, in the order in which they were made. -/
structure WFile where
  version : Option (List Int) := none
  groups : List (List Char × WGroup) := []

/-- The first name of the list in alphabetical order: h5py lists groups by name. -/
def firstName : List (List Char) → Option (List Char)
  | [] => none
  | a :: l => match firstName l with
    | none => some a
    | some b => some (if decide (b < a) then b else a)

/-- Lines 331-351: the version of a file. -/
def checkVersion (f : WFile) : Except PyErr Unit :=
  match f.version with
  | none => .error .exception
  | some [major, _] => if major ≠ 1 then .error .exception else .ok ()
  | some _ => .error .valueError

/-- `from_hdf5` with the name of a file, lines 331-368. -/
noncomputable def fromFile (f : WFile) : Except PyErr Wmp := do
  checkVersion f
  match firstName (f.groups.map (·.1)) with
  | none => .error .indexError
  | some n =>
    match Dict.get? f.groups n with
    | none => .error .keyError
    | some g => fromGroup n g

/-- Lines 521-535: the datasets of an object. The shapes of the arrays are those that the object keeps. -/
def toGroup (m : Wmp) : WGroup :=
  { spacing := some m.spacing
    sqrtAWR := some m.sqrtAWR
    eMin := some m.eMin
    eMax := some m.eMax
    data := some ⟨[m.data.length, m.cols], .complex, m.data⟩
    windows := some ⟨[m.windows.length, 2], .int, m.windows⟩
    broaden := some ⟨[m.broaden.length], .int, m.broaden.map fun b => if b then 1 else 0⟩
    curvefit := some ⟨[m.curvefit.length, m.terms, m.channels], .float, m.curvefit⟩ }

/-- `export_to_hdf5`, lines 491-535, with a mode that keeps what is in the file. -/
def exportTo (f : WFile) (m : Wmp) : Except PyErr WFile :=
  if (Dict.get? f.groups m.name).isSome then .error .valueError
  else .ok { version := some [1, 1], groups := f.groups ++ [(m.name, toGroup m)] }

end ASAPy.Multipole
