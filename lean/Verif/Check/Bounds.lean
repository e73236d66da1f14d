import Verif.Py
import Verif.Flt
import Verif.Endf.Model
import Mathlib.Algebra.Order.Ring.Rat

/-!
# Checks of lengths, values and versions (ASAPy/data/checkvalue.py 35-55 and 135-275), C167

Line numbers are those of ASAPy/data/checkvalue.py.
-/

namespace ASAPy.Check
open ASAPy.Endf (Line)

variable {K : Type} [Field K] [LinearOrder K]

/-- `check_length`, lines 135-166; without a maximum (`None`) the length must be the minimum. -/
def checkLength (len lo : Int) (hi : Option Int) : Except PyErr Unit :=
  match hi with
  | none => if len ≠ lo then .error .valueError else .ok ()
  | some hi => if ¬ (lo ≤ len ∧ len ≤ hi) then .error .valueError else .ok ()

/-- `check_value`, lines 169-186. -/
def checkValue {α : Type} [DecidableEq α] (v : α) (accepted : List α) : Except PyErr Unit :=
  if v ∉ accepted then .error .valueError else .ok ()

/-- `a == b` (false with NaN). -/
def same : Flt K → Flt K → Bool
  | .fin a, .fin b => decide (a = b)
  | .pinf, .pinf => true
  | .ninf, .ninf => true
  | _, _ => false

/-- `check_less_than`, lines 188-213: `value > maximum`, or `value >= maximum`, raises. -/
def checkLess (v maximum : Flt K) (equality : Bool) : Except PyErr Unit :=
  if equality then if Flt.lt maximum v then .error .valueError else .ok ()
  else if Flt.lt maximum v || same maximum v then .error .valueError else .ok ()

/-- `check_greater_than`, lines 215-239. -/
def checkGreater (v minimum : Flt K) (equality : Bool) : Except PyErr Unit :=
  if equality then if Flt.lt v minimum then .error .valueError else .ok ()
  else if Flt.lt v minimum || same v minimum then .error .valueError else .ok ()

/-- `check_type` with a type for the elements, lines 35-55, for a value that is of the type expected: `array` if it is an array, and then `dtype` if the type of its elements is of the type
expected; `good` says which of its elements are. For an array with elements of another type line 38 makes a message, but does not raise it. -/
def checkElements (array dtype : Bool) (good : List Bool) : Except PyErr Unit :=
  if array = true ∧ dtype = true then .ok ()
  else if good.all id then .ok () else .error .typeError

/-- What `check_filetype_version` raises: an IOError for a wrong file, or another exception. -/
inductive FileErr where
  | io
  | other (e : PyErr)
deriving DecidableEq

/-- `check_filetype_version`, lines 242-274. The attribute `filetype` is missing, a byte string, or of another kind without a method `decode`; `version` is missing, a list, or a number, of which there is no
item 0. The message of the last `raise` has two fields and one argument. -/
def checkVersion (filetype : Option (Option Line)) (version : Option (Option (List Int))) (ty : Line) (v : Int) : Except FileErr Unit :=
  match filetype with
  | none => .error (.other .keyError)
  | some none => .error (.other .indexError)
  | some (some t) =>
    match version with
    | none => .error (.other .keyError)
    | some ver =>
      if t ≠ ty then .error .io
      else
        match ver with
        | none => .error (.other .indexError)
        | some [] => .error (.other .indexError)
        | some (w :: _) => if w ≠ v then .error .io else .ok ()

/-! ### C167 -/

/-- The number is above the bound, or equal to it where that is allowed. Nothing is above NaN, and NaN is above nothing. -/
def Above (v b : Flt K) (equality : Bool) : Prop := Flt.lt b v = true ∨ equality = true ∧ same b v = true

variable [IsStrictOrderedRing K]

omit [IsStrictOrderedRing K] in
/-- Of two numbers other than NaN one is below the other or they are equal. -/
theorem trichotomy {a b : Flt K} (ha : a ≠ .nan) (hb : b ≠ .nan) : (Flt.lt a b = true ∧ Flt.lt b a = false ∧ same a b = false ∧ same b a = false) ∨
    (Flt.lt a b = false ∧ Flt.lt b a = true ∧ same a b = false ∧ same b a = false) ∨ (Flt.lt a b = false ∧ Flt.lt b a = false ∧ same a b = true ∧ same b a = true) := by
  rcases a with x | _ | _ | _ <;> rcases b with y | _ | _ | _ <;> simp_all [Flt.lt, same]
  rcases lt_trichotomy x y with h | h | h
  · exact Or.inl ⟨h, h.le, h.ne, h.ne'⟩
  · exact Or.inr (Or.inr ⟨h.ge, h.le, h, h.symm⟩)
  · exact Or.inr (Or.inl ⟨h.le, h, h.ne', h.ne⟩)

omit [IsStrictOrderedRing K] in
/-- **C167, bounds.** For all numbers other than NaN, infinite ones included, a check of bounds passes exactly if the number is above (below) the bound, or equal to it where that is allowed; else it raises ValueError. -/
theorem C167_bounds_partial (v b : Flt K) (eq : Bool) (hv : v ≠ .nan) (hb : b ≠ .nan) :
    (Above v b eq → checkGreater v b eq = .ok ()) ∧ (¬ Above v b eq → checkGreater v b eq = .error .valueError) ∧
    (Above b v eq → checkLess v b eq = .ok ()) ∧ (¬ Above b v eq → checkLess v b eq = .error .valueError) := by
  unfold Above checkGreater checkLess
  rcases trichotomy hv hb with ⟨h1, h2, h3, h4⟩ | ⟨h1, h2, h3, h4⟩ | ⟨h1, h2, h3, h4⟩ <;> cases eq <;> simp [h1, h2, h3, h4]

omit [IsStrictOrderedRing K] in
/-- NaN passes every check of bounds. -/
theorem C167_nan_refuted (b : Flt K) (eq : Bool) : checkGreater .nan b eq = .ok () ∧ checkLess .nan b eq = .ok () ∧ ¬ Above .nan b eq ∧ ¬ Above b .nan eq := by
  unfold checkGreater checkLess Above
  rcases b with y | _ | _ | _ <;> cases eq <;> simp [Flt.lt, same]

/-- **C167, lengths and values.** For every length, limits, value and list of values: the check passes exactly if the length is the one expected or within the limits, the value on the list. -/
theorem C167_lengths (len lo hi : Int) : (checkLength len lo none = .ok () ↔ len = lo) ∧ (checkLength len lo (some hi) = .ok () ↔ lo ≤ len ∧ len ≤ hi) ∧
    (len ≠ lo → checkLength len lo none = .error .valueError) ∧ (¬ (lo ≤ len ∧ len ≤ hi) → checkLength len lo (some hi) = .error .valueError) := by
  refine ⟨?_, ?_, ?_, ?_⟩
  · unfold checkLength; simp only; split <;> simp_all
  · unfold checkLength; simp only; split <;> simp_all
  · intro h; simp [checkLength, h]
  · intro h; simp only [checkLength, if_pos h]

theorem C167_values {α : Type} [DecidableEq α] (v : α) (l : List α) : (checkValue v l = .ok () ↔ v ∈ l) ∧ (v ∉ l → checkValue v l = .error .valueError) := by
  unfold checkValue
  constructor
  · split <;> simp_all
  · intro h; simp [h]

/-- **C167, elements.** If the check of elements passes, all elements are of the type expected, for every list and every array, where the type of an array is that of its elements. -/
theorem C167_elements (array dtype : Bool) (good : List Bool) (h : array = true → dtype = true → good.all id = true) :
    checkElements array dtype good = .ok () ↔ good.all id = true := by
  unfold checkElements
  split
  · rename_i hc; simp [h hc.1 hc.2]
  · split <;> simp_all

/-- An array without elements passes whatever the type of its elements. -/
theorem C167_empty_refuted : checkElements true false [] = .ok () := rfl

/-- **C167, files.** The check of a file passes exactly if it has the type and the first number of the version expected. -/
theorem C167_version (filetype : Option (Option Line)) (version : Option (Option (List Int))) (ty : Line) (v : Int) :
    checkVersion filetype version ty v = .ok () ↔ filetype = some (some ty) ∧ ∃ l, version = some (some (v :: l)) := by
  unfold checkVersion
  rcases filetype with _ | _ | t
  · simp
  · simp
  · rcases version with _ | ver
    · simp
    · simp only
      by_cases ht : t = ty
      · subst ht
        rcases ver with _ | _ | ⟨w, l⟩
        · simp
        · simp
        · by_cases hw : w = v
          · subst hw; simp
          · simp [hw]
      · simp [ht]

/-- A file without these attributes is not reported as one of another version: the exception is another one. -/
theorem C167_missing_refuted (version : Option (Option (List Int))) (ty : Line) (v : Int) :
    checkVersion none version ty v = .error (.other .keyError) ∧ checkVersion (some none) version ty v = .error (.other .indexError) := ⟨rfl, rfl⟩

/-- The hypotheses of `C167_bounds_partial` and `C167_elements` are met: 3 is above 2, an infinity above 2, and an array of numbers has numbers. -/
example : Above (.fin (3 : ℚ)) (.fin 2) false ∧ ¬ Above (.fin (2 : ℚ)) (.fin 2) false ∧ Above (.fin (2 : ℚ)) (.fin 2) true ∧ Above (.pinf : Flt ℚ) (.fin 2) false ∧
    checkElements true true [true, true] = .ok () ∧ checkElements false false [true, false] = .error .typeError := by
  refine ⟨Or.inl rfl, ?_, Or.inr ⟨rfl, rfl⟩, Or.inl rfl, rfl, rfl⟩
  rintro (h | ⟨h, -⟩)
  · exact absurd h (by decide)
  · cases h

end ASAPy.Check
