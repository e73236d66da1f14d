import Verif.Py
import Verif.Dict
import Verif.Chars
import Mathlib.Data.List.Basic
import Mathlib.Data.Nat.Notation

/-!
# Model of the checks of values (ASAPy/data/checkvalue.py) and of equality (ASAPy/data/mixin.py)

Line numbers are those of ASAPy/data/checkvalue.py unless another file is named.
-/

namespace ASAPy.Check

/-! ### `check_iterable_type` -/

/-- A value as `check_iterable_type` sees it: of the expected type, neither of it nor iterable, a sequence, or a text when texts are not expected, whose
items are texts again. -/
inductive Item where
  | good
  | bad
  | seq (l : List Item)
  | text (s : List Char)

/-- The items of a value that is iterated. -/
def Item.items : Item → List Item
  | .good => []
  | .bad => []
  | .seq l => l
  | .text s => s.map fun c => .text [c]

/-- The lists `tree` and `index`, lines 78-79, with the last elements first. -/
abbrev Stack := List (List Item × ℕ)

/-- What a turn of the loop does: it goes on or ends. -/
inductive Turn where
  | next (s : Stack)
  | done (r : Except PyErr Unit)

/-- The condition of the loop, line 82: `index[0] != len(tree[0])`. -/
def bottomDone (s : Stack) : Bool :=
  match s.getLast? with
  | none => true
  | some (l, i) => decide (i = l.length)

/-- `index[-1] += 1`. -/
def advance : Stack → Stack
  | [] => []
  | (l, i) :: s => (l, i + 1) :: s

/-- Lines 97-132: the current item. -/
def look (lo hi : ℕ) (s : Stack) (it : Item) : Turn :=
  match it with
  | .good => if s.length < lo then .done (.error .typeError) else .next (advance s)
  | .bad => .done (.error .typeError)
  | it => if s.length + 1 > hi then .done (.error .typeError) else .next ((it.items, 0) :: s)

/-- A turn of the loop, lines 82-132. -/
def turn (lo hi : ℕ) (s : Stack) : Turn :=
  if bottomDone s then .done (.ok ())
  else match s with
    | [] => .done (.ok ())
    | (l, i) :: rest =>
      if i = l.length then .next (advance rest)
      else match l[i]? with
        | none => .done (.error .indexError)
        | some it => look lo hi s it

/-- The loop after at most so many turns: `none` when it is still going on. -/
def loop (lo hi : ℕ) : ℕ → Stack → Option (Except PyErr Unit)
  | 0, _ => none
  | n + 1, s =>
    match turn lo hi s with
    | .done r => some r
    | .next s' => loop lo hi n s'

/-- `check_iterable_type`, lines 58-132, given so many turns. -/
def checkIterable (lo hi n : ℕ) (value : List Item) : Option (Except PyErr Unit) := loop lo hi n [(value, 0)]

/-! ### `CheckedList` -/

/-- What can stand behind `+=`: a sequence or array, an iterator (whose items can be taken once), or something that cannot be iterated. -/
inductive Operand (α : Type*) where
  | seq (l : List α)
  | iter (l : List α)
  | other

section
variable {α : Type*} (good : α → Bool)

/-- What a call leaves: the list as it is then, and the exception raised, if any. -/
abbrev Res (α : Type*) := List α × Option PyErr

/-- `append`, lines 313-323. -/
def append (s : List α) (x : α) : Res α := if good x then (s ++ [x], none) else (s, some .typeError)

/-- Lines 309-310, also 295-296: the items are appended one by one. -/
def appendAll : List α → List α → Res α
  | s, [] => (s, none)
  | s, x :: xs =>
    match append good s x with
    | (s', none) => appendAll s' xs
    | (s', some e) => (s', some e)

/-- `CheckedList(expected_type, name, items)`, lines 291-296. -/
def mk (items : List α) : Except PyErr (List α) :=
  match appendAll good [] items with
  | (s, none) => .ok s
  | (_, some e) => .error e

/-- `check_type(name, other, Iterable, expected_type)`, lines 25-55: the items of the operand that are left afterwards. -/
def checkItems : Operand α → Except PyErr (List α)
  | .seq l => if l.all good then .ok l else .error .typeError
  | .iter l => if l.all good then .ok [] else .error .typeError
  | .other => .error .typeError

/-- `+=`, lines 306-311. -/
def iadd (s : List α) (o : Operand α) : Res α :=
  match checkItems good o with
  | .ok l => appendAll good s l
  | .error e => (s, some e)

/-- `s + other`, lines 298-301: the copy is a list of its own. -/
def add (s : List α) (o : Operand α) : Except PyErr (List α) :=
  match iadd good s o with
  | (r, none) => .ok r
  | (_, some e) => .error e

/-- `other + s` for a plain list or tuple, lines 303-304: Python asks the right operand first, because `+` of lists is no operation on numbers. -/
def radd (o : Operand α) (s : List α) : Except PyErr (List α) := add good s o

/-- The place of `list.insert(i, x)`. -/
def place (n : ℕ) (i : Int) : ℕ := if i < 0 then (i + n).toNat else min i.toNat n

/-- `insert`, lines 325-337. -/
def insert (s : List α) (i : Int) (x : α) : Res α :=
  if good x then (s.take (place s.length i) ++ x :: s.drop (place s.length i), none) else (s, some .typeError)

/-- What a caller can do with a `CheckedList`; `delete`, `set` and `extend` are those of `list`, which the class leaves as they are. -/
inductive Op (α : Type*) where
  | append (x : α)
  | insert (i : Int) (x : α)
  | iadd (o : Operand α)
  | delete (i : ℕ)
  | set (i : ℕ) (x : α)
  | extend (l : List α)

/-- One operation. -/
def apply (s : List α) : Op α → Res α
  | .append x => append good s x
  | .insert i x => insert good s i x
  | .iadd o => iadd good s o
  | .delete i => if i < s.length then (s.eraseIdx i, none) else (s, some .indexError)
  | .set i x => if i < s.length then (s.set i x, none) else (s, some .indexError)
  | .extend l => (s ++ l, none)

/-- A history in which exceptions are caught. -/
def runOps (s : List α) (os : List (Op α)) : List α := os.foldl (fun s o => (apply good s o).1) s

end

/-! ### Equality -/

/-- An object: its class and `__dict__`. -/
structure Obj (C V : Type*) where
  cls : C
  attrs : List (List Char × V)

section
variable {C V : Type*} (sub : C → C → Bool) (same : V → V → Bool) (none' : V)

/-- `EqualityMixin.__eq__`, ASAPy/data/mixin.py lines 14-22; `same` is `numpy.array_equal`, `none'` is `None`. -/
def mixinEq (a b : Obj C V) : Bool :=
  sub b.cls a.cls && a.attrs.all fun kv => same kv.2 ((Dict.get? b.attrs kv.1).getD none')

/-- `a == b` in Python: when the class of `b` is a proper subclass of that of `a`, the method of `b` is called. -/
def pyEq [DecidableEq C] (a b : Obj C V) : Bool := if a.cls ≠ b.cls ∧ sub b.cls a.cls = true then mixinEq sub same none' b a else mixinEq sub same none' a b

end

end ASAPy.Check
