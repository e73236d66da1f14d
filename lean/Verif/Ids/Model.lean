import Verif.Py

/-!
# Model of automatic identifiers (ASAPy/data/mixin.py 28-113)

`K` are the classes that hold `next_id` and `used_ids`; the search through the MRO in lines 52-57 finds the one of an object and is not modelled (a class is always found).
-/

namespace ASAPy.Ids

/-- `next_id` and `used_ids` of a class. -/
structure Counter where
  next : Int
  used : List Int

/-- Class variables of all classes. `direct` tells the classes in `IDManagerMixin.__subclasses__()`: those derived from it directly. -/
abbrev State (K : Type) := K → Counter

/-- What is assigned to `id`: None, an integer or something else. -/
inductive Uid where
  | none
  | int (n : Int)
  | other

/-- `while cls.next_id in cls.used_ids: cls.next_id += 1`, lines 60-61. The first argument bounds the turns; as many as there are identifiers are enough (`skip_spec`). -/
def skip : Nat → List Int → Int → Int
  | 0, _, n => n
  | f + 1, used, n => if n ∈ used then skip f used (n + 1) else n

/-- Calls. -/
inductive Op (K : Type) where
  /-- `obj.id = uid` for an object of a class, new or not. -/
  | assign (k : K) (uid : Uid)
  /-- `reset_auto_ids()`. -/
  | reset
  /-- `reserve_ids(ids, cls)`. -/
  | reserve (ids : List Int) (k : Option K)
  /-- `set_auto_id(next_id)`. -/
  | setAuto (n : Int)

variable {K : Type} [DecidableEq K] (direct : K → Bool)

/-- One class changed. -/
def put (s : State K) (k : K) (c : Counter) : State K := fun j => if j = k then c else s j

/-- The setter of `id`, lines 46-74: the new state, the identifier, and whether it warned. -/
def assign (s : State K) (k : K) : Uid → Except PyErr (State K × Int × Bool)
  | .none =>
    let n := skip (s k).used.length (s k).used (s k).next
    .ok (put s k ⟨n, n :: (s k).used⟩, n, false)
  | .int n =>
    if n < 0 then .error .valueError
    else if n ∈ (s k).used then .ok (s, n, true)
    else .ok (put s k ⟨(s k).next, n :: (s k).used⟩, n, false)
  | .other => .error .typeError

/-- `reset_auto_ids`, lines 77-81; `__subclasses__` are the direct ones. -/
def reset (s : State K) : State K := fun k => if direct k then ⟨1, []⟩ else s k

/-- `reserve_ids`, lines 84-100. -/
def reserve (s : State K) (ids : List Int) : Option K → State K
  | none => fun k => if direct k then ⟨(s k).next, ids ++ (s k).used⟩ else s k
  | some k => put s k ⟨(s k).next, ids ++ (s k).used⟩

/-- `set_auto_id`, lines 103-113. -/
def setAuto (s : State K) (n : Int) : State K := fun k => if direct k then ⟨n, (s k).used⟩ else s k

/-- A call: the state after it and what was assigned: class, identifier, warning. A call that raises changes nothing. -/
def step (s : State K) : Op K → State K × Option (K × Int × Bool)
  | .assign k u => match assign s k u with
    | .ok (s', n, w) => (s', some (k, n, w))
    | .error _ => (s, none)
  | .reset => (reset direct s, none)
  | .reserve ids k => (reserve direct s ids k, none)
  | .setAuto n => (setAuto direct s n, none)

/-- A history of calls: the last state, and what was assigned, in order. -/
def run : State K → List (Op K) → State K × List (K × Int × Bool)
  | s, [] => (s, [])
  | s, op :: ops =>
    let r := step direct s op
    let r' := run r.1 ops
    (r'.1, r.2.toList ++ r'.2)

/-- Class variables as they are written: `next_id = 1`, `used_ids = set()`. -/
def fresh : State K := fun _ => ⟨1, []⟩

end ASAPy.Ids
