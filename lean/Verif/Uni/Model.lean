import Verif.Uni.Legendre
import Verif.Str
import Verif.Chars
import Verif.Py

/-!
# Model of distributions of one variable (ASAPy/data/univariate.py) and of XML trees (ASAPy/data/_xml.py)

Line numbers are those of ASAPy/data/univariate.py unless another file is named. Numbers are reals.
-/

noncomputable section

namespace ASAPy.Uni
open Polynomial

abbrev Text := List Char

/-! ### Values handed to setters -/

/-- A value that is assigned to an attribute: a number, a sequence of numbers (list, tuple or array), an iterator over numbers that can be run through once (a generator, `map`,
`zip`, ...), an iterable with something in it that is not a number, or something else. -/
inductive Arg where
  | number (v : ℝ)
  | seq (l : List ℝ)
  | once (l : List ℝ)
  | mixed
  | other

/-- What `for item in value` runs through. -/
def Arg.items : Arg → List ℝ
  | .seq l => l
  | .once l => l
  | _ => []

/-- A loop over the value: an iterator has nothing left. -/
def Arg.used : Arg → Arg
  | .once _ => .once []
  | a => a

/-- `check_type(name, value, Iterable, Real)`, checkvalue.py 7-55: the value after the check, which has run through it. -/
def checkReals : Arg → Except PyErr Arg
  | .number _ => .error .typeError
  | .mixed => .error .typeError
  | .other => .error .typeError
  | a => .ok a.used

/-- `for pk in p: check_greater_than(name, pk, 0.0, True)`. -/
def checkNonneg (a : Arg) : Except PyErr Arg := if a.items.any (fun v => decide (v < 0)) then .error .valueError else .ok a.used

/-- Lines 77-78 and 84-85: a number is a list of one. -/
def Arg.wrap : Arg → Arg
  | .number v => .seq [v]
  | a => a

/-- `check_type(name, value, Real)` and `check_greater_than(name, value, 0.0)`. -/
def checkPositive : Arg → Except PyErr ℝ
  | .number v => if v ≤ 0 then .error .valueError else .ok v
  | _ => .error .typeError

/-- `check_type(name, value, Real)`. -/
def checkReal : Arg → Except PyErr ℝ
  | .number v => .ok v
  | _ => .error .typeError

/-! ### Classes -/

/-- `Discrete`, lines 36-107. -/
structure Discrete where
  x : Arg
  p : Arg

/-- Lines 75-80. -/
def discreteX (x : Arg) : Except PyErr Arg := checkReals x.wrap

/-- Lines 82-88. -/
def discreteP (p : Arg) : Except PyErr Arg := do
  let p ← checkReals p.wrap
  checkNonneg p

/-- `Discrete(x, p)`, lines 59-62. -/
def mkDiscrete (x p : Arg) : Except PyErr Discrete := do
  let x ← discreteX x
  let p ← discreteP p
  return ⟨x, p⟩

/-- The names in lines 13-14. -/
def schemes : List Text := [c!"histogram", c!"linear-linear", c!"linear-log", c!"log-linear", c!"log-log"]

/-- `Tabular`, lines 312-401. -/
structure Tabular where
  x : Arg
  p : Arg
  interpolation : Text
  ignoreNegative : Bool

/-- Lines 362-365. -/
def tabularX (x : Arg) : Except PyErr Arg := checkReals x

/-- Lines 367-373. -/
def tabularP (ignoreNegative : Bool) (p : Arg) : Except PyErr Arg := do
  let p ← checkReals p
  if ignoreNegative then return p else checkNonneg p

/-- Lines 375-378. -/
def tabularInterpolation (s : Text) : Except PyErr Text := if s ∈ schemes then .ok s else .error .valueError

/-- `Tabular(x, p, interpolation, ignore_negative)`, lines 340-346. -/
def mkTabular (x p : Arg) (interpolation : Text) (ignoreNegative : Bool) : Except PyErr Tabular := do
  let x ← tabularX x
  let p ← tabularP ignoreNegative p
  let i ← tabularInterpolation interpolation
  return ⟨x, p, i, ignoreNegative⟩

/-- `Watt`, lines 239-310; `Maxwell` (186-236) is the same with one parameter. -/
structure Watt where
  a : ℝ
  b : ℝ

/-- `Watt(a, b)`, lines 264-267. -/
def mkWatt (a b : Arg) : Except PyErr Watt := do
  let a ← checkPositive a
  let b ← checkPositive b
  return ⟨a, b⟩

/-- `Uniform.to_tabular`, lines 159-163: the table, and its attribute `c`. -/
def uniformTabular (a b : ℝ) : Except PyErr (Tabular × List ℝ) :=
  if b - a = 0 then .error .zeroDivision
  else do
    let t ← mkTabular (.seq [a, b]) (.seq [1 / (b - a), 1 / (b - a)]) c!"histogram" false
    return (t, [0, 1])

/-! ### Assignments -/

/-- Assignments to the attributes of a `Tabular`. -/
inductive TabOp where
  | setX (x : Arg)
  | setP (p : Arg)
  | setInterpolation (s : Text)

/-- An assignment; if it raises, the object is as it was. -/
def TabOp.run (t : Tabular) : TabOp → Except PyErr Tabular
  | .setX x => do
    let x ← tabularX x
    return { t with x := x }
  | .setP p => do
    let p ← tabularP t.ignoreNegative p
    return { t with p := p }
  | .setInterpolation s => do
    let i ← tabularInterpolation s
    return { t with interpolation := i }

/-- Assignments to the attributes of a `Discrete`. -/
inductive DiscOp where
  | setX (x : Arg)
  | setP (p : Arg)

def DiscOp.run (d : Discrete) : DiscOp → Except PyErr Discrete
  | .setX x => do
    let x ← discreteX x
    return { d with x := x }
  | .setP p => do
    let p ← discreteP p
    return { d with p := p }

/-- Assignments to the attributes of a `Watt`. -/
inductive WattOp where
  | setA (a : Arg)
  | setB (b : Arg)

def WattOp.run (w : Watt) : WattOp → Except PyErr Watt
  | .setA a => do
    let a ← checkPositive a
    return { w with a := a }
  | .setB b => do
    let b ← checkPositive b
    return { w with b := b }

/-- A history of assignments, of which those that raise are caught. -/
def history {α β : Type} (run : α → β → Except PyErr α) (o : α) (ops : List β) : α := ops.foldl (fun o op => match run o op with | .ok o' => o' | .error _ => o) o

/-! ### Legendre expansions -/

/-- The coefficients of `_legendre_polynomial`, lines 441-447: (2 l + 1) / 2 times those given. -/
def scaled : Nat → List ℝ → List ℝ
  | _, [] => []
  | l, a :: as => (2 * l + 1) / 2 * a :: scaled (l + 1) as

/-- The property `coefficients`, lines 435-439. -/
def unscaled : Nat → List ℝ → List ℝ
  | _, [] => []
  | l, b :: bs => 2 / (2 * l + 1) * b :: unscaled (l + 1) bs

/-- `Legendre(coefficients)`, lines 424-425; numpy rejects an empty list. -/
def mkLegendre (a : List ℝ) : Except PyErr (List ℝ) := if a = [] then .error .valueError else .ok (scaled 0 a)

/-- A turn of numpy's `legval` (Clenshaw's recurrence): `nd` has been counted down already. -/
def legTurn (x : ℝ) : List ℝ → ℝ → ℝ → ℝ × ℝ
  | [], c0, c1 => (c0, c1)
  | c :: cs, c0, c1 =>
    let nd : ℝ := cs.length + 2
    legTurn x cs (c - c1 * (nd - 1) / nd) (c0 + c1 * x * (2 * nd - 1) / nd)

/-- numpy's `legval(x, c)`, which `Legendre.__call__` (427-428) comes to. -/
def legval (c : List ℝ) (x : ℝ) : ℝ :=
  match c.reverse with
  | [] => 0
  | [c0] => c0
  | c1 :: c0 :: cs => let r := legTurn x cs c0 c1; r.1 + r.2 * x

/-! ### XML -/

/-- An element of `xml.etree.ElementTree`. -/
inductive Xml where
  | node (tag : Text) (attrs : List (Text × Text)) (text tail : Option Text) (kids : List Xml)

def Xml.tag : Xml → Text | .node t _ _ _ _ => t
def Xml.attrs : Xml → List (Text × Text) | .node _ a _ _ _ => a
def Xml.text : Xml → Option Text | .node _ _ t _ _ => t
def Xml.tail : Xml → Option Text | .node _ _ _ t _ => t
def Xml.kids : Xml → List Xml | .node _ _ _ _ k => k

/-- `to_xml_element` of `Discrete` (91-107) and `Tabular` (381-401). `str` is Python's `str` of a number. -/
def listXml (str : ℝ → Text) (name : Text) (attrs : List (Text × Text)) (x p : List ℝ) : Xml :=
  .node name attrs none none [.node c!"parameters" [] (some (Str.join (x.map str) ++ ' ' :: Str.join (p.map str))) none []]

/-- `Discrete.to_xml_element`, lines 91-107. -/
def Discrete.xml (str : ℝ → Text) (name : Text) (d : Discrete) : Xml := listXml str name [(c!"type", c!"discrete")] d.x.items d.p.items

/-- `Tabular.to_xml_element`, lines 381-401. -/
def Tabular.xml (str : ℝ → Text) (name : Text) (t : Tabular) : Xml := listXml str name [(c!"type", c!"tabular"), (c!"interpolation", t.interpolation)] t.x.items t.p.items

/-- `Watt.to_xml_element`, lines 293-310. -/
def Watt.xml (str : ℝ → Text) (name : Text) (w : Watt) : Xml := .node name [(c!"type", c!"watt"), (c!"parameters", str w.a ++ ' ' :: str w.b)] none none []

/-- `not t or not t.strip()`. -/
def blank : Option Text → Bool
  | none => true
  | some t => t.all Str.isSpace

/-- `if not t or not t.strip(): t = i`. -/
def fill (t : Option Text) (i : Text) : Option Text := if blank t then some i else t

/-- `"\n" + level * spaces_per_level * " "`, _xml.py 8. -/
def indent (spaces level : Nat) : Text := '\n' :: List.replicate (level * spaces) ' '

/-- `sub_element.tail = i` of the last element, _xml.py 21-22. -/
def lastTail (i : Text) : List Xml → List Xml
  | [] => []
  | [.node t a x l k] => [.node t a x (fill l i) k]
  | e :: es => e :: lastTail i es

mutual
/-- `clean_indentation`, _xml.py 1-26. -/
def clean (spaces level : Nat) : Xml → Xml
  | .node tag attrs text tail kids =>
    match kids with
    | [] => .node tag attrs text (if level ≠ 0 then fill tail (indent spaces level) else tail) []
    | k :: ks => .node tag attrs (fill text (indent spaces level ++ List.replicate spaces ' ')) (fill tail (indent spaces level)) (lastTail (indent spaces level) (cleanAll spaces (level + 1) (k :: ks)))
/-- The loop, _xml.py 18-19. -/
def cleanAll (spaces level : Nat) : List Xml → List Xml
  | [] => []
  | k :: ks => clean spaces level k :: cleanAll spaces level ks
end

/-- `get_text`, _xml.py 29-51. `elem.find(name)` is the first subelement of this tag. -/
def getText (e : Xml) (name : Text) (default : Option Text) : Option Text :=
  match e.attrs.lookup name with
  | some v => some v
  | none => match e.kids.find? (fun k => decide (k.tag = name)) with
    | some k => k.text
    | none => default

end ASAPy.Uni
