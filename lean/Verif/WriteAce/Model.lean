import Verif.Py
import Verif.Str
import Mathlib.Data.Rat.Floor
import Mathlib.Data.Int.Log

/-!
# Model of `WriteAce` (ASAPy/AceIO.py 413-510) and of the writing loop of `write_sampled_data`
-/

namespace ASAPy.WriteAce
open ASAPy.Str

/-- AceIO.py 418-420: the data section as one line, and the header lines. -/
structure Writer where
  singleLine : List Char
  header : List (List Char)
deriving DecidableEq

/-- AceIO.py 431: the number of header lines, from the second character of the first word. -/
def headerCount (lines : List (List Char)) : Except PyErr Nat :=
  match lines with
  | [] => .error .indexError
  | l :: _ => match split l with
    | (_ :: c :: _) :: _ => .ok (if c = '.' then 15 else 12)
    | _ => .error .indexError

/-- AceIO.py 422-444; the file is its text. -/
def read (text : List Char) : Except PyErr Writer :=
  let lines := readlines text
  match headerCount lines with
  | .error e => .error e
  | .ok n =>
    let single := (lines.drop n).flatMap fun l => l.map fun c => if c = '\n' then ' ' else c   -- 438-440
    .ok { singleLine := squeeze single, header := lines.take n }                              -- 442

variable {K : Type*}

/-- AceIO.py 446-461; `fmt` is `format(·, '.11E')`. -/
def formatMcnp (fmt : K → List Char) (array : List K) : List Char := join (array.map fmt)

/-- AceIO.py 463-489. -/
def replaceArray (fmt : K → List Char) (w : Writer) (array replaceWith : List K) (maxReplaces : Int) :
    Writer × Except PyErr Unit :=
  if array.length ≠ replaceWith.length then (w, .error .exception)                   -- 475
  else
    let original := formatMcnp fmt array                                              -- 478
    match index original w.singleLine with                                            -- 481
    | none => (w, .error .valueError)
    | some first =>
      let last := first + original.length                                             -- 485
      let new := formatMcnp fmt replaceWith                                           -- 487
      ({ w with singleLine :=
          Str.replace w.singleLine ((w.singleLine.take last).drop first) new maxReplaces }, .ok ())

/-- AceIO.py 500-505: the values, each right-justified in 20 columns, a newline after every fourth; the first
argument is the counter. Returns the text and the final counter. -/
def writeValues : Nat → List (List Char) → List Char × Nat
  | n, [] => ([], n)
  | n, v :: vs =>
    if n + 1 = 4 then
      let r := writeValues 0 vs
      (rjust 20 v ++ '\n' :: r.1, r.2)
    else
      let r := writeValues (n + 1) vs
      (rjust 20 v ++ r.1, r.2)

/-- AceIO.py 491-509: the text of the written file. -/
def write (w : Writer) : List Char :=
  let r := writeValues 0 (split w.singleLine)
  w.header.flatten ++ r.1 ++ (if r.2 < 4 then ['\n'] else [])

/-! ### The writing loop of `write_sampled_data` (ASAPy/XsecSampler.py 765-792) -/

/-- One call of `replace_array`. -/
structure Job (K : Type*) where
  base : List K
  new : List K
  maxReplaces : Int

/-- The calls for one adjusted MT (one `try` block, XsecSampler.py 771-788): up to the first exception. -/
def runGroup (fmt : K → List Char) (w : Writer) : List (Job K) → Writer × Except PyErr Unit
  | [] => (w, .ok ())
  | j :: js => match replaceArray fmt w j.base j.new j.maxReplaces with
    | (w, .error e) => (w, .error e)
    | (w, .ok ()) => runGroup fmt w js

/-- XsecSampler.py 770-790: the loop over the adjusted MTs; a `ValueError` is printed and the loop goes on. -/
def runGroups (fmt : K → List Char) (w : Writer) : List (List (Job K)) → Writer × Except PyErr Unit
  | [] => (w, .ok ())
  | g :: gs => match runGroup fmt w g with
    | (w, .ok ()) => runGroups fmt w gs
    | (w, .error .valueError) => runGroups fmt w gs
    | (w, .error e) => (w, .error e)

/-! ### `format(x, '.11E')` -/

/-- The digit `d` (0-9). -/
def digitChar (d : Nat) : Char := Char.ofNat (48 + d % 10)

/-- The `n` last decimal digits of `m`. -/
def digitsN (n m : Nat) : List Char := (List.range n).map fun i => digitChar (m / 10 ^ (n - 1 - i))

/-- Rounding to the nearest integer, ties to even, of a non-negative rational. -/
def roundHalfEven (q : ℚ) : Nat :=
  let f := ⌊q⌋.toNat
  let r := q - f
  if r < 1/2 then f else if 1/2 < r then f + 1 else if f % 2 = 0 then f else f + 1

/-- Python's `format(x, '.11E')` for a finite float `x` (a rational number) with decimal exponent below 1000 in
absolute value. Negative zero is not modelled. -/
def fmtE (x : ℚ) : List Char :=
  let a := |x|
  let e0 : Int := if a = 0 then 0 else Int.log 10 a
  let m0 := roundHalfEven (a / (10:ℚ) ^ (e0 - 11))
  let (m, e) := if m0 = 10 ^ 12 then (10 ^ 11, e0 + 1) else (m0, e0)
  let ds := digitsN 12 m
  (if x < 0 then ['-'] else []) ++ ds.take 1 ++ ['.'] ++ ds.drop 1 ++
    ['E', if e < 0 then '-' else '+'] ++ digitsN (if e.natAbs < 100 then 2 else 3) e.natAbs

end ASAPy.WriteAce
