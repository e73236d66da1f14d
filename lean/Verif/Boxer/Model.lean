import Verif.Py
import Verif.Str
import Verif.Dec
import Mathlib.Algebra.Order.Field.Rat

/-!
# Model of `read_boxer_out_matrix` (ASAPy/EndfToCov.py 164-285)

A file is the list of its lines (with their newlines). Numbers are rational: the value of the decimal numeral.
-/

namespace ASAPy.Boxer
open ASAPy.Str ASAPy.Dec

/-- `sub in s`. -/
def contains (sub s : List Char) : Bool := (Str.index sub s).isSome

/-- The marker of line 181. -/
def marker : List Char := "***ERROR IN BOXR***".toList

/-- Does `int(s)` succeed (for ASCII text)? Digits, single underscores between digits, an optional sign. The flag says that
the last character was a digit. -/
def intGo : Bool → List Char → Bool
  | last, [] => last
  | last, c :: cs => if isDigit c then intGo true cs else if c = '_' then last && intGo false cs else false

def isInt : List Char → Bool
  | [] => false
  | c :: cs => if c = '+' ∨ c = '-' then intGo false cs else intGo false (c :: cs)

/-- Lines 212-219: does a block start at this line? -/
def isStart (line : List Char) : Bool :=
  match split line with
  | [] => false
  | w :: _ => isInt w

/-- Lines 210-219: the numbers of the lines at which a block starts. -/
def blockStarts (lines : List (List Char)) : List Nat :=
  (lines.zipIdx.filter fun p => isStart p.1).map (·.2)

/-- `__init__`, lines 174-184: the list `block_line_nums`. -/
def openFile (lines : List (List Char)) : Except PyErr (List Nat) :=
  if lines.any (contains marker) then .error .runtimeError                            -- 180-182
  else if blockStarts lines = [] then .error .exception                               -- 221-222
  else .ok (blockStarts lines)

/-- Lines 271-273: blanks become zeros, other whitespace is removed. -/
def cleanLine (line : List Char) : List Char := (split (line.map fun c => if c = ' ' then '0' else c)).flatten

/-- Line 279: pieces of 10 characters. The first argument bounds the number of pieces. -/
def piecesGo : Nat → List Char → List (List Char)
  | 0, _ => []
  | n + 1, s => if s = [] then [] else s.take 10 :: piecesGo n (s.drop 10)

def pieces (s : List Char) : List (List Char) := piecesGo s.length s

/-- The longest prefix of digits, and the rest. -/
def digits (s : List Char) : List Char × List Char := s.span isDigit

/-- An exponent part: its value and the rest; without one the value is 0. -/
def expPart (s : List Char) : Int × List Char :=
  match s with
  | c :: rest =>
    if c = 'e' ∨ c = 'E' then
      match rest with
      | '+' :: r => if (digits r).1 = [] then (0, s) else ((natVal (digits r).1 : Int), (digits r).2)
      | '-' :: r => if (digits r).1 = [] then (0, s) else (-(natVal (digits r).1 : Int), (digits r).2)
      | r => if (digits r).1 = [] then (0, s) else ((natVal (digits r).1 : Int), (digits r).2)
    else (0, s)
  | [] => (0, s)

/-- An unsigned numeral (as in C's `strtod`; `inf` and `nan` are not modelled): its value and the rest. -/
def unsignedPart (s : List Char) : Option (ℚ × List Char) :=
  let (ip, r) := digits s
  let (fp, r) := match r with
    | '.' :: r' => digits r'
    | _ => ([], r)
  if ip = [] ∧ fp = [] then none
  else
    let (e, r) := expPart r
    some ((natVal (ip ++ fp) : ℚ) * (10 : ℚ) ^ (e - fp.length), r)

/-- A number at the start of a text: its value and the rest. -/
def number (s : List Char) : Option (ℚ × List Char) :=
  match s with
  | '-' :: r => (unsignedPart r).map fun p => (-p.1, p.2)
  | '+' :: r => unsignedPart r
  | r => unsignedPart r

/-- `np.fromstring(' '.join(pieces), sep=' ')` for pieces without whitespace: reading stops after the first piece that is not
completely a number (numpy only warns); a number at its start is still returned. -/
def fromPieces : List (List Char) → List ℚ
  | [] => []
  | p :: ps => match number p with
    | none => []
    | some (v, []) => v :: fromPieces ps
    | some (v, _) => [v]

/-- `_block_lines_to_array`, lines 253-285, of the given lines. -/
def linesToArray (lines : List (List Char)) : List ℚ := fromPieces (pieces (lines.flatMap cleanLine))

/-- `self.lines[a:b]`. -/
def slice {α : Type*} (l : List α) (a b : Nat) : List α := (l.take b).drop a

/-- `a * b` of arrays. -/
def times (a b : List ℚ) : Except PyErr (List ℚ) :=
  if a.length = b.length then .ok (List.zipWith (· * ·) a b)
  else match a, b with
    | [u], b => .ok (b.map (u * ·))
    | a, [u] => .ok (a.map (· * u))
    | _, _ => .error .valueError

/-- `np.reshape(a, [n, n])` as rows. -/
def reshape (n : Nat) (a : List ℚ) : Except PyErr (List (List ℚ)) :=
  if a.length = n * n then .ok ((List.range n).map fun i => (a.drop (i * n)).take n) else .error .valueError

/-- What `get_block_data` returns. -/
structure Data where
  bounds : List ℚ
  xsec : List ℚ
  stdDev : List ℚ
  cov : List (List ℚ)
deriving DecidableEq

/-- `get_block_data`, lines 226-251. -/
def getBlockData (lines : List (List Char)) (starts : List Nat) : Except PyErr Data :=
  match starts with
  | s0 :: s1 :: s2 :: s3 :: _ =>
    let bounds := linesToArray (slice lines (s0 + 1) s1)
    let xsec := linesToArray (slice lines (s1 + 1) s2)
    match times (linesToArray (slice lines (s2 + 1) s3)) xsec with
    | .error e => .error e
    | .ok sd => match reshape xsec.length (linesToArray (slice lines (s3 + 1) lines.length)) with
      | .error e => .error e
      | .ok cov => .ok ⟨bounds, xsec, sd, cov⟩
  | _ => .error .indexError

/-- `read_boxer_out_matrix(file).get_block_data()`. -/
def readFile (lines : List (List Char)) : Except PyErr Data :=
  match openFile lines with
  | .error e => .error e
  | .ok starts => getBlockData lines starts

end ASAPy.Boxer
