import Verif.Boxer.Model
import Verif.Dict

/-!
# Model of the ENDF reader (ASAPy/endf.py and ASAPy/data/endf.py)

Line numbers are those of ASAPy/endf.py, with those of ASAPy/data/endf.py after a slash where only that file has the function. A file is the list
of its lines (with their newlines), seen from the current position; at its end `readline` returns the empty text. Numbers are rational: the
value of the decimal numeral. Text is ASCII.
-/

namespace ASAPy.Endf
open ASAPy.Str ASAPy.Dec ASAPy.Boxer

abbrev Line := List Char

/-- `line[a:b]`. -/
def col (l : Line) (a b : Nat) : Line := slice l a b

/-- `s.strip()`. -/
def strip (s : Line) : Line := ((s.dropWhile isSpace).reverse.dropWhile isSpace).reverse

/-- `int(s)` for ASCII text. -/
def pyInt (s : Line) : Except PyErr Int :=
  let t := strip s
  if isInt t = true then
    .ok (match t with
      | '-' :: r => -(natVal (r.filter isDigit) : Int)
      | r => (natVal (r.filter isDigit) : Int))
  else .error .valueError

/-- `float(s)` for ASCII text; `inf`, `nan` and underscores are not modelled. -/
def pyFloat (s : Line) : Except PyErr ℚ :=
  match number (strip s) with
  | some (v, []) => .ok v
  | _ => .error .valueError

/-- Is the character one of `[\s\-\+]` (the optional first character of the expression of line 66)? -/
def isLead (c : Char) : Bool := isSpace c || c = '-' || c = '+'

/-- The rest of a match behind the optional first character `o`: digits, a point, digits, a sign, digits. -/
def matchBody (o s : Line) : Option (Line × Line × Line) :=
  match (digits s).2 with
  | [] => none
  | p :: s3 =>
    if p = '.' ∧ (digits s3).1 ≠ [] then
      match (digits s3).2 with
      | [] => none
      | c :: s5 =>
        if (c = '+' ∨ c = '-') ∧ (digits s5).1 ≠ [] then
          some (o ++ (digits s).1 ++ '.' :: (digits s3).1, c :: (digits s5).1, (digits s5).2)
        else none
    else none

/-- A match of the expression of line 66, `([\s\-\+]?\d*\.\d+)([\+\-]\d+)`, at the start of `s`: the two groups and the rest. No
backtracking is needed: whatever follows a run of digits in the expression is not a digit, and what may follow the optional character is not one
of its kind. -/
def matchAt : Line → Option (Line × Line × Line)
  | [] => none
  | c :: r => if isLead c then matchBody [c] r else matchBody [] (c :: r)

/-- `_ENDF_FLOAT_RE.sub(r'\1e\2', s)` of line 89: matches from left to right, without overlaps. The first argument bounds the number of
steps. -/
def subGo : Nat → Line → Line
  | 0, s => s
  | _ + 1, [] => []
  | n + 1, c :: cs =>
    (matchAt (c :: cs)).elim (c :: subGo n cs) fun m => m.1 ++ 'e' :: m.2.1 ++ subGo n m.2.2

def endfSub (s : Line) : Line := subGo s.length s

/-- `float_endf`, lines 69-89. -/
def floatEndf (s : Line) : Except PyErr ℚ := pyFloat (endfSub s)

/-- `_int_endf`, /95-110. -/
def intEndf (s : Line) : Except PyErr Int := if strip s = [] then .ok 0 else pyInt (strip s)

/-- `file_obj.readline()`. -/
def readline : List Line → Line × List Line
  | [] => ([], [])
  | l :: ls => (l, ls)

/-- `get_text_record`, lines 92-106. -/
def getText (f : List Line) : Line × List Line := (((readline f).1).take 66, (readline f).2)

/-- The items of a CONT record. -/
structure Cont where
  c1 : ℚ
  c2 : ℚ
  l1 : Int
  l2 : Int
  n1 : Int
  n2 : Int
deriving DecidableEq

/-- `get_cont_record`, lines 109-137, with `skipC=False`. -/
def getCont (f : List Line) : Except PyErr (Cont × List Line) := do
  let line := (readline f).1
  let c1 ← floatEndf (col line 0 11)
  let c2 ← floatEndf (col line 11 22)
  let l1 ← pyInt (col line 22 33)
  let l2 ← pyInt (col line 33 44)
  let n1 ← pyInt (col line 44 55)
  let n2 ← pyInt (col line 55 66)
  return (⟨c1, c2, l1, l2, n1, n2⟩, (readline f).2)

/-- `int(x)` of a float: towards zero. -/
def trunc (q : ℚ) : Int := q.num.tdiv q.den

/-- The items of a HEAD record. -/
structure Head where
  za : Int
  awr : ℚ
  l1 : Int
  l2 : Int
  n1 : Int
  n2 : Int
deriving DecidableEq

/-- `get_head_record`, lines 140-161. -/
def getHead (f : List Line) : Except PyErr (Head × List Line) := do
  let line := (readline f).1
  let za ← floatEndf (col line 0 11)
  let awr ← floatEndf (col line 11 22)
  let l1 ← pyInt (col line 22 33)
  let l2 ← pyInt (col line 33 44)
  let n1 ← pyInt (col line 44 55)
  let n2 ← pyInt (col line 55 66)
  return (⟨trunc za, awr, l1, l2, n1, n2⟩, (readline f).2)

/-- Lines 189-190: the first `n` fields of 11 characters. -/
def fields (line : Line) (n : Nat) : Except PyErr (List ℚ) := (List.range n).mapM fun j => floatEndf (col line (11 * j) (11 * (j + 1)))

/-- Lines 186-190: `k` more lines from the `i`-th on. -/
def listLoop (npl : Nat) : Nat → Nat → List Line → Except PyErr (List ℚ × List Line)
  | _, 0, f => .ok ([], f)
  | i, k + 1, f => do
    let b ← fields (readline f).1 (min 6 (npl - 6 * i))
    let (bs, f') ← listLoop npl (i + 1) k (readline f).2
    return (b ++ bs, f')

/-- `get_list_record`, lines 164-192. -/
def getList (f : List Line) : Except PyErr (Cont × List ℚ × List Line) := do
  let (items, f) ← getCont f
  let (b, f) ← listLoop items.n1.toNat 0 ((items.n1 - 1) / 6 + 1).toNat f
  return (items, b, f)

/-- Lines 227-232 and 240-245: pairs of fields of 11 characters, the line being cut off behind each pair. -/
def pairsOf {α β : Type} (rd : Line → Except PyErr α) (rd' : Line → Except PyErr β) : Nat → Line → Except PyErr (List (α × β))
  | 0, _ => .ok []
  | n + 1, line => do
    let a ← rd (col line 0 11)
    let b ← rd' (col line 11 22)
    let ps ← pairsOf rd rd' n (line.drop 22)
    return ((a, b) :: ps)

/-- Lines 225-232 and 238-245: `k` more lines, `m` pairs read. -/
def pairsLoop {α β : Type} (rd : Line → Except PyErr α) (rd' : Line → Except PyErr β) (n : Nat) :
    Nat → Nat → List Line → Except PyErr (List (α × β) × List Line)
  | _, 0, f => .ok ([], f)
  | m, k + 1, f => do
    let ps ← pairsOf rd rd' (min 3 (n - m)) (readline f).1
    let (qs, f') ← pairsLoop rd rd' n (m + min 3 (n - m)) k (readline f).2
    return (ps ++ qs, f')

/-- All lines of a table of `n` pairs; `np.zeros` rejects a negative size. -/
def pairsTable {α β : Type} (rd : Line → Except PyErr α) (rd' : Line → Except PyErr β) (n : Int) (f : List Line) :
    Except PyErr (List (α × β) × List Line) :=
  if n < 0 then .error .valueError else pairsLoop rd rd' n.toNat 0 ((n - 1) / 3 + 1).toNat f

/-- `get_tab1_record`, lines 195-247: C1, C2, L1, L2, then (breakpoint, interpolation) pairs, then (x, y) pairs. -/
def getTab1 (f : List Line) : Except PyErr ((ℚ × ℚ × Int × Int) × List (Int × Int) × List (ℚ × ℚ) × List Line) := do
  let (h, f) ← getCont f
  let (regions, f) ← pairsTable pyInt pyInt h.n1 f
  let (xy, f) ← pairsTable floatEndf floatEndf h.n2 f
  return ((h.c1, h.c2, h.l1, h.l2), regions, xy, f)

/-- `get_tab2_record`, lines 250-268. -/
def getTab2 (f : List Line) : Except PyErr (Cont × List (Int × Int) × List Line) := do
  let (h, f) ← getCont f
  let (regions, f) ← pairsTable pyInt pyInt h.n1 f
  return (h, regions, f)

/-! ### INTG records -/

/-- A square matrix of the given size. -/
abbrev Mat (n : Nat) := Fin n → Fin n → ℚ

/-- A numpy index into an axis of length `n`. -/
def npIndex (n : Nat) (i : Int) : Except PyErr (Fin n) :=
  if h : 0 ≤ i ∧ i.toNat < n then .ok ⟨i.toNat, h.2⟩
  else if h : i < 0 ∧ 0 ≤ i + n ∧ (i + n).toNat < n then .ok ⟨(i + n).toNat, h.2.2⟩
  else .error .indexError

/-- /322-330: one line, the elements `j`, `j + 1`, ... of its row. -/
def intgRow {n : Nat} (ndigit : Nat) (line : Line) (ii jj : Int) : Nat → Nat → Mat n → Except PyErr (Mat n)
  | _, 0, m => .ok m
  | j, k + 1, m =>
    if jj + j ≥ ii then .ok m
    else do
      let element ← intEndf (col line (11 + (ndigit + 1) * j) (11 + (ndigit + 1) * (j + 1)))
      if element > 0 then do
        let r ← npIndex n ii
        let c ← npIndex n jj
        intgRow ndigit line ii jj (j + 1) k (fun a b => if a = r ∧ b = c then ((element : ℚ) + 1 / 2) / 10 ^ ndigit else m a b)
      else if element < 0 then do
        let r ← npIndex n ii
        let c ← npIndex n jj
        intgRow ndigit line ii jj (j + 1) k (fun a b => if a = r ∧ b = c then ((element : ℚ) - 1 / 2) / 10 ^ ndigit else m a b)
      else intgRow ndigit line ii jj (j + 1) k m

/-- /317-330: the lines. -/
def intgLines {n : Nat} (ndigit nrow : Nat) : Nat → Mat n → List Line → Except PyErr (Mat n × List Line)
  | 0, m, f => .ok (m, f)
  | k + 1, m, f => do
    let line := (readline f).1
    let ii ← intEndf (col line 0 5)
    let jj ← intEndf (col line 5 10)
    let m ← intgRow ndigit line (ii - 1) (jj - 1) 0 nrow m
    intgLines ndigit nrow k m (readline f).2

/-- /312: `NROW_RULES`. -/
def nrowRules : Int → Except PyErr Nat
  | 2 => .ok 18
  | 3 => .ok 12
  | 4 => .ok 11
  | 5 => .ok 9
  | 6 => .ok 8
  | _ => .error .keyError

/-- `get_intg_record`, /292-334. -/
def getIntg (f : List Line) : Except PyErr ((n : Nat) × Mat n × List Line) := do
  let (h, f) ← getCont f
  let nrow ← nrowRules h.l1
  if h.l2 < 0 then .error .valueError
  else do
    let n := h.l2.toNat
    let (m, f) ← intgLines (n := n) h.l1.toNat nrow h.n1.toNat (fun a b => if a = b then 1 else 0) f
    return ⟨n, fun a b => m a b + m b a - (if a = b then m a a else 0), f⟩

/-! ### Evaluation -/

/-- Where the constructor of `Evaluation` is (lines 332-365): looking for the material, for the next section, inside a section. -/
inductive Phase where
  | findMat
  | findSec
  | inSec (mf mt : Int) (data : List Line)
deriving DecidableEq

/-- The state of the constructor: the rest of the file, the phase, the material and the sections so far. -/
structure Ev where
  rest : List Line
  phase : Phase
  material : Int
  sections : List ((Int × Int) × List Line)
deriving DecidableEq

/-- One turn of a loop: an exception, the end of the loops (lines 354-356; with the file position after it), or the next state. -/
inductive Turn where
  | error (e : PyErr)
  | done (s : Ev)
  | next (s : Ev)
deriving DecidableEq

def Turn.ofExcept : Except PyErr Turn → Turn
  | .error e => .error e
  | .ok t => t

/-- One turn of the loop the constructor is in. -/
def step (s : Ev) : Turn :=
  let line := (readline s.rest).1
  let rest := (readline s.rest).2
  match s.phase with
  | .findMat => Turn.ofExcept do                                                       -- 333-338
      let mf ← pyInt (col line 70 72)
      if mf = 0 then return .next { s with rest := rest }
      else
        let mat ← pyInt (col line 66 70)
        return .next { s with phase := .findSec, material := mat }
  | .findSec => Turn.ofExcept do                                                       -- 343-356
      let mat ← pyInt (col line 66 70)
      let mf ← pyInt (col line 70 72)
      let mt ← pyInt (col line 72 75)
      if mt > 0 ∨ mat = 0 then
        if mat = 0 then return .done { s with rest := rest }
        else return .next { s with phase := .inSec mf mt [] }
      else return .next { s with rest := rest }
  | .inSec mf mt data =>                                                               -- 358-364
      if col line 72 75 = "  0".toList then
        .next { s with rest := rest, phase := .findSec, sections := Dict.set s.sections (mf, mt) data }
      else .next { s with rest := rest, phase := .inSec mf mt (if line = [] then data else data ++ [line]) }

/-- The state after `n` turns, if the loops have not ended before. -/
def after : Nat → Ev → Option Ev
  | 0, s => some s
  | n + 1, s => match step s with
    | .next s' => after n s'
    | _ => none

/-- The constructor (before `_read_header`) ends at the given turn, with an exception or with a result. -/
def Ends (s : Ev) (t : Turn) : Prop := ∃ n s', after n s = some s' ∧ step s' = t ∧ ∀ s'', t ≠ .next s''

/-- The start of the constructor on a file. -/
def evStart (f : List Line) : Ev := ⟨f, .findMat, 0, []⟩

/-! ### Header -/

/-- What `_read_header` finds in section (1, 451). -/
structure Header where
  za : Int
  mass : ℚ
  lrp : Int
  fissionable : Bool
  libraryCode : Int
  modification : Int
  excitation : ℚ
  stable : Bool
  state : Int
  isomeric : Int
  projectileMass : ℚ
  energyMax : ℚ
  release : Int
  sublibrary : Int
  version : Int
  temperature : ℚ
  derived : Bool
  text : List Line
  reactions : List (Int × Int × Int × Int)
  deriving DecidableEq

/-- Lines 435-443: an entry of the directory; a missing MOD is read as 0. -/
def dirEntry (line : Line) : Except PyErr (Int × Int × Int × Int) := do
  let mf ← pyInt (col line 22 33)
  let mt ← pyInt (col line 33 44)
  let nc ← pyInt (col line 44 55)
  let md := match pyInt (col line 55 66) with | .ok v => v | .error _ => 0
  return (mf, mt, nc, md)

/-- Line 419: `n` text records. -/
def texts : Nat → List Line → List Line × List Line
  | 0, f => ([], f)
  | n + 1, f => ((getText f).1 :: (texts n (getText f).2).1, (texts n (getText f).2).2)

/-- Lines 433-444. -/
def directory : Nat → List Line → Except PyErr (List (Int × Int × Int × Int))
  | 0, _ => .ok []
  | n + 1, f => do
    let e ← dirEntry (readline f).1
    let es ← directory n (readline f).2
    return e :: es

/-- `_read_header`, lines 371-444, on the lines of the section. The names of laboratory, author etc. cut from the text records are not
modelled, nor are the names of library and sublibrary (in data/endf.py an unknown sublibrary raises `KeyError`). -/
def readHeader (f : List Line) : Except PyErr Header := do
  let (h, f) ← getHead f
  let (c1, f) ← getCont f
  if c1.n2 ≠ 6 then .error .assertionError                                            -- 396
  else do
    let (c2, f) ← getCont f
    let (c3, f) ← getCont f
    let (text, f) := texts c3.n1.toNat f
    let dir ← directory c3.n2.toNat f
    return { za := h.za, mass := h.awr, lrp := h.l1, fissionable := decide (h.l2 = 1), libraryCode := h.n1, modification := h.n2,
             excitation := c1.c1, stable := decide (trunc c1.c2 = 0),
             state := if h.za / 1000 = 95 ∧ h.za % 1000 = 242 ∧ c1.l2 = 1 then 2 else c1.l1,      -- 399-400
             isomeric := c1.l2, projectileMass := c2.c1, energyMax := c2.c2, release := c2.l1, sublibrary := c2.n1, version := c2.n2,
             temperature := c3.c1, derived := decide (c3.l1 > 0), text := text, reactions := dir }

/-- Line 372 and `_read_header`: the header of an evaluation whose sections have been read. -/
def headerOf (s : Ev) : Except PyErr Header :=
  match Dict.get? s.sections ((1 : Int), (451 : Int)) with
  | none => .error .keyError
  | some ls => readHeader ls

/-- `get_evaluations`, lines 271-294: the loop from a file position, with the evaluations read so far, ends with a result. `closes` says whether
`Evaluation` closes the file it was given (line 369; not in data/endf.py): the next `fh.tell()` then raises `ValueError`. -/
inductive GetEvals (closes : Bool) : List Line → List (Ev × Header) → Except PyErr (List (Ev × Header)) → Prop
  | stop {f : List Line} {acc : List (Ev × Header)} : col (readline f).1 66 70 = "  -1".toList → GetEvals closes f acc (.ok acc)
  | fail {f : List Line} {acc : List (Ev × Header)} {e : PyErr} : col (readline f).1 66 70 ≠ "  -1".toList →
      Ends (evStart f) (.error e) → GetEvals closes f acc (.error e)
  | header {f : List Line} {acc : List (Ev × Header)} {e : PyErr} {s : Ev} : col (readline f).1 66 70 ≠ "  -1".toList →
      Ends (evStart f) (.done s) → headerOf s = .error e → GetEvals closes f acc (.error e)
  | closed {f : List Line} {acc : List (Ev × Header)} {s : Ev} {h : Header} : closes = true → col (readline f).1 66 70 ≠ "  -1".toList →
      Ends (evStart f) (.done s) → headerOf s = .ok h → GetEvals closes f acc (.error .valueError)
  | next {f : List Line} {acc : List (Ev × Header)} {s : Ev} {h : Header} {r : Except PyErr (List (Ev × Header))} : closes = false →
      col (readline f).1 66 70 ≠ "  -1".toList → Ends (evStart f) (.done s) → headerOf s = .ok h →
      GetEvals closes s.rest (acc ++ [(s, h)]) r → GetEvals closes f acc r

end ASAPy.Endf
