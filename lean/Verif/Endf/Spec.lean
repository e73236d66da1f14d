import Verif.Endf.Model
import Mathlib.Data.Rat.Floor

/-! # Specification for C55-C57 and C70-C73: what is on an ENDF file -/

namespace ASAPy.Endf
open ASAPy.Dec ASAPy.Boxer

/-- A number as ENDF files have it, without a letter in front of the exponent: blanks, an optional sign, digits, a point, digits, the sign
of the exponent, its digits, blanks. -/
structure Num where
  pre : Nat
  sign : Option Bool
  ip : List Char
  fp : List Char
  negExp : Bool
  ep : List Char
  post : Nat

/-- All digits are digits; there is at least one behind the point and in the exponent. -/
def Num.Ok (x : Num) : Prop :=
  (∀ c ∈ x.ip, isDigit c = true) ∧ (∀ c ∈ x.fp, isDigit c = true) ∧ (∀ c ∈ x.ep, isDigit c = true) ∧ x.fp ≠ [] ∧ x.ep ≠ []

/-- The sign as text; `some true` is minus. -/
def signText : Option Bool → List Char
  | none => []
  | some true => ['-']
  | some false => ['+']

def Num.text (x : Num) : List Char :=
  List.replicate x.pre ' ' ++ signText x.sign ++ x.ip ++ '.' :: x.fp ++ (if x.negExp then '-' else '+') :: x.ep ++ List.replicate x.post ' '

/-- The same number with a letter in front of the exponent. -/
def Num.letterText (x : Num) (L : Char) : List Char :=
  List.replicate x.pre ' ' ++ signText x.sign ++ x.ip ++ '.' :: x.fp ++ L :: (if x.negExp then '-' else '+') :: x.ep ++ List.replicate x.post ' '

/-- Its value: sign, mantissa (digits read together, shifted by the number of digits behind the point), power of ten. -/
def Num.value (x : Num) : ℚ :=
  (if x.sign = some true then -1 else 1) * ((natVal (x.ip ++ x.fp) : ℕ) : ℚ) / 10 ^ x.fp.length *
    (if x.negExp then 1 / (10 : ℚ) ^ natVal x.ep else (10 : ℚ) ^ natVal x.ep)

/-- Somewhere a sign stands directly between two digits. -/
def SignBetweenDigits (s : List Char) : Prop :=
  ∃ a d c d' b, s = a ++ d :: c :: d' :: b ∧ isDigit d = true ∧ (c = '+' ∨ c = '-') ∧ isDigit d' = true

/-- A field of 11 characters that is read as `v`. -/
def Field {α : Type} (rd : Line → Except PyErr α) (t : Line) (v : α) : Prop := t.length = 11 ∧ rd t = .ok v

/-- A line with the six fields of a control record, followed by anything (MAT, MF, MT, line number). -/
def ContLine (c : Cont) (l : Line) : Prop :=
  ∃ t1 t2 t3 t4 t5 t6 tail, l = t1 ++ t2 ++ t3 ++ t4 ++ t5 ++ t6 ++ tail ∧ Field floatEndf t1 c.c1 ∧ Field floatEndf t2 c.c2 ∧
    Field pyInt t3 c.l1 ∧ Field pyInt t4 c.l2 ∧ Field pyInt t5 c.n1 ∧ Field pyInt t6 c.n2

/-- A line starting with the fields of the values. -/
inductive Starts {α : Type} (rd : Line → Except PyErr α) : List α → Line → Prop
  | nil (tail : Line) : Starts rd [] tail
  | cons {t : Line} {v : α} {vs : List α} {l : Line} : Field rd t v → Starts rd vs l → Starts rd (v :: vs) (t ++ l)

/-- Lines holding the values, `k` on every line but the last, which has the rest; no line for no value. -/
inductive Lines {α : Type} (st : List α → Line → Prop) (k : Nat) : List α → List Line → Prop
  | nil : Lines st k [] []
  | last {vs : List α} {l : Line} : vs ≠ [] → vs.length ≤ k → st vs l → Lines st k vs [l]
  | more {vs ws : List α} {l : Line} {ls : List Line} : vs.length = k → ws ≠ [] → st vs l → Lines st k ws ls → Lines st k (vs ++ ws) (l :: ls)

/-- A line starting with the fields of pairs. -/
inductive StartsPairs {α β : Type} (rd : Line → Except PyErr α) (rd' : Line → Except PyErr β) : List (α × β) → Line → Prop
  | nil (tail : Line) : StartsPairs rd rd' [] tail
  | cons {t t' : Line} {a : α} {b : β} {vs : List (α × β)} {l : Line} :
      Field rd t a → Field rd' t' b → StartsPairs rd rd' vs l → StartsPairs rd rd' ((a, b) :: vs) (t ++ t' ++ l)

/-- The columns with the numbers of material, file and section. -/
def Tag (mat mf mt : Int) (l : Line) : Prop :=
  pyInt (col l 66 70) = .ok mat ∧ pyInt (col l 70 72) = .ok mf ∧ pyInt (col l 72 75) = .ok mt

/-- A line that ends a section: columns 73-75 are `  0`. -/
def IsSend (l : Line) : Prop := col l 72 75 = "  0".toList

instance (l : Line) : Decidable (IsSend l) := by unfold IsSend; infer_instance

/-- A section: its file and section numbers and its lines (at least one, none of them empty, none ending a section), the first of them with
the numbers of material, file and section. -/
structure Sec where
  mf : Int
  mt : Int
  head : Line
  body : List Line
  send : Line
  seps : List Line

/-- The text of a section: its lines, the line that ends it, separating lines. -/
def Sec.text (s : Sec) : List Line := s.head :: s.body ++ s.send :: s.seps

def Sec.Ok (mat : Int) (s : Sec) : Prop :=
  0 < s.mt ∧ s.mf ≠ 0 ∧ Tag mat s.mf s.mt s.head ∧ (∀ l ∈ s.head :: s.body, ¬ IsSend l ∧ l ≠ []) ∧ IsSend s.send ∧
    ∀ l ∈ s.seps, ∃ mat' mf' mt', Tag mat' mf' mt' l ∧ mat' ≠ 0 ∧ mt' ≤ 0

/-- The text of a material: lines with file number 0, sections, and a line with material number 0. -/
def materialText (pre : List Line) (secs : List Sec) (mend : Line) : List Line := pre ++ secs.flatMap Sec.text ++ [mend]

def MaterialOk (mat : Int) (pre : List Line) (secs : List Sec) (mend : Line) : Prop :=
  mat ≠ 0 ∧ secs ≠ [] ∧ (∀ l ∈ pre, pyInt (col l 70 72) = .ok 0) ∧ (∀ s ∈ secs, s.Ok mat) ∧ (secs.map fun s => (s.mf, s.mt)).Nodup ∧
    ∃ mf mt, Tag 0 mf mt mend

/-- The first four records of section (1, 451). -/
structure Recs where
  head : Head
  c1 : Cont
  c2 : Cont
  c3 : Cont

/-- Rounding towards zero. -/
def Truncates (q : ℚ) (n : Int) : Prop := (0 ≤ q ∧ n = ⌊q⌋) ∨ (q < 0 ∧ n = ⌈q⌉)

/-- A line with the six fields of a HEAD record; the first is a float whose whole part is kept. -/
def HeadLine (h : Head) (l : Line) : Prop :=
  ∃ q t1 t2 t3 t4 t5 t6 tail, l = t1 ++ t2 ++ t3 ++ t4 ++ t5 ++ t6 ++ tail ∧ Field floatEndf t1 q ∧ Truncates q h.za ∧ Field floatEndf t2 h.awr ∧
    Field pyInt t3 h.l1 ∧ Field pyInt t4 h.l2 ∧ Field pyInt t5 h.n1 ∧ Field pyInt t6 h.n2

/-- A line of the directory: two blank fields, MF, MT, the number of records, MOD (which may be missing: then 0). -/
def DirLine (e : Int × Int × Int × Int) (l : Line) : Prop :=
  ∃ b t3 t4 t5 t6 tail, l = b ++ t3 ++ t4 ++ t5 ++ t6 ++ tail ∧ b.length = 22 ∧ Field pyInt t3 e.1 ∧ Field pyInt t4 e.2.1 ∧
    Field pyInt t5 e.2.2.1 ∧ t6.length = 11 ∧ (pyInt t6 = .ok e.2.2.2 ∨ (pyInt t6 = .error .valueError ∧ e.2.2.2 = 0))

/-- One evaluation of a tape of several: its material number, its text, its header. -/
structure Mate where
  mat : Int
  pre : List Line
  secs : List Sec
  mend : Line
  header : Header

/-- What the reader makes of it: the sections, the rest of the file, the header. -/
def Mate.result (m : Mate) (rest : List Line) : Ev × Header :=
  (⟨rest, .findSec, m.mat, m.secs.map fun s => ((s.mf, s.mt), s.head :: s.body)⟩, m.header)

def Mate.text (m : Mate) : List Line := materialText m.pre m.secs m.mend

/-- The text of several evaluations and the results, the last followed by `tend`. -/
def matesText (ms : List Mate) (tend : List Line) : List Line := ms.flatMap Mate.text ++ tend

def matesResult : List Mate → List Line → List (Ev × Header)
  | [], _ => []
  | m :: ms, tend => m.result (matesText ms tend) :: matesResult ms tend

/-- A well formed evaluation on a tape: a well formed material, whose section (1, 451) is a readable header, and whose first line does not
look like the end of the tape. -/
def Mate.Ok (m : Mate) : Prop :=
  MaterialOk m.mat m.pre m.secs m.mend ∧ (∀ l ∈ m.text.head?, col l 66 70 ≠ "  -1".toList) ∧
    ∃ s ∈ m.secs, s.mf = 1 ∧ s.mt = 451 ∧ readHeader (s.head :: s.body) = .ok m.header

/-- The correlation an element of an INTG record with `nd` digits stands for: the middle of the interval its digits leave. -/
def corrOf (nd : Nat) (e : Int) : ℚ := if 0 < e then ((e : ℚ) + 1 / 2) / 10 ^ nd else ((e : ℚ) - 1 / 2) / 10 ^ nd

/-- A line of an INTG record whose only element is `e`, at row `ii` and column `jj` (counted from 1): every other element up to the diagonal is
blank or zero. -/
def IntgLine (n nd : Nat) (ii jj e : Int) (l : Line) : Prop :=
  intEndf (col l 0 5) = .ok ii ∧ intEndf (col l 5 10) = .ok jj ∧ 1 ≤ jj ∧ jj < ii ∧ ii ≤ n ∧ e ≠ 0 ∧
    intEndf (col l 11 (12 + nd)) = .ok e ∧
    ∀ j : Nat, 1 ≤ j → jj + j < ii → intEndf (col l (11 + (nd + 1) * j) (11 + (nd + 1) * (j + 1))) = .ok 0

end ASAPy.Endf
