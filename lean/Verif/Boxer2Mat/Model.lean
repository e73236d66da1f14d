import Verif.Boxer.Spec
import Verif.Dec

/-!
# Model of boxer2mat (boxer2mat/boxer2mat.f)

The program that turns NJOY's compressed matrices into text. Here unit 20 is a list of pages, each with the numbers of its header card and its `NVAL`
values and `NCON` control numbers; how they are read from the text is modelled in `Text`. Values are of any type; they are printed by a function to fields of format
`1P8E10.3` (numbers in single precision have exponents of two digits). The table of contents (`ITYPE = -1`) is not modelled. DO loops are those
of Fortran 77: none if the bound is zero.
-/

namespace ASAPy.Boxr
open ASAPy.Dec ASAPy.Boxer

/-- A header card, lines 52-53, without `NVAL` and `NCON`. -/
structure Head where
  itype : Nat
  title : List Char
  mat : Nat
  mt : Nat
  mat1 : Nat
  mt1 : Nat
  nvf : Nat
  ncf : Nat
  nrowm : Nat
  nrow : Nat
  ncol : Nat
deriving DecidableEq

/-- A header card with its data, lines 52-53, 64-65 and 120-124. -/
structure Page (α : Type) where
  head : Head
  xval : List α
  icon : List Int
deriving DecidableEq

/-- A line of input, line 47. -/
structure Req where
  itype : Nat
  mat : Nat
  mt : Nat
  mat1 : Nat
  mt1 : Nat
deriving DecidableEq

/-- How a run ends early: `STOP n`; the messages 901, 911 and that of SETFOR; the end of unit 20 where a page must follow (line 120). -/
inductive Halt
  | stop (n : Nat)
  | missing
  | groups
  | formats
  | ended
deriving DecidableEq

/-- The matrix, the position of the last element loaded, and the number of elements. -/
structure St (α : Type) where
  c : Nat → Nat → α
  i : Nat
  j : Nat
  nx : Nat

variable {α : Type}

/-- `C(I,J) = X`. -/
def put (c : Nat → Nat → α) (i j : Nat) (x : α) : Nat → Nat → α := fun a b => if a = i ∧ b = j then x else c a b

/-- Lines 100-114: load one element, a given value or (`none`) the one above it. -/
def place [Zero α] (nrow ncol : Nat) (sym : Bool) (istart : Nat) (s : St α) (t : Option α) : Except Halt (St α) :=
  let next : Except Halt (Nat × Nat) :=
    if s.j + 1 ≤ ncol then .ok (s.i, s.j + 1)                                         -- 100-101
    else if s.i + 1 > nrow then .error (.stop 10)                                     -- 103-104
    else .ok (s.i + 1, if sym then s.i + 1 else 1)                                    -- 105-106
  match next with
  | .error e => .error e
  | .ok (i, j) =>
    let x := t.getD (if i > istart then s.c (i - 1) j else 0)                         -- 108-109
    let c := put s.c i j x                                                            -- 110
    if sym = false ∨ i = j then .ok ⟨c, i, j, s.nx + 1⟩                               -- 111-112
    else .ok ⟨put c j i x, i, j, s.nx + 2⟩                                            -- 113-114

/-- Lines 99-115: the same several times. -/
def placeN [Zero α] (nrow ncol : Nat) (sym : Bool) (istart : Nat) (t : Option α) : Nat → St α → Except Halt (St α)
  | 0, s => .ok s
  | n + 1, s => match place nrow ncol sym istart s t with
    | .error e => .error e
    | .ok s' => placeN nrow ncol sym istart t n s'

/-- Lines 89-116: the control numbers, with the values not yet used. -/
def controls [Zero α] (nrow ncol : Nat) (sym : Bool) (istart : Nat) : List Int → List α → St α → Except Halt (St α)
  | [], _, s => .ok s
  | k :: ks, vs, s =>
    if k < 0 then                                                                     -- 94-97
      match vs with
      | [] => .error (.stop 7)
      | v :: vs => match placeN nrow ncol sym istart (some v) (-k).toNat s with
        | .error e => .error e
        | .ok s' => controls nrow ncol sym istart ks vs s'
    else if k = 0 then .error (.stop 6)                                               -- 91
    else match placeN nrow ncol sym istart none k.toNat s with                        -- 92
      | .error e => .error e
      | .ok s' => controls nrow ncol sym istart ks vs s'

/-- SETFOR, lines 178-179: are the formats legal? -/
def formatsOk (h : Head) : Bool := decide (7 ≤ h.nvf ∧ h.nvf ≤ 14 ∧ 1 ≤ h.ncf ∧ h.ncf ≤ 6)

/-- Lines 80-85: the number of columns; zero stands for a symmetric matrix. -/
def Head.columns (h : Head) : Nat := if h.ncol = 0 then h.nrow else h.ncol
def Head.sym (h : Head) : Bool := decide (h.ncol = 0)

/-- Lines 80-129: the given page and those that continue it. Returns the state, the last page and the pages not yet read. -/
def loadPages [Zero α] : Page α → List (Page α) → Nat → St α → Except Halt (St α × Page α × List (Page α))
  | p, rest, istart, s =>
    if p.head.nrow > 800 ∨ p.head.columns > 800 then .error .groups                   -- 86
    else match controls p.head.nrow p.head.columns p.head.sym istart p.icon p.xval s with
      | .error e => .error e
      | .ok s =>
        if p.head.nrowm = 0 then                                                      -- 117
          if s.nx = p.head.nrow * p.head.columns then .ok (s, p, rest) else .error (.stop 12)   -- 129
        else if s.j ≠ p.head.columns then .error (.stop 11)                           -- 119
        else match rest with
          | [] => .error .ended                                                       -- 120
          | q :: rest => if formatsOk q.head then loadPages q rest (s.i + 1) s else .error .formats   -- 122-126
  termination_by _ rest => rest.length

/-- Lines 70-74. -/
def wanted (r : Req) (h : Head) : Bool :=
  decide (h.itype = r.itype) && (decide (r.itype = 0) || (decide (h.mat = r.mat ∧ h.mt = r.mt) &&
    (decide (r.itype = 1 ∨ r.itype = 2) || decide (h.mat1 = r.mat1 ∧ h.mt1 = r.mt1))))

/-- Lines 52-74: read on to the page asked for. -/
def find (r : Req) : List (Page α) → Except Halt (Page α × List (Page α))
  | [] => .error .missing                                                             -- 52
  | p :: ps =>
    if p.head.itype = 9 then .error .missing                                          -- 56
    else if p.xval.length > 1880 then .error (.stop 3)                                -- 60
    else if p.icon.length > 1900 then .error (.stop 4)                                -- 61
    else if formatsOk p.head then                                                     -- 63
      if wanted r p.head then .ok (p, ps) else find r ps
    else .error .formats

/-- Format `Iw`: right-justified, asterisks if the number is too long. -/
def fInt (w n : Nat) : List Char :=
  if (natStr n).length ≤ w then List.replicate (w - (natStr n).length) ' ' ++ natStr n else List.replicate w '*'

/-- Format 210, line 164. -/
def headLine (title : List Char) (p : Page α) : List Char :=
  fInt 1 p.head.itype ++ title ++ fInt 5 p.head.mat ++ fInt 4 p.head.mt ++ fInt 5 p.head.mat1 ++ fInt 4 p.head.mt1 ++ fInt 4 p.xval.length ++
    fInt 3 p.head.nvf ++ fInt 4 p.icon.length ++ fInt 3 p.head.ncf ++ fInt 4 p.head.nrowm ++ fInt 4 p.head.nrow ++ fInt 4 p.head.ncol ++ ['\n']

/-- The records of `8E10.3`, line 163: eight numbers a line. -/
def recs {β : Type} (l : List β) : List (List β) := if l.length ≤ 8 then [l] else l.take 8 :: recs (l.drop 8)
  termination_by l.length

/-- Lines 135-149: the rows written, each in a new line. -/
def rows (r : Req) (c : Nat → Nat → α) (nrow ncol : Nat) : List (List α) :=
  if ncol = 1 then [(List.range nrow).map fun k => c (nrow - k) 1]                    -- 146-149
  else (List.range nrow).map fun k =>
    (List.range ncol).map fun l =>
      if r.itype = 4 ∧ r.mt1 = 0 then c (k + 1) (l + 1)                               -- 139, 142
      else c (nrow - k) (ncol - l)                                                    -- 137, 141, 143

/-- Lines 132-149: four empty lines (format 220), the header with the title of the first page, the rows. -/
def block (prt : α → Fld) (r : Req) (first last : Page α) (c : Nat → Nat → α) : List (List Char) :=
  List.replicate 4 ['\n'] ++ headLine first.head.title last ::
    (rows r c last.head.nrow last.head.columns).flatMap fun row => (recs row).map fun l => lineOf (l.map prt)

/-- The messages, lines 153-159 and 188-190, after an empty line. (The two numbers in the message of SETFOR are left out.) -/
def message (r : Req) : Halt → List (List Char)
  | .missing => [['\n'], " ***ERROR IN BOXR***CANNOT FIND ITYPE,MAT,MT,MAT1,MT1 =".toList ++ fInt 5 r.itype ++ fInt 5 r.mat ++ fInt 5 r.mt ++
      fInt 5 r.mat1 ++ fInt 5 r.mt1 ++ ['\n']]
  | .groups => [['\n'], " ***ERROR IN BOXR*** NUMBER OF GROUPS EXCEEDS 800\n".toList]
  | .formats => [['\n'], " ***ERROR IN SETFOR***NVF (=   ) OR NCF (=   ) IS ILLEGAL.\n".toList]
  | .stop _ => []
  | .ended => []

/-- The exit status: that of STOP, 2 for an error of the Fortran library. -/
def status : Halt → Nat
  | .stop n => n
  | .ended => 2
  | _ => 0

/-- One request: what is written, and the matrix and the pages left, or how the run ends. The array `C` keeps what it held. -/
def serve [Zero α] (prt : α → Fld) (r : Req) (c : Nat → Nat → α) (ps : List (Page α)) :
    Except Halt (List (List Char) × (Nat → Nat → α) × List (Page α)) :=
  match find r ps with
  | .error e => .error e
  | .ok (p, rest) => match loadPages p rest 1 ⟨c, 1, 0, 0⟩ with                        -- 76-79
    | .error e => .error e
    | .ok (s, last, rest) => .ok (block prt r p last s.c, s.c, rest)

/-- The main loop: the text of unit 21 and the exit status. -/
def boxr [Zero α] (prt : α → Fld) : List Req → (Nat → Nat → α) → List (Page α) → List (List Char) × Nat
  | [], _, _ => ([], 2)
  | r :: rs, c, ps =>
    if r.mat = 0 then ([], 0)                                                         -- 49
    else match serve prt r c ps with
      | .error e => (message r e, status e)
      | .ok (out, c, ps) => (out ++ (boxr prt rs c ps).1, (boxr prt rs c ps).2)

/-- EndfToCov.py 26-31: what ASAPy asks for. -/
def template (mat mt : Nat) : List Req := [⟨0, mat, mt, mat, mt⟩, ⟨1, mat, mt, mat, mt⟩, ⟨2, mat, mt, mat, mt⟩, ⟨3, mat, mt, mat, mt⟩, ⟨0, 0, 0, 0, 0⟩]

end ASAPy.Boxr
