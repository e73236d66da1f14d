import Verif.Boxer2Mat.Model
import Verif.Chars

/-!
# boxer2mat on the text of its input and of the BOXER file (boxer2mat/boxer2mat.f)

`Verif/Boxer2Mat/Model` takes the requests and the pages as numbers. Here they are read as Fortran reads formatted records: a field has a fixed number of columns; a comma in a numeric field ends it (an
extension of gfortran that the input of ASAPy relies on); blanks in numeric fields do not count, an empty one is zero; a record that is too short is filled with blanks. A field that is no number ends the
program with an error of the Fortran library, as does the end of the file inside a page. Negative numbers on header cards and in requests (`ITYPE = -1`, the table of contents, among them) are not
modelled: they count as such an error. Values are rational numbers: rounding to single precision is left out.
-/

namespace ASAPy.Boxr
open ASAPy.Dec ASAPy.Boxer

abbrev Line := List Char

/-- The next numeric field of `w` columns, and what follows it. -/
def field (w : Nat) (s : Line) : Line × Line :=
  if ',' ∈ s.take w then (s.takeWhile (fun c => decide (c ≠ ',')), (s.dropWhile (fun c => decide (c ≠ ','))).drop 1) else (s.take w, s.drop w)

/-- A string of digits. -/
def digits (s : Line) : Option Nat := if s ≠ [] ∧ s.all isDigit = true then some (natVal s) else none

/-- Edit descriptor `I`. -/
def readInt (s : Line) : Option Int :=
  match s.filter (fun c => decide (c ≠ ' ')) with
  | [] => some 0
  | '-' :: ds => (digits ds).map fun (n : Nat) => -(n : Int)
  | '+' :: ds => (digits ds).map fun (n : Nat) => (n : Int)
  | ds => (digits ds).map fun (n : Nat) => (n : Int)

/-- A number that is not negative. -/
def readNat (s : Line) : Option Nat :=
  match readInt s with
  | some (.ofNat n) => some n
  | _ => none

/-- An exponent, with or without its letter. -/
def readExp : Line → Option Int
  | [] => none
  | c :: cs =>
    let signed : Line → Option Int
      | '-' :: ds => (digits ds).map fun (n : Nat) => -(n : Int)
      | '+' :: ds => (digits ds).map fun (n : Nat) => (n : Int)
      | ds => (digits ds).map fun (n : Nat) => (n : Int)
    if c ∈ ['E', 'e', 'D', 'd', 'Q', 'q'] then signed cs
    else if c = '+' ∨ c = '-' then signed (c :: cs)
    else none

/-- Ten to an integer. -/
def ten (e : Int) : ℚ := if e < 0 then 1 / (10 : ℚ) ^ e.natAbs else (10 : ℚ) ^ e.natAbs

/-- A number without sign: digits with a decimal point, or with `d` decimals if it has none; the scale factor `k` counts if there is no exponent. -/
def readUnsigned (d k : Nat) (s : Line) : Option ℚ :=
  let ip := s.takeWhile isDigit
  let rest := s.dropWhile isDigit
  let (fp, decimals, rest) := match rest with
    | '.' :: r => (r.takeWhile isDigit, (r.takeWhile isDigit).length, r.dropWhile isDigit)
    | r => ([], d, r)
  if ip ++ fp = [] then none
  else
    let e := if rest = [] then some (-(k : Int)) else readExp rest
    e.map fun e => (natVal (ip ++ fp) : ℚ) / 10 ^ decimals * ten e

/-- Edit descriptors `F` and `E`. -/
def readReal (d k : Nat) (s : Line) : Option ℚ :=
  match s.filter (fun c => decide (c ≠ ' ')) with
  | [] => some 0
  | '-' :: r => (readUnsigned d k r).map fun x => -x
  | '+' :: r => readUnsigned d k r
  | r => readUnsigned d k r

/-- Integers in fields of these widths. -/
def readNats : List Nat → Line → Option (List Nat)
  | [], _ => some []
  | w :: ws, s => match readNat (field w s).1 with
    | none => none
    | some n => (readNats ws (field w s).2).map fun ns => n :: ns

/-- Line 47 with format 190. -/
def readReq (l : Line) : Option Req :=
  match readNats [6, 6, 6, 6, 6] l with
  | some [a, b, c, d, e] => some ⟨a, b, c, d, e⟩
  | _ => none

/-- Lines 52-53 with format 210: the header card, `NVAL` and `NCON`. -/
def readHead (l : Line) : Option (Head × Nat × Nat) :=
  let (i, rest) := field 1 l
  let title := rest.take 35 ++ List.replicate (35 - (rest.take 35).length) ' '
  match readNat i, readNats [5, 4, 5, 4, 4, 3, 4, 3, 4, 4, 4] (rest.drop 35) with
  | some itype, some [mat, mt, mat1, mt1, nval, nvf, ncon, ncf, nrowm, nrow, ncol] => some (⟨itype, title, mat, mt, mat1, mt1, nvf, ncf, nrowm, nrow, ncol⟩, nval, ncon)
  | _, _ => none

/-- `n` fields of `w` columns of a record. -/
def readFields {β : Type} (rd : Line → Option β) (w : Nat) : Nat → Line → Option (List β)
  | 0, _ => some []
  | n + 1, s => match rd (field w s).1 with
    | none => none
    | some x => (readFields rd w n (field w s).2).map fun xs => x :: xs

/-- `n` numbers, `per` in a record; the records that are left. -/
def readData {β : Type} (rd : Line → Option β) (w per : Nat) : Nat → List Line → Option (List β × List Line)
  | 0, ls => some ([], ls)
  | _ + 1, [] => none
  | n + 1, l :: ls => match readFields rd w (min per (n + 1)) l with
    | none => none
    | some xs => (readData rd w per (n + 1 - per) ls).map fun r => (xs ++ r.1, r.2)

/-- SETFOR, lines 171-176: numbers in a record, by width. -/
def perRecord : Nat → Nat
  | 1 => 80 | 2 => 40 | 3 => 26 | 4 => 20 | 5 => 16 | 6 => 13 | 7 => 11 | 8 => 10 | 9 => 8 | 10 => 8 | 11 => 7 | 12 => 6 | 13 => 6 | 14 => 5
  | _ => 0

/-- The scale factor: `1P` for the widths of the E formats. -/
def scaleOf (nvf : Nat) : Nat := if nvf < 9 then 0 else 1

/-- The decimals: `F7.4`, `F8.5`, `E9.2`, ..., `E14.7`. -/
def decimalsOf (nvf : Nat) : Nat := if nvf < 9 then nvf - 3 else nvf - 7

/-- Lines 64-65: the data of a page. -/
def readPage (h : Head) (nval ncon : Nat) (ls : List Line) : Option (Page ℚ × List Line) :=
  match readData (readReal (decimalsOf h.nvf) (scaleOf h.nvf)) h.nvf (perRecord h.nvf) nval ls with
  | none => none
  | some (xval, ls) => match readData readInt h.ncf (perRecord h.ncf) ncon ls with
    | none => none
    | some (icon, ls) => some (⟨h, xval, icon⟩, ls)

theorem readData_length {β : Type} {rd : Line → Option β} {w per : Nat} : ∀ (ls : List Line) (n : Nat) {r : List β × List Line}, readData rd w per n ls = some r → r.2.length ≤ ls.length
  | ls, 0, r, h => by
    simp only [readData, Option.some.injEq] at h; subst h; exact le_rfl
  | [], n + 1, r, h => by simp [readData] at h
  | l :: ls, n + 1, r, h => by
    rw [readData] at h
    cases hx : readFields rd w (min per (n + 1)) l with
    | none => rw [hx] at h; cases h
    | some xs =>
      rw [hx] at h
      simp only [Option.map_eq_some_iff] at h
      obtain ⟨r', h1, rfl⟩ := h
      have := readData_length ls _ h1
      simp only [List.length_cons]
      omega

theorem readPage_length {h : Head} {nval ncon : Nat} {ls : List Line} {r : Page ℚ × List Line} (hr : readPage h nval ncon ls = some r) : r.2.length ≤ ls.length := by
  unfold readPage at hr
  cases h1 : readData (readReal (decimalsOf h.nvf) (scaleOf h.nvf)) h.nvf (perRecord h.nvf) nval ls with
  | none => rw [h1] at hr; cases hr
  | some x =>
    rw [h1] at hr
    simp only at hr
    cases h2 : readData readInt h.ncf (perRecord h.ncf) ncon x.2 with
    | none => rw [h2] at hr; cases hr
    | some y =>
      rw [h2] at hr
      simp only [Option.some.injEq] at hr
      subst hr
      exact (readData_length _ _ h2).trans (readData_length _ _ h1)

/-- Lines 52-74: read on to the page asked for. -/
def findText (r : Req) : List Line → Except Halt (Page ℚ × List Line)
  | [] => .error .missing                                                             -- 52
  | l :: ls => match readHead l with
    | none => .error .ended
    | some (h, nval, ncon) =>
      if h.itype = 9 then .error .missing                                             -- 56
      else if nval > 1880 then .error (.stop 3)                                       -- 60
      else if ncon > 1900 then .error (.stop 4)                                       -- 61
      else if formatsOk h then                                                        -- 63
        match _hp : readPage h nval ncon ls with                                       -- 64-65
        | none => .error .ended
        | some (p, ls') => if wanted r h then .ok (p, ls') else findText r ls'        -- 70-74
      else .error .formats
  termination_by ls => ls.length
  decreasing_by
    have := readPage_length _hp
    simp only [List.length_cons] at this ⊢
    omega

/-- Lines 80-129: the given page and those that continue it. -/
def loadText : Page ℚ → List Line → Nat → St ℚ → Except Halt (St ℚ × Page ℚ × List Line)
  | p, rest, istart, s =>
    if p.head.nrow > 800 ∨ p.head.columns > 800 then .error .groups                   -- 86
    else match controls p.head.nrow p.head.columns p.head.sym istart p.icon p.xval s with
      | .error e => .error e
      | .ok s =>
        if p.head.nrowm = 0 then                                                      -- 117
          if s.nx = p.head.nrow * p.head.columns then .ok (s, p, rest) else .error (.stop 12)   -- 129
        else if s.j ≠ p.head.columns then .error (.stop 11)                           -- 119
        else match rest with
          | [] => .error .ended                                                       -- 120
          | l :: ls => match readHead l with
            | none => .error .ended
            | some (h, nval, ncon) =>
              if formatsOk h then                                                     -- 122
                match _hp : readPage h nval ncon ls with                               -- 123-124
                | none => .error .ended
                | some (q, ls') => loadText q ls' (s.i + 1) s                         -- 125-126
              else .error .formats
  termination_by _ rest => rest.length
  decreasing_by
    have := readPage_length _hp
    simp only [List.length_cons] at this ⊢
    omega

/-- One request. -/
def serveText (prt : ℚ → Fld) (r : Req) (c : Nat → Nat → ℚ) (ls : List Line) : Except Halt (List (List Char) × (Nat → Nat → ℚ) × List Line) :=
  match findText r ls with
  | .error e => .error e
  | .ok (p, rest) => match loadText p rest 1 ⟨c, 1, 0, 0⟩ with
    | .error e => .error e
    | .ok (s, last, rest) => .ok (block prt r p last s.c, s.c, rest)

/-- The main loop on the lines of the input and of unit 20: the text of unit 21 and the exit status. -/
def boxrText (prt : ℚ → Fld) : List Line → (Nat → Nat → ℚ) → List Line → List (List Char) × Nat
  | [], _, _ => ([], 2)
  | l :: ins, c, ls => match readReq l with                                           -- 47
    | none => ([], 2)
    | some r =>
      if r.mat = 0 then ([], 0)                                                       -- 49
      else match serveText prt r c ls with
        | .error e => (message r e, status e)
        | .ok (out, c, ls) => (out ++ (boxrText prt ins c ls).1, (boxrText prt ins c ls).2)

end ASAPy.Boxr
