import Verif.Boxer2Mat.Spec
import Verif.AceData.Model

/-! # Specification: the text of a BOXER file -/

namespace ASAPy.Boxr
open ASAPy.Dec

/-- A decimal number as it is written: sign, digits before the point, whether there is a point, digits after it, the letter and the digits of the exponent. -/
structure Lit where
  neg : Bool
  ip : List Char
  point : Bool
  fp : List Char
  letter : Char
  ex : Option (Bool × List Char)

/-- Its digits are digits, and there is one; the letter is one of those of Fortran. -/
structure Lit.Ok (x : Lit) : Prop where
  ip : ∀ c ∈ x.ip, isDigit c = true
  fp : ∀ c ∈ x.fp, isDigit c = true
  point : x.point = false → x.fp = []
  some : x.ip ++ x.fp ≠ []
  letter : x.letter = 'E' ∨ x.letter = 'e' ∨ x.letter = 'D' ∨ x.letter = 'd'
  ex : ∀ e ∈ x.ex, e.2 ≠ [] ∧ ∀ c ∈ e.2, isDigit c = true

/-- The text of its exponent. -/
def Lit.exText (x : Lit) : List Char := match x.ex with | none => [] | some (neg, ds) => x.letter :: (if neg then '-' else '+') :: ds

/-- Its text: `-12.345E-06`; without exponent `-12.345`; without point `-12345`. -/
def Lit.text (x : Lit) : List Char := (if x.neg then ['-'] else []) ++ (x.ip ++ ((if x.point then '.' :: x.fp else []) ++ x.exText))

/-- Its value in a column of `w` characters, of which the formats are `F7.4` and `F8.5` (and so on) up to 8 and `1PE9.2` to `1PE14.7` from 9 on: without point, the last digits are those after the
point; with `1P`, a number without exponent is divided by ten. -/
def Lit.value (w : Nat) (x : Lit) : ℚ :=
  (if x.neg then -1 else 1) * ((natVal (x.ip ++ x.fp) : ℚ) / 10 ^ (if x.point then x.fp.length else if w ≤ 8 then w - 3 else w - 7) *
    match x.ex with
    | none => if w ≤ 8 then 1 else 1 / 10
    | some (neg, ds) => if neg then 1 / 10 ^ natVal ds else 10 ^ natVal ds)

/-- A column of `w` characters with a value, right-justified. -/
def RealField (w : Nat) (t : List Char) (q : ℚ) : Prop :=
  t.length = w ∧ ∃ b x, Lit.Ok x ∧ t = List.replicate b ' ' ++ x.text ∧ x.value w = q

/-- A column of `w` characters with an integer, right-justified. -/
def IntField (w : Nat) (t : List Char) (n : Int) : Prop := t.length = w ∧ ∃ b, t = List.replicate b ' ' ++ AceData.intStr n

/-- Lines with these numbers, `per` in each but the last. -/
inductive Records {β : Type} (F : List Char → β → Prop) (per : Nat) : List β → List (List Char) → Prop
  | nil : Records F per [] []
  | last {xs : List β} {ts : List (List Char)} {tail : List Char} : xs ≠ [] → xs.length ≤ per → List.Forall₂ F ts xs → Records F per xs [ts.flatten ++ tail]
  | full {xs : List β} {ts : List (List Char)} {tail : List Char} {rest : List β} {ls : List (List Char)} : xs.length = per → List.Forall₂ F ts xs → Records F per rest ls →
      Records F per (xs ++ rest) ((ts.flatten ++ tail) :: ls)

/-- The header card of a page: the kind, a title, the two reactions, the numbers and widths of values and control numbers, and the size. -/
def HeadCard (p : Page ℚ) (l : List Char) : Prop :=
  p.head.title.length = 35 ∧ ∃ t ts tail, l = t ++ p.head.title ++ ts.flatten ++ tail ∧ IntField 1 t p.head.itype ∧
    List.Forall₂ (fun t (f : Nat × Nat) => IntField f.1 t f.2) ts
      [(5, p.head.mat), (4, p.head.mt), (5, p.head.mat1), (4, p.head.mt1), (4, p.xval.length), (3, p.head.nvf), (4, p.icon.length), (3, p.head.ncf), (4, p.head.nrowm), (4, p.head.nrow), (4, p.head.ncol)]

/-- The lines of a page: the header card, the values, the control numbers; in each line as many as 80 columns hold. -/
def PageText (p : Page ℚ) (ls : List (List Char)) : Prop :=
  ∃ l vs ks, ls = l :: (vs ++ ks) ∧ HeadCard p l ∧ p.head.Formats ∧ Records (RealField p.head.nvf) (80 / p.head.nvf) p.xval vs ∧ Records (IntField p.head.ncf) (80 / p.head.ncf) p.icon ks

/-- The lines of a BOXER file with these pages. -/
inductive TapeText : List (Page ℚ) → List (List Char) → Prop
  | nil : TapeText [] []
  | cons {p : Page ℚ} {ps : List (Page ℚ)} {l : List (List Char)} {ls : List (List Char)} : PageText p l → TapeText ps ls → TapeText (p :: ps) (l ++ ls)

end ASAPy.Boxr
