import Verif.Masses.Model
import Verif.Chars

/-!
# What the atomic masses should be

An entry of the mass file gives a nuclide and its mass as a decimal number: a whole part, six digits of millionths and further digits. The point
in the millionths, or the sign `#` of an estimated value in its place, is not looked at.
-/

namespace ASAPy.Masses
open ASAPy.Endf ASAPy.Dec

/-- A nuclide with its mass: symbol, mass number, and the digits of the mass. -/
structure Entry where
  sym : Line
  a : Nat
  whole : Line
  micro : Line
  frac : Line

/-- The mass: `whole.microfrac`. -/
def Entry.mass (e : Entry) : ℚ := natVal e.whole + (natVal (e.micro ++ e.frac) : ℚ) / 10 ^ (6 + e.frac.length)

/-- Letters: neither blanks nor digits nor underscores. -/
def Letters (s : Line) : Prop := s ≠ [] ∧ ∀ c ∈ s, Str.isSpace c = false ∧ isDigit c = false ∧ c ≠ '_'

/-- Digits. -/
def Digits (s : Line) : Prop := ∀ c ∈ s, isDigit c = true

/-- The entry is written as it should be. -/
structure Entry.Ok (e : Entry) : Prop where
  sym : Letters e.sym
  whole : Digits e.whole
  whole_ne : e.whole ≠ []
  micro : Digits e.micro
  micro_len : e.micro.length = 6
  frac : Digits e.frac

/-- The line of the file has the entry in its columns. -/
structure Entry.On (e : Entry) (l : Line) : Prop where
  number : ∃ j k ds, col l 16 19 = List.replicate j ' ' ++ ds ++ List.replicate k ' ' ∧ Digits ds ∧ ds ≠ [] ∧ natVal ds = e.a
  symbol : ∃ j k, col l 20 22 = List.replicate j ' ' ++ e.sym ++ List.replicate k ' '
  whole : ∃ j k, col l 96 99 = List.replicate j ' ' ++ e.whole ++ List.replicate k ' '
  micro : col l 100 106 = e.micro
  frac : ∃ k, col l 107 112 = e.frac ++ List.replicate k ' '

/-- The same text but for capitals. -/
def Same (a b : Line) : Prop := a.map Char.toLower = b.map Char.toLower

/-- A natural isotope: symbol, mass number and fraction. -/
structure Iso where
  sym : Line
  a : Nat
  w : ℚ

/-- The table of abundances with these isotopes. -/
def table (isos : List Iso) : List (Line × ℚ) := isos.map fun i => (i.sym ++ natStr i.a, i.w)

/-- The elements whose natural mixture has a mass of its own, under the mass number 0. -/
def mixed : List Line := [c!"C", c!"Zn", c!"Pt", c!"Os", c!"Tl"]

/-- The file has these entries from its 40th line on, no nuclide twice and none with mass number 0; every natural isotope has a mass. -/
structure FileOk (file : List Line) (es : List Entry) (isos : List Iso) : Prop where
  lines : List.Forall₂ Entry.On es (file.drop 39)
  ok : ∀ e ∈ es, e.Ok
  once : (es.map fun e => (e.sym.map Char.toLower, e.a)).Nodup
  pos : ∀ e ∈ es, 0 < e.a
  some : es ≠ []
  letters : ∀ i ∈ isos, Letters i.sym
  known : ∀ i ∈ isos, ∃ e ∈ es, Same i.sym e.sym ∧ i.a = e.a

/-- The mass of a natural isotope. -/
def HasMass (es : List Entry) (i : Iso) (m : ℚ) : Prop := ∃ e ∈ es, Same i.sym e.sym ∧ i.a = e.a ∧ m = e.mass

/-- The isotopes of an element. -/
def isotopes (isos : List Iso) (el : Line) : List Iso := isos.filter fun i => i.sym = el

end ASAPy.Masses
