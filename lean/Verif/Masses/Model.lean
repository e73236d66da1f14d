import Verif.Endf.Model
import Verif.AceData.Model

/-!
# Model of the atomic masses (ASAPy/data/data.py)

`atomic_mass` 141-186 and `atomic_weight` 189-215, with the module's table `_ATOMIC_MASS`, line 136, which the first call fills and every later
call uses. The file mass.mas12 is the list of its lines and the table `NATURAL_ABUNDANCE` of lines 13-103 a list of names with fractions, in the
order of the table; both are parameters. Numbers are exact; text is ASCII. The name of an element is put into a regular expression (lines 179
and 209): the model takes it literally, which is what the expression means for a name of letters.
-/

namespace ASAPy.Masses
open ASAPy.Endf ASAPy.Dec
open ASAPy.AceData (intStr)

/-- `_ATOMIC_MASS`, line 136: lower-case names with masses. -/
abbrev Cache := List (Line × ℚ)

/-- `str.lower`. -/
def lower (s : Line) : Line := s.map Char.toLower

/-- Lines 164-167: the name (lower case) and the mass on one line of the file. -/
def massEntry (l : Line) : Except PyErr (Line × ℚ) := do
  let a ← pyInt (col l 16 19)
  let u ← pyFloat (col l 96 99)
  let m ← pyFloat (col l 100 106 ++ '.' :: col l 107 112)
  return (lower (strip (col l 20 22) ++ intStr a), u + m / 1000000)

/-- The loop of lines 163-167: what is in the table at its end, and the exception that ended it. -/
def readLines : List Line → Cache → Cache × Option PyErr
  | [], c => (c, none)
  | l :: ls, c => match massEntry l with
    | .error e => (c, some e)
    | .ok (n, m) => readLines ls (Dict.set c n m)

/-- `re.match(r'{}\d+'.format(element), iso)`, lines 179 and 209. -/
def isotopeOf : Line → Line → Bool
  | [], c :: _ => isDigit c
  | [], [] => false
  | e :: es, c :: cs => e == c && isotopeOf es cs
  | _ :: _, [] => false

/-- The loop of lines 178-181 for one element, whose entry is `key`. -/
def addIsotopes (element key : Line) : List (Line × ℚ) → Cache → Cache × Option PyErr
  | [], c => (c, none)
  | (iso, w) :: ab, c =>
    if isotopeOf element iso = true then
      match Dict.get? c key, Dict.get? c (lower iso) with
      | some s, some m => addIsotopes element key ab (Dict.set c key (s + w * m))
      | _, _ => (c, some .keyError)
    else addIsotopes element key ab c

/-- The elements of line 175. -/
def naturals : List Line := [['C'], ['Z', 'n'], ['P', 't'], ['O', 's'], ['T', 'l']]

/-- The loop of lines 175-181. -/
def addNaturals (abund : List (Line × ℚ)) : List Line → Cache → Cache × Option PyErr
  | [], c => (c, none)
  | el :: els, c =>
    match addIsotopes el (lower el ++ ['0']) abund (Dict.set c (lower el ++ ['0']) 0) with
    | (c', some e) => (c', some e)
    | (c', none) => addNaturals abund els c'

/-- Lines 159-181. -/
def load (file : List Line) (abund : List (Line × ℚ)) (c : Cache) : Cache × Option PyErr :=
  match readLines (file.drop 39) c with
  | (c', some e) => (c', some e)
  | (c', none) => addNaturals abund naturals c'

/-- `atomic_mass`, lines 141-186: the table afterwards and the result. -/
def atomicMass (file : List Line) (abund : List (Line × ℚ)) (c : Cache) (isotope : Line) : Cache × Except PyErr ℚ :=
  match (if c = [] then load file abund c else (c, none)) with
  | (c', some e) => (c', .error e)
  | (c', none) => (c', match Dict.get? c' (lower (isotope.takeWhile (· ≠ '_'))) with
    | some m => .ok m
    | none => .error .keyError)

/-- The loop of lines 208-210. -/
def weightLoop (file : List Line) (abund : List (Line × ℚ)) (element : Line) : List (Line × ℚ) → Cache → ℚ → Cache × Except PyErr ℚ
  | [], c, s => (c, .ok s)
  | (iso, w) :: ab, c, s =>
    if isotopeOf element iso = true then
      match atomicMass file abund c iso with
      | (c', .ok m) => weightLoop file abund element ab c' (s + m * w)
      | (c', .error e) => (c', .error e)
    else weightLoop file abund element ab c s

/-- `atomic_weight`, lines 189-215. -/
def atomicWeight (file : List Line) (abund : List (Line × ℚ)) (c : Cache) (element : Line) : Cache × Except PyErr ℚ :=
  match weightLoop file abund element abund c 0 with
  | (c', .ok s) => (c', if 0 < s then .ok s else .error .valueError)
  | (c', .error e) => (c', .error e)

/-- One call of a program. -/
inductive Call where
  | mass (isotope : Line)
  | weight (element : Line)

/-- A call and the table it leaves. -/
def call (file : List Line) (abund : List (Line × ℚ)) (c : Cache) : Call → Cache × Except PyErr ℚ
  | .mass n => atomicMass file abund c n
  | .weight e => atomicWeight file abund c e

/-- The results of calls, one after the other. -/
def calls (file : List Line) (abund : List (Line × ℚ)) : Cache → List Call → List (Except PyErr ℚ)
  | _, [] => []
  | c, k :: ks => (call file abund c k).2 :: calls file abund (call file abund c k).1 ks

end ASAPy.Masses
