import Verif.AceData.Model
import Verif.Endf.Spec

/-! # Specification: nuclide identifiers and the layout of ACE files -/

namespace ASAPy.AceData
open ASAPy.Str ASAPy.Dec ASAPy.Boxer
open ASAPy.Endf (Line pyInt strip)

/-- The element with `z` protons. -/
def Element (z : Nat) (sym : Line) : Prop := ((z : Int), sym) ∈ atomicSymbol

/-- Identifiers in the libraries of NNDC: 1000 Z + A, and 300 + 100 m more for the metastable state m. -/
def nndcId (z a m : Nat) : Int := if m = 0 then 1000 * z + a else 1000 * z + a + 300 + 100 * m

/-- Identifiers as the documentation of `get_metadata` gives them for NNDC. -/
def documentedId (z a m : Nat) : Int := 1000 * z + a + 100 * m

/-- Identifiers in the libraries of MCNP, for ground and first metastable states: 400 more, with the two states of Am-242 exchanged. -/
def mcnpId (z a m : Nat) : Int :=
  if z = 95 ∧ a = 242 then (if m = 0 then 95642 else 95242) else 1000 * z + a + 400 * m

/-- New identifiers of MCNP for metastable states: 1000000 m + 1000 Z + A. (1095242 is the ground state of Am-242.) -/
def szaId (z a m : Nat) : Int := 1000000 * m + 1000 * z + a

/-- The words of some lines. -/
def words (ls : List Line) : List Line := ls.flatMap split

/-- 32-bit integers. -/
def Int32s (ns : List Int) : Prop := ∀ n ∈ ns, -2 ^ 31 ≤ n ∧ n < 2 ^ 31

/-- `text` is a list of words with the given values. -/
def Reads {α : Type} (f : Line → Except PyErr α) (ws : List Line) (vs : List α) : Prop := List.Forall₂ (fun w v => f w = .ok v) ws vs

/-- A first line with the columns of the old ACE header: identifier, atomic weight ratio, temperature. -/
def OldHeader (pf : Line → Except PyErr Bits) (t : Table Bits) (l : Line) : Prop :=
  (∃ c c' w ws, split l = (c :: c' :: w) :: ws ∧ c' ≠ '.') ∧
  ∃ name awr temp tail, l = name ++ awr ++ temp ++ tail ∧ name.length = 10 ∧ awr.length = 12 ∧ temp.length = 12 ∧
    (∀ c ∈ name, c.toNat < 128) ∧ strip name = t.name ∧ pf awr = .ok t.awr ∧ pf temp = .ok t.temperature

/-- The text of a table, without a new header: two header lines, four lines with 16 pairs, two lines with NXS, four with JXS, and as many lines as
four values to a line need. -/
structure Body (pf : Line → Except PyErr Bits) (t : Table Bits) (ls : List Line) : Prop where
  lines : ∃ l0 l1 pairs nxs jxs xss, ls = l0 :: l1 :: (pairs ++ nxs ++ jxs ++ xss) ∧ OldHeader pf t l0 ∧
    pairs.length = 4 ∧ nxs.length = 2 ∧ jxs.length = 4 ∧ xss.length = (t.xss.length + 3) / 4 ∧
    (∃ ws : List (Line × Line), words pairs = ws.flatMap (fun p => [p.1, p.2]) ∧ Reads pyInt (ws.map (·.1)) (t.pairs.map (·.1)) ∧
      Reads pf (ws.map (·.2)) (t.pairs.map (·.2))) ∧
    Reads pyInt (words nxs) t.nxs ∧ Reads pyInt (words jxs) t.jxs ∧ Reads pf (words xss) t.xss
  pairs : t.pairs.length = 16 ∧ Int32s (t.pairs.map (·.1))
  nxs : t.nxs.length = 16 ∧ Int32s t.nxs
  jxs : t.jxs.length = 32 ∧ Int32s t.jxs
  length : t.nxs.head? = some (t.xss.length : Int)

/-- The text of a table, with or without the three lines of a new header before the old one. -/
def TableText (pf : Line → Except PyErr Bits) (t : Table Bits) (ls : List Line) : Prop :=
  Body pf t ls ∨ ∃ h0 h1 h2 body, ls = h0 :: h1 :: h2 :: body ∧ Body pf t body ∧
    (∃ c w ws, split h0 = (c :: '.' :: w) :: ws) ∧ (split h1)[3]? = some ['3']

/-- The header of a table in an ASCII file: old (identifier, ratio, temperature), without comment, or new, with the number of comment lines it gives. -/
def AsciiHeader (t : Table ℚ) (l0 l1 : Line) (comments : Nat) : Prop :=
  (comments = 0 ∧ ∃ c c' w a b ws, split l0 = (c :: c' :: w) :: a :: b :: ws ∧ c' ≠ '.' ∧ t.name = c :: c' :: w ∧
    Endf.pyFloat a = .ok t.awr ∧ Endf.pyFloat b = .ok t.temperature) ∨
  (∃ c w ws a b x n us, split l0 = (c :: '.' :: w) :: t.name :: ws ∧ split l1 = a :: b :: x :: n :: us ∧
    Endf.pyFloat a = .ok t.awr ∧ Endf.pyFloat b = .ok t.temperature ∧ pyInt n = .ok comments)

/-- The text of a table in an ASCII file up to the values. -/
def AsciiStart (t : Table ℚ) (ls : List Line) : Prop :=
  ∃ l0 l1 comments pairs nxs jxs, ls = l0 :: l1 :: (comments ++ pairs ++ nxs ++ jxs) ∧ AsciiHeader t l0 l1 comments.length ∧
    pairs.length = 4 ∧ nxs.length = 2 ∧ jxs.length = 4 ∧
    (∃ ws : List (Line × Line), words pairs = ws.flatMap (fun p => [p.1, p.2]) ∧ Reads pyInt (ws.map (·.1)) (t.pairs.map (·.1)) ∧
      Reads Endf.pyFloat (ws.map (·.2)) (t.pairs.map (·.2))) ∧
    Reads pyInt (words nxs) t.nxs ∧ Reads pyInt (words jxs) t.jxs ∧ t.nxs.head? = some (t.xss.length : Int)

/-- The lines of values: four to a line, each line ending with a newline. -/
def AsciiValues (t : Table ℚ) (xss : List Line) : Prop :=
  xss.length = (t.xss.length + 3) / 4 ∧ (∀ l ∈ xss, l.getLast? = some '\n') ∧ List.Forall₂ (fun w v => number w = some (v, [])) (words xss) t.xss

/-- All lines but the last are as long as the first, and the last is not empty: what a program that writes with a fixed format makes. -/
def Even (xss : List Line) : Prop := ∃ l ls last, xss = l :: (ls ++ [last]) ∧ (∀ x ∈ ls, x.length = l.length) ∧ 2 ≤ last.length

/-- The text of a table with its values. -/
def AsciiTable (t : Table ℚ) (ls : List Line) : Prop := ∃ start xss, ls = start ++ xss ∧ AsciiStart t start ∧ AsciiValues t xss ∧ Even xss

/-- A number as NJOY writes it: with the letter E, or without it if the exponent has three digits. `sign` is `some true` for minus. -/
structure Written where
  sign : Option Bool
  ip : List Char
  fp : List Char
  letter : Bool
  negExp : Bool
  ep : List Char

def Written.Ok (x : Written) : Prop :=
  (∀ c ∈ x.ip, isDigit c = true) ∧ (∀ c ∈ x.fp, isDigit c = true) ∧ (∀ c ∈ x.ep, isDigit c = true) ∧ x.fp ≠ [] ∧ x.ep ≠ []

def Written.text (x : Written) : Line :=
  Endf.signText x.sign ++ x.ip ++ '.' :: x.fp ++ (if x.letter then ['E'] else []) ++ (if x.negExp then '-' else '+') :: x.ep

/-- The number before the power of ten. -/
def Written.mantissa (x : Written) : ℚ := (if x.sign = some true then -1 else 1) * ((natVal (x.ip ++ x.fp) : ℕ) : ℚ) / 10 ^ x.fp.length

def Written.value (x : Written) : ℚ := x.mantissa * (if x.negExp then 1 / (10 : ℚ) ^ natVal x.ep else (10 : ℚ) ^ natVal x.ep)

/-- The lines hold the numbers, with whitespace before each and behind the last. -/
def Holds (xss : List Line) (xs : List Written) : Prop :=
  ∃ (gaps : List Line) (tail : Line), gaps.length = xs.length ∧ xss.flatten = (List.zipWith (fun g x => g ++ x.text) gaps xs).flatten ++ tail ∧
    (∀ g ∈ gaps, g ≠ [] ∧ ∀ c ∈ g, isSpace c = true) ∧ (∀ c ∈ tail, isSpace c = true) ∧ ∀ x ∈ xs, x.Ok

end ASAPy.AceData
