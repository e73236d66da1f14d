import Verif.WriteAce.Model

/-! # Vocabulary of C19-C25 -/

namespace ASAPy.WriteAce
open ASAPy.Str

variable {K : Type*}

/-- The values in the data section. -/
def Writer.values (w : Writer) : List (List Char) := split w.singleLine

/-- The text of one value in the standard ACE layout: right-justified in 20 columns. -/
def field (v : List Char) : List Char := rjust 20 v

/-- The standard layout of the data section: four values on every line but the last. -/
def layout : List (List Char) → List Char
  | a :: b :: c :: d :: vs => field a ++ field b ++ field c ++ field d ++ '\n' :: layout vs
  | [] => []
  | vs => vs.flatMap field ++ ['\n']

/-- Header lines as the reader delimits them: each ends at its newline, and there are as many as the first line
announces (12 or 15). -/
def HeaderOk (hs : List (List Char)) : Prop :=
  (∀ l ∈ hs, ∃ body, l = body ++ ['\n'] ∧ '\n' ∉ body) ∧ headerCount hs = .ok hs.length

/-- A formatting function produces words. -/
def Formats (fmt : K → List Char) : Prop := ∀ x, Word (fmt x)

/-- The cut between `u` and what follows it (or `v` and what precedes it) is not inside a value. -/
def EndsClean (u : List Char) : Prop := u = [] ∨ ∃ c, u.getLast? = some c ∧ isSpace c = true
def StartsClean (v : List Char) : Prop := v = [] ∨ ∃ c, v.head? = some c ∧ isSpace c = true

/-- The formatted array occurs exactly once in the text, as whole values, with `s` values before it. -/
def OccursOnceAt (fmt : K → List Char) (text : List Char) (array : List K) (s : Nat) : Prop :=
  ∃ u v, text = u ++ formatMcnp fmt array ++ v ∧ EndsClean u ∧ StartsClean v ∧ (split u).length = s ∧
    ∀ u' v', text = u' ++ formatMcnp fmt array ++ v' → u' = u

/-- The formatted array occurs in the text at this place, as whole values, with `s` values before it, and nowhere earlier. -/
def OccursFirstAt (fmt : K → List Char) (text : List Char) (array : List K) (s : Nat) : Prop :=
  ∃ u v, text = u ++ formatMcnp fmt array ++ v ∧ EndsClean u ∧ StartsClean v ∧ (split u).length = s ∧
    ∀ u' v', text = u' ++ formatMcnp fmt array ++ v' → u.length ≤ u'.length

/-- A replacement is meant for the place after `s` values, and that is where its array occurs: only there - or there first, if one occurrence only is to
be replaced. -/
def FoundAt (fmt : K → List Char) (text : List Char) (j : Job K) (s : Nat) : Prop :=
  OccursOnceAt fmt text j.base s ∨ (j.maxReplaces = 1 ∧ OccursFirstAt fmt text j.base s)

end ASAPy.WriteAce
