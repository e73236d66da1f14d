import Verif.Boxer2Mat.Text
import Verif.Files.Model
import Verif.Str

/-!
# boxer2mat as a program that is run in a directory (boxer2mat/boxer2mat.f, run by ASAPy/EndfToCov.py 87-106)
-/

namespace ASAPy.Boxr
open ASAPy.Dec ASAPy.Boxer

/-- The records of a file. -/
def linesOf (t : List Char) : List Line := (Str.readlines t).map fun l => l.filter fun c => decide (c ≠ '\n')

/-- What is written to unit 21, if anything is, and the exit status. The array `C` holds zeros at first. -/
def answerTo (prt : ℚ → Fld) (com t : List Char) : List (List Char) × Nat := boxrText prt (linesOf com) (fun _ _ => 0) (linesOf t)

def matrixOf (prt : ℚ → Fld) (com t : List Char) : Option (List Char) :=
  if (answerTo prt com t).1 = [] then none else some (answerTo prt com t).1.flatten

/-- Line 44: the units 20 and 21 are the files `fort.20` and `fort.21` of the directory; unit 5 is the input. (That an empty `fort.20` is made if there is none is left out.) -/
noncomputable def boxerProg (prt : ℚ → Fld) : Files.Prog := fun com d fs =>
  let t := (fs (Files.join d c!"fort.20")).getD []
  (match matrixOf prt com t with
    | some m => Files.put fs (Files.join d c!"fort.21") (some m)
    | none => fs, (answerTo prt com t).2)

end ASAPy.Boxr
