import Verif.Py
import Verif.Dec
import Verif.Chars

/-!
# Model of the files around the runs of NJOY and boxer2mat (ASAPy/njoy.py 330-391, ASAPy/EndfToCov.py 33-106, 109-152)

A file system maps paths to contents. The programs are arbitrary functions from the text they are given, the directory they run in and the file system to a file system
and a return code (their interaction with the parent process is the subject of `Verif/Subprocess`). Directories exist and can be written to.
-/

namespace ASAPy.Files

abbrev Text := List Char
abbrev Path := List Char

/-- A file system. -/
abbrev FS := Path → Option Text

/-- A program: commands, directory, files before; files after and return code. -/
abbrev Prog := Text → Path → FS → FS × Int

/-- `os.path.join` for a relative name. -/
def join (d n : Path) : Path := d ++ '/' :: n

/-- `'tape{}'.format(n)`. -/
def tape (n : Nat) : Path := c!"tape" ++ Dec.natStr n

def put (fs : FS) (p : Path) (t : Option Text) : FS := fun q => if q = p then t else fs q

inductive Err where
  | fileNotFound
  | calledProcess
  | valueError
  | indexError
deriving DecidableEq

/-- The files after a step, and the exception if there was one. -/
abbrev Res := FS × Option Err

/-- Go on if there was no exception. -/
def Res.andThen (r : Res) (k : FS → Res) : Res :=
  match r.2 with
  | none => k r.1
  | some _ => r

/-- `shutil.copy`. -/
def copy (src dst : Path) (fs : FS) : Res :=
  match fs src with
  | none => (fs, some .fileNotFound)
  | some t => (put fs dst (some t), none)

/-- `shutil.move` onto a file. -/
def move (src dst : Path) (fs : FS) : Res :=
  match fs src with
  | none => (fs, some .fileNotFound)
  | some t => (put (put fs src none) dst (some t), none)

/-- A loop of steps. -/
def each {α : Type} (f : α → FS → Res) : List α → FS → Res
  | [], fs => (fs, none)
  | a :: l, fs => (f a fs).andThen (each f l)

/-- Files in the directory `d`. -/
def Inside (d : Path) (p : Path) : Prop := ∃ n, '/' ∉ n ∧ p = join d n

open Classical in
/-- The end of `with tempfile.TemporaryDirectory()`: the directory is removed with its files, also after an exception. -/
noncomputable def cleanUp (tmp : Path) (r : Res) : Res := (fun p => if Inside tmp p then none else r.1 p, r.2)

/-- njoy.py 360-363 and EndfToCov.py 72-74: the input tapes. -/
def tapesIn (dir : Path) (tapein : List (Nat × Path)) : FS → Res :=
  each (fun e => copy e.2 (join dir (tape e.1))) tapein

/-- njoy.py 387-391: a tape is moved to its place if it is there. -/
def moveOut (dir : Path) (e : Nat × Path) (fs : FS) : Res :=
  match fs (join dir (tape e.1)) with
  | none => (fs, none)
  | some _ => move (join dir (tape e.1)) e.2 fs

/-- njoy.py 366-384 and EndfToCov.py 136-152: the program is run; a return code that is not 0 raises. -/
def exec (prog : Prog) (commands : Text) (dir : Path) (fs : FS) : Res :=
  ((prog commands dir fs).1, if (prog commands dir fs).2 = 0 then none else some .calledProcess)

/-- `run`, njoy.py 330-391; `tmp` is the name of the temporary directory. -/
noncomputable def run (njoy : Prog) (tmp : Path) (commands : Text) (tapein tapeout : List (Nat × Path)) (inputFilename : Option Path) (fs : FS) : Res :=
  let fs := match inputFilename with
    | none => fs
    | some f => put fs f (some commands)                                                   -- 355-357
  cleanUp tmp (((tapesIn tmp tapein fs).andThen (exec njoy commands tmp)).andThen (each (moveOut tmp) tapeout))

/-! ### EndfToCov -/

/-- EndfToCov.py 131-134: the commands are appended to the input file. -/
def addInput (f : Path) (commands : Text) (fs : FS) : FS := put fs f (some ((fs f).getD [] ++ commands ++ ['\n']))

/-- `run_program`, EndfToCov.py 109-152. -/
def runProgram (prog : Prog) (commands : Text) (dir inputFile : Path) (fs : FS) : Res := exec prog commands dir (addInput inputFile commands fs)

/-- EndfToCov.py 81-84: a tape is copied to its place if it is there. -/
def copyOut (dir out : Path) (e : Nat × Path) (fs : FS) : Res :=
  match fs (join dir (tape e.1)) with
  | none => (fs, none)
  | some _ => copy (join dir (tape e.1)) (join out e.2) fs

/-- `file_name + "_" + str(mt) + "_matrix.txt"`, EndfToCov.py 106. -/
def matrixName (f : Path) (mt : Nat) : Path := f ++ '_' :: Dec.natStr mt ++ c!"_matrix.txt"

/-- EndfToCov.py 89-106, one tape and one MT: boxer2mat reads `fort.20` and writes `fort.21`. `boxerCommands` is the text of `_BOXER_TEMPLATE_COV` for the MT. -/
def matrix (boxer : Prog) (boxerCommands : Nat → Text) (dir out inputFile : Path) (e : (Nat × Path) × Nat) (fs : FS) : Res :=
  ((copy (join dir (tape e.1.1)) (join dir c!"fort.20") fs).andThen
    (runProgram boxer (boxerCommands (if e.2 = 1018 then 18 else e.2)) dir (join out (inputFile ++ c!"boxer.txt")))).andThen
    (move (join dir c!"fort.21") (join out (matrixName e.1.2 e.2)))

/-- EndfToCov.py 72-106, with the directory the programs run in. -/
def chainIn (njoy boxer : Prog) (boxerCommands : Nat → Text) (commands : Text) (tapein tapeout cover : List (Nat × Path)) (mts : List Nat) (inputFile dir out : Path) (fs : FS) : Res :=
  ((((tapesIn dir tapein fs).andThen (runProgram njoy commands dir (join out inputFile))).andThen
    (copy (join dir c!"output") (join out c!"njoy_output.txt"))).andThen
    (each (copyOut dir out) tapeout)).andThen
    (each (matrix boxer boxerCommands dir out inputFile) (cover.flatMap fun e => mts.map fun mt => (e, mt)))

/-- `_run_cover_chain`, EndfToCov.py 33-106. -/
noncomputable def runCoverChain (njoy boxer : Prog) (boxerCommands : Nat → Text) (commands : Text) (tapein tapeout cover : List (Nat × Path)) (mts : List Nat) (inputFile out tmp : Path)
    (useTemp : Bool) (fs : FS) : Res :=
  cleanUp tmp (chainIn njoy boxer boxerCommands commands tapein tapeout cover mts inputFile (if useTemp then tmp else out) out fs)

end ASAPy.Files
