import Verif.Str
import Verif.Chars
import Verif.Py
import Mathlib.Data.List.Basic

/-!
# Model of the list of data files (ASAPy/data/library.py)

Line numbers are those of ASAPy/data/library.py. Paths are POSIX paths; symbolic links are not modelled (`realpath` is `abspath`), and two slashes at the
start of a path count as one. The XML file is given by its tree: the writer and the parser of `xml.etree` keep texts and attributes, and `clean_indentation`
changes only blank texts between elements.
-/

namespace ASAPy.Library
open ASAPy.Str

abbrev Text := List Char

/-! ### `os.path` -/

/-- One component of a path, as `normpath` takes it. -/
def step (acc : List Text) (c : Text) : List Text := if c = [] ∨ c = c!"." then acc else if c = c!".." then acc.dropLast else acc ++ [c]

/-- `os.path.abspath(p).split('/')` without empty components, in a working directory. -/
def absPath (cwd : List Text) (p : Text) : List Text := (p.splitOn '/').foldl step (if p.head? = some '/' then [] else cwd)

/-- The components of `os.path.relpath` between two absolute paths. -/
def relParts : List Text → List Text → List Text
  | s :: ss, p :: ps => if s = p then relParts ss ps else List.replicate (s :: ss).length c!".." ++ p :: ps
  | ss, ps => List.replicate ss.length c!".." ++ ps

/-- `os.path.relpath(path, start)`. -/
def relpath (cwd : List Text) (path start : Text) : Except PyErr Text :=
  if path = [] then .error .valueError
  else .ok (if relParts (absPath cwd start) (absPath cwd path) = [] then c!"." else ['/'].intercalate (relParts (absPath cwd start) (absPath cwd path)))

/-- `os.path.realpath(p)`. -/
def realpath (cwd : List Text) (p : Text) : Text := '/' :: ['/'].intercalate (absPath cwd p)

/-- `os.path.join(a, b)`. -/
def joinPath (a b : Text) : Text :=
  if b.head? = some '/' then b else if a = [] ∨ a.getLast? = some '/' then a ++ b else a ++ '/' :: b

/-- `os.path.dirname(p)`. -/
def dirname (p : Text) : Text :=
  let head := (p.reverse.dropWhile (· ≠ '/')).reverse
  if head.all (· = '/') then head else (head.reverse.dropWhile (· = '/')).reverse

/-- The longest common start of two texts. -/
def common : Text → Text → Text
  | a :: as, b :: bs => if a = b then a :: common as bs else []
  | _, _ => []

/-- `os.path.commonprefix(ps)`. -/
def commonprefix : List Text → Text
  | [] => []
  | p :: ps => ps.foldl common p

/-! ### The library -/

/-- An entry of `libraries`. -/
structure Lib where
  path : Text
  type : Text
  materials : List Text
deriving DecidableEq

/-- `get_by_material`, lines 26-44. -/
def getByMaterial (libs : List Lib) (name : Text) : Option Lib := libs.find? fun l => decide (name ∈ l.materials)

/-- `register_file`, lines 46-64: the attribute `filetype` of the file and the names of its groups. -/
def registerFile (libs : List Lib) (filename filetype : Text) (groups : List Text) : List Lib := libs ++ [⟨filename, filetype.drop 5, groups⟩]

/-- An element `library` with its attributes. -/
structure Elem where
  materials : Text
  path : Text
  type : Text
deriving DecidableEq

/-- The tree of a file: the text of the element `directory`, if there is one, and the elements `library`. -/
structure Xml where
  directory : Option Text
  libs : List Elem
deriving DecidableEq

/-- Lines 78-81. -/
def commonDir (libs : List Lib) : Text :=
  if dirname (commonprefix (libs.map (·.path))) = [] then c!"." else dirname (commonprefix (libs.map (·.path)))

/-- Lines 87-91. -/
def elems (cwd : List Text) (dir : Text) : List Lib → Except PyErr (List Elem)
  | [] => .ok []
  | l :: ls => do
    let p ← relpath cwd l.path dir
    let r ← elems cwd dir ls
    return (⟨join l.materials, p, l.type⟩ :: r)

/-- `export_to_xml`, lines 66-99. -/
def exportXml (cwd : List Text) (libs : List Lib) (path : Text) : Except PyErr Xml := do
  let r ← relpath cwd (commonDir libs) (dirname path)
  let es ← elems cwd (commonDir libs) libs
  return ⟨if r = c!"." then none else some (realpath cwd (commonDir libs)), es⟩

/-- Line 120-126: the path to read. -/
def xmlPath (path env : Option Text) : Except PyErr Text :=
  match path.orElse fun _ => env with
  | none => .error .valueError
  | some p => .ok p

/-- `from_xml`, lines 132-147, of the tree of the file at the path. -/
def fromXml (x : Xml) (path : Text) : List Lib :=
  x.libs.map fun e => ⟨joinPath (x.directory.getD (dirname path)) e.path, e.type, split e.materials⟩

end ASAPy.Library
