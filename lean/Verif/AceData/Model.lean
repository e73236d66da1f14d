import Verif.Endf.Model

/-!
# Model of ASAPy/data/ace.py (identifiers, conversion to binary, the readers) and of the nuclide names of ASAPy/data/data.py

Line numbers are those of ASAPy/data/ace.py; those of ASAPy/data/data.py are marked `data`. Text is ASCII; a text file is the list of its lines with
their newlines; a binary file is the list of its bytes; a float in a binary file is its bit pattern.
-/

namespace ASAPy.AceData
open ASAPy.Str ASAPy.Dec ASAPy.Boxer
open ASAPy.Endf (Line pyInt strip readline)

/-! ### Names -/

/-- `ATOMIC_SYMBOL`, data 112-135. -/
def atomicSymbol : List (Int × Line) := [
   (0, "n".toList), (1, "H".toList), (2, "He".toList), (3, "Li".toList), (4, "Be".toList), (5, "B".toList), (6, "C".toList), (7, "N".toList), (8, "O".toList), (9, "F".toList),
   (10, "Ne".toList), (11, "Na".toList), (12, "Mg".toList), (13, "Al".toList), (14, "Si".toList), (15, "P".toList), (16, "S".toList), (17, "Cl".toList), (18, "Ar".toList), (19, "K".toList),
   (20, "Ca".toList), (21, "Sc".toList), (22, "Ti".toList), (23, "V".toList), (24, "Cr".toList), (25, "Mn".toList), (26, "Fe".toList), (27, "Co".toList), (28, "Ni".toList), (29, "Cu".toList),
   (30, "Zn".toList), (31, "Ga".toList), (32, "Ge".toList), (33, "As".toList), (34, "Se".toList), (35, "Br".toList), (36, "Kr".toList), (37, "Rb".toList), (38, "Sr".toList), (39, "Y".toList),
   (40, "Zr".toList), (41, "Nb".toList), (42, "Mo".toList), (43, "Tc".toList), (44, "Ru".toList), (45, "Rh".toList), (46, "Pd".toList), (47, "Ag".toList), (48, "Cd".toList), (49, "In".toList),
   (50, "Sn".toList), (51, "Sb".toList), (52, "Te".toList), (53, "I".toList), (54, "Xe".toList), (55, "Cs".toList), (56, "Ba".toList), (57, "La".toList), (58, "Ce".toList), (59, "Pr".toList),
   (60, "Nd".toList), (61, "Pm".toList), (62, "Sm".toList), (63, "Eu".toList), (64, "Gd".toList), (65, "Tb".toList), (66, "Dy".toList), (67, "Ho".toList), (68, "Er".toList), (69, "Tm".toList),
   (70, "Yb".toList), (71, "Lu".toList), (72, "Hf".toList), (73, "Ta".toList), (74, "W".toList), (75, "Re".toList), (76, "Os".toList), (77, "Ir".toList), (78, "Pt".toList), (79, "Au".toList),
   (80, "Hg".toList), (81, "Tl".toList), (82, "Pb".toList), (83, "Bi".toList), (84, "Po".toList), (85, "At".toList), (86, "Rn".toList), (87, "Fr".toList), (88, "Ra".toList), (89, "Ac".toList),
   (90, "Th".toList), (91, "Pa".toList), (92, "U".toList), (93, "Np".toList), (94, "Pu".toList), (95, "Am".toList), (96, "Cm".toList), (97, "Bk".toList), (98, "Cf".toList), (99, "Es".toList),
   (100, "Fm".toList), (101, "Md".toList), (102, "No".toList), (103, "Lr".toList), (104, "Rf".toList), (105, "Db".toList), (106, "Sg".toList), (107, "Bh".toList), (108, "Hs".toList), (109, "Mt".toList),
   (110, "Ds".toList), (111, "Rg".toList), (112, "Cn".toList), (113, "Nh".toList), (114, "Fl".toList), (115, "Mc".toList), (116, "Lv".toList), (117, "Ts".toList), (118, "Og".toList)]

/-- `str(n)` of an integer. -/
def intStr (n : Int) : Line := if n < 0 then '-' :: natStr n.natAbs else natStr n.natAbs

/-- `gnd_name`, data 319-340. -/
def gndName (z a m : Int) : Except PyErr Line :=
  match Dict.get? atomicSymbol z with
  | none => .error .keyError
  | some sym => .ok (if m > 0 then sym ++ intStr a ++ '_' :: 'm' :: intStr m else sym ++ intStr a)

def isUpper (c : Char) : Bool := decide (65 ≤ c.toNat) && decide (c.toNat ≤ 90)
def isLower (c : Char) : Bool := decide (97 ≤ c.toNat) && decide (c.toNat ≤ 122)

/-- The last group of the expression of data 140, `(?:_[em]\d+)?`: the digits of the state, if there is one. -/
def stateOf (s : Line) : Option Line :=
  match s with
  | u :: k :: r => if u = '_' ∧ (k = 'e' ∨ k = 'm') ∧ (digits r).1 ≠ [] then some (digits r).1 else none
  | _ => none

/-- The expression of data 140, `([A-Zn][a-z]*)(\d+)((?:_[em]\d+)?)`, at the start of a text: symbol, digits of the mass number, digits of the
state. -/
def matchName : Line → Option (Line × Line × Option Line)
  | [] => none
  | c :: r =>
    if isUpper c = true ∨ c = 'n' then
      if (digits (r.span isLower).2).1 = [] then none
      else some (c :: (r.span isLower).1, (digits (r.span isLower).2).1, stateOf (digits (r.span isLower).2).2)
    else none

/-- `ATOMIC_NUMBER`, data 136. -/
def atomicNumber : List (Line × Int) := atomicSymbol.map fun p => (p.2, p.1)

/-- `zam`, data 343-363. -/
def zam (name : Line) : Except PyErr (Int × Int × Int) :=
  match matchName name with
  | none => .error .valueError
  | some (sym, a, st) => match Dict.get? atomicNumber sym with
    | none => .error .keyError
    | some z => .ok (z, natVal a, match st with | none => 0 | some d => (natVal d : Int))

/-! ### Identifiers -/

/-- Lines 86-87: `while mass_number > 3 * Z: mass_number -= 100`. -/
def strip100 (z a : Int) : Int := if a > 3 * z then strip100 z (a - 100) else a
termination_by (a - 3 * z).toNat
decreasing_by omega

inductive Scheme where
  | nndc
  | mcnp
deriving DecidableEq

/-- What `get_metadata` returns. -/
structure Meta where
  name : Line
  element : Line
  z : Int
  a : Int
  m : Int
deriving DecidableEq

/-- `get_metadata`, lines 31-93. -/
def getMetadata (zaid : Int) (scheme : Scheme) : Except PyErr Meta :=
  let z := zaid / 1000
  let a := zaid % 1000
  let (z, m) := match scheme with
    | .mcnp =>
      if zaid > 1000000 then (z % 1000, if zaid = 1095242 then 0 else zaid / 1000000)     -- 67-73
      else (z, if zaid = 95242 then 1 else if zaid = 95642 then 0 else if a > 300 then 1 else 0)
    | .nndc => (z, if a > 300 then 1 else 0)
  let a := strip100 z a
  match Dict.get? atomicSymbol z with
  | none => .error .keyError
  | some element => match gndName z a m with
    | .error e => .error e
    | .ok name => .ok ⟨name, element, z, a, m⟩

/-! ### Binary files -/

abbrev Byte := Fin 256

/-- A float, as its 64 bits. -/
abbrev Bits := Fin (2 ^ 64)

/-- `k` bytes of a number, lowest first. -/
def leBytes : Nat → Nat → List Byte
  | 0, _ => []
  | k + 1, n => ⟨n % 256, Nat.mod_lt _ (by decide)⟩ :: leBytes k (n / 256)

def leVal : List Byte → Nat
  | [] => 0
  | b :: bs => b.val + 256 * leVal bs

/-- `struct.pack('=d', x)`. -/
def packD (x : Bits) : List Byte := leBytes 8 x.val

def unpackD (bs : List Byte) : Bits := ⟨leVal bs % 2 ^ 64, Nat.mod_lt _ (by decide)⟩

/-- `struct.pack('=i', n)`; `struct.error` outside of 32 bits. -/
def packI (n : Int) : Except PyErr (List Byte) :=
  if -2 ^ 31 ≤ n ∧ n < 2 ^ 31 then .ok (leBytes 4 (n % 2 ^ 32).toNat) else .error .exception

def unpackI (bs : List Byte) : Int := if leVal bs < 2 ^ 31 then (leVal bs : Int) else (leVal bs : Int) - 2 ^ 32

/-- `s.encode('UTF-8')` of ASCII text. -/
def encode (s : Line) : List Byte := s.map fun c => ⟨c.toNat % 256, Nat.mod_lt _ (by decide)⟩

/-- `bs.decode()`; only ASCII is modelled. -/
def decode (bs : List Byte) : Except PyErr Line :=
  if bs.all (fun b => decide (b.val < 128)) then .ok (bs.map fun b => Char.ofNat b.val) else .error .exception

/-- `struct.pack('=<n>s', s)`: cut or filled with null bytes. -/
def packS (n : Nat) (bs : List Byte) : List Byte := bs.take n ++ List.replicate (n - bs.length) 0

/-- Packing a list of integers. -/
def packIs : List Int → Except PyErr (List Byte)
  | [] => .ok []
  | n :: ns => match packI n with
    | .error e => .error e
    | .ok b => match packIs ns with
      | .error e => .error e
      | .ok bs => .ok (b ++ bs)

/-- Packing the pairs of a ZAID and an atomic weight ratio. -/
def packPairs : List (Int × Bits) → Except PyErr (List Byte)
  | [] => .ok []
  | (n, x) :: ps => match packI n with
    | .error e => .error e
    | .ok b => match packPairs ps with
      | .error e => .error e
      | .ok bs => .ok (b ++ packD x ++ bs)

/-- `data[::2]`. -/
def evens {α : Type} : List α → List α
  | [] => []
  | [a] => [a]
  | a :: _ :: l => a :: evens l

/-- `data[1::2]`. -/
def odds {α : Type} (l : List α) : List α := evens l.tail

/-- `list(map(f, l))` with exceptions. -/
def mapE {α β : Type} (f : α → Except PyErr β) : List α → Except PyErr (List β)
  | [] => .ok []
  | a :: l => match f a with
    | .error e => .error e
    | .ok b => match mapE f l with
      | .error e => .error e
      | .ok bs => .ok (b :: bs)

/-- Lines 124-130: is it a header of version 2? Then it is skipped, up to the old header. -/
def skipHeader (ls : List Line) : Except PyErr (List Line) :=
  match ls with
  | [] => .error .indexError
  | l :: ls' => match split l with
    | (_ :: '.' :: _) :: _ => match ls' with
      | [] => .error .indexError
      | l' :: _ => match (split l')[3]? with
        | none => .error .indexError
        | some w => if w = ['3'] then .ok (ls.drop 3) else .error .runtimeError
    | (_ :: _ :: _) :: _ => .ok ls
    | _ => .error .indexError

/-- Lines 131-161: the bytes of the table whose header starts at the first line, and the rest of the lines. `pf` is `float`. -/
def convertTable (pf : Line → Except PyErr Bits) (ls : List Line) : Except PyErr (List Byte × List Line) :=
  match ls with
  | l0 :: l1 :: _ => do
    let aw0 ← pf (Endf.col l0 10 22)
    let tz ← pf (Endf.col l0 22 34)
    let head := packS 10 (encode (Endf.col l0 0 10)) ++ packD aw0 ++ packD tz ++ packS 10 (encode (Endf.col l0 35 45)) ++
      packS 70 (encode (Endf.col l1 0 70)) ++ packS 10 (encode (Endf.col l1 70 80))      -- 131-138
    let data := split (join (slice ls 2 6))
    let iz ← mapE pyInt (evens data)
    let aw ← mapE pf (odds data)
    let izaw ← if (iz.zip aw).length = 16 then packPairs (iz.zip aw) else .error .exception   -- 140-144
    let nxs ← mapE pyInt (split (join (slice ls 6 8)))
    let jxs ← mapE pyInt (split (join (slice ls 8 12)))
    let nj ← if (nxs ++ jxs).length = 48 then packIs (nxs ++ jxs) else .error .exception      -- 148-151
    match nxs with
    | [] => .error .indexError
    | n :: _ => do
      let nLines := ((n + 3) / 4)                                                       -- 155
      let xss ← mapE pf (split (join (slice ls 12 (12 + nLines).toNat)))
      let extra := 4096 - (((xss.length : Int) * 8 - 1) % 4096 + 1)                      -- 158
      if (xss.length : Int) = n then
        return (head ++ izaw ++ (nj ++ List.replicate (4096 - 500) 0) ++ (xss.flatMap packD ++ List.replicate extra.toNat 0),
          ls.drop (12 + nLines).toNat)
      else .error .exception
  | _ => .error .indexError

/-- `ascii_to_binary`, lines 96-167: the bytes written. The first argument bounds the number of tables; the number of lines is enough. (The file is
also left behind, cut short, if an exception is raised: not modelled.) -/
def asciiToBinary (pf : Line → Except PyErr Bits) : Nat → List Line → Except PyErr (List Byte)
  | 0, _ => .ok []
  | k + 1, ls =>
    if ls = [] then .ok []
    else do
      let ls ← skipHeader ls
      let (bs, ls) ← convertTable pf ls
      let bs' ← asciiToBinary pf k ls
      return bs ++ bs'

/-- `ascii_to_binary` of a file. -/
def binaryOf (pf : Line → Except PyErr Bits) (file : List Line) : Except PyErr (List Byte) := asciiToBinary pf file.length file

/-- What the readers keep of a table; the leading zeros put before the arrays are left out. -/
structure Table (F : Type) where
  name : Line
  awr : F
  temperature : F
  pairs : List (Int × F)
  nxs : List Int
  jxs : List Int
  xss : List F
deriving DecidableEq

/-- `file.read(n)` at a position. -/
def readAt (file : List Byte) (pos n : Nat) : List Byte := (file.drop pos).take n

/-- `struct.unpack` of `n` integers. -/
def unpackIs : Nat → List Byte → List Int
  | 0, _ => []
  | n + 1, bs => unpackI (bs.take 4) :: unpackIs n (bs.drop 4)

def unpackDs : Nat → List Byte → List Bits
  | 0, _ => []
  | n + 1, bs => unpackD (bs.take 8) :: unpackDs n (bs.drop 8)

def unpackPairs : Nat → List Byte → List (Int × Bits)
  | 0, _ => []
  | n + 1, bs => (unpackI (bs.take 4), unpackD ((bs.drop 4).take 8)) :: unpackPairs n (bs.drop 12)

/-- `struct.unpack` raises `struct.error` unless it gets the number of bytes of its format. -/
def exactly (n : Nat) (bs : List Byte) : Except PyErr (List Byte) := if bs.length = n then .ok bs else .error .exception

/-- `_read_binary`, lines 250-331, from a position; `names` are the tables asked for. The first argument bounds the number of tables; a file of `n`
bytes has no more than `n`. -/
def readBinary (names : Option (List Line)) (file : List Byte) : Nat → Nat → Except PyErr (List (Table Bits))
  | 0, _ => .ok []
  | k + 1, pos =>
    if readAt file pos 1 = [] then .ok []
    else do
      let h ← exactly 116 (readAt file pos 116)
      let name ← decode (h.take 10)
      let name := strip name
      let p ← exactly 192 (readAt file (pos + 116) 192)
      let nx ← exactly 64 (readAt file (pos + 308) 64)
      let nxs := unpackIs 16 nx
      let length := nxs.headD 0
      let nRecords := (length + 512 - 1) / 512
      let next := (pos + 4096 * (nRecords + 1)).toNat
      if (names.elim false fun ns => decide (name ∉ ns)) then readBinary names file k next
      else do
        let jx ← exactly 128 (readAt file (pos + 372) 128)
        if length < 0 then .error .exception
        else do
          let xs ← exactly (8 * length.toNat) (readAt file (pos + 4096) (8 * length.toNat))
          let ts ← readBinary names file k next
          return ⟨name, unpackD ((h.drop 10).take 8), unpackD ((h.drop 18).take 8), unpackPairs 16 p, nxs, unpackIs 32 jx,
            unpackDs length.toNat xs⟩ :: ts

/-- `Library(file, names).tables` of a binary file. -/
def libraryBinary (names : Option (List Line)) (file : List Byte) : Except PyErr (List (Table Bits)) := readBinary names file file.length 0

/-! ### ASCII files -/

/-- `np.fromstring(s, sep=' ')`. -/
def npFloats (s : Line) : List ℚ := fromPieces (split s)

/-- `np.fromstring(s, sep=' ', dtype=int)`: reading stops at the first word that is not an integer (digits at its start are not modelled). -/
def intPieces : List Line → List Int
  | [] => []
  | w :: ws => match pyInt w with
    | .error _ => []
    | .ok n => n :: intPieces ws

def npInts (s : Line) : List Int := intPieces (split s)

/-- `[ace_file.readline() for i in range(n)]` and the rest of the file. -/
def readLines : Nat → List Line → List Line × List Line
  | 0, f => ([], f)
  | n + 1, f => ((readline f).1 :: (readLines n (readline f).2).1, (readLines n (readline f).2).2)

/-- `file.readlines(hint)` (CPython): all lines for a hint that is not positive; else lines until their total length, `len` so far, exceeds the hint. -/
def linesUpTo (hint : Int) : Int → List Line → List Line × List Line
  | _, [] => ([], [])
  | len, l :: ls =>
    if (l.length : Int) > hint - len then ([l], ls)
    else (l :: (linesUpTo hint (len + l.length) ls).1, (linesUpTo hint (len + l.length) ls).2)

def readlinesHint (hint : Int) (f : List Line) : List Line × List Line := if hint ≤ 0 then (f, []) else linesUpTo hint 0 f

/-- `lines.pop(0); lines.append(ace_file.readline())`, `n` times. -/
def shift : Nat → List Line → List Line → List Line × List Line
  | 0, lines, f => (lines, f)
  | n + 1, lines, f => shift n (lines.tail ++ [(readline f).1]) (readline f).2

/-- Lines 356-371: name, atomic weight ratio, temperature, the lines and the rest of the file behind the comment of a new header. -/
def asciiHeader (lines f : List Line) : Except PyErr (Line × ℚ × ℚ × List Line × List Line) :=
  match split (lines.headD []) with
  | (_ :: '.' :: _) :: ws => match ws with
    | [] => .error .indexError
    | name :: _ => match split (lines.tail.headD []) with
      | a :: t :: _ :: n :: _ => do
        let awr ← Endf.pyFloat a
        let temp ← Endf.pyFloat t
        let n ← pyInt n
        let (lines, f) := shift n.toNat lines f
        return (name, awr, temp, lines, f)
      | [a] => do
        let _ ← Endf.pyFloat a
        .error .indexError
      | a :: t :: _ => do
        let _ ← Endf.pyFloat a
        let _ ← Endf.pyFloat t
        .error .indexError
      | [] => .error .indexError
  | (c :: c' :: w) :: a :: t :: _ => do
    let awr ← Endf.pyFloat a
    let temp ← Endf.pyFloat t
    return (c :: c' :: w, awr, temp, lines, f)
  | (_ :: _ :: _) :: [a] => do
    let _ ← Endf.pyFloat a
    .error .indexError
  | _ => .error .indexError

/-- `file.seek(offset, SEEK_CUR)` of a text file: only the offset 0 is allowed, anything else is `io.UnsupportedOperation` (a `ValueError`). -/
def seekCur (offset : Int) : Except PyErr Unit := if offset = 0 then .ok () else .error .valueError

/-- Lines 413-423: the array of values; numbers without `E` are repaired only if the size is wrong. -/
def readXss (n : Int) (data : Line) : Except PyErr (List ℚ) :=
  let xss := npFloats data
  if (xss.length : Int) ≠ n + 1 then
    let xss := npFloats (Endf.endfSub data)
    if (xss.length : Int) = n + 1 then .ok xss else .error .assertionError
  else .ok xss

/-- `_read_ascii`, lines 333-431, with the lines read ahead and the rest of the file; `names` are the tables asked for and `seen` those seen. The first
argument bounds the number of tables; a file of `n` lines has no more than `n`. -/
def readAscii (names : Option (List Line)) : Nat → List Line → List Line → List Line → Except PyErr (List (Table ℚ))
  | 0, _, _, _ => .ok []
  | k + 1, seen, lines, f =>
    if strip (lines.headD []) = [] then .ok []                                          -- 352
    else do
      let (name, awr, temp, lines, f) ← asciiHeader lines f
      let data := split (join (slice lines 2 6))
      let iz ← mapE pyInt (evens data)
      let aw ← mapE Endf.pyFloat (odds data)
      let nxs := npInts (join (slice lines 6 8))                                        -- 377-378, without the leading 0
      match nxs with
      | [] => .error .indexError
      | n :: _ => do
        let nLines := (n + 3) / 4
        let nBytes : Int := (lines.getLastD []).length * (nLines - 2) + 1
        if names.elim false fun ns => decide (ns.all (· ∈ seen)) && decide (∃ s ∈ seen, s ∉ ns) then .ok []      -- 384-385
        else if names.elim false fun ns => decide (name ∉ ns) then do                    -- 389-393
          seekCur nBytes
          let f := (readline f).2
          let (lines, f) := readLines 13 f
          readAscii names k (name :: seen) lines f
        else do
          let (more, f) := readlinesHint nBytes f                                       -- 396
          let all := lines ++ more
          let lines := if 12 + nLines < all.length then all.take (12 + nLines).toNat else all
          let _ ← if 12 + nLines < all.length then seekCur (-((all.drop (12 + nLines).toNat).map List.length).sum) else .ok ()
          let jxs := npInts (join (slice lines 8 12))
          let xss ← readXss n ("0.0 ".toList ++ (slice lines 12 (12 + nLines).toNat).flatten)
          let (lines, f) := readLines 13 f
          let ts ← readAscii names k (name :: seen) lines f
          return ⟨name, awr, temp, iz.zip aw, nxs, jxs, xss.tail⟩ :: ts

/-- `Library(file, names).tables` of an ASCII file. -/
def library (names : Option (List Line)) (file : List Line) : Except PyErr (List (Table ℚ)) :=
  readAscii names (file.length + 1) [] (readLines 13 file).1 (readLines 13 file).2

/-- `get_table`, lines 167-198, on the tables of the file: the first, or the first with a name. -/
def getTable {F : Type} (tables : List (Table F)) : Option Line → Except PyErr (Table F)
  | none => match tables with
    | [] => .error .indexError
    | t :: _ => .ok t
  | some name => match tables.find? (fun t => decide (t.name = name)) with
    | some t => .ok t
    | none => .error .valueError

end ASAPy.AceData
