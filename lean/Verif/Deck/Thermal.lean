import Verif.Deck.Whole
import Verif.Endf.Props
import Verif.AceData.Model

/-!
# Model of `make_ace_thermal` (ASAPy/njoy.py 42-78, 705-832): the input for thermal scattering

The run of NJOY is not modelled. The texts `str` and `'{:.1f}'.format` make of the floats read from the ENDF file are functions of the values.
-/

namespace ASAPy.Deck

set_option maxRecDepth 100000
set_option linter.unusedSimpArgs false

open ASAPy.Endf (Line)

/-- `_THERMAL_DATA`, njoy.py 43-78: by MAT the name, the ZAIDs and NMIX. -/
def thermalData : List (Nat × W × List Nat × Nat) := [
  (1, c!"hh2o", [1001], 1),
  (2, c!"parah", [1001], 1),
  (3, c!"orthoh", [1001], 1),
  (5, c!"hyh2", [1001], 1),
  (7, c!"hzrh", [1001], 1),
  (8, c!"hcah2", [1001], 1),
  (10, c!"hice", [1001], 1),
  (11, c!"dd2o", [1002], 1),
  (12, c!"parad", [1002], 1),
  (13, c!"orthod", [1002], 1),
  (26, c!"be", [4009], 1),
  (27, c!"bebeo", [4009], 1),
  (31, c!"graph", [6000, 6012, 6013], 1),
  (33, c!"lch4", [1001], 1),
  (34, c!"sch4", [1001], 1),
  (37, c!"hch2", [1001], 1),
  (39, c!"lucite", [1001], 1),
  (40, c!"benz", [1001, 6000, 6012], 2),
  (41, c!"od2o", [8016, 8017, 8018], 1),
  (43, c!"sisic", [14028, 14029, 14030], 1),
  (44, c!"csic", [6000, 6012, 6013], 1),
  (46, c!"obeo", [8016, 8017, 8018], 1),
  (47, c!"sio2-a", [8016, 8017, 8018, 14028, 14029, 14030], 3),
  (48, c!"uuo2", [92238], 1),
  (49, c!"sio2-b", [8016, 8017, 8018, 14028, 14029, 14030], 3),
  (50, c!"oice", [8016, 8017, 8018], 1),
  (52, c!"mg24", [12024], 1),
  (53, c!"al27", [13027], 1),
  (55, c!"yyh2", [39089], 1),
  (56, c!"fe56", [26056], 1),
  (58, c!"zrzrh", [40000, 40090, 40091, 40092, 40094, 40096], 1),
  (59, c!"cacah2", [20040, 20042, 20043, 20044, 20046, 20048], 1),
  (75, c!"ouo2", [8016, 8017, 8018], 1)]

/-- What `make_ace_thermal` is given, with what it takes from the two files: the material and name of the nuclide; the material, name, library and the
sections (7, 2) and (7, 4) of the scatterer. -/
structure Thermal where
  mat : Nat
  zsymam : W
  matThermal : Nat
  zsymamThermal : W
  library : W
  sec72 : Option (List Line)
  sec74 : List Line
  temps : Option (List Njoy.Temp) := none
  error : W := c!"0.001"

/-- `str` and `'{:.1f}'.format` of a float. -/
structure Show where
  str : ℚ → W
  fmt1 : ℚ → W

/-- njoy.py 744-755: `elastic`, `mt_elastic`, `elastic_type`. -/
def elasticOf (sec72 : Option (List Line)) : Except PyErr (Nat × Nat × Int) :=
  match sec72 with
  | some ls => do
    let (h, _) ← Endf.getHead ls
    pure (1, 223, h.l1 - 1)
  | none => .ok (0, 0, 0)

/-- njoy.py 757-762: `energy_max` and `natom`. -/
def principal (sec74 : List Line) : Except PyErr (ℚ × Int) := do
  let (_, f) ← Endf.getHead sec74
  let (_, values, _) ← Endf.getList f
  match values[3]?, values[5]? with
  | some e, some n => pure (e, Endf.trunc n)
  | _, _ => .error .indexError

/-- njoy.py 777-778: the temperatures of `k` LIST records. -/
def moreTemps : Nat → List Line → Except PyErr (List ℚ)
  | 0, _ => .ok []
  | k + 1, f => do
    let (c, _, f) ← Endf.getList f
    let ts ← moreTemps k f
    pure (c.c1 :: ts)

/-- njoy.py 771-778: the temperatures on the file. -/
def fileTemps (sec74 : List Line) : Except PyErr (List ℚ) := do
  let (_, f) ← Endf.getHead sec74
  let (_, _, f) ← Endf.getList f
  let (_, _, f) ← Endf.getTab2 f
  let (params, _, _, f) ← Endf.getTab1 f
  let ts ← moreTemps params.2.2.1.toNat f
  pure (params.1 :: ts)

/-- njoy.py 770-778. -/
def tempsOf (sh : Show) (i : Thermal) : Except PyErr (List Njoy.Temp) :=
  match i.temps with
  | some ts => .ok ts
  | none => do
    let ts ← fileTemps i.sec74
    pure (ts.map fun q => ⟨sh.str q, sh.fmt1 q⟩)

/-- `locals()` at njoy.py 813. -/
def thermalEnv (i : Thermal) (temps : List Njoy.Temp) (emax : W) (natom : Int) (elastic : Nat) : List (W × W) :=
  [(c!"nendf", Dec.natStr 20), (c!"nthermal_endf", Dec.natStr 21), (c!"npendf", Dec.natStr 22), (c!"nbroadr", Dec.natStr 23), (c!"nthermr1_in", Dec.natStr 23),
    (c!"nthermr1", Dec.natStr 24), (c!"nthermr2_in", Dec.natStr 24), (c!"nthermr2", Dec.natStr 25), (c!"library", i.library), (c!"zsymam", i.zsymam),
    (c!"mat", Dec.natStr i.mat), (c!"mat_thermal", Dec.natStr i.matThermal), (c!"error", i.error), (c!"num_temp", Dec.natStr temps.length), (c!"temps", tempsText temps),
    (c!"energy_max", emax), (c!"natom", AceData.intStr natom), (c!"iform", Dec.natStr 0), (c!"inelastic", Dec.natStr 2), (c!"elastic", Dec.natStr elastic)]

/-- `locals()` at njoy.py 823. -/
def thermalAcerEnv (i : Thermal) (name : W) (zaids : List Nat) (nmix : Nat) (emax : W) (mtElastic : Nat) (elasticType : Int) (nace : Nat) (ext : W) (t : Njoy.Temp) : List (W × W) :=
  [(c!"nendf", Dec.natStr 20), (c!"nthermal_acer_in", Dec.natStr 25), (c!"nace", Dec.natStr nace), (c!"ndir", Dec.natStr (nace + 1)), (c!"ext", ext),
    (c!"library", i.library), (c!"zsymam_thermal", i.zsymamThermal), (c!"mat", Dec.natStr i.mat), (c!"temperature", t.str), (c!"data.name", name),
    (c!"zaids", [' '].intercalate ((zaids.take 3).map Dec.natStr)), (c!"mt_elastic", Dec.natStr mtElastic), (c!"elastic_type", AceData.intStr elasticType),
    (c!"data.nmix", Dec.natStr nmix), (c!"energy_max", emax)]

/-- njoy.py 815-829: the ACER runs and the output files. -/
def thermalAcer (i : Thermal) (name : W) (zaids : List Nat) (nmix : Nat) (emax : W) (mtElastic : Nat) (elasticType : Int) : Nat → List Njoy.Temp → W → Except PyErr W
  | _, [], s => .ok s
  | k, t :: ts, s => do
    let a ← format (thermalAcerEnv i name zaids nmix emax mtElastic elasticType (25 + 1 + 2 * k) (ext k) t) tThermalAcer
    thermalAcer i name zaids nmix emax mtElastic elasticType (k + 1) ts (s ++ a)

/-- The text `make_ace_thermal` (njoy.py 705-832) gives to NJOY. -/
def thermalDeck (sh : Show) (i : Thermal) : Except PyErr W := do
  let (name, zaids, nmix) ← match Dict.get? thermalData i.matThermal with
    | some d => .ok d
    | none => (.error .keyError : Except PyErr (W × List Nat × Nat))                                       -- 738
  let (elastic, mtElastic, elasticType) ← elasticOf i.sec72
  let (emax, natom) ← principal i.sec74
  let temps ← tempsOf sh i
  let commands ← format (thermalEnv i temps (sh.str emax) natom elastic) (tReconr ++ tBroadr ++ tThermr)  -- 793-813
  let commands ← thermalAcer i name zaids nmix (sh.str emax) mtElastic elasticType 0 temps commands
  pure (commands ++ c!"stop\n")

/-! ### Specification -/

/-- LIST records that begin with the temperatures `ts`. -/
inductive TempRecords : List ℚ → List Line → Prop
  | nil : TempRecords [] []
  | cons {c : Endf.Cont} {cl : Line} {vs : List ℚ} {vl : List Line} {ts : List ℚ} {ls : List Line} (hc : Endf.ContLine c cl) (hn : c.n1 = vs.length)
      (hv : Endf.Lines (Endf.Starts Endf.floatEndf) 6 vs vl) (h : TempRecords ts ls) : TempRecords (c.c1 :: ts) (cl :: (vl ++ ls))

/-- A section (7, 4) of ENDF: HEAD; LIST with the constants `b`; TAB2; for the first value of beta a TAB1 record with the first temperature and the number of further
temperatures, and for each of them a LIST record; then anything. -/
def Sec74 (b : List ℚ) (t0 : ℚ) (ts : List ℚ) (ls : List Line) : Prop :=
  ∃ (h : Endf.Head) (hl : Line) (c : Endf.Cont) (cl : Line) (bl : List Line) (c2 : Endf.Cont) (c2l : Line) (rg : List (Int × Int)) (rgl : List Line)
    (c1 : Endf.Cont) (c1l : Line) (rg1 : List (Int × Int)) (rg1l : List Line) (xy : List (ℚ × ℚ)) (xyl more rest : List Line),
    ls = hl :: (cl :: (bl ++ (c2l :: (rgl ++ (c1l :: (rg1l ++ (xyl ++ (more ++ rest)))))))) ∧
    Endf.HeadLine h hl ∧
    (Endf.ContLine c cl ∧ c.n1 = b.length ∧ Endf.Lines (Endf.Starts Endf.floatEndf) 6 b bl) ∧
    (Endf.ContLine c2 c2l ∧ c2.n1 = rg.length ∧ Endf.Lines (Endf.StartsPairs Endf.pyInt Endf.pyInt) 3 rg rgl) ∧
    (Endf.ContLine c1 c1l ∧ c1.c1 = t0 ∧ c1.l1 = ts.length ∧ c1.n1 = rg1.length ∧ c1.n2 = xy.length ∧
      Endf.Lines (Endf.StartsPairs Endf.pyInt Endf.pyInt) 3 rg1 rg1l ∧ Endf.Lines (Endf.StartsPairs Endf.floatEndf Endf.floatEndf) 3 xy xyl) ∧
    TempRecords ts more

/-- The section (7, 2), if there is one, begins with a HEAD record in which LTHR stands third. -/
def Sec72 (lthr : Option Int) (sec : Option (List Line)) : Prop :=
  match lthr, sec with
  | none, none => True
  | some l, some ls => ∃ h hl rest, ls = hl :: rest ∧ Endf.HeadLine h hl ∧ h.l1 = l
  | _, _ => False

/-- What the files say of the scatterer. -/
structure Scatterer where
  name : W
  zaids : List Nat
  nmix : Nat
  /-- LTHR: 1 coherent, 2 incoherent elastic scattering; nothing without elastic scattering -/
  lthr : Option Int
  emax : ℚ
  natom : Int
  temps : List Njoy.Temp

/-- The modules that make thermal data at the temperatures of `x`: RECONR; BROADR; THERMR for free gas; THERMR for the scatterer; ACER for each temperature, with
MT 222 for inelastic and MT 223 for elastic scattering and, for ACER, 0 for coherent and 1 for incoherent; only the ZAIDs `zs` are on the card. -/
def thermalAsked (sh : Show) (i : Thermal) (x : Scatterer) (zs : List Nat) : List Run :=
  let ts := x.temps.map Njoy.Temp.str
  let n := num x.temps.length
  let e := sh.str x.emax
  [.reconr [num 20, num 22] (num i.mat) i.error,
   .broadr [num 20, num 22, num 23] (num i.mat) i.error ts,
   .thermr [c!"0", num 23, num 24] [c!"0", num i.mat, c!"12", n, c!"1", c!"0", c!"0", c!"1", c!"221", c!"1"] ts i.error e,
   .thermr [num 21, num 24, num 25] [num i.matThermal, num i.mat, c!"16", n, c!"2", if x.lthr.isSome then c!"1" else c!"0", c!"0", AceData.intStr x.natom, c!"222", c!"1"] ts i.error e]
  ++ x.temps.zipIdx.map fun tk =>
    .acerThermal [num 20, num 25, c!"0", num (26 + 2 * tk.2), num (27 + 2 * tk.2)] (suffix tk.2) (num i.mat) tk.1.str x.name (zs.map num)
      [c!"222", c!"64", if x.lthr.isSome then c!"223" else c!"0", AceData.intStr ((x.lthr.map (· - 1)).getD 0), num x.nmix, e, c!"2"]

/-- The files say `x` of the scatterer, and all values can be on cards. -/
structure Thermal.Says (sh : Show) (i : Thermal) (x : Scatterer) : Prop where
  data : (i.matThermal, x.name, x.zaids, x.nmix) ∈ thermalData
  elastic : Sec72 x.lthr i.sec72
  constants : ∃ b t0 ts n, Sec74 b t0 ts i.sec74 ∧ b[3]? = some x.emax ∧ b[5]? = some n ∧ Endf.Truncates n x.natom ∧
    (i.temps = some x.temps ∨ i.temps = none ∧ x.temps = (t0 :: ts).map fun q => ⟨sh.str q, sh.fmt1 q⟩)
  temps : x.temps ≠ []
  temp : ∀ t ∈ x.temps, Plain t.str
  error : Plain i.error
  emax : Plain (sh.str x.emax)
  library : Quotable i.library
  zsymam : Quotable i.zsymam
  zsymamThermal : Quotable i.zsymamThermal

end ASAPy.Deck
