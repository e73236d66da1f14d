import Verif.NjoyTapes.Model
import Verif.Str
import Verif.Chars

/-!
# Model of the text of the NJOY input (ASAPy/njoy.py 96-327, 421-686, 705-832)

`Verif.NjoyTapes` has the modules and tapes; here is the text itself: the templates as they are in the source, `str.format`, and the order in which
`make_njoy_run` and `make_ace_thermal` put them together. Numbers are given by the texts Python makes of them (`str(x)`).
-/

namespace ASAPy.Deck

/-- A text, or a word of it (not in the code). -/
abbrev W := List Char

/-! ### `str.format` -/

/-- A format string taken apart: characters and names in braces (Python's `str.format`, used at njoy.py 294-300, 552-643). -/
inductive Piece where
  | chr (c : Char)
  | fld (name : W)
deriving DecidableEq

/-- Where the reader of a format string is (Python's `str.format`, used at njoy.py 294-300, 552-643). -/
inductive Mode where
  | text
  | opened
  | field (name : W)
  | closed

/-- `str.format`, the format string: `{{` and `}}` are single braces, `{name}` a value (used at njoy.py 294-300, 552-643). Conversions and format
specifications do not occur in the templates. -/
def parseGo : Mode → W → Option (List Piece)
  | .text, [] => some []
  | .text, c :: r => if c = '{' then parseGo .opened r else if c = '}' then parseGo .closed r else (.chr c :: ·) <$> parseGo .text r
  | .opened, [] => none
  | .opened, c :: r => if c = '{' then (.chr '{' :: ·) <$> parseGo .text r else if c = '}' then (.fld [] :: ·) <$> parseGo .text r
      else parseGo (.field [c]) r
  | .field _, [] => none
  | .field n, c :: r => if c = '}' then (.fld n :: ·) <$> parseGo .text r else parseGo (.field (n ++ [c])) r
  | .closed, [] => none
  | .closed, c :: r => if c = '}' then (.chr '}' :: ·) <$> parseGo .text r else none

/-- The pieces of a format string, njoy.py 294-300, 552-643. -/
def parse (s : W) : Option (List Piece) := parseGo .text s

/-- `str.format`, the values: a KeyError for a name without one (used at njoy.py 294-300, 552-643). -/
def render (env : List (W × W)) : List Piece → Except PyErr W
  | [] => .ok []
  | .chr c :: ps => (c :: ·) <$> render env ps
  | .fld n :: ps => match Dict.get? env n with
    | none => .error .keyError
    | some v => (v ++ ·) <$> render env ps

/-- `s.format(**env)`, njoy.py 294-300, 552-643: a ValueError for unmatched braces. -/
def format (env : List (W × W)) (s : W) : Except PyErr W :=
  match parse s with
  | none => .error .valueError
  | some ps => render env ps

/-! ### The templates -/

/-- `_TEMPLATE_RECONR`, njoy.py 96-105. -/
def tReconr : List Char :=
  c!"\n\
    reconr / %%%%%%%%%%%%%%%%%%% Reconstruct XS for neutrons %%%%%%%%%%%%%%%%%%%%%%%\n\
    {nendf} {npendf}\n\
    '{library} PENDF for {zsymam}'/\n\
    {mat} 2/\n\
    {error}/ err\n\
    '{library}: {zsymam}'/\n\
    'Processed by NJOY'/\n\
    0/\n"

/-- `_TEMPLATE_BROADR`, njoy.py 107-114. -/
def tBroadr : List Char :=
  c!"\n\
    broadr / %%%%%%%%%%%%%%%%%%%%%%% Doppler broaden XS %%%%%%%%%%%%%%%%%%%%%%%%%%%%\n\
    {nendf} {npendf} {nbroadr}\n\
    {mat} {num_temp} 0 0 0. /\n\
    {error}/ errthn\n\
    {temps}\n\
    0/\n"

/-- `_TEMPLATE_HEATR`, njoy.py 116-121. -/
def tHeatr : List Char :=
  c!"\n\
    heatr / %%%%%%%%%%%%%%%%%%%%%%%%% Add heating kerma %%%%%%%%%%%%%%%%%%%%%%%%%%%%\n\
    {nendf} {nheatr_in} {nheatr} /\n\
    {mat} 3 /\n\
    302 318 402 /\n"

/-- `_TEMPLATE_PURR`, njoy.py 123-130. -/
def tPurr : List Char :=
  c!"\n\
    purr / %%%%%%%%%%%%%%%%%%%%%%%% Add probability tables %%%%%%%%%%%%%%%%%%%%%%%%%\n\
    {nendf} {npurr_in} {npurr} /\n\
    {mat} {num_temp} 1 20 64 /\n\
    {temps}\n\
    1.e10\n\
    0/\n"

/-- `_TEMPLATE_ACER`, njoy.py 132-140. -/
def tAcer : List Char :=
  c!"\n\
    acer / %%%%%%%%%%%%%%%%%%%%%%%% Write out in ACE format %%%%%%%%%%%%%%%%%%%%%%%%\n\
    {nendf} {nacer_in} 0 {nace} {ndir}\n\
    1 0 1 .{ext} /\n\
    '{library}: {zsymam} at {temperature}'/\n\
    {mat} {temperature}\n\
    1 1/\n\
    /\n"

/-- `_TEMPLATE_ERRORR_33`, njoy.py 237-245. -/
def tErrorr33 : List Char :=
  c!"\n\
    errorr / %%%%%%%%%%%%%%%%%%%%%%%%% Calc COV %%%%%%%%%%%%%%%%%%%%%%%%%%%%%%%%%%%%%%%%\n\
    {nendf} 0 {nerr_in} {nerr}/\n\
    {mat} 1 {iwt_fluxweight}/\n\
    0 {temperature}/\n\
    0 33/\n\
    {cov_ngroups}/\n\
    {cov_group_bounds}/\n"

/-- `_TEMPLATE_ERRORR_31`, njoy.py 248-256. -/
def tErrorr31 : List Char :=
  c!"\n\
    errorr / %%%%%%%%%%%%%%%%%%%%%%%%% Calc COV %%%%%%%%%%%%%%%%%%%%%%%%%%%%%%%%%%%%%%%%\n\
    {nendf} {nerr_in} {ngroupr_out} {nerr}/\n\
    {mat} 1 {iwt_fluxweight}/ group struct, weight function\n\
    1 {temperature}/\n\
    0 31 1 1 -1/\n\
    {cov_ngroups}/\n\
    {cov_group_bounds}/\n"

/-- `_TEMPLATE_ERRORR_35`, njoy.py 260-268. -/
def tErrorr35 : List Char :=
  c!"\n\
    errorr / %%%%%%%%%%%%%%%%%%%%%%%%% Calc COV %%%%%%%%%%%%%%%%%%%%%%%%%%%%%%%%%%%%%%%%\n\
    {nendf} {nerr_in} {ngroupr_out} {nerr}/\n\
    {mat} 1 {iwt_fluxweight}/ group struct, weight function\n\
    1 {temperature}/\n\
    0 35 1 1 -1/\n\
    {cov_ngroups}/\n\
    {cov_group_bounds}/\n"

/-- `_TEMPLATE_COVR_FOR_LIB_COV_OUT`, njoy.py 305-312. -/
def tCovrLib : List Char :=
  c!"\n\
    covr / %%%%%%%%%%%%%%%%%%%%%%%%% Create Cov Info (DATA) %%%%%%%%%%%%%%%%%%%%%%%%%%%%\n\
    {nerr} {covr_out}/\n\
    3/\n\
    corr/\n\
    /\n\
    {mat}/\n"

/-- `_TEMPLATE_VIEWR`, njoy.py 314-317. -/
def tViewr : List Char :=
  c!"\n\
    viewr / %%%%%%%%%%%%%%%%%%%%%%%%% Create Plots %%%%%%%%%%%%%%%%%%%%%%%%%%%%%%%\n\
    {covr_plot_out} {viewr_plot_out}/\n"

/-- `_THERMAL_TEMPLATE_THERMR`, njoy.py 218-229. -/
def tThermr : List Char :=
  c!"\n\
    thermr / %%%%%%%%%%%%%%%% Add thermal scattering data (free gas) %%%%%%%%%%%%%%%\n\
    0 {nthermr1_in} {nthermr1}\n\
    0 {mat} 12 {num_temp} 1 0 {iform} 1 221 1/\n\
    {temps}\n\
    {error} {energy_max}\n\
    thermr / %%%%%%%%%%%%%%%% Add thermal scattering data (bound) %%%%%%%%%%%%%%%%%%\n\
    {nthermal_endf} {nthermr2_in} {nthermr2}\n\
    {mat_thermal} {mat} 16 {num_temp} {inelastic} {elastic} {iform} {natom} 222 1/\n\
    {temps}\n\
    {error} {energy_max}\n"

/-- `_THERMAL_TEMPLATE_ACER`, njoy.py 319-327. -/
def tThermalAcer : List Char :=
  c!"\n\
    acer / %%%%%%%%%%%%%%%%%%%%%%%% Write out in ACE format %%%%%%%%%%%%%%%%%%%%%%%%\n\
    {nendf} {nthermal_acer_in} 0 {nace} {ndir}\n\
    2 0 1 .{ext}/\n\
    '{library}: {zsymam_thermal} processed by NJOY'/\n\
    {mat} {temperature} '{data.name}' /\n\
    {zaids} /\n\
    222 64 {mt_elastic} {elastic_type} {data.nmix} {energy_max} 2/\n"

/-- The first part of `_TEMPLATE_GROUPR_FOR_PLOT`, njoy.py 156-164. -/
def tGrouprNuHead : List Char :=
  c!"\n\
    groupr\n\
    {nendf} {ngroupr_in} 0 {ngroupr_out}/\n\
    {mat} 1 0 {iwt_fluxweight} 1 {num_temp}/ user groups, weight flux\n\
    nu and chi / \n\
    {temps}/\n\
    1e10/ background sigma (need to include \"inf\")\n\
    {cov_ngroups}/\n\
    {cov_group_bounds}/"

/-- The first part of `_TEMPLATE_GROUPR_FOR_XSEC`, njoy.py 183-192. -/
def tGrouprHead : List Char :=
  c!"\n\
    groupr / %%%%%%%%%%%%%%%%%%%%%%%% Create shielded xsec %%%%%%%%%%%%%%%%%%%%%%%%%\n\
    {nendf} {ngroupr_in} 0 {ngroupr_out}/\n\
    {mat} 1 0 {iwt_fluxweight} 1 {num_temp}/ user groups, weight flux\n\
    xsec / \n\
    {temps}/\n\
    1e10/ background sigma (need to include \"inf\")/\n\
    {cov_ngroups}/\n\
    {cov_group_bounds}/\n"

/-- The first part of `_TEMPLATE_GROUPR_FOR_XSEC_USER_FLUX`, njoy.py 200-210. -/
def tGrouprFluxHead : List Char :=
  c!"\n\
    groupr / %%%%%%%%%%%%%%%%%%%%%%%% Create shielded xsec %%%%%%%%%%%%%%%%%%%%%%%%%\n\
    {nendf} {ngroupr_in} 0 {ngroupr_out}/\n\
    {mat} 1 0 1 1 {num_temp}/ user groups, user weight flux\n\
    xsec / \n\
    {temps}/\n\
    1e10/ background sigma (need to include \"inf\")/\n\
    {cov_ngroups}/\n\
    {cov_group_bounds}/\n\
    {user_flux_weight}/\n"

/-- The first part of `_TEMPLATE_COVR_FOR_PLOT`, njoy.py 285-291. -/
def tCovrPlotHead : List Char :=
  c!"\n\
    covr / %%%%%%%%%%%%%%%%%%%%%%%%% Create Cov Info (PLOT) %%%%%%%%%%%%%%%%%%%%%%%%%%%%\n\
    {{nerr}} 0 {{covr_plot_out}}/\n\
    1/\n\
    /\n\
    1 {n_mats}/\n"

/-- The reactions of one temperature in `_TEMPLATE_GROUPR_FOR_PLOT`, njoy.py 171-178. -/
def tNuReactions : List Char :=
  c!"\n\
    3 452 'nu'/\n\
    3 455 'p nu'/\n\
    3 456 'd nu'/\n\
    3 18 'fiss'/\n\
    5 18 'chi'/\n\
    0/\n"

/-- `_TEMPLATE_GROUPR_FOR_XSEC` and `_TEMPLATE_GROUPR_FOR_XSEC_USER_FLUX`, njoy.py 182-215, after the first part: one list of reactions for each temperature. -/
def reactionsTail (numTemp : Nat) : W := (List.replicate numTemp c!"3/\n0/\n").flatten ++ c!"0/\n"

/-- `_TEMPLATE_GROUPR_FOR_PLOT`, njoy.py 142-180, called without a flux at 575. -/
def tGrouprNu (numTemp : Nat) : W := tGrouprNuHead ++ (List.replicate numTemp tNuReactions).flatten ++ c!"0/\n"

/-- `_TEMPLATE_COVR_FOR_PLOT`, njoy.py 271-302. -/
def tCovrPlot (mts : List Nat) : Except PyErr W := do
  let s ← format [(c!"n_mats", Dec.natStr (if 1 ≤ mts.length then mts.length else 1))] tCovrPlotHead      -- 293-294
  let s := if mts = [] then s ++ c!"{mat}/\n" else s                                                       -- 296-297
  mts.foldlM (fun s mt => do
    let line ← format [(c!"mt", Dec.natStr mt)] c!"{{mat}} {mt} {{mat}} {mt}/\n"                      -- 299-300
    pure (s ++ line)) s

/-! ### `make_njoy_run` -/

/-- What `make_njoy_run` (njoy.py 421-423) is given, with what it takes from the ENDF file (482-487): the material, the name of the library and that of the material. The
numbers of `groups` and `flux` as `str` gives them. -/
structure Opts where
  mat : Nat
  library : W
  zsymam : W
  temps : List Njoy.Temp
  error : W := c!"0.001"
  broadr : Bool := true
  heatr : Bool := true
  purr : Bool := true
  acer : Bool := true
  errorr : Bool := true
  groups : Option (List W) := none
  iwt : Nat := 9
  flux : Option (List W) := none
  mts : List Nat := []
  nu : Bool := false
  chi : Bool := false

/-- `' '.join(str(i) for i in temperatures)`, njoy.py 490. -/
def tempsText (ts : List Njoy.Temp) : W := [' '].intercalate (ts.map Njoy.Temp.str)

/-- `' \n'.join(...)`, njoy.py 527-529 and 540-542. -/
def column (ws : List W) : W := c!" \n".intercalate ws

/-- The weight function, njoy.py 525-530: a TAB1 record with one linear region. -/
def fluxText (vals : List W) : W :=
  c!"0. 0. 0  0  1  " ++ Dec.natStr (vals.length / 2) ++ c!"  " ++ Dec.natStr (vals.length / 2) ++ c!"  2\n" ++ column vals

/-- The text so far and `nlast`, njoy.py 492-504. -/
structure St where
  commands : W
  nlast : Nat

/-- `locals()` (njoy.py 552-643), the variables that do not change: only the names the templates use are kept. -/
def fixed (o : Opts) (groups : List W) : List (W × W) :=
  [(c!"nendf", Dec.natStr 20), (c!"npendf", Dec.natStr 21), (c!"mat", Dec.natStr o.mat), (c!"num_temp", Dec.natStr o.temps.length),
   (c!"temps", tempsText o.temps), (c!"iwt_fluxweight", Dec.natStr o.iwt), (c!"cov_ngroups", Dec.natStr (groups.length - 1)),
   (c!"cov_group_bounds", column groups)]

/-- The weight function after the text of ERRORR, if there is one. -/
def addFlux (flux : Option W) (s : W) : W := match flux with | none => s | some f => s ++ (f ++ c!"/\n")

/-- `locals()` in the loop over the temperatures, njoy.py 533-569. -/
def tempEnv (o : Opts) (groups : List W) (flux : Option W) (nbroadr nlast : Nat) (t : Njoy.Temp) : List (W × W) :=
  fixed o groups ++ ([(c!"ngroupr_in", Dec.natStr nbroadr), (c!"ngroupr_out", Dec.natStr (nlast + 1)),
    (c!"nerr_in", Dec.natStr (nlast + 1)), (c!"nerr", Dec.natStr (nlast + 2)), (c!"covr_out", Dec.natStr (nlast + 3)),
    (c!"covr_plot_out", Dec.natStr (nlast + 4)), (c!"viewr_plot_out", Dec.natStr (nlast + 5)), (c!"temperature", t.str)]
    ++ (match flux with | none => [] | some f => [(c!"user_flux_weight", f)]))

/-- njoy.py 533-569: one temperature. `flux` is the text of the weight function if `iwt_fluxweight` is 1. -/
def tempStep (o : Opts) (groups : List W) (flux : Option W) (nbroadr : Nat) (s : St) (t : Njoy.Temp) : Except PyErr St := do
  let env := tempEnv o groups flux nbroadr s.nlast t
  let a ← match flux with
    | some _ => format env (tGrouprFluxHead ++ reactionsTail o.temps.length)
    | none => format env (tGrouprHead ++ reactionsTail o.temps.length)                                     -- 544-547
  let b ← format env tErrorr33                                                                             -- 549
  let b := addFlux flux b                                                                                  -- 550-551
  let c ← format env tCovrLib                                                                              -- 558
  if o.mts ≠ [] then do                                                                                    -- 560
    let d ← tCovrPlot o.mts
    let d ← format env d
    let e ← format env tViewr
    pure ⟨s.commands ++ a ++ b ++ c ++ d ++ e, s.nlast + 5⟩
  else pure ⟨s.commands ++ a ++ b ++ c, s.nlast + 3⟩

/-- `locals()` at njoy.py 571-578. -/
def grouprEnv (o : Opts) (groups : List W) (nbroadr nlast : Nat) : List (W × W) :=
  fixed o groups ++ [(c!"ngroupr_in", Dec.natStr nbroadr), (c!"ngroupr_out", Dec.natStr (nlast + 1))]

/-- njoy.py 571-578: GROUPR for nu-bar and chi. -/
def nuChiGroupr (o : Opts) (groups : List W) (nbroadr : Nat) (s : St) : Except PyErr St := do
  let a ← format (grouprEnv o groups nbroadr s.nlast) (tGrouprNu o.temps.length)
  pure ⟨s.commands ++ c!"\n-- Nu-bar / Chi groupr\n" ++ a, s.nlast + 1⟩

/-- `locals()` at njoy.py 580-626. -/
def nuChiEnv (o : Opts) (groups : List W) (nbroadr g nlast : Nat) (t : Njoy.Temp) : List (W × W) :=
  fixed o groups ++ [(c!"nerr_in", Dec.natStr nbroadr), (c!"ngroupr_out", Dec.natStr g), (c!"nerr", Dec.natStr (nlast + 1)),
    (c!"covr_plot_out", Dec.natStr (nlast + 2)), (c!"viewr_plot_out", Dec.natStr (nlast + 3)), (c!"covr_out", Dec.natStr (nlast + 4)),
    (c!"temperature", t.str)]

/-- njoy.py 580-602 (`tErrorr31`, `mts = [452]`) and 604-626 (`tErrorr35`, `mts = []`, after a comment). `g` is the GROUPR tape, `t` the last temperature. -/
def nuChiStep (o : Opts) (groups : List W) (flux : Option W) (comment template : W) (mts : List Nat) (nbroadr g : Nat) (t : Njoy.Temp) (s : St) : Except PyErr St := do
  let env := nuChiEnv o groups nbroadr g s.nlast t
  let a ← format env template
  let a := addFlux flux a                                                                                  -- 584-585, 609-610
  let b ← tCovrPlot mts
  let b ← format env b
  let c ← format env tViewr
  let d ← format env tCovrLib
  pure ⟨s.commands ++ comment ++ a ++ b ++ c ++ d, s.nlast + 4⟩

/-- The text of the weight function, njoy.py 517-530. -/
def fluxOf (o : Opts) : Except PyErr (Option W) :=
  if o.iwt = 1 then match o.flux with
    | none => .error .exception                                                                            -- 520-521
    | some vals => .ok (some (fluxText vals))                                                              -- 523-530
  else .ok none

/-- njoy.py 580-602. -/
def nuPart (o : Opts) (groups : List W) (flux : Option W) (nbroadr g : Nat) (t : Njoy.Temp) (s : St) : Except PyErr St :=
  if o.nu then nuChiStep o groups flux [] tErrorr31 [452] nbroadr g t s else .ok s

/-- njoy.py 604-626. -/
def chiPart (o : Opts) (groups : List W) (flux : Option W) (nbroadr g : Nat) (t : Njoy.Temp) (s : St) : Except PyErr St :=
  if o.chi then nuChiStep o groups flux c!"-- Chi info\n" tErrorr35 [] nbroadr g t s else .ok s

/-- njoy.py 571-626: after the loop `temperature` is the last one. -/
def nuChiPart (o : Opts) (groups : List W) (flux : Option W) (nbroadr : Nat) (s : St) : Except PyErr St :=
  if o.nu = false ∧ o.chi = false then .ok s
  else do
    let s' ← nuChiGroupr o groups nbroadr s
    match o.temps.getLast? with
    | none => .error .unboundLocal
    | some t => do
      let s' ← nuPart o groups flux nbroadr (s.nlast + 1) t s'
      chiPart o groups flux nbroadr (s.nlast + 1) t s'

/-- njoy.py 512-626; `nbroadr` is unbound without BROADR. -/
def errorrPart (o : Opts) (nbroadr : Option Nat) (s : St) : Except PyErr St :=
  match o.groups with
  | none => .error .exception                                                                              -- 513-514
  | some groups => do
    let flux ← fluxOf o
    match nbroadr with
    | none => if o.temps = [] ∧ o.nu = false ∧ o.chi = false then .ok s else .error .unboundLocal
    | some nb => do
      let s ← o.temps.foldlM (tempStep o groups flux nb) s
      nuChiPart o groups flux nb s

/-- `'{:02}'.format(i + 1)`, njoy.py 654. -/
def ext (i : Nat) : W := List.replicate (2 - (Dec.natStr (i + 1)).length) '0' ++ Dec.natStr (i + 1)

/-- `locals()` at njoy.py 656. -/
def acerEnv (o : Opts) (nacerIn nace : Nat) (ext : W) (t : Njoy.Temp) : List (W × W) :=
  [(c!"nendf", Dec.natStr 20), (c!"nacer_in", Dec.natStr nacerIn), (c!"nace", Dec.natStr nace), (c!"ndir", Dec.natStr (nace + 1)),
    (c!"ext", ext), (c!"library", o.library), (c!"zsymam", o.zsymam), (c!"temperature", t.str), (c!"mat", Dec.natStr o.mat)]

/-- njoy.py 648-658: the ACER runs. `i` counts the temperatures. -/
def acerLoop (o : Opts) (nacerIn : Nat) : Nat → List Njoy.Temp → W → Except PyErr W
  | _, [], s => .ok s
  | i, t :: ts, s => do
    let nace := nacerIn + 1 + 2 * i
    let a ← format (acerEnv o nacerIn nace (ext i) t) tAcer
    acerLoop o nacerIn (i + 1) ts (s ++ a)

/-- `locals()` at njoy.py 644. -/
def lastEnv (o : Opts) (nbroadr : Option Nat) (nheatr npurrIn : Nat) : List (W × W) :=
  [(c!"nendf", Dec.natStr 20), (c!"npendf", Dec.natStr 21), (c!"library", o.library), (c!"zsymam", o.zsymam), (c!"mat", Dec.natStr o.mat),
    (c!"error", o.error), (c!"num_temp", Dec.natStr o.temps.length), (c!"temps", tempsText o.temps), (c!"nheatr", Dec.natStr nheatr),
    (c!"npurr_in", Dec.natStr npurrIn), (c!"npurr", Dec.natStr (npurrIn + 1))]
    ++ (match nbroadr with | none => [] | some nb => [(c!"nbroadr", Dec.natStr nb), (c!"nheatr_in", Dec.natStr nb)])

/-- RECONR and BROADR, njoy.py 495-510: the text, and `nbroadr` if it is bound. -/
def broadrPart (o : Opts) : St × Option Nat := if o.broadr then (⟨tReconr ++ tBroadr, 22⟩, some 22) else (⟨tReconr, 21⟩, none)

/-- njoy.py 512-626. -/
def covPart (o : Opts) (nbroadr : Option Nat) (s : St) : Except PyErr St := if o.errorr then errorrPart o nbroadr s else .ok s

/-- HEATR, njoy.py 631-635: the text and `nheatr`. -/
def heatrPart (o : Opts) (nbroadr : Option Nat) (s : St) : Except PyErr (St × Nat) :=
  if o.heatr then match nbroadr with
    | none => .error .unboundLocal
    | some _ => .ok (⟨s.commands ++ tHeatr, s.nlast + 1⟩, s.nlast + 1)
  else .ok (s, 0)

/-- PURR, njoy.py 638-642. -/
def purrPart (o : Opts) (s : St) : St := if o.purr then ⟨s.commands ++ tPurr, s.nlast + 1⟩ else s

/-- ACER, njoy.py 647-659. -/
def acerPart (o : Opts) (nlast : Nat) (commands : W) : Except PyErr W := if o.acer then acerLoop o nlast 0 o.temps commands else .ok commands

/-- The text `make_njoy_run` (njoy.py 421-686) writes to `njoy_in.txt` and returns. -/
def makeDeck (o : Opts) : Except PyErr W := do
  let b := broadrPart o
  let s ← covPart o b.2 b.1
  let h ← heatrPart o b.2 s
  let p := purrPart o h.1
  let commands ← format (lastEnv o b.2 h.2 h.1.nlast) p.commands                                           -- 644
  let commands ← acerPart o p.nlast commands
  pure (commands ++ c!"stop\n")                                                                           -- 660

end ASAPy.Deck
