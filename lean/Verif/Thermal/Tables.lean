import Verif.Chars

/-!
# The tables of names used for thermal scattering
-/

namespace ASAPy.Thermal

/-- `_THERMAL_NAMES`, thermal.py 26-65. -/
def thermalNames : List (List Char × List (List Char)) := [
  (c!"c_Al27", [c!"al", c!"al27", c!"al-27"]), (c!"c_Be", [c!"be", c!"be-metal", c!"be-met"]),
  (c!"c_BeO", [c!"beo"]), (c!"c_Be_in_BeO", [c!"bebeo", c!"be-beo", c!"be-o", c!"be/o"]),
  (c!"c_C6H6", [c!"benz", c!"c6h6"]), (c!"c_C_in_SiC", [c!"csic", c!"c-sic"]),
  (c!"c_Ca_in_CaH2", [c!"cah"]), (c!"c_D_in_D2O", [c!"dd2o", c!"d-d2o", c!"hwtr", c!"hw"]),
  (c!"c_Fe56", [c!"fe", c!"fe56", c!"fe-56"]), (c!"c_Graphite", [c!"graph", c!"grph", c!"gr"]),
  (c!"c_Graphite_10p", [c!"grph10"]), (c!"c_Graphite_30p", [c!"grph30"]),
  (c!"c_H_in_CaH2", [c!"hcah2"]), (c!"c_H_in_CH2", [c!"hch2", c!"poly", c!"pol", c!"h-poly"]),
  (c!"c_H_in_CH4_liquid", [c!"lch4", c!"lmeth"]), (c!"c_H_in_CH4_solid", [c!"sch4", c!"smeth"]),
  (c!"c_H_in_H2O", [c!"hh2o", c!"h-h2o", c!"lwtr", c!"lw"]), (c!"c_H_in_H2O_solid", [c!"hice", c!"h-ice"]),
  (c!"c_H_in_C5O2H8", [c!"lucite", c!"c5o2h8", c!"h-luci"]), (c!"c_H_in_YH2", [c!"hyh2", c!"h-yh2"]),
  (c!"c_H_in_ZrH", [c!"hzrh", c!"h-zrh", c!"h-zr", c!"h/zr", c!"hzr"]), (c!"c_Mg24", [c!"mg", c!"mg24"]),
  (c!"c_O_in_BeO", [c!"obeo", c!"o-beo", c!"o-be", c!"o/be"]), (c!"c_O_in_D2O", [c!"od2o", c!"o-d2o"]),
  (c!"c_O_in_H2O_ice", [c!"oice", c!"o-ice"]), (c!"c_O_in_UO2", [c!"ouo2", c!"o-uo2", c!"o2-u", c!"o2/u"]),
  (c!"c_N_in_UN", [c!"n-un"]), (c!"c_ortho_D", [c!"orthod", c!"orthoD", c!"dortho"]),
  (c!"c_ortho_H", [c!"orthoh", c!"orthoH", c!"hortho"]), (c!"c_Si_in_SiC", [c!"sisic", c!"si-sic"]),
  (c!"c_SiO2_alpha", [c!"sio2", c!"sio2a"]), (c!"c_SiO2_beta", [c!"sio2b"]),
  (c!"c_para_D", [c!"parad", c!"paraD", c!"dpara"]), (c!"c_para_H", [c!"parah", c!"paraH", c!"hpara"]),
  (c!"c_U_in_UN", [c!"u-un"]), (c!"c_U_in_UO2", [c!"uuo2", c!"u-uo2", c!"u-o2", c!"u/o2"]),
  (c!"c_Y_in_YH2", [c!"yyh2", c!"y-yh2"]), (c!"c_Zr_in_ZrH", [c!"zrzrh", c!"zr-zrh", c!"zr-h", c!"zr/h"])]

/-- The names in `NATURAL_ABUNDANCE`, data/data.py 13-111, in the order in which they stand there. -/
def natural : List (List Char) := [
  c!"H1", c!"H2", c!"He3", c!"He4", c!"Li6", c!"Li7", c!"Be9", c!"B10", c!"B11", c!"C12", c!"C13", c!"N14", c!"N15", c!"O16",
  c!"O17", c!"O18", c!"F19", c!"Ne20", c!"Ne21", c!"Ne22", c!"Na23", c!"Mg24", c!"Mg25", c!"Mg26", c!"Al27", c!"Si28", c!"Si29", c!"Si30",
  c!"P31", c!"S32", c!"S33", c!"S34", c!"S36", c!"Cl35", c!"Cl37", c!"Ar36", c!"Ar38", c!"Ar40", c!"K39", c!"K40", c!"K41", c!"Ca40",
  c!"Ca42", c!"Ca43", c!"Ca44", c!"Ca46", c!"Ca48", c!"Sc45", c!"Ti46", c!"Ti47", c!"Ti48", c!"Ti49", c!"Ti50", c!"V50", c!"V51", c!"Cr50",
  c!"Cr52", c!"Cr53", c!"Cr54", c!"Mn55", c!"Fe54", c!"Fe56", c!"Fe57", c!"Fe58", c!"Co59", c!"Ni58", c!"Ni60", c!"Ni61", c!"Ni62", c!"Ni64",
  c!"Cu63", c!"Cu65", c!"Zn64", c!"Zn66", c!"Zn67", c!"Zn68", c!"Zn70", c!"Ga69", c!"Ga71", c!"Ge70", c!"Ge72", c!"Ge73", c!"Ge74", c!"Ge76",
  c!"As75", c!"Se74", c!"Se76", c!"Se77", c!"Se78", c!"Se80", c!"Se82", c!"Br79", c!"Br81", c!"Kr78", c!"Kr80", c!"Kr82", c!"Kr83", c!"Kr84",
  c!"Kr86", c!"Rb85", c!"Rb87", c!"Sr84", c!"Sr86", c!"Sr87", c!"Sr88", c!"Y89", c!"Zr90", c!"Zr91", c!"Zr92", c!"Zr94", c!"Zr96", c!"Nb93",
  c!"Mo92", c!"Mo94", c!"Mo95", c!"Mo96", c!"Mo97", c!"Mo98", c!"Mo100", c!"Ru96", c!"Ru98", c!"Ru99", c!"Ru100", c!"Ru101", c!"Ru102", c!"Ru104",
  c!"Rh103", c!"Pd102", c!"Pd104", c!"Pd105", c!"Pd106", c!"Pd108", c!"Pd110", c!"Ag107", c!"Ag109", c!"Cd106", c!"Cd108", c!"Cd110", c!"Cd111", c!"Cd112",
  c!"Cd113", c!"Cd114", c!"Cd116", c!"In113", c!"In115", c!"Sn112", c!"Sn114", c!"Sn115", c!"Sn116", c!"Sn117", c!"Sn118", c!"Sn119", c!"Sn120", c!"Sn122",
  c!"Sn124", c!"Sb121", c!"Sb123", c!"Te120", c!"Te122", c!"Te123", c!"Te124", c!"Te125", c!"Te126", c!"Te128", c!"Te130", c!"I127", c!"Xe124", c!"Xe126",
  c!"Xe128", c!"Xe129", c!"Xe130", c!"Xe131", c!"Xe132", c!"Xe134", c!"Xe136", c!"Cs133", c!"Ba130", c!"Ba132", c!"Ba134", c!"Ba135", c!"Ba136", c!"Ba137",
  c!"Ba138", c!"La138", c!"La139", c!"Ce136", c!"Ce138", c!"Ce140", c!"Ce142", c!"Pr141", c!"Nd142", c!"Nd143", c!"Nd144", c!"Nd145", c!"Nd146", c!"Nd148",
  c!"Nd150", c!"Sm144", c!"Sm147", c!"Sm148", c!"Sm149", c!"Sm150", c!"Sm152", c!"Sm154", c!"Eu151", c!"Eu153", c!"Gd152", c!"Gd154", c!"Gd155", c!"Gd156",
  c!"Gd157", c!"Gd158", c!"Gd160", c!"Tb159", c!"Dy156", c!"Dy158", c!"Dy160", c!"Dy161", c!"Dy162", c!"Dy163", c!"Dy164", c!"Ho165", c!"Er162", c!"Er164",
  c!"Er166", c!"Er167", c!"Er168", c!"Er170", c!"Tm169", c!"Yb168", c!"Yb170", c!"Yb171", c!"Yb172", c!"Yb173", c!"Yb174", c!"Yb176", c!"Lu175", c!"Lu176",
  c!"Hf174", c!"Hf176", c!"Hf177", c!"Hf178", c!"Hf179", c!"Hf180", c!"Ta180", c!"Ta181", c!"W180", c!"W182", c!"W183", c!"W184", c!"W186", c!"Re185",
  c!"Re187", c!"Os184", c!"Os186", c!"Os187", c!"Os188", c!"Os189", c!"Os190", c!"Os192", c!"Ir191", c!"Ir193", c!"Pt190", c!"Pt192", c!"Pt194", c!"Pt195",
  c!"Pt196", c!"Pt198", c!"Au197", c!"Hg196", c!"Hg198", c!"Hg199", c!"Hg200", c!"Hg201", c!"Hg202", c!"Hg204", c!"Tl203", c!"Tl205", c!"Pb204", c!"Pb206",
  c!"Pb207", c!"Pb208", c!"Bi209", c!"Th230", c!"Th232", c!"Pa231", c!"U234", c!"U235", c!"U238"]

end ASAPy.Thermal
