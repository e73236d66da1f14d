import Verif.Chars
import Verif.Res.Props2
import Verif.Decay.Example

/-!
# A section of resonance parameters

Two isotopes with ranges in five formats, which meet the hypotheses of C145-C148.
-/

namespace ASAPy.Res
open ASAPy.Endf ASAPy.Decay

def exHead : Line := c!" 9.223500+4 2.330248+2          0          0          2          09999 2151    1\n"
def exIso1 : Line := c!" 9.223500+4 5.000000-1          0          0          2          09999 2151    2\n"
def exBwItems : Line := c!" 1.000000-5 1.000000+2          1          2          1          29999 2151    3\n"
def exApHead : Line := c!" 0.000000+0 0.000000+0          0          0          1          29999 2151    4\n"
def exApRegions : List Line := [c!"          2          2                                            9999 2151    5\n"]
def exApPoints : List Line := [c!" 1.000000-5 9.000000-1 1.000000+2 1.000000+0                      9999 2151    6\n"]
def exBwCont : Line := c!" 3.500000+0 9.600000-1          0          0          2          09999 2151    7\n"
def exBw0 : List Line := [c!" 2.330000+2 0.000000+0          0          0         12          29999 2151    8\n",
  c!"-1.500000+0 3.000000+0 5.000000-2 1.000000-2 4.000000-2 0.000000+09999 2151    9\n",
  c!" 2.500000-1 4.000000+0 7.000000-2 1.000000-2 4.000000-2 2.000000-29999 2151   10\n"]
def exBw1 : List Line := [c!" 2.330000+2-2.500000+0          1          1          6          19999 2151   11\n",
  c!" 7.500000+0 2.000000+0 1.000000-1 1.000000-2 4.000000-2 2.000000-29999 2151   12\n"]
def exAItems : Line := c!" 1.000000+2 2.000000+3          2          1          0          09999 2151   13\n"
def exACont : Line := c!" 3.500000+0 9.600000-1          0          0          1          09999 2151   14\n"
def exA0 : List Line := [c!" 2.330000+2 0.000000+0          0          0         12          29999 2151   15\n",
  c!" 1.250000+0 3.000000+0 1.000000+0 1.000000-3 4.000000-2 0.000000+09999 2151   16\n",
  c!" 2.500000+0 4.000000+0 1.000000+0 2.000000-3 5.000000-2 0.000000+09999 2151   17\n"]
def exIso2 : Line := c!" 9.223800+4 5.000000-1          0          1          3          09999 2151   18\n"
def exRmItems : Line := c!" 1.000000-5 1.000000+2          1          3          0          19999 2151   19\n"
def exRmCont : Line := c!" 0.000000+0 9.600000-1          0          1          2          39999 2151   20\n"
def exRm0 : List Line := [c!" 2.360000+2 0.000000+0          0          0          6          19999 2151   21\n",
  c!" 6.670000+0 5.000000-1 1.500000-3 2.300000-2 0.000000+0 0.000000+09999 2151   22\n"]
def exRm1 : List Line := [c!" 2.360000+2 7.500000-1          1          0         12          29999 2151   23\n",
  c!" 1.025000+1 1.500000+0 2.000000-6 2.300000-2 2.500000-1-1.250000-19999 2151   24\n",
  c!" 1.150000+1 5.000000-1 2.500000-4 2.300000-2 0.000000+0 0.000000+09999 2151   25\n"]
def exLItems : Line := c!" 1.000000-5 1.000000+3          1          7          0          09999 2151   26\n"
def exLCont : Line := c!" 0.000000+0 0.000000+0          0          3          2          09999 2151   27\n"
def exPairs : List Line := [c!" 0.000000+0 0.000000+0          2          0         24          49999 2151   28\n",
  c!" 0.000000+0 2.370000+2 0.000000+0 9.200000+1 1.000000+0 5.000000-19999 2151   29\n",
  c!" 0.000000+0 0.000000+0 0.000000+0 1.020000+2 0.000000+0 0.000000+09999 2151   30\n",
  c!" 1.000000+0 2.360000+2 0.000000+0 9.200000+1 5.000000-1 0.000000+09999 2151   31\n",
  c!" 0.000000+0 1.000000+0 0.000000+0 2.000000+0 0.000000+0 1.000000+09999 2151   32\n"]
def exG0 : List Line := [c!"-5.000000-1 0.000000+0          0          0         12          29999 2151   33\n",
  c!" 1.000000+0 0.000000+0 5.000000-1 0.000000+0 0.000000+0 0.000000+09999 2151   34\n",
  c!" 2.000000+0 1.000000+0 5.000000-1 0.000000+0 7.500000-1 5.000000-19999 2151   35\n"]
def exG0r : List Line := [c!" 0.000000+0 0.000000+0          0          2         12          29999 2151   36\n",
  c!" 6.500000+0 2.000000-2 1.000000-3 0.000000+0 0.000000+0 0.000000+09999 2151   37\n",
  c!" 2.050000+1 3.000000-2 2.000000-3 0.000000+0 0.000000+0 0.000000+09999 2151   38\n"]
def exG1 : List Line := [c!" 0.000000+0 1.000000+0          0          0         36          69999 2151   39\n",
  c!" 2.000000+0 0.000000+0 0.000000+0 0.000000+0 7.500000-1 5.000000-19999 2151   40\n",
  c!" 2.000000+0 0.000000+0 0.000000+0 0.000000+0 7.500000-1 5.000000-19999 2151   41\n",
  c!" 2.000000+0 0.000000+0 0.000000+0 0.000000+0 7.500000-1 5.000000-19999 2151   42\n",
  c!" 2.000000+0 0.000000+0 0.000000+0 0.000000+0 7.500000-1 5.000000-19999 2151   43\n",
  c!" 2.000000+0 0.000000+0 0.000000+0 0.000000+0 7.500000-1 5.000000-19999 2151   44\n",
  c!" 2.000000+0 0.000000+0 0.000000+0 0.000000+0 7.500000-1 5.000000-19999 2151   45\n"]
def exG1r : List Line := [c!" 0.000000+0 0.000000+0          0          1         12          29999 2151   46\n",
  c!" 6.600000+1 1.000000+0 2.000000+0 3.000000+0 4.000000+0 5.000000+09999 2151   47\n",
  c!" 6.000000+0 0.000000+0 0.000000+0 0.000000+0 0.000000+0 0.000000+09999 2151   48\n"]
def exCItems : Line := c!" 1.000000+3 2.000000+3          2          2          0          09999 2151   49\n"
def exCCont : Line := c!" 0.000000+0 9.600000-1          1          0          1          09999 2151   50\n"
def exC0 : Line := c!" 2.360000+2 0.000000+0          0          0          2          09999 2151   51\n"
def exC0a : List Line := [c!" 5.000000-1 0.000000+0          2          0         18          29999 2151   52\n",
  c!" 0.000000+0 0.000000+0 0.000000+0 1.000000+0 0.000000+0 1.000000+09999 2151   53\n",
  c!" 1.000000+3 2.000000+1 0.000000+0 2.000000-3 2.300000-2 0.000000+09999 2151   54\n",
  c!" 2.000000+3 1.900000+1 0.000000+0 2.500000-3 2.300000-2 5.000000-19999 2151   55\n"]
def exC0b : List Line := [c!" 1.500000+0 0.000000+0          2          0         12          19999 2151   56\n",
  c!" 0.000000+0 0.000000+0 0.000000+0 1.000000+0 0.000000+0 1.000000+09999 2151   57\n",
  c!" 1.500000+3 1.000000+1 0.000000+0 1.000000-3 2.300000-2 0.000000+09999 2151   58\n"]
def exBHead : List Line := [c!" 3.500000+0 9.600000-1          0          0          3          29999 2151   59\n",
  c!" 1.000000+3 2.000000+3 3.000000+3                                 9999 2151   60\n"]
def exB0 : Line := c!" 2.330000+2 0.000000+0          0          0          2          09999 2151   61\n"
def exB0a : List Line := [c!" 0.000000+0 0.000000+0          0          1          9          09999 2151   62\n",
  c!" 1.250000+0 3.000000+0 1.000000+0 1.000000-3 4.000000-2 0.000000+09999 2151   63\n",
  c!" 2.500000-1 5.000000-1 7.500000-1                                 9999 2151   64\n"]
def exB0b : List Line := [c!" 0.000000+0 0.000000+0          0          1          9          09999 2151   65\n",
  c!" 2.500000+0 4.000000+0 1.000000+0 2.000000-3 4.000000-2 0.000000+09999 2151   66\n",
  c!" 1.250000-1 3.750000-1 6.250000-1                                 9999 2151   67\n"]
def exB1 : Line := c!" 2.330000+2 0.000000+0          1          0          1          09999 2151   68\n"
def exB1a : List Line := [c!" 0.000000+0 0.000000+0          1          1          9          09999 2151   69\n",
  c!" 3.500000+0 2.000000+0 1.000000+0 3.000000-3 4.000000-2 0.000000+09999 2151   70\n",
  c!" 1.500000+0 2.500000+0 3.500000+0                                 9999 2151   71\n"]

theorem exA_ok : RangeRec 233 false (.unr ⟨7 / 2, 100, 2000, .const (24 / 25), none, .a [⟨0, 3, 5 / 4, 1, 1 / 1000, 1 / 25, 0⟩, ⟨0, 4, 5 / 2, 1, 1 / 500, 1 / 20, 0⟩], true⟩)
    (exAItems :: ([] ++ (exACont :: [exA0].flatten))) :=
  ⟨exAItems, ⟨100, 2000, 2, 1, 0, 0⟩, _, rfl, contLine_of (by decide +kernel), .unrA rfl rfl ⟨[], none, exACont, ⟨7 / 2, 24 / 25, 0, 0, 1, 0⟩,
    [[⟨0, 3, 5 / 4, 1, 1 / 1000, 1 / 25, 0⟩, ⟨0, 4, 5 / 2, 1, 1 / 500, 1 / 20, 0⟩]], [exA0], rfl, .none, contLine_of (by decide +kernel), rfl,
    ⟨rfl, rfl, rfl, by simp, Or.inl ⟨rfl, rfl, rfl⟩⟩, .cons ⟨⟨233, 0, 0, 0, 12, 2⟩, [[5 / 4, 3, 1, 1 / 1000, 1 / 25, 0], [5 / 2, 4, 1, 1 / 500, 1 / 20, 0]],
      listRec_of (by decide +kernel), rfl, .cons ⟨rfl, rfl, 0, rfl⟩ (.cons ⟨rfl, rfl, 0, rfl⟩ .nil)⟩ .nil, rfl, rfl⟩⟩

def exTable : Radius := .table [(2, 2)] [(1 / 100000, 9 / 10), (100, 1)]

def exBwL0 : BwL := ⟨0, 0, .const (24 / 25), exTable, [⟨-3 / 2, 0, 3, 1 / 20, 1 / 100, 1 / 25, 0, 0⟩, ⟨1 / 4, 0, 4, 7 / 100, 1 / 100, 1 / 25, 1 / 50, 0⟩]⟩
def exBwL1 : BwL := ⟨1, -5 / 2, .const (24 / 25), exTable, [⟨15 / 2, 1, 2, 1 / 10, 1 / 100, 1 / 25, 1 / 50, 3 / 100⟩]⟩

def exBw : Bw := ⟨true, ⟨7 / 2, 1 / 100000, 100, [(0, .const (24 / 25)), (1, .const (24 / 25))], [(0, exTable), (1, exTable)]⟩, [(0, 0), (1, -5 / 2)], 233,
  [⟨-3 / 2, 0, 3, 1 / 20, 1 / 100, 1 / 25, 0, 0⟩, ⟨1 / 4, 0, 4, 7 / 100, 1 / 100, 1 / 25, 1 / 50, 0⟩, ⟨15 / 2, 1, 2, 1 / 10, 1 / 100, 1 / 25, 1 / 50, 3 / 100⟩]⟩

/-- A Breit-Wigner range with a radius that depends on energy and a competitive width for l = 1. -/
theorem exBw_ok : BwRec ⟨1 / 100000, 100, 1, 2, 1, 2⟩ exBw ((exApHead :: (exApRegions ++ exApPoints)) ++ (exBwCont :: [exBw0, exBw1].flatten)) :=
  ⟨_, some exTable, exBwCont, ⟨7 / 2, 24 / 25, 0, 0, 2, 0⟩, [exBwL0, exBwL1], [exBw0, exBw1], rfl,
    .table (c := ⟨0, 0, 0, 0, 1, 2⟩) ⟨exApHead, exApRegions, exApPoints, rfl, contLine_of (by decide +kernel), rfl, rfl, pairLines_of (by decide +kernel), pairLines_of (by decide +kernel)⟩,
    contLine_of (by decide +kernel), rfl, by simp, by decide,
    .cons ⟨⟨233, 0, 0, 0, 12, 2⟩, listRec_of (by decide +kernel), rfl, rfl, rfl, Or.inl ⟨rfl, by simp [exBwL0]⟩, by simp [exBwL0], .constTable⟩
      (.cons ⟨⟨233, -5 / 2, 1, 1, 6, 1⟩, listRec_of (by decide +kernel), rfl, rfl, rfl, Or.inr ⟨rfl, by norm_num [exBwL1]⟩, by simp [exBwL1], .constTable⟩ .nil),
    rfl, rfl, rfl⟩

theorem exBwRange_ok : RangeRec 233 false (.bw exBw) (exBwItems :: ((exApHead :: (exApRegions ++ exApPoints)) ++ (exBwCont :: [exBw0, exBw1].flatten))) :=
  ⟨exBwItems, ⟨1 / 100000, 100, 1, 2, 1, 2⟩, _, rfl, contLine_of (by decide +kernel), .mlbw rfl rfl rfl exBw_ok⟩

def exRm : Rm := ⟨⟨0, 1 / 100000, 100, [(0, .const (24 / 25)), (1, .const (3 / 4))], [(0, .const (24 / 25)), (1, .const (3 / 4))]⟩,
  [⟨667 / 100, 0, 1 / 2, 3 / 2000, 23 / 1000, 0, 0⟩, ⟨41 / 4, 1, 3 / 2, 1 / 500000, 23 / 1000, 1 / 4, -1 / 8⟩, ⟨23 / 2, 1, 1 / 2, 1 / 4000, 23 / 1000, 0, 0⟩], true, 3, 236⟩

/-- A Reich-Moore range with a radius of its own for l = 1. -/
theorem exRm_ok : RmRec ⟨1 / 100000, 100, 1, 3, 0, 1⟩ exRm ([] ++ (exRmCont :: [exRm0, exRm1].flatten)) :=
  ⟨[], none, exRmCont, ⟨0, 24 / 25, 0, 1, 2, 3⟩, [⟨0, .const (24 / 25), .const (24 / 25), [⟨667 / 100, 0, 1 / 2, 3 / 2000, 23 / 1000, 0, 0⟩]⟩,
      ⟨1, .const (3 / 4), .const (3 / 4), [⟨41 / 4, 1, 3 / 2, 1 / 500000, 23 / 1000, 1 / 4, -1 / 8⟩, ⟨23 / 2, 1, 1 / 2, 1 / 4000, 23 / 1000, 0, 0⟩]⟩], [exRm0, exRm1], rfl,
    .none, contLine_of (by decide +kernel), rfl, by simp, by decide,
    .cons ⟨⟨236, 0, 0, 0, 6, 1⟩, 24 / 25, listRec_of (by decide +kernel), rfl, rfl, by simp, Or.inl ⟨rfl, rfl⟩, .const⟩
      (.cons ⟨⟨236, 3 / 4, 1, 0, 12, 2⟩, 3 / 4, listRec_of (by decide +kernel), rfl, rfl, by simp, Or.inr ⟨by norm_num, rfl⟩, .const⟩ .nil),
    rfl, rfl, by simp [exRm], rfl⟩

theorem exRmRange_ok : RangeRec 233 true (.rm exRm) (exRmItems :: ([] ++ (exRmCont :: [exRm0, exRm1].flatten))) :=
  ⟨exRmItems, ⟨1 / 100000, 100, 1, 3, 0, 1⟩, _, rfl, contLine_of (by decide +kernel), .rm rfl rfl exRm_ok⟩

def exP1 : Pair := ⟨⟨0, 0, 1, 0⟩, ⟨237, 92, 1 / 2, 0⟩, 0, 0, 0, 102⟩
def exP2 : Pair := ⟨⟨1, 0, 1 / 2, 0⟩, ⟨236, 92, 0, 1⟩, 0, 1, 0, 2⟩
def exCh : Channel := ⟨exP2, 0, 0, 0, 3 / 4, 1 / 2⟩
def exGr0 : Group := ⟨1 / 2, false, [⟨exP1, 0, 1 / 2, 0, 0, 0⟩, ⟨exP2, 1, 1 / 2, 0, 3 / 4, 1 / 2⟩], [.capture, .neutron], [[13 / 2, 1 / 50, 1 / 1000], [41 / 2, 3 / 100, 1 / 500]]⟩
def exGr1 : Group := ⟨0, true, [exCh, exCh, exCh, exCh, exCh, exCh], [.neutron, .neutron, .neutron, .neutron, .neutron, .neutron], [[66, 1, 2, 3, 4, 5, 6]]⟩
def exRml : Rml := ⟨1 / 100000, 1000, false, 3, [exP1, exP2], [exGr0, exGr1]⟩

theorem exGr0_body : GroupBody [exP1, exP2] exGr0 ⟨-1 / 2, 0, 0, 0, 12, 2⟩ exG0 exG0r :=
  ⟨⟨0, 0, 0, 2, 12, 2⟩, [[1, 0, 1 / 2, 0, 0, 0], [2, 1, 1 / 2, 0, 3 / 4, 1 / 2]], [[13 / 2, 1 / 50, 1 / 1000, 0, 0, 0], [41 / 2, 3 / 100, 1 / 500, 0, 0, 0]], [],
    listRec_of (by decide +kernel), rfl, .cons ⟨0, rfl, by norm_num⟩ (.cons ⟨1, rfl, by norm_num⟩ .nil), by norm_num [exGr0],
    Or.inl ⟨by norm_num, by norm_num [exGr0]⟩, .cons .capture (.cons .elastic .nil), listRec_of (by decide +kernel), rfl,
    .cons ⟨rfl, [0, 0, 0], rfl, by decide, by decide⟩ (.cons ⟨rfl, [0, 0, 0], rfl, by decide, by decide⟩ .nil), fun _ => rfl⟩

theorem exGr0_ok : GroupRec [exP1, exP2] exGr0 (exG0 ++ exG0r) := ⟨_, exG0, exG0r, [], [], by simp, exGr0_body, .none, .none⟩

/-- Six channels: the widths of a resonance fill two lines. -/
theorem exGr1_ok : GroupRec [exP1, exP2] exGr1 (exG1 ++ exG1r) := by
  have hc : ChannelValues [exP1, exP2] exCh [2, 0, 0, 0, 3 / 4, 1 / 2] := ⟨1, rfl, by norm_num [exCh]⟩
  exact ⟨⟨0, 1, 0, 0, 36, 6⟩, exG1, exG1r, [], [], by simp, ⟨⟨0, 0, 0, 1, 12, 2⟩, List.replicate 6 [2, 0, 0, 0, 3 / 4, 1 / 2], [[66, 1, 2, 3, 4, 5, 6, 0, 0, 0, 0, 0]], [],
    listRec_of (by decide +kernel), rfl, .cons hc (.cons hc (.cons hc (.cons hc (.cons hc (.cons hc .nil))))), by norm_num [exGr1],
    Or.inr ⟨by norm_num, by norm_num [exGr1], by norm_num [exGr1]⟩,
    .cons .elastic (.cons .elastic (.cons .elastic (.cons .elastic (.cons .elastic (.cons .elastic .nil))))), listRec_of (by decide +kernel), rfl,
    .cons ⟨rfl, [0, 0, 0, 0, 0], rfl, by decide, by decide⟩ .nil, fun _ => rfl⟩, .none, .none⟩

/-- Two particle pairs and two spin groups. -/
theorem exRml_ok : RmlRec ⟨1 / 100000, 1000, 1, 7, 0, 0⟩ exRml (exLCont :: (exPairs ++ [exG0 ++ exG0r, exG1 ++ exG1r].flatten)) :=
  ⟨exLCont, ⟨0, 0, 0, 3, 2, 0⟩, ⟨0, 0, 2, 0, 24, 4⟩, exPairs, _, rfl, contLine_of (by decide +kernel), by simp [exRml], rfl, rfl,
    listRec_of (by decide +kernel), rfl, .cons exGr0_ok (.cons exGr1_ok .nil), rfl, rfl⟩

theorem exRmlRange_ok : RangeRec 233 true (.rml exRml) (exLItems :: (exLCont :: (exPairs ++ [exG0 ++ exG0r, exG1 ++ exG1r].flatten))) :=
  ⟨exLItems, ⟨1 / 100000, 1000, 1, 7, 0, 0⟩, _, rfl, contLine_of (by decide +kernel), .rml rfl rfl exRml_ok⟩

def exUnrC : Unr := ⟨0, 1000, 2000, .const (24 / 25), none, .c [⟨0, 1 / 2, 1000, 20, 0, 1 / 500, 23 / 1000, 0⟩, ⟨0, 1 / 2, 2000, 19, 0, 1 / 400, 23 / 1000, 1 / 2⟩,
  ⟨0, 3 / 2, 1500, 10, 0, 1 / 1000, 23 / 1000, 0⟩], false⟩

/-- An unresolved range with two J and energies of their own. -/
theorem exUnrC_ok : UnrC ⟨1000, 2000, 2, 2, 0, 0⟩ exUnrC ([] ++ (exCCont :: [exC0 :: [exC0a, exC0b].flatten].flatten)) :=
  ⟨[], none, exCCont, ⟨0, 24 / 25, 1, 0, 1, 0⟩, [[⟨0, 1 / 2, 1000, 20, 0, 1 / 500, 23 / 1000, 0⟩, ⟨0, 1 / 2, 2000, 19, 0, 1 / 400, 23 / 1000, 1 / 2⟩,
      ⟨0, 3 / 2, 1500, 10, 0, 1 / 1000, 23 / 1000, 0⟩]], _, rfl, .none, contLine_of (by decide +kernel), rfl, ⟨rfl, rfl, rfl, by simp [exUnrC], Or.inl ⟨rfl, rfl, rfl⟩⟩,
    .cons ⟨exC0, ⟨236, 0, 0, 0, 2, 0⟩, [[⟨0, 1 / 2, 1000, 20, 0, 1 / 500, 23 / 1000, 0⟩, ⟨0, 1 / 2, 2000, 19, 0, 1 / 400, 23 / 1000, 1 / 2⟩],
      [⟨0, 3 / 2, 1500, 10, 0, 1 / 1000, 23 / 1000, 0⟩]], [exC0a, exC0b], rfl, contLine_of (by decide +kernel), rfl,
      .cons ⟨⟨1 / 2, 0, 2, 0, 18, 2⟩, [0, 0, 0, 1, 0, 1], listRec_of (by decide +kernel), rfl, rfl, by simp⟩
        (.cons ⟨⟨3 / 2, 0, 2, 0, 12, 1⟩, [0, 0, 0, 1, 0, 1], listRec_of (by decide +kernel), rfl, rfl, by simp⟩ .nil), rfl⟩ .nil, rfl, rfl⟩

theorem exUnrCRange_ok : RangeRec 233 true (.unr exUnrC) (exCItems :: ([] ++ (exCCont :: [exC0 :: [exC0a, exC0b].flatten].flatten))) :=
  ⟨exCItems, ⟨1000, 2000, 2, 2, 0, 0⟩, _, rfl, contLine_of (by decide +kernel), .unrC rfl rfl exUnrC_ok⟩

/-- The hypotheses of `C146_fission_partial` and `C146_fission_refuted` are met: three energies and two l. -/
example : ∃ r es ps ls, UnrB ⟨1000, 3000, 2, 1, 0, 0⟩ r es ps ls ∧ 2 ≤ es.length ∧ ps ≠ [] ∧ (ps.map (·.l)) = [0, 0, 1] :=
  ⟨⟨7 / 2, 1000, 3000, .const (24 / 25), some [1000, 2000, 3000], .b [], true⟩, [1000, 2000, 3000],
    [⟨0, 3, 5 / 4, 1, 1 / 1000, 1 / 25, [1 / 4, 1 / 2, 3 / 4]⟩, ⟨0, 4, 5 / 2, 1, 1 / 500, 1 / 25, [1 / 8, 3 / 8, 5 / 8]⟩, ⟨1, 2, 7 / 2, 1, 3 / 1000, 1 / 25, [3 / 2, 5 / 2, 7 / 2]⟩],
    [] ++ (exBHead ++ [exB0 :: [exB0a, exB0b].flatten, exB1 :: [exB1a].flatten].flatten),
    ⟨[], none, ⟨7 / 2, 24 / 25, 0, 0, 3, 2⟩, exBHead, [[⟨0, 3, 5 / 4, 1, 1 / 1000, 1 / 25, [1 / 4, 1 / 2, 3 / 4]⟩, ⟨0, 4, 5 / 2, 1, 1 / 500, 1 / 25, [1 / 8, 3 / 8, 5 / 8]⟩],
      [⟨1, 2, 7 / 2, 1, 3 / 1000, 1 / 25, [3 / 2, 5 / 2, 7 / 2]⟩]], _, rfl, .none, listRec_of (by decide +kernel), rfl, ⟨rfl, rfl, rfl, by simp, Or.inl ⟨rfl, rfl, rfl⟩⟩,
      .cons ⟨exB0, ⟨233, 0, 0, 0, 2, 0⟩, _, rfl, contLine_of (by decide +kernel), rfl, .cons ⟨⟨0, 0, 0, 1, 9, 0⟩, 0, listRec_of (by decide +kernel), rfl, rfl⟩
        (.cons ⟨⟨0, 0, 0, 1, 9, 0⟩, 0, listRec_of (by decide +kernel), rfl, rfl⟩ .nil)⟩
      (.cons ⟨exB1, ⟨233, 0, 1, 0, 1, 0⟩, _, rfl, contLine_of (by decide +kernel), rfl, .cons ⟨⟨0, 0, 1, 1, 9, 0⟩, 0, listRec_of (by decide +kernel), rfl, rfl⟩ .nil⟩ .nil),
      rfl, rfl⟩, by decide, by simp, rfl⟩

/-- The hypothesis of `C148_section_partial` is met: two isotopes with five ranges. -/
theorem exSection_ok : ∃ (isos : List (List Range)) (ls : List Line), SectionRec 233 isos ls ∧ isos.map List.length = [2, 3] ∧ Range.bw exBw ∈ isos.flatten :=
  ⟨[[.bw exBw, _], [.rm exRm, .rml exRml, .unr exUnrC]], _, ⟨exHead, ⟨92235, 2330248 / 10000, 0, 0, 2, 0⟩, _, [], rfl, headLine_of (by decide +kernel) (by decide), rfl,
    .cons ⟨exIso1, ⟨92235, 1 / 2, 0, 0, 2, 0⟩, false, _, rfl, contLine_of (by decide +kernel), rfl, rfl, .cons exBwRange_ok (.cons exA_ok .nil)⟩
      (.cons ⟨exIso2, ⟨92238, 1 / 2, 0, 1, 3, 0⟩, true, _, rfl, contLine_of (by decide +kernel), rfl, rfl,
        .cons exRmRange_ok (.cons exRmlRange_ok (.cons exUnrCRange_ok .nil))⟩ .nil)⟩, rfl, List.mem_cons_self ..⟩

/-- The hypotheses of `C148_flag_refuted` are met by two ranges, the second with the flag 3. -/
example : ∃ (items : Cont) (l : Line), ContLine items l ∧ items.l1 ≠ 0 ∧ items.l1 ≠ 1 ∧ items.l1 ≠ 2 :=
  ⟨⟨100, 2000, 3, 1, 0, 0⟩, c!" 1.000000+2 2.000000+3          3          1          0          09999 2151   72\n", contLine_of (by decide +kernel), by decide, by decide, by decide⟩

/-- `resolved` and `unresolved` of this section. -/
example : unresolved [.bw exBw, .unr exUnrC] = some (.unr exUnrC) ∧ resolved [.bw exBw, .unr exUnrC] = .ok (some (.bw exBw)) ∧
    resolved [.bw exBw, .rm exRm] = .error .valueError := ⟨rfl, rfl, rfl⟩

/-- The first record of the group above with KBK = 1 and with KBK = 2. -/
def exG0k : List Line := [c!"-5.000000-1 0.000000+0          1          0         12          29999 2151   33\n",
  c!" 1.000000+0 0.000000+0 5.000000-1 0.000000+0 0.000000+0 0.000000+09999 2151   34\n",
  c!" 2.000000+0 1.000000+0 5.000000-1 0.000000+0 7.500000-1 5.000000-19999 2151   35\n"]
def exG0kk : List Line := [c!"-5.000000-1 0.000000+0          2          0         12          29999 2151   33\n",
  c!" 1.000000+0 0.000000+0 5.000000-1 0.000000+0 0.000000+0 0.000000+09999 2151   34\n",
  c!" 2.000000+0 1.000000+0 5.000000-1 0.000000+0 7.500000-1 5.000000-19999 2151   35\n"]
/-- A background given by parameters, LBK = 2, and one given by tables, LBK = 1. -/
def exBk : List Line := [c!" 1.000000-5 1.000000+3          0          0          2          19999 2151   39\n",
  c!" 1.000000-2 2.000000-2 0.000000+0 0.000000+0 0.000000+0 0.000000+09999 2151   40\n"]
def exBkList : List Line := [c!" 1.000000-5 1.000000+3          0          0          1          19999 2151   39\n",
  c!" 0.000000+0 0.000000+0 0.000000+0 0.000000+0 0.000000+0 0.000000+09999 2151   40\n"]

theorem exBk_ok : ExtRec 1 exBk := .parameters (c := ⟨1 / 100000, 1000, 0, 0, 2, 1⟩) (vs := [1 / 100, 1 / 50]) (listRec_of (by decide +kernel)) (by decide)

theorem exBkTables_ok : ExtRec 1 (exBkList ++ ((exApHead :: (exApRegions ++ exApPoints)) ++ (exApHead :: (exApRegions ++ exApPoints)))) := by
  have ht : ∃ c r p, Tab1Rec c r p (exApHead :: (exApRegions ++ exApPoints)) :=
    ⟨⟨0, 0, 0, 0, 1, 2⟩, [(2, 2)], [(1 / 100000, 9 / 10), (100, 1)], exApHead, exApRegions, exApPoints, rfl, contLine_of (by decide +kernel), rfl, rfl, pairLines_of (by decide +kernel),
      pairLines_of (by decide +kernel)⟩
  obtain ⟨c, r, p, ht⟩ := ht
  exact .tables (c := ⟨1 / 100000, 1000, 0, 0, 1, 1⟩) (vs := [0]) (listRec_of (by decide +kernel)) rfl ht ht

theorem exGr0k_body : GroupBody [exP1, exP2] exGr0 ⟨-1 / 2, 0, 1, 0, 12, 2⟩ exG0k exG0r :=
  ⟨⟨0, 0, 0, 2, 12, 2⟩, [[1, 0, 1 / 2, 0, 0, 0], [2, 1, 1 / 2, 0, 3 / 4, 1 / 2]], [[13 / 2, 1 / 50, 1 / 1000, 0, 0, 0], [41 / 2, 3 / 100, 1 / 500, 0, 0, 0]], [],
    listRec_of (by decide +kernel), rfl, .cons ⟨0, rfl, by norm_num⟩ (.cons ⟨1, rfl, by norm_num⟩ .nil), by norm_num [exGr0],
    Or.inl ⟨by norm_num, by norm_num [exGr0]⟩, .cons .capture (.cons .elastic .nil), listRec_of (by decide +kernel), rfl,
    .cons ⟨rfl, [0, 0, 0], rfl, by decide, by decide⟩ (.cons ⟨rfl, [0, 0, 0], rfl, by decide, by decide⟩ .nil), fun _ => rfl⟩

theorem exGr0kk_body : GroupBody [exP1, exP2] exGr0 ⟨-1 / 2, 0, 2, 0, 12, 2⟩ exG0kk exG0r :=
  ⟨⟨0, 0, 0, 2, 12, 2⟩, [[1, 0, 1 / 2, 0, 0, 0], [2, 1, 1 / 2, 0, 3 / 4, 1 / 2]], [[13 / 2, 1 / 50, 1 / 1000, 0, 0, 0], [41 / 2, 3 / 100, 1 / 500, 0, 0, 0]], [],
    listRec_of (by decide +kernel), rfl, .cons ⟨0, rfl, by norm_num⟩ (.cons ⟨1, rfl, by norm_num⟩ .nil), by norm_num [exGr0],
    Or.inl ⟨by norm_num, by norm_num [exGr0]⟩, .cons .capture (.cons .elastic .nil), listRec_of (by decide +kernel), rfl,
    .cons ⟨rfl, [0, 0, 0], rfl, by decide, by decide⟩ (.cons ⟨rfl, [0, 0, 0], rfl, by decide, by decide⟩ .nil), fun _ => rfl⟩

/-- A group with the background of one channel, as tables. -/
example : GroupRec [exP1, exP2] exGr0 (exG0k ++ (exG0r ++ ((exBkList ++ ((exApHead :: (exApRegions ++ exApPoints)) ++ (exApHead :: (exApRegions ++ exApPoints)))) ++ []))) :=
  ⟨_, exG0k, exG0r, _, [], rfl, exGr0k_body, exBkTables_ok, .none⟩

/-- With the background of two channels the second one is left for the next group. -/
example (rest : List Line) : readGroup [exP1, exP2] (exG0kk ++ (exG0r ++ (exBk ++ (exBk ++ rest)))) = .ok (exGr0, exBk ++ rest) :=
  C147_background_refuted exGr0kk_body (by decide) rfl exBk_ok

end ASAPy.Res
