import Verif.EndfRx.Spec
import Verif.Decay.Example

/-!
# Concrete sections for the theorems about reactions
-/

namespace ASAPy.EndfRx
open ASAPy.Endf
open ASAPy.Decay (listRec_of)
open ASAPy.Func (Fn)

def chkTab (c : Cont) (t : Tab1D ℚ) : List Line → Bool
  | [] => false
  | l :: rows => chkCont c l && decide (c.n1 = t.breakpoints.length) && decide (c.n2 = t.x.length) && decide (t.x.length = t.y.length) &&
      decide (t.breakpoints.length = t.interpolation.length) &&
      chkPairLines pyInt pyInt (t.breakpoints.zip (t.interpolation.map fun n : Nat => (n : Int))) (rows.take ((t.breakpoints.length + 2) / 3)) &&
      chkPairLines floatEndf floatEndf (t.x.zip t.y) (rows.drop ((t.breakpoints.length + 2) / 3))

theorem tabRec_of {c : Cont} {t : Tab1D ℚ} {ls : List Line} (h : chkTab c t ls = true) : TabRec c t ls := by
  cases ls with
  | nil => cases h
  | cons l rows =>
    simp only [chkTab, Bool.and_eq_true, decide_eq_true_eq] at h
    obtain ⟨⟨⟨⟨⟨⟨h1, h2⟩, h3⟩, h4⟩, h5⟩, h6⟩, h7⟩ := h
    refine ⟨_, _, ⟨l, _, _, by rw [List.take_append_drop], contLine_of h1, ?_, ?_, pairLines_of h6, pairLines_of h7⟩, ?_, ?_, ?_, ?_⟩
    · simp [h2, ← h5]
    · simp [h3, ← h4]
    · rw [List.map_fst_zip (by omega)]
    · rw [List.map_snd_zip (by omega)]
    · rw [List.map_fst_zip (by simp; omega)]
    · rw [List.map_snd_zip (by simp; omega)]

def chkTab2 (c : Cont) (regions : List (Int × Int)) : List Line → Bool
  | [] => false
  | l :: rows => chkCont c l && decide (c.n1 = regions.length) && chkPairLines pyInt pyInt regions rows

theorem tab2_of {c : Cont} {regions : List (Int × Int)} {ls : List Line} (h : chkTab2 c regions ls = true) : Tab2Rec c regions ls := by
  cases ls with
  | nil => cases h
  | cons l rows =>
    simp only [chkTab2, Bool.and_eq_true, decide_eq_true_eq] at h
    exact ⟨l, rows, rfl, contLine_of h.1.1, h.1.2, pairLines_of h.2⟩

def exAHead : Line := c!" 9.223500+4 2.330248+2          1          3          0          09999 4 51    1\n"
def exACont : Line := c!" 0.000000+0 2.330248+2          0          2          9          29999 4 51    2\n"
def exAMatrix : List Line := [c!" 1.000000+0 0.000000+0 0.000000+0 0.000000+0 1.000000+0 0.000000+09999 4 51    3\n",
  c!" 0.000000+0 0.000000+0 1.000000+0                                 9999 4 51    4\n"]
def exALeg : List Line := [c!" 0.000000+0 0.000000+0          0          0          1          29999 4 51    5\n",
  c!"          2          2                                            9999 4 51    6\n"]
def exALeg0 : List Line := [c!" 0.000000+0 1.000000-5          0          0          2          09999 4 51    7\n",
  c!" 2.500000-1 1.250000-1                                            9999 4 51    8\n"]
def exALeg1 : List Line := [c!" 0.000000+0 1.000000+2          0          0          7          09999 4 51    9\n",
  c!" 5.000000-1 2.500000-1 1.250000-1 6.250000-2 0.000000+0 0.000000+09999 4 51   10\n",
  c!" 3.125000-2                                                       9999 4 51   11\n"]
def exATab : List Line := [c!" 0.000000+0 0.000000+0          0          0          1          19999 4 51   12\n",
  c!"          1          2                                            9999 4 51   13\n"]
def exATab0 : List Line := [c!" 0.000000+0 1.000000+3          0          0          1          39999 4 51   14\n",
  c!"          3          2                                            9999 4 51   15\n",
  c!"-1.000000+0 2.500000-1 0.000000+0 5.000000-1 1.000000+0 7.500000-19999 4 51   16\n"]
def exALeg' : List Line := [c!" 0.000000+0 0.000000+0          0          0          2          29999 4 51   17\n",
  c!"          1          1          2          5                      9999 4 51   18\n"]
def exAHead1 : Line := c!" 9.223500+4 2.330248+2          0          1          0          09999 4 51   19\n"
def exACont1 : Line := c!" 0.000000+0 2.330248+2          0          1          0          09999 4 51   20\n"
def exAHead0 : Line := c!" 9.223500+4 2.330248+2          0          0          0          09999 4 51   21\n"
def exACont0 : Line := c!" 0.000000+0 2.330248+2          1          2          0          09999 4 51   22\n"
def exEHead : Line := c!" 9.223500+4 2.330248+2          0          0          6          09999 5 18    1\n"
def exE1p : List Line := [c!" 0.000000+0 0.000000+0          0          1          1          29999 5 18    2\n",
  c!"          2          2                                            9999 5 18    3\n",
  c!" 1.000000-5 5.000000-1 2.000000+7 5.000000-1                      9999 5 18    4\n"]
def exE1 : List Line := [c!" 0.000000+0 0.000000+0          0          0          1          29999 5 18    5\n",
  c!"          2          2                                            9999 5 18    6\n"]
def exE1a : List Line := [c!" 0.000000+0 1.000000-5          0          0          1          39999 5 18    7\n",
  c!"          3          2                                            9999 5 18    8\n",
  c!" 0.000000+0 0.000000+0 1.000000+6 1.000000-6 2.000000+6 0.000000+09999 5 18    9\n"]
def exE1b : List Line := [c!" 0.000000+0 2.000000+7          0          0          2          39999 5 18   10\n",
  c!"          2          1          3          2                      9999 5 18   11\n",
  c!" 0.000000+0 0.000000+0 2.000000+6 5.000000-7 4.000000+6 0.000000+09999 5 18   12\n"]
def exE5p : List Line := [c!" 1.000000+3 0.000000+0          0          5          1          29999 5 18   13\n",
  c!"          2          2                                            9999 5 18   14\n",
  c!" 1.000000-5 1.250000-1 2.000000+7 1.250000-1                      9999 5 18   15\n"]
def exE5a : List Line := [c!" 0.000000+0 0.000000+0          0          0          1          29999 5 18   16\n",
  c!"          2          2                                            9999 5 18   17\n",
  c!" 1.000000-5 1.000000+6 2.000000+7 1.500000+6                      9999 5 18   18\n"]
def exE5b : List Line := [c!" 0.000000+0 0.000000+0          0          0          1          29999 5 18   19\n",
  c!"          2          2                                            9999 5 18   20\n",
  c!" 0.000000+0 1.000000+0 1.000000+0 0.000000+0                      9999 5 18   21\n"]
def exE7p : List Line := [c!"-2.000000+7 0.000000+0          0          7          1          29999 5 18   22\n",
  c!"          2          2                                            9999 5 18   23\n",
  c!" 1.000000-5 1.250000-1 2.000000+7 0.000000+0                      9999 5 18   24\n"]
def exE7 : List Line := [c!" 0.000000+0 0.000000+0          0          0          1          29999 5 18   25\n",
  c!"          2          2                                            9999 5 18   26\n",
  c!" 1.000000-5 1.250000+6 2.000000+7 1.500000+6                      9999 5 18   27\n"]
def exE9p : List Line := [c!" 3.000000+3 0.000000+0          0          9          1          29999 5 18   28\n",
  c!"          2          2                                            9999 5 18   29\n",
  c!" 1.000000-5 0.000000+0 2.000000+7 1.250000-1                      9999 5 18   30\n"]
def exE9 : List Line := [c!" 0.000000+0 0.000000+0          0          0          1          29999 5 18   31\n",
  c!"          2          2                                            9999 5 18   32\n",
  c!" 1.000000-5 4.000000+5 2.000000+7 5.000000+5                      9999 5 18   33\n"]
def exE11p : List Line := [c!"-2.000000+7 0.000000+0          0         11          1          29999 5 18   34\n",
  c!"          2          2                                            9999 5 18   35\n",
  c!" 1.000000-5 1.250000-1 2.000000+7 1.250000-1                      9999 5 18   36\n"]
def exE11a : List Line := [c!" 0.000000+0 0.000000+0          0          0          1          29999 5 18   37\n",
  c!"          2          2                                            9999 5 18   38\n",
  c!" 1.000000-5 9.000000+5 2.000000+7 9.500000+5                      9999 5 18   39\n"]
def exE11b : List Line := [c!" 0.000000+0 0.000000+0          0          0          1          29999 5 18   40\n",
  c!"          2          2                                            9999 5 18   41\n",
  c!" 1.000000-5 2.500000-6 2.000000+7 3.000000-6                      9999 5 18   42\n"]
def exE12p : List Line := [c!" 0.000000+0 0.000000+0          0         12          1          29999 5 18   43\n",
  c!"          2          2                                            9999 5 18   44\n",
  c!" 1.000000-5 1.250000-1 2.000000+7 1.250000-1                      9999 5 18   45\n"]
def exE12 : List Line := [c!" 1.000000+6 5.000000+5          0          0          1          29999 5 18   46\n",
  c!"          2          2                                            9999 5 18   47\n",
  c!" 1.000000-5 1.000000+6 2.000000+7 1.500000+6                      9999 5 18   48\n"]
def exE1' : List Line := [c!" 0.000000+0 0.000000+0          0          0          1          29999 5 18   49\n",
  c!"          2          1                                            9999 5 18   50\n"]
def exPHead : Line := c!" 9.223500+4 2.330248+2          0          3          9          09999 6 91    1\n"
def exP0 : List Line := [c!" 9.223400+4 2.320000+2          0          0          1          29999 6 91    2\n",
  c!"          2          2                                            9999 6 91    3\n",
  c!" 1.000000-5 1.000000+0 2.000000+7 1.000000+0                      9999 6 91    4\n"]
def exP1 : List Line := [c!" 1.000000+0 1.000000+0          0          1          1          29999 6 91    5\n",
  c!"          2          2                                            9999 6 91    6\n",
  c!" 1.000000-5 1.000000+0 2.000000+7 1.000000+0                      9999 6 91    7\n"]
def exP1t : List Line := [c!" 0.000000+0 0.000000+0          1          2          1          29999 6 91    8\n",
  c!"          2          2                                            9999 6 91    9\n"]
def exP1a : List Line := [c!" 0.000000+0 1.000000+6          0          1          6          29999 6 91   10\n",
  c!" 0.000000+0 5.000000-1 2.500000-1 2.000000+0 1.250000-1-6.250000-29999 6 91   11\n"]
def exP1b : List Line := [c!" 0.000000+0 2.000000+7          0          1          6          29999 6 91   12\n",
  c!" 0.000000+0 2.500000-1 0.000000+0 4.000000+0 2.500000-1 1.250000-19999 6 91   13\n"]
def exP2 : List Line := [c!" 2.004000+3 3.968000+0          0          1          1          29999 6 91   14\n",
  c!"          2          2                                            9999 6 91   15\n",
  c!" 1.000000-5 1.000000+0 2.000000+7 1.000000+0                      9999 6 91   16\n"]
def exP2t : List Line := [c!" 0.000000+0 0.000000+0          2          1          1          29999 6 91   17\n",
  c!"          2          2                                            9999 6 91   18\n"]
def exP2a : List Line := [c!" 0.000000+0 1.000000+6          0          1          6          29999 6 91   19\n",
  c!" 0.000000+0 5.000000-1 2.500000-1 2.000000+0 1.250000-1 7.500000-19999 6 91   20\n"]
def exP2b : List Line := [c!" 0.000000+0 2.000000+7          0          2          8          29999 6 91   21\n",
  c!" 0.000000+0 2.500000-1 0.000000+0 5.000000-1 4.000000+0 2.500000-19999 6 91   22\n",
  c!" 1.250000-1 7.500000-1                                            9999 6 91   23\n"]
def exP3 : List Line := [c!" 1.000000+0 1.000000+0          0          2          1          29999 6 91   24\n",
  c!"          2          2                                            9999 6 91   25\n",
  c!" 1.000000-5 1.000000+0 2.000000+7 1.000000+0                      9999 6 91   26\n"]
def exP3t : List Line := [c!" 0.000000+0 0.000000+0          0          0          1          29999 6 91   27\n",
  c!"          2          2                                            9999 6 91   28\n"]
def exP3a : List Line := [c!" 0.000000+0 1.000000+6         12          0          4          29999 6 91   29\n",
  c!"-1.000000+0 5.000000-1 1.000000+0 5.000000-1                      9999 6 91   30\n"]
def exP3b : List Line := [c!" 0.000000+0 2.000000+7         14          0          6          39999 6 91   31\n",
  c!"-1.000000+0 2.500000-1 0.000000+0 5.000000-1 1.000000+0 7.500000-19999 6 91   32\n"]
def exP4 : List Line := [c!" 9.223500+4 2.330000+2          0          4          1          29999 6 91   33\n",
  c!"          2          2                                            9999 6 91   34\n",
  c!" 1.000000-5 1.000000+0 2.000000+7 1.000000+0                      9999 6 91   35\n"]
def exP5 : List Line := [c!" 0.000000+0 0.000000+0          0          3          1          29999 6 91   36\n",
  c!"          2          2                                            9999 6 91   37\n",
  c!" 1.000000-5 1.000000+0 2.000000+7 1.000000+0                      9999 6 91   38\n"]
def exP6 : List Line := [c!" 1.000000+0 1.000000+0          0          6          1          29999 6 91   39\n",
  c!"          2          2                                            9999 6 91   40\n",
  c!" 1.000000-5 1.000000+0 2.000000+7 1.000000+0                      9999 6 91   41\n"]
def exP6n : Line := c!" 3.000000+0 0.000000+0          0          0          0          39999 6 91   42\n"
def exP7 : List Line := [c!" 1.001000+3 1.000000+0          0          7          1          29999 6 91   43\n",
  c!"          2          2                                            9999 6 91   44\n",
  c!" 1.000000-5 0.000000+0 2.000000+7 2.000000+0                      9999 6 91   45\n"]
def exP7t : List Line := [c!" 0.000000+0 0.000000+0          0          0          1          19999 6 91   46\n",
  c!"          1          2                                            9999 6 91   47\n"]
def exP7e : List Line := [c!" 0.000000+0 1.000000+6          0          0          1          29999 6 91   48\n",
  c!"          2          2                                            9999 6 91   49\n"]
def exP7a : List Line := [c!" 0.000000+0-1.000000+0          0          0          1          29999 6 91   50\n",
  c!"          2          2                                            9999 6 91   51\n",
  c!" 0.000000+0 1.000000+0 2.000000+0 1.000000+0                      9999 6 91   52\n"]
def exP7b : List Line := [c!" 0.000000+0 1.000000+0          0          0          1          39999 6 91   53\n",
  c!"          3          2                                            9999 6 91   54\n",
  c!" 0.000000+0 1.000000+0 1.000000+0 1.000000+0 2.000000+0 1.000000+09999 6 91   55\n"]
def exP8 : List Line := [c!" 1.002000+3 2.000000+0          0          0          1          29999 6 91   56\n",
  c!"          2          2                                            9999 6 91   57\n",
  c!" 1.000000-5 1.000000+0 2.000000+7 1.000000+0                      9999 6 91   58\n"]
def exPLeg : List Line := [c!" 0.000000+0 0.000000+0          0          0          1          19999 6 91   59\n",
  c!"          1          2                                            9999 6 91   60\n"]
def exPLeg0 : List Line := [c!" 0.000000+0 1.000000+6          0          0          2          29999 6 91   61\n",
  c!" 2.500000-1 1.250000-1                                            9999 6 91   62\n"]
def exPCharged : List Line := [c!" 2.004000+3 4.000000+0          0          5          1          29999 6 91   63\n",
  c!"          2          2                                            9999 6 91   64\n",
  c!" 1.000000-5 1.000000+0 2.000000+7 1.000000+0                      9999 6 91   65\n"]
def exPTabulated : List Line := [c!" 0.000000+0 0.000000+0         12          2          1          29999 6 91   66\n",
  c!"          2          2                                            9999 6 91   67\n"]
def exP8' : List Line := [c!" 1.002000+3 2.000000+0          1          0          1          29999 6 91   68\n",
  c!"          2          2                                            9999 6 91   69\n",
  c!" 1.000000-5 1.000000+0 2.000000+7 1.000000+0                      9999 6 91   70\n"]
def exP7s : List Line := [c!" 0.000000+0 1.000000+0          0          0          1          29999 6 91   71\n",
  c!"          2          5                                            9999 6 91   72\n",
  c!" 1.000000+0 1.000000+0 2.000000+0 5.000000-1                      9999 6 91   73\n"]
def exNuHead : Line := c!" 9.223500+4 2.330248+2          0          1          0          09999 1452    1\n"
def exNu : List Line := [c!" 0.000000+0 0.000000+0          0          0          2          09999 1452    2\n",
  c!" 2.500000+0 1.000000-7                                            9999 1452    3\n"]
def exPromptHead : Line := c!" 9.223500+4 2.330248+2          0          2          0          09999 1456    1\n"
def exPrompt : List Line := [c!" 0.000000+0 0.000000+0          0          0          1          29999 1456    2\n",
  c!"          2          2                                            9999 1456    3\n",
  c!" 1.000000-5 2.250000+0 2.000000+7 4.500000+0                      9999 1456    4\n"]
def exDelHead : Line := c!" 9.223500+4 2.330248+2          0          2          0          09999 1455    1\n"
def exRates : List Line := [c!" 0.000000+0 0.000000+0          0          0          6          09999 1455    2\n",
  c!" 1.250000-2 3.125000-2 1.250000-1 2.500000-1 1.000000+0 4.000000+09999 1455    3\n"]
def exRates1 : List Line := [c!" 0.000000+0 0.000000+0          0          0          1          09999 1455    4\n",
  c!" 1.250000-2                                                       9999 1455    5\n"]
def exRates7 : List Line := [c!" 0.000000+0 0.000000+0          0          0          7          09999 1455    6\n",
  c!" 1.250000-2 3.125000-2 6.250000-2 1.250000-1 2.500000-1 1.000000+09999 1455    7\n",
  c!" 4.000000+0                                                       9999 1455    8\n"]
def exDel : List Line := [c!" 0.000000+0 0.000000+0          0          0          1          29999 1455    9\n",
  c!"          2          2                                            9999 1455   10\n",
  c!" 1.000000-5 1.562500-2 2.000000+7 7.812500-3                      9999 1455   11\n"]
def exGHead : Line := c!" 9.223500+4 2.330248+2          0          0          6          09999 5455    1\n"
def exGHead1 : Line := c!" 9.223500+4 2.330248+2          0          0          1          09999 5455    2\n"
def exGHead7 : Line := c!" 9.223500+4 2.330248+2          0          0          7          09999 5455    3\n"
def exGp : List Line := [c!" 0.000000+0 0.000000+0          0          9          1          29999 5455    4\n",
  c!"          2          2                                            9999 5455    5\n",
  c!" 1.000000-5 1.250000-1 2.000000+7 1.250000-1                      9999 5455    6\n"]
def exGp' : List Line := [c!" 0.000000+0 0.000000+0          0          9          1          29999 5455    7\n",
  c!"          2          2                                            9999 5455    8\n",
  c!" 1.000000-5 1.250000-1 1.000000+7 2.500000-1                      9999 5455    9\n"]
def exG : List Line := [c!" 0.000000+0 0.000000+0          0          0          1          29999 5455   10\n",
  c!"          2          2                                            9999 5455   11\n",
  c!" 1.000000-5 4.000000+5 2.000000+7 5.000000+5                      9999 5455   12\n"]
def exSHead : Line := c!" 9.524100+4 2.389860+2          0          0          2          19999 8102    1\n"
def exS0 : Line := c!" 9.524200+4 0.000000+0         10          0          0          09999 8102    2\n"
def exS1 : Line := c!" 9.524200+4 4.860000+4          9          2          0          09999 8102    3\n"
def ex9Head : Line := c!" 9.524100+4 2.389860+2          0          0          1          09999 9102    1\n"
def ex90 : List Line := [c!" 5.500000+6 5.500000+6      95242          2          1          29999 9102    2\n",
  c!"          2          2                                            9999 9102    3\n",
  c!" 1.000000-5 1.250000-1 2.000000+7 5.000000-1                      9999 9102    4\n"]
def ex10Head : Line := c!" 9.524100+4 2.389860+2          0          0          1          0999910102    1\n"
def ex100 : List Line := [c!" 5.500000+6 5.500000+6      95242          0          1          2999910102    2\n",
  c!"          2          2                                            999910102    3\n",
  c!" 1.000000-5 8.000000+0 2.000000+7 5.000000-1                      999910102    4\n"]
def ex3Head : Line := c!" 9.524100+4 2.389860+2          0          0          0          09999 3102    1\n"
def ex3 : List Line := [c!" 5.500000+6 5.500000+6          0          0          1          29999 3102    2\n",
  c!"          2          2                                            9999 3102    3\n",
  c!" 1.000000-5 1.000000+1 2.000000+7 1.000000+0                      9999 3102    4\n"]
def ex12Head : Line := c!" 9.524100+4 2.389860+2          1          0          2          0999912102    1\n"
def ex12t : List Line := [c!" 0.000000+0 0.000000+0          0          0          1          2999912102    2\n",
  c!"          2          2                                            999912102    3\n",
  c!" 1.000000-5 3.000000+0 2.000000+7 4.000000+0                      999912102    4\n"]
def ex120 : List Line := [c!" 5.000000+5 5.000000+5          0          2          1          2999912102    5\n",
  c!"          2          2                                            999912102    6\n",
  c!" 1.000000-5 1.000000+0 2.000000+7 1.000000+0                      999912102    7\n"]
def ex121 : List Line := [c!" 0.000000+0 0.000000+0          0          1          1          2999912102    8\n",
  c!"          2          2                                            999912102    9\n",
  c!" 1.000000-5 2.000000+0 2.000000+7 3.000000+0                      999912102   10\n"]
def ex12Head2 : Line := c!" 9.524100+4 2.389860+2          2          1          1          0999912102   11\n"
def ex12l : List Line := [c!" 5.000000+5 0.000000+0          1          0          2          1999912102   12\n",
  c!" 0.000000+0 1.000000+0                                            999912102   13\n"]
def ex12Head1 : Line := c!" 9.524100+4 2.389860+2          1          0          1          0999912102   14\n"
def ex13Head : Line := c!" 9.524100+4 2.389860+2          0          0          1          0999913102    1\n"
def ex130 : List Line := [c!" 5.000000+5 5.000000+5          0          2          1          2999913102    2\n",
  c!"          2          2                                            999913102    3\n",
  c!" 1.000000-5 5.000000+0 1.000000+7 1.000000+0                      999913102    4\n"]
def ex15Head : Line := c!" 9.524100+4 2.389860+2          0          0          1          0999915102    1\n"
def ex3Head' : Line := c!" 9.223500+4 2.330248+2          0          0          0          09999 3  2    1\n"
def ex32 : List Line := [c!" 0.000000+0 0.000000+0          0          0          1          29999 3  2    2\n",
  c!"          2          2                                            9999 3  2    3\n",
  c!" 1.000000-5 1.000000+1 2.000000+7 4.000000+0                      9999 3  2    4\n"]
def ex351 : List Line := [c!"-7.500000+1-7.500000+1          0          0          1          29999 3 51    1\n",
  c!"          2          2                                            9999 3 51    2\n",
  c!" 7.531250+1 0.000000+0 2.000000+7 4.000000+0                      9999 3 51    3\n"]
def ex316 : List Line := [c!"-5.000000+6-5.000000+6          0          0          1          29999 3 16    1\n",
  c!"          2          2                                            9999 3 16    2\n",
  c!" 5.062500+6 0.000000+0 2.000000+7 1.000000+0                      9999 3 16    3\n"]
def ex318 : List Line := [c!" 1.900000+8 1.900000+8          0          0          1          29999 3 18    1\n",
  c!"          2          2                                            9999 3 18    2\n",
  c!" 1.000000-5 5.000000+2 2.000000+7 2.000000+0                      9999 3 18    3\n"]
def exF6Head : Line := c!" 9.223500+4 2.330248+2          0          2          3          09999 6 18    1\n"
def ex319 : List Line := [c!" 1.900000+8 1.900000+8          0          0          1          29999 3 19    1\n",
  c!"          2          2                                            9999 3 19    2\n",
  c!" 1.000000-5 5.000000+2 2.000000+7 1.000000+0                      9999 3 19    3\n"]

/-- A table with two points. -/
def lin (x0 y0 x1 y1 : ℚ) : Tab1D ℚ := ⟨[x0, x1], [y0, y1], [2], [2]⟩

/-! ### File 4 -/

def exAngles : List (ℚ × Mu) := [(1 / 100000, .legendre [1, 1 / 4, 1 / 8]), (100, .legendre [1, 1 / 2, 1 / 4, 1 / 8, 1 / 16, 0, 0, 1 / 32]), (1000, .tabular 2 [-1, 0, 1] [1 / 4, 1 / 2, 3 / 4])]

theorem exLegendre_ok {c : Cont} {regions : List (Int × Int)} {a : List Line} (h : Tab2Rec c regions a) (hn : c.n2 = 2) :
    Announced LegendreAt c regions [(1 / 100000, .legendre [1, 1 / 4, 1 / 8]), (100, .legendre [1, 1 / 2, 1 / 4, 1 / 8, 1 / 16, 0, 0, 1 / 32])] (a ++ [exALeg0, exALeg1].flatten) :=
  ⟨a, _, rfl, h, hn, .cons ⟨⟨0, 1 / 100000, 0, 0, 2, 0⟩, _, listRec_of (by decide +kernel), rfl, rfl⟩ (.cons ⟨⟨0, 100, 0, 0, 7, 0⟩, _, listRec_of (by decide +kernel), rfl, rfl⟩ .nil)⟩

/-- File 4 with the old matrix, Legendre coefficients and tables. -/
def exAngleSection : List Line := exAHead :: exACont :: (exAMatrix ++ (((exALeg ++ [exALeg0, exALeg1].flatten) ++ (exATab ++ [exATab0].flatten)) ++ []))

theorem exAngleSection_ok (m : ℚ) : AngleSection m exAngles 2 exAngleSection :=
  ⟨⟨92235, 2330248 / 10000, 1, 3, 0, 0⟩, ⟨0, 2330248 / 10000, 0, 2, 9, 2⟩, exAHead, exACont, exAMatrix, _, [], rfl, headLine_of (by decide +kernel) (by decide), contLine_of (by decide +kernel), rfl,
    Or.inr ⟨rfl, [1, 0, 0, 0, 1, 0, 0, 0, 1], rfl, lines_of (by decide +kernel)⟩,
    .both (exLegendre_ok (c := ⟨0, 0, 0, 0, 1, 2⟩) (regions := [(2, 2)]) (tab2_of (by decide +kernel)) rfl)
      ⟨exATab, _, rfl, tab2_of (c := ⟨0, 0, 0, 0, 1, 1⟩) (regions := [(1, 2)]) (by decide +kernel), rfl,
        .cons ⟨⟨0, 1000, 0, 0, 1, 3⟩, ⟨[-1, 0, 1], [1 / 4, 1 / 2, 3 / 4], [3], [2]⟩, 2, tabRec_of (by decide +kernel), rfl, by decide, by decide, by norm_num, rfl, rfl⟩ .nil⟩⟩

theorem exIsotropic_ok (m : ℚ) : AngleSection m [(0, .uniform), (m, .uniform)] 2 (exAHead0 :: exACont0 :: ([] ++ ([] ++ []))) :=
  ⟨⟨92235, 2330248 / 10000, 0, 0, 0, 0⟩, ⟨0, 2330248 / 10000, 1, 2, 0, 0⟩, exAHead0, exACont0, [], [], [], rfl, headLine_of (by decide +kernel) (by decide), contLine_of (by decide +kernel), rfl,
    Or.inl ⟨rfl, rfl⟩, .isotropic⟩

/-! ### File 5 -/

def exParts : List (Tab1D ℚ × EnDist) := [
  (lin (1 / 100000) (1 / 2) 20000000 (1 / 2), .arbitrary [1 / 100000, 20000000] [⟨[0, 1000000, 2000000], [0, 1 / 1000000, 0], [3], [2]⟩,
    ⟨[0, 2000000, 4000000], [0, 1 / 2000000, 0], [2, 3], [1, 2]⟩]),
  (lin (1 / 100000) (1 / 8) 20000000 (1 / 8), .general (lin (1 / 100000) 1000000 20000000 1500000) (lin 0 1 1 0) 1000),
  (lin (1 / 100000) (1 / 8) 20000000 0, .maxwell (lin (1 / 100000) 1250000 20000000 1500000) (-20000000)),
  (lin (1 / 100000) 0 20000000 (1 / 8), .evaporation (lin (1 / 100000) 400000 20000000 500000) 3000),
  (lin (1 / 100000) (1 / 8) 20000000 (1 / 8), .watt (lin (1 / 100000) 900000 20000000 950000) (lin (1 / 100000) (1 / 400000) 20000000 (3 / 1000000)) (-20000000)),
  (lin (1 / 100000) (1 / 8) 20000000 (1 / 8), .madlandNix 1000000 500000 (lin (1 / 100000) 1000000 20000000 1500000))]

theorem exSpectra_ok {c : Cont} {regions : List (Int × Int)} {a : List Line} (h : Tab2Rec c regions a) (hn : c.n2 = 2) : Announced SpectrumAt c regions
    [(1 / 100000, ⟨[0, 1000000, 2000000], [0, 1 / 1000000, 0], [3], [2]⟩), (20000000, ⟨[0, 2000000, 4000000], [0, 1 / 2000000, 0], [2, 3], [1, 2]⟩)] (a ++ [exE1a, exE1b].flatten) :=
  ⟨a, _, rfl, h, hn, .cons ⟨⟨0, 1 / 100000, 0, 0, 1, 3⟩, tabRec_of (by decide +kernel), rfl⟩ (.cons ⟨⟨0, 20000000, 0, 0, 2, 3⟩, tabRec_of (by decide +kernel), rfl⟩ .nil)⟩

/-- File 5 with each law. -/
def exEnergySection : List Line := exEHead :: ([exE1p ++ (exE1 ++ [exE1a, exE1b].flatten), exE5p ++ (exE5a ++ exE5b), exE7p ++ exE7, exE9p ++ exE9, exE11p ++ (exE11a ++ exE11b), exE12p ++ exE12].flatten ++ [])

theorem exEnergySection_ok : EnergySection exParts exEnergySection :=
  ⟨⟨92235, 2330248 / 10000, 0, 0, 6, 0⟩, exEHead, _, [], rfl, headLine_of (by decide +kernel) (by decide), rfl,
    .cons ⟨⟨0, 0, 0, 1, 1, 2⟩, exE1p, _, rfl, tabRec_of (by decide +kernel),
      .arbitrary rfl (exSpectra_ok (c := ⟨0, 0, 0, 0, 1, 2⟩) (regions := [(2, 2)]) (tab2_of (by decide +kernel)) rfl)⟩
    (.cons ⟨⟨1000, 0, 0, 5, 1, 2⟩, exE5p, _, rfl, tabRec_of (by decide +kernel), .general (c := ⟨0, 0, 0, 0, 1, 2⟩) (c' := ⟨0, 0, 0, 0, 1, 2⟩) rfl (tabRec_of (by decide +kernel)) (tabRec_of (by decide +kernel))⟩
    (.cons ⟨⟨-20000000, 0, 0, 7, 1, 2⟩, exE7p, _, rfl, tabRec_of (by decide +kernel), .maxwell (c := ⟨0, 0, 0, 0, 1, 2⟩) rfl (tabRec_of (by decide +kernel))⟩
    (.cons ⟨⟨3000, 0, 0, 9, 1, 2⟩, exE9p, _, rfl, tabRec_of (by decide +kernel), .evaporation (c := ⟨0, 0, 0, 0, 1, 2⟩) rfl (tabRec_of (by decide +kernel))⟩
    (.cons ⟨⟨-20000000, 0, 0, 11, 1, 2⟩, exE11p, _, rfl, tabRec_of (by decide +kernel), .watt (c := ⟨0, 0, 0, 0, 1, 2⟩) (c' := ⟨0, 0, 0, 0, 1, 2⟩) rfl (tabRec_of (by decide +kernel)) (tabRec_of (by decide +kernel))⟩
    (.cons ⟨⟨0, 0, 0, 12, 1, 2⟩, exE12p, _, rfl, tabRec_of (by decide +kernel), .madlandNix (c := ⟨1000000, 500000, 0, 0, 1, 2⟩) rfl (tabRec_of (by decide +kernel)) (by norm_num) (by norm_num)⟩
    .nil)))))⟩

/-! ### File 6 -/

def exOne : Tab1D ℚ := lin (1 / 100000) 1 20000000 1

def exProduct (name : Line) (y : Tab1D ℚ) (ds : List Dist) : Prod := ⟨name, .prompt, 0, .tab y, [], ds⟩

def exProducts : List Prod := [
  exProduct c!"U234" exOne [],
  exProduct c!"neutron" exOne [.correlated [(2, 2)] [1000000, 20000000] [⟨2, [0, 2], [1 / 2, 1 / 8]⟩, ⟨2, [0, 4], [1 / 4, 1 / 4]⟩]
    [[.legendre [1 / 2, 1 / 4], .legendre [1 / 8, -1 / 16]], [.legendre [1 / 4, 0], .legendre [1 / 4, 1 / 8]]]],
  exProduct c!"He4" exOne [.kalbach [(2, 2)] [1000000, 20000000] [⟨1, [0, 2], [1 / 2, 1 / 8]⟩, ⟨1, [0, 4], [1 / 4, 1 / 4]⟩]
    [lin 0 (1 / 4) 2 (3 / 4), lin 0 0 4 (1 / 8)] [lin 0 0 2 0, lin 0 (1 / 2) 4 (3 / 4)]],
  exProduct c!"neutron" exOne [.uncorrelated (some ⟨[1000000, 20000000], [.tabular 2 [-1, 1] [1 / 2, 1 / 2], .tabular 4 [-1, 0, 1] [1 / 4, 1 / 2, 3 / 4]]⟩) none],
  exProduct c!"U235" exOne [],
  exProduct c!"photon" exOne [.uncorrelated none none],
  exProduct c!"neutron" exOne [.nbody 3 3 1 0],
  exProduct c!"H1" (lin (1 / 100000) 0 20000000 2) [.laboratory [(1, 2)] [1000000] [⟨2, [-1, 1], [2, 3]⟩] [[⟨2, [0, 2], [1, 1]⟩, ⟨2, [0, 1, 2], [1, 1, 1]⟩]]],
  exProduct c!"H2" exOne []]

def exProductSection : List Line := exPHead :: ([exP0 ++ [], exP1 ++ (exP1t ++ [exP1a, exP1b].flatten), exP2 ++ (exP2t ++ [exP2a, exP2b].flatten), exP3 ++ (exP3t ++ [exP3a, exP3b].flatten),
  exP4 ++ [], exP5 ++ [], exP6 ++ [exP6n], exP7 ++ (exP7t ++ [exP7e ++ [exP7a, exP7b].flatten].flatten), exP8 ++ []].flatten ++ [])

theorem exParticle {zap z a : Nat} {sym name : Line} (h : 0 < z) (ha : 0 < a) (ha' : a < 1000) (hs : AceData.Element z sym) (hz : zap = 1000 * z + a) (hn : name = sym ++ Dec.natStr a) :
    Particle zap name := by
  subst hz hn
  exact .nuclide h ha ha' hs

theorem exCosine0_ok : CosineAt (-1, ⟨2, [0, 2], [1, 1]⟩) exP7a :=
  ⟨⟨0, -1, 0, 0, 1, 2⟩, ⟨[0, 2], [1, 1], [2], [2]⟩, tabRec_of (by decide +kernel), rfl, by norm_num, rfl, rfl⟩

theorem exCosine1_ok : CosineAt (1, ⟨2, [0, 1, 2], [1, 1, 1]⟩) exP7b :=
  ⟨⟨0, 1, 0, 0, 1, 3⟩, ⟨[0, 1, 2], [1, 1, 1], [3], [2]⟩, tabRec_of (by decide +kernel), rfl, by norm_num, rfl, rfl⟩

theorem exLab_ok : LawRec 7 [.laboratory [(1, 2)] [1000000] [⟨2, [-1, 1], [2, 3]⟩] [[⟨2, [0, 2], [1, 1]⟩, ⟨2, [0, 1, 2], [1, 1, 1]⟩]]] (exP7t ++ [exP7e ++ [exP7a, exP7b].flatten].flatten) := by
  have := LawRec.laboratory (c := ⟨0, 0, 0, 0, 1, 1⟩) (regions := [(1, 2)]) (xs := [(1000000, [(-1, ⟨2, [0, 2], [1, 1]⟩), (1, ⟨2, [0, 1, 2], [1, 1, 1]⟩)])])
    (ls := exP7t ++ [exP7e ++ [exP7a, exP7b].flatten].flatten) ⟨exP7t, _, rfl, tab2_of (by decide +kernel), rfl,
      .cons ⟨⟨0, 1000000, 0, 0, 1, 2⟩, [(2, 2)], ⟨exP7e, _, rfl, tab2_of (by decide +kernel), rfl, .cons exCosine0_ok (.cons exCosine1_ok .nil)⟩, rfl⟩ .nil⟩
  have e : (2 : ℚ) = 1 + (1 + 0) ∧ (3 : ℚ) = 1 + (1 + (1 + 0)) := by norm_num
  simpa [← e.1, ← e.2, show (1 : ℚ) + 1 = 2 by norm_num, show (1 : ℚ) + 2 = 3 by norm_num] using this

theorem exProductSection_ok : ProductSection exProducts 3 exProductSection :=
  ⟨⟨92235, 2330248 / 10000, 0, 3, 9, 0⟩, exPHead, _, [], rfl, headLine_of (by decide +kernel) (by decide), rfl, by decide, by decide, rfl,
    .cons ⟨⟨92234, 232, 0, 0, 1, 2⟩, 92234, exOne, exP0, [], rfl, tabRec_of (by decide +kernel), rfl,
      exParticle (z := 92) (a := 234) (sym := c!"U") (by decide) (by decide) (by decide) (by unfold AceData.Element; decide +kernel) rfl (by decide +kernel), .unknown, rfl, rfl, rfl, rfl⟩
    (.cons ⟨⟨1, 1, 0, 1, 1, 2⟩, 1, exOne, exP1, _, rfl, tabRec_of (by decide +kernel), by norm_num, .neutron,
      .correlated (c := ⟨0, 0, 1, 2, 1, 2⟩) (lep := 2) (xs := [(1000000, ⟨2, [0, 2], [1 / 2, 1 / 8]⟩, [.legendre [1 / 2, 1 / 4], .legendre [1 / 8, -1 / 16]]),
          (20000000, ⟨2, [0, 4], [1 / 4, 1 / 4]⟩, [.legendre [1 / 4, 0], .legendre [1 / 4, 1 / 8]])]) rfl rfl (by decide) (by decide)
        ⟨exP1t, _, rfl, tab2_of (by decide +kernel), rfl, .cons ⟨⟨0, 1000000, 0, 1, 6, 2⟩, 1, [(0, 1 / 2, [1 / 4]), (2, 1 / 8, [-1 / 16])], listRec_of (by decide +kernel), rfl, rfl, by simp, rfl, rfl, rfl⟩
          (.cons ⟨⟨0, 20000000, 0, 1, 6, 2⟩, 1, [(0, 1 / 4, [0]), (4, 1 / 4, [1 / 8])], listRec_of (by decide +kernel), rfl, rfl, by simp, rfl, rfl, rfl⟩ .nil)⟩, rfl, rfl, rfl, rfl⟩
    (.cons ⟨⟨2004, 3968 / 1000, 0, 1, 1, 2⟩, 2004, exOne, exP2, _, rfl, tabRec_of (by decide +kernel), rfl,
      exParticle (z := 2) (a := 4) (sym := c!"He") (by decide) (by decide) (by decide) (by unfold AceData.Element; decide +kernel) rfl (by decide +kernel),
      .kalbach (c := ⟨0, 0, 2, 1, 1, 2⟩) (lep := 1) (xs := [(1000000, ⟨1, [0, 2], [1 / 2, 1 / 8]⟩, lin 0 (1 / 4) 2 (3 / 4), lin 0 0 2 0),
          (20000000, ⟨1, [0, 4], [1 / 4, 1 / 4]⟩, lin 0 0 4 (1 / 8), lin 0 (1 / 2) 4 (3 / 4))]) rfl rfl (by decide) (by decide)
        ⟨exP2t, _, rfl, tab2_of (by decide +kernel), rfl, .cons (Or.inr ⟨⟨0, 1000000, 0, 1, 6, 2⟩, [(0, 1 / 2, 1 / 4), (2, 1 / 8, 3 / 4)], listRec_of (by decide +kernel), rfl, rfl, by norm_num, rfl, rfl, rfl, rfl⟩)
          (.cons (Or.inl ⟨⟨0, 20000000, 0, 2, 8, 2⟩, [(0, 1 / 4, 0, 1 / 2), (4, 1 / 4, 1 / 8, 3 / 4)], listRec_of (by decide +kernel), rfl, rfl, by norm_num, rfl, rfl, rfl, rfl⟩) .nil)⟩, rfl, rfl, rfl, rfl⟩
    (.cons ⟨⟨1, 1, 0, 2, 1, 2⟩, 1, exOne, exP3, _, rfl, tabRec_of (by decide +kernel), by norm_num, .neutron,
      .twoBody (c := ⟨0, 0, 0, 0, 1, 2⟩) (regions := [(2, 2)]) (xs := [(1000000, .tabular 2 [-1, 1] [1 / 2, 1 / 2]), (20000000, .tabular 4 [-1, 0, 1] [1 / 4, 1 / 2, 3 / 4])])
        ⟨exP3t, _, rfl, tab2_of (by decide +kernel), rfl, .cons ⟨⟨0, 1000000, 12, 0, 4, 2⟩, [(-1, 1 / 2), (1, 1 / 2)], 2, listRec_of (by decide +kernel), Or.inl ⟨rfl, rfl⟩, by norm_num, rfl, rfl⟩
          (.cons ⟨⟨0, 20000000, 14, 0, 6, 3⟩, [(-1, 1 / 4), (0, 1 / 2), (1, 3 / 4)], 4, listRec_of (by decide +kernel), Or.inr ⟨rfl, rfl⟩, by norm_num, rfl, rfl⟩ .nil)⟩, rfl, rfl, rfl, rfl⟩
    (.cons ⟨⟨92235, 233, 0, 4, 1, 2⟩, 92235, exOne, exP4, [], rfl, tabRec_of (by decide +kernel), rfl,
      exParticle (z := 92) (a := 235) (sym := c!"U") (by decide) (by decide) (by decide) (by unfold AceData.Element; decide +kernel) rfl (by decide +kernel), .recoil, rfl, rfl, rfl, rfl⟩
    (.cons ⟨⟨0, 0, 0, 3, 1, 2⟩, 0, exOne, exP5, [], rfl, tabRec_of (by decide +kernel), by norm_num, .photon, .isotropic, rfl, rfl, rfl, rfl⟩
    (.cons ⟨⟨1, 1, 0, 6, 1, 2⟩, 1, exOne, exP6, [exP6n], rfl, tabRec_of (by decide +kernel), by norm_num, .neutron,
      .nbody (c := ⟨3, 0, 0, 0, 0, 3⟩) (contLine_of (by decide +kernel)) (by norm_num) (by decide), rfl, rfl, rfl, rfl⟩
    (.cons ⟨⟨1001, 1, 0, 7, 1, 2⟩, 1001, lin (1 / 100000) 0 20000000 2, exP7, _, rfl, tabRec_of (by decide +kernel), rfl,
      exParticle (z := 1) (a := 1) (sym := c!"H") (by decide) (by decide) (by decide) (by unfold AceData.Element; decide +kernel) rfl (by decide +kernel), exLab_ok, rfl, rfl, rfl, rfl⟩
    (.cons ⟨⟨1002, 2, 0, 0, 1, 2⟩, 1002, exOne, exP8, [], rfl, tabRec_of (by decide +kernel), rfl,
      exParticle (z := 1) (a := 2) (sym := c!"H") (by decide) (by decide) (by decide) (by unfold AceData.Element; decide +kernel) rfl (by decide +kernel), .unknown, rfl, rfl, rfl, rfl⟩
    .nil))))))))⟩

/-- Three of the products as those of fission. -/
theorem exF6_ok : ProductSection [exProduct c!"photon" exOne [.uncorrelated none none], exProduct c!"neutron" exOne [.nbody 3 3 1 0], exProduct c!"H2" exOne []] 2
    (exF6Head :: ([exP5 ++ [], exP6 ++ [exP6n], exP8 ++ []].flatten ++ [])) :=
  ⟨⟨92235, 2330248 / 10000, 0, 2, 3, 0⟩, exF6Head, _, [], rfl, headLine_of (by decide +kernel) (by decide), rfl, by decide, by decide, rfl,
    .cons ⟨⟨0, 0, 0, 3, 1, 2⟩, 0, exOne, exP5, [], rfl, tabRec_of (by decide +kernel), by norm_num, .photon, .isotropic, rfl, rfl, rfl, rfl⟩
    (.cons ⟨⟨1, 1, 0, 6, 1, 2⟩, 1, exOne, exP6, [exP6n], rfl, tabRec_of (by decide +kernel), by norm_num, .neutron,
      .nbody (c := ⟨3, 0, 0, 0, 0, 3⟩) (contLine_of (by decide +kernel)) (by norm_num) (by decide), rfl, rfl, rfl, rfl⟩
    (.cons ⟨⟨1002, 2, 0, 0, 1, 2⟩, 1002, exOne, exP8, [], rfl, tabRec_of (by decide +kernel), rfl,
      exParticle (z := 1) (a := 2) (sym := c!"H") (by decide) (by decide) (by decide) (by unfold AceData.Element; decide +kernel) rfl (by decide +kernel), .unknown, rfl, rfl, rfl, rfl⟩
    .nil))⟩

/-! ### Fission -/

theorem exNu_ok : NuSection (.poly [5 / 2, 1 / 10000000]) (exNuHead :: (exNu ++ [])) :=
  ⟨⟨92235, 2330248 / 10000, 0, 1, 0, 0⟩, exNuHead, exNu, [], rfl, headLine_of (by decide +kernel) (by decide), .poly (c := ⟨0, 0, 0, 0, 2, 0⟩) (listRec_of (by decide +kernel)) (by simp)⟩

theorem exPrompt_ok : NuSection (.tab (lin (1 / 100000) (9 / 4) 20000000 (9 / 2))) (exPromptHead :: (exPrompt ++ [])) :=
  ⟨⟨92235, 2330248 / 10000, 0, 2, 0, 0⟩, exPromptHead, exPrompt, [], rfl, headLine_of (by decide +kernel) (by decide), .tab (c := ⟨0, 0, 0, 0, 1, 2⟩) (tabRec_of (by decide +kernel))⟩

def exDelayed : Tab1D ℚ := lin (1 / 100000) (1 / 64) 20000000 (1 / 128)

theorem exDelayed_of {rates : List ℚ} {a : List Line} {n : Int} (h : Decay.ListRec ⟨0, 0, 0, 0, n, 0⟩ rates a) (h0 : ∀ r ∈ rates, 0 ≤ r) :
    DelayedSection rates (.tab exDelayed) (exDelHead :: (a ++ (exDel ++ []))) :=
  ⟨⟨92235, 2330248 / 10000, 0, 2, 0, 0⟩, _, exDelHead, a, exDel, [], rfl, headLine_of (by decide +kernel) (by decide), rfl, h, h0, .tab (c := ⟨0, 0, 0, 0, 1, 2⟩) (tabRec_of (by decide +kernel))⟩

theorem exDelayed_ok : DelayedSection [1 / 80, 1 / 32, 1 / 8, 1 / 4, 1, 4] (.tab exDelayed) (exDelHead :: (exRates ++ (exDel ++ []))) :=
  exDelayed_of (n := 6) (listRec_of (by decide +kernel)) (by norm_num)

theorem exDelayed1_ok : DelayedSection [1 / 80] (.tab exDelayed) (exDelHead :: (exRates1 ++ (exDel ++ []))) := exDelayed_of (n := 1) (listRec_of (by decide +kernel)) (by norm_num)

theorem exDelayed7_ok : DelayedSection [1 / 80, 1 / 32, 1 / 16, 1 / 8, 1 / 4, 1, 4] (.tab exDelayed) (exDelHead :: (exRates7 ++ (exDel ++ []))) :=
  exDelayed_of (n := 7) (listRec_of (by decide +kernel)) (by norm_num)

/-- A group with a constant fraction. -/
def exGroup : Tab1D ℚ × EnDist := (lin (1 / 100000) (1 / 8) 20000000 (1 / 8), .evaporation (lin (1 / 100000) 400000 20000000 500000) 0)

/-- A group with a fraction that depends on energy. -/
def exGroup' : Tab1D ℚ × EnDist := (lin (1 / 100000) (1 / 8) 10000000 (1 / 4), .evaporation (lin (1 / 100000) 400000 20000000 500000) 0)

theorem exGroup_ok : Part exGroup (exGp ++ exG) :=
  ⟨⟨0, 0, 0, 9, 1, 2⟩, exGp, exG, rfl, tabRec_of (by decide +kernel), .evaporation (c := ⟨0, 0, 0, 0, 1, 2⟩) rfl (tabRec_of (by decide +kernel))⟩

theorem exGroup'_ok : Part exGroup' (exGp' ++ exG) :=
  ⟨⟨0, 0, 0, 9, 1, 2⟩, exGp', exG, rfl, tabRec_of (by decide +kernel), .evaporation (c := ⟨0, 0, 0, 0, 1, 2⟩) rfl (tabRec_of (by decide +kernel))⟩

def exGroups : List (Tab1D ℚ × EnDist) := [exGroup, exGroup', exGroup, exGroup', exGroup, exGroup]
def exGroupLines : List Line := exGHead :: ([exGp ++ exG, exGp' ++ exG, exGp ++ exG, exGp' ++ exG, exGp ++ exG, exGp ++ exG].flatten ++ [])

theorem exGroups_ok : EnergySection exGroups exGroupLines :=
  ⟨⟨92235, 2330248 / 10000, 0, 0, 6, 0⟩, exGHead, _, [], rfl, headLine_of (by decide +kernel) (by decide), rfl,
    .cons exGroup_ok (.cons exGroup'_ok (.cons exGroup_ok (.cons exGroup'_ok (.cons exGroup_ok (.cons exGroup_ok .nil)))))⟩

theorem exGroups1_ok : EnergySection [exGroup] (exGHead1 :: ([exGp ++ exG].flatten ++ [])) :=
  ⟨⟨92235, 2330248 / 10000, 0, 0, 1, 0⟩, exGHead1, _, [], rfl, headLine_of (by decide +kernel) (by decide), rfl, .cons exGroup_ok .nil⟩

theorem exGroups7_ok : EnergySection (exGroup :: exGroups) (exGHead7 :: ([exGp ++ exG, exGp ++ exG, exGp' ++ exG, exGp ++ exG, exGp' ++ exG, exGp ++ exG, exGp ++ exG].flatten ++ [])) :=
  ⟨⟨92235, 2330248 / 10000, 0, 0, 7, 0⟩, exGHead7, _, [], rfl, headLine_of (by decide +kernel) (by decide), rfl,
    .cons exGroup_ok (.cons exGroup_ok (.cons exGroup'_ok (.cons exGroup_ok (.cons exGroup'_ok (.cons exGroup_ok (.cons exGroup_ok .nil))))))⟩

/-! ### States and photons -/

theorem ex8_ok : DecaySection [10, 9] (exSHead :: ([[exS0], [exS1]].flatten ++ [])) :=
  ⟨⟨95241, 238986 / 1000, 0, 0, 2, 1⟩, exSHead, _, [], rfl, headLine_of (by decide +kernel) (by decide), rfl,
    Or.inl ⟨rfl, .cons ⟨⟨95242, 0, 10, 0, 0, 0⟩, exS0, rfl, contLine_of (by decide +kernel), rfl⟩ (.cons ⟨⟨95242, 48600, 9, 2, 0, 0⟩, exS1, rfl, contLine_of (by decide +kernel), rfl⟩ .nil)⟩⟩

def exT9 : List (Line × Tab1D ℚ) := [(c!"Am242_e2", lin (1 / 100000) (1 / 8) 20000000 (1 / 2))]
def exT10 : List (Line × Tab1D ℚ) := [(c!"Am242", lin (1 / 100000) 8 20000000 (1 / 2))]

theorem exState9_ok : StateRec (c!"Am242_e2", lin (1 / 100000) (1 / 8) 20000000 (1 / 2)) ex90 :=
  ⟨⟨5500000, 5500000, 95242, 2, 1, 2⟩, 95, 242, 2, c!"Am", tabRec_of (by decide +kernel), rfl, rfl, by unfold AceData.Element; decide +kernel, by decide, Or.inr ⟨by decide, by decide +kernel⟩⟩

theorem ex9_ok : StateSection exT9 (ex9Head :: ([ex90].flatten ++ [])) :=
  ⟨⟨95241, 238986 / 1000, 0, 0, 1, 0⟩, ex9Head, _, [], rfl, headLine_of (by decide +kernel) (by decide), rfl, .cons exState9_ok .nil⟩

theorem ex10_ok : StateSection exT10 (ex10Head :: ([ex100].flatten ++ [])) :=
  ⟨⟨95241, 238986 / 1000, 0, 0, 1, 0⟩, ex10Head, _, [], rfl, headLine_of (by decide +kernel) (by decide), rfl,
    .cons ⟨⟨5500000, 5500000, 95242, 0, 1, 2⟩, 95, 242, 0, c!"Am", tabRec_of (by decide +kernel), rfl, rfl, by unfold AceData.Element; decide +kernel, by decide, Or.inl ⟨rfl, by decide +kernel⟩⟩ .nil⟩

def exCapture : Tab1D ℚ := lin (1 / 100000) 10 20000000 1

theorem ex3_ok : XsSection 5500000 exCapture (ex3Head :: (ex3 ++ [])) :=
  ⟨⟨95241, 238986 / 1000, 0, 0, 0, 0⟩, ex3Head, ⟨5500000, 5500000, 0, 0, 1, 2⟩, ex3, [], rfl, headLine_of (by decide +kernel) (by decide), tabRec_of (by decide +kernel), rfl⟩

def exPhotons (mass : ℚ) : List (Tab1D ℚ × Option EnDist) := [(exOne, some (.discretePhoton 0 500000 mass)), (lin (1 / 100000) 2 20000000 3, none)]

theorem ex12_ok (mass : ℚ) : PhotonSection mass (some 1) (exPhotons mass) (ex12Head :: (ex12t ++ ([ex120, ex121].flatten ++ []))) :=
  ⟨⟨95241, 238986 / 1000, 1, 0, 2, 0⟩, ex12Head, ex12t, _, [], rfl, headLine_of (by decide +kernel) (by decide), fun k hk => Option.some.inj hk, rfl,
    Or.inr ⟨by simp [exPhotons], ⟨0, 0, 0, 0, 1, 2⟩, lin (1 / 100000) 3 20000000 4, tabRec_of (by decide +kernel)⟩,
    .cons (.discrete (c := ⟨500000, 500000, 0, 2, 1, 2⟩) (tabRec_of (t := exOne) (by decide +kernel)) rfl) (.cons (.continuum (c := ⟨0, 0, 0, 1, 1, 2⟩) (tabRec_of (by decide +kernel)) rfl) .nil)⟩

theorem ex13_ok (mass : ℚ) : PhotonSection mass none [(lin (1 / 100000) 5 10000000 1, some (.discretePhoton 0 500000 mass))] (ex13Head :: ([] ++ ([ex130].flatten ++ []))) :=
  ⟨⟨95241, 238986 / 1000, 0, 0, 1, 0⟩, ex13Head, [], _, [], rfl, headLine_of (by decide +kernel) (by decide), by simp, rfl, Or.inl ⟨Nat.le_refl 1, rfl⟩,
    .cons (.discrete (c := ⟨500000, 500000, 0, 2, 1, 2⟩) (tabRec_of (t := lin (1 / 100000) 5 10000000 1) (by decide +kernel)) rfl) .nil⟩

/-! ### Cross sections -/

theorem ex32_ok : XsSection 0 (lin (1 / 100000) 10 20000000 4) (ex3Head' :: (ex32 ++ [])) :=
  ⟨⟨92235, 2330248 / 10000, 0, 0, 0, 0⟩, ex3Head', ⟨0, 0, 0, 0, 1, 2⟩, ex32, [], rfl, headLine_of (by decide +kernel) (by decide), tabRec_of (by decide +kernel), rfl⟩

theorem ex351_ok : XsSection (-75) (lin (753125 / 10000) 0 20000000 4) (ex3Head' :: (ex351 ++ [])) :=
  ⟨⟨92235, 2330248 / 10000, 0, 0, 0, 0⟩, ex3Head', ⟨-75, -75, 0, 0, 1, 2⟩, ex351, [], rfl, headLine_of (by decide +kernel) (by decide), tabRec_of (by decide +kernel), rfl⟩

theorem ex316_ok : XsSection (-5000000) (lin 5062500 0 20000000 1) (ex3Head' :: (ex316 ++ [])) :=
  ⟨⟨92235, 2330248 / 10000, 0, 0, 0, 0⟩, ex3Head', ⟨-5000000, -5000000, 0, 0, 1, 2⟩, ex316, [], rfl, headLine_of (by decide +kernel) (by decide), tabRec_of (by decide +kernel), rfl⟩

theorem ex318_ok : XsSection 190000000 (lin (1 / 100000) 500 20000000 2) (ex3Head' :: (ex318 ++ [])) :=
  ⟨⟨92235, 2330248 / 10000, 0, 0, 0, 0⟩, ex3Head', ⟨190000000, 190000000, 0, 0, 1, 2⟩, ex318, [], rfl, headLine_of (by decide +kernel) (by decide), tabRec_of (by decide +kernel), rfl⟩

theorem ex319_ok : XsSection 190000000 (lin (1 / 100000) 500 20000000 1) (ex3Head' :: (ex319 ++ [])) :=
  ⟨⟨92235, 2330248 / 10000, 0, 0, 0, 0⟩, ex3Head', ⟨190000000, 190000000, 0, 0, 1, 2⟩, ex319, [], rfl, headLine_of (by decide +kernel) (by decide), tabRec_of (by decide +kernel), rfl⟩

end ASAPy.EndfRx
