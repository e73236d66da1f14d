import Verif.Chars
import Verif.Decay.Props2
import Verif.Endf.Check

/-!
# A section of decay data and a section of yields

A radioactive nuclide with two modes, a discrete spectrum and one that is discrete and continuous (with a covariance), which meets the hypotheses of C138, and
yields at two energies, which meet those of C139.
-/

namespace ASAPy.Decay
open ASAPy.Str ASAPy.Dec ASAPy.Endf ASAPy.AceData

theorem listRec_of {c : Cont} {vs : List ℚ} {ls : List Line}
    (h : (match ls with | [] => false | l :: rows => chkCont c l && decide (c.n1 = vs.length) && chkLines vs rows) = true) : ListRec c vs ls := by
  cases ls with
  | nil => simp at h
  | cons l rows =>
    simp only [Bool.and_eq_true, decide_eq_true_eq] at h
    exact ⟨l, rows, rfl, contLine_of h.1.1, h.1.2, lines_of h.2⟩

def exHead : Line := c!" 2.706000+4 5.941890+1          2          1          0          29999 8457    1\n"
def exHalf : List Line := [c!" 6.282000+2 3.600000-1          0          0          6          09999 8457    2\n",
   c!" 1.500000+3 1.000000+1 5.750000+4 3.000000+2 0.000000+0 0.000000+09999 8457    3\n"]
def exModes : List Line := [c!" 2.000000+0 1.000000+0          0          0         12          29999 8457    4\n",
   c!" 3.000000+0 0.000000+0 5.859000+4 1.000000+1 9.975000-1 3.000000-49999 8457    5\n",
   c!" 1.000000+0 0.000000+0 2.881900+6 2.000000+2 2.500000-3 3.000000-49999 8457    6\n"]
def exGamma : List Line := [c!" 0.000000+0 0.000000+0          0          0          6          19999 8457    7\n",
   c!" 1.000000-2 0.000000+0 6.600000+3 3.000000+1 0.000000+0 0.000000+09999 8457    8\n"]
def exGammaLine : List Line := [c!" 5.860000+4 1.000000+1          0          0         12          09999 8457    9\n",
   c!" 3.000000+0 0.000000+0 2.000000+0 3.000000-2 0.000000+0 0.000000+09999 8457   10\n",
   c!" 4.700000+1 1.000000+0 3.600000+1 5.000000-1 8.000000+0 1.000000-19999 8457   11\n"]
def exBeta : List Line := [c!" 0.000000+0 1.000000+0          2          0          6          19999 8457   12\n",
   c!" 1.000000-2 0.000000+0 1.500000+3 1.000000+1 1.000000+0 0.000000+09999 8457   13\n"]
def exBetaLine : List Line := [c!" 1.549400+6 2.000000+2          0          0          4          09999 8457   14\n",
   c!" 1.000000+0 2.000000+0 2.500000-1 3.000000-2                      9999 8457   15\n"]
def exTabHead : Line := c!" 1.000000+0 0.000000+0          0          1          1          49999 8457   16\n"
def exTabRegions : List Line := [c!"          4          2                                            9999 8457   17\n"]
def exTabPoints : List Line := [c!" 0.000000+0 1.000000-6 5.000000+5 2.000000-6 1.000000+6 1.000000-69999 8457   18\n",
   c!" 1.549400+6 0.000000+0                                            9999 8457   19\n"]
def exCov : List Line := [c!" 0.000000+0 0.000000+0          0          2          4          29999 8457   20\n",
   c!" 0.000000+0 1.000000-1 1.549400+6 0.000000+0                      9999 8457   21\n"]

def exGammaSpectrum : Spectrum := ⟨c!"gamma", c!"discrete", ⟨1 / 100, 0⟩, ⟨6600, 30⟩, ⟨0, 0⟩,
  some [⟨⟨58600, 10⟩, [c!"IT"], none, ⟨2, 3 / 100⟩, none, some ⟨0, 0⟩, some ⟨47, 1⟩, some ⟨36, 1 / 2⟩, some ⟨8, 1 / 10⟩⟩], none⟩

def exBetaSpectrum : Spectrum := ⟨c!"beta-", c!"both", ⟨1 / 100, 0⟩, ⟨1500, 10⟩, ⟨1, 0⟩,
  some [⟨⟨1549400, 200⟩, [c!"beta-"], some c!"first-forbidden", ⟨1 / 4, 3 / 100⟩, none, none, none, none, none⟩],
  some ⟨[(4, 2)], [(0, 1 / 1000000), (500000, 1 / 500000), (1000000, 1 / 1000000), (1549400, 0)], [c!"beta-"], some (2, [(0, 1 / 10), (1549400, 0)])⟩⟩

def exData : Data := ⟨27, 60, 1, c!"Co60_m1", 594189 / 10000, 2, false, some 2, 1, some ⟨3141 / 5, 9 / 25⟩,
  [(c!"light", ⟨1500, 10⟩), (c!"electromagnetic", ⟨57500, 300⟩), (c!"heavy", ⟨0, 0⟩)],
  [⟨c!"Co60_m1", [c!"IT"], 0, ⟨58590, 10⟩, ⟨399 / 400, 3 / 10000⟩⟩, ⟨c!"Co60_m1", [c!"beta-"], 0, ⟨2881900, 200⟩, ⟨1 / 400, 3 / 10000⟩⟩],
  [(c!"gamma", exGammaSpectrum), (c!"beta-", exBetaSpectrum)]⟩

theorem rtyp_one (k : Kind) (hk : k ≠ .gamma) : Rtyp k.code [k.name] := ⟨k, [], by simp [rtyp, tail], rfl, hk, by simp, by simp⟩

theorem exGamma_rec : SpectrumRec exGammaSpectrum (exGamma ++ [exGammaLine].flatten) :=
  ⟨⟨0, 0, 0, 0, 6, 1⟩, 1, exGamma, [exGammaLine].flatten, rfl, listRec_of (by decide +kernel), by norm_num [U.Ok, exGammaSpectrum], by norm_num [U.Ok, exGammaSpectrum],
    by norm_num [U.Ok, exGammaSpectrum], .gamma, rfl, .discrete (s := exGammaSpectrum) rfl rfl rfl (.cons ⟨⟨58600, 10, 0, 0, 12, 0⟩, 3, 0, [⟨0, 0⟩, ⟨47, 1⟩, ⟨36, 1 / 2⟩, ⟨8, 1 / 10⟩],
      listRec_of (by decide +kernel), rfl, by norm_num [U.Ok], rtyp_one .it (by decide), .none, by norm_num [U.Ok], by norm_num [U.Ok],
      .gamma4 _ _ _ _ rfl rfl rfl rfl rfl⟩ .nil)⟩

theorem exBeta_rec : SpectrumRec exBetaSpectrum (exBeta ++ ([exBetaLine].flatten ++ ((exTabHead :: (exTabRegions ++ exTabPoints)) ++ exCov))) :=
  ⟨⟨0, 1, 2, 0, 6, 1⟩, 1, exBeta, _, rfl, listRec_of (by decide +kernel), by norm_num [U.Ok, exBetaSpectrum], by norm_num [U.Ok, exBetaSpectrum],
    by norm_num [U.Ok, exBetaSpectrum], .betaMinus, rfl, .both (s := exBetaSpectrum) rfl rfl rfl (.cons ⟨⟨1549400, 200, 0, 0, 4, 0⟩, 1, 2, [],
      listRec_of (by decide +kernel), rfl, by norm_num [U.Ok], rtyp_one .betaMinus (by decide), .first, by norm_num [U.Ok], by simp,
      .other _ (by decide) (by decide) rfl rfl rfl rfl rfl⟩ .nil)
      ⟨⟨1, 0, 0, 1, 1, 4⟩, _, _, rfl, ⟨exTabHead, exTabRegions, exTabPoints, rfl, contLine_of (by decide +kernel), rfl, rfl, pairLines_of (by decide +kernel),
        pairLines_of (by decide +kernel)⟩, rtyp_one .betaMinus (by decide), Or.inr ⟨by decide, ⟨0, 0, 0, 2, 4, 2⟩, [(0, 1 / 10), (1549400, 0)],
        listRec_of (by decide +kernel), rfl⟩⟩⟩

def exSection : List Line := exHead :: (exHalf ++ (exModes ++ [exGamma ++ [exGammaLine].flatten,
  exBeta ++ ([exBetaLine].flatten ++ ((exTabHead :: (exTabRegions ++ exTabPoints)) ++ exCov))].flatten))

/-- The section meets the hypotheses of `C138_radioactive_partial`. -/
theorem exSection_ok : RadioactiveSection exData exSection :=
  ⟨exHead, ⟨3141 / 5, 9 / 25, 0, 0, 6, 0⟩, ⟨2, 1, 0, 0, 12, 2⟩, ⟨3141 / 5, 9 / 25⟩, [⟨1500, 10⟩, ⟨57500, 300⟩, ⟨0, 0⟩], [[3, 0, 58590, 10, 399 / 400, 3 / 10000], [1, 0, 2881900, 200, 1 / 400, 3 / 10000]],
    exHalf, exModes, [exGammaSpectrum, exBetaSpectrum], _, rfl, ⟨27, 60, 1, c!"Co", by unfold Element; decide +kernel, by decide, rfl, rfl, rfl,
      by decide +kernel, headLine_of (by decide +kernel) (by decide)⟩, rfl, listRec_of (by decide +kernel), rfl, rfl, by norm_num [U.Ok], by norm_num [U.Ok],
    Or.inl ⟨rfl, rfl⟩, listRec_of (by decide +kernel), Or.inr ⟨by norm_num, rfl⟩, rfl, rfl,
    .cons ⟨3, 0, rfl, rtyp_one .it (by decide), rfl, rfl, by norm_num, by norm_num [U.Ok], by norm_num, by norm_num [U.Ok]⟩
      (.cons ⟨1, 0, rfl, rtyp_one .betaMinus (by decide), rfl, rfl, by norm_num, by norm_num [U.Ok], by norm_num, by norm_num [U.Ok]⟩ .nil),
    .cons exGamma_rec (.cons exBeta_rec .nil), by decide +kernel, rfl⟩

example : readDecay exSection = .ok exData := C138_radioactive_partial _ _ exSection_ok

/-- A stable nuclide, with the spin 1/2. -/
def exStableHead : Line := c!" 1.001000+3 9.991673-1          0          0          1          09999 8457    1\n"
def exStableA : List Line := [c!" 0.000000+0 0.000000+0          0          0          6          09999 8457    2\n",
  c!" 0.000000+0 0.000000+0 0.000000+0 0.000000+0 0.000000+0 0.000000+09999 8457    3\n"]
def exStableB : List Line := [c!" 5.000000-1 1.000000+0          0          0          6          09999 8457    4\n",
  c!" 0.000000+0 0.000000+0 0.000000+0 0.000000+0 0.000000+0 0.000000+09999 8457    5\n"]
/-- The second record with the mark for an unknown spin. -/
def exStableC : List Line := [c!"-7.777700+1 0.000000+0          0          0          6          09999 8457    4\n",
  c!" 0.000000+0 0.000000+0 0.000000+0 0.000000+0 0.000000+0 0.000000+09999 8457    5\n"]

def exStable : Data := ⟨1, 1, 0, c!"H1", 9991673 / 10000000, 0, true, some (1 / 2), 1, none, [], [], []⟩

theorem exStable_head : NuclideHead exStable 1 0 exStableHead :=
  ⟨1, 1, 0, c!"H", by unfold Element; decide +kernel, by decide, rfl, rfl, rfl, by decide +kernel, headLine_of (by decide +kernel) (by decide)⟩

example : StableSection exStable (exStableHead :: (exStableA ++ (exStableB ++ []))) :=
  ⟨exStableHead, 0, ⟨0, 0, 0, 0, 6, 0⟩, ⟨1 / 2, 1, 0, 0, 6, 0⟩, [0, 0, 0, 0, 0, 0], [0, 0, 0, 0, 0, 0], exStableA, exStableB, [], rfl, exStable_head, rfl,
    listRec_of (by decide +kernel), listRec_of (by decide +kernel), by norm_num, rfl, rfl, rfl, rfl, rfl, rfl⟩

example : ∃ r, readDecay (exStableHead :: (exStableA ++ (exStableC ++ []))) = .ok r ∧ r.spin = some (-77777 / 1000) :=
  C138_stable_spin_refuted exStableHead exStable 0 exStable_head ⟨0, 0, 0, 0, 6, 0⟩ ⟨-77777 / 1000, 0, 0, 0, 6, 0⟩ [0, 0, 0, 0, 0, 0] [0, 0, 0, 0, 0, 0]
    exStableA exStableC [] (listRec_of (by decide +kernel)) (listRec_of (by decide +kernel)) rfl

def exYieldHead : Line := c!" 9.223500+4 2.330250+2          2          0          0          09999 8454    1\n"
def exYield0 : List Line := [c!" 2.530000-2 0.000000+0          2          0          8          29999 8454    2\n",
   c!" 3.809000+4 0.000000+0 2.000000-4 1.000000-5 4.811500+4 1.000000+09999 8454    3\n",
   c!" 3.000000-5 2.000000-6                                            9999 8454    4\n"]
def exYield1 : List Line := [c!" 5.000000+5 0.000000+0          2          0          4          19999 8454    5\n",
   c!" 3.809000+4 0.000000+0 3.000000-4 0.000000+0                      9999 8454    6\n"]

def exYields : List (ℚ × List Product) := [(253 / 10000, [⟨38, 90, 0, c!"Sr", ⟨1 / 5000, 1 / 100000⟩⟩, ⟨48, 115, 1, c!"Cd", ⟨3 / 100000, 1 / 500000⟩⟩]), (500000, [⟨38, 90, 0, c!"Sr", ⟨3 / 10000, 0⟩⟩])]

theorem exYields_ok : YieldSection exYields (exYieldHead :: ([exYield0, exYield1].flatten ++ [])) :=
  ⟨⟨92235, 9321 / 40, 2, 0, 0, 0⟩, _, _, [], rfl, headLine_of (by decide +kernel) (by decide), rfl,
    .cons ⟨⟨253 / 10000, 0, 2, 0, 8, 2⟩, listRec_of (by decide +kernel), rfl, rfl, by
        simp only [List.forall_mem_cons, List.not_mem_nil, false_imp_iff, implies_true, and_true]
        exact ⟨⟨by unfold Element; decide +kernel, by decide, by norm_num [U.Ok]⟩, ⟨by unfold Element; decide +kernel, by decide, by norm_num [U.Ok]⟩⟩, by decide⟩
    (.cons ⟨⟨500000, 0, 2, 0, 4, 1⟩, listRec_of (by decide +kernel), rfl, rfl, by
        simp only [List.forall_mem_cons, List.not_mem_nil, false_imp_iff, implies_true, and_true]
        exact ⟨by unfold Element; decide +kernel, by decide, by norm_num [U.Ok]⟩, by decide⟩ .nil)⟩

/-- The same yields as independent and as cumulative ones meet the hypotheses of `C139_yields_partial`. -/
example : readYields [((8, 454), exYieldHead :: ([exYield0, exYield1].flatten ++ [])), ((8, 459), exYieldHead :: ([exYield0, exYield1].flatten ++ []))] =
    .ok ⟨some [253 / 10000, 500000], some (exYields.map byName), some (exYields.map byName)⟩ :=
  C139_yields_partial _ (by decide) exYields exYields _ _ (by simp) (by simp) exYields_ok exYields_ok rfl

example : exYields.map byName = [[(c!"Sr90", ⟨1 / 5000, 1 / 100000⟩), (c!"Cd115_m1", ⟨3 / 100000, 1 / 500000⟩)],
    [(c!"Sr90", ⟨3 / 10000, 0⟩)]] := by decide +kernel

end ASAPy.Decay
