import Verif.Chars
import Verif.ResCov.Props4
import Verif.Res.Example

/-!
# Sections of covariances of resonance parameters

Ranges in the formats of file 32, which meet the hypotheses of C149-C154.
-/

namespace ASAPy.ResCov
open ASAPy.Endf ASAPy.Res ASAPy.Decay

def exHead : Line := c!" 9.223500+4 2.330248+2          0          0          1          0999932151    1\n"
def exHead2 : Line := c!" 9.223500+4 2.330248+2          0          0          2          0999932151    2\n"
def exIso : Line := c!" 9.223500+4 1.000000+0          0          0          3          0999932151    3\n"
def exIso1 : Line := c!" 9.223500+4 5.000000-1          0          0          1          0999932151    4\n"
def exBwItems : Line := c!" 1.000000-5 1.000000+2          1          2          0          0999932151    5\n"
def exRmItems : Line := c!" 1.000000+2 5.000000+2          1          3          0          0999932151    6\n"
def exUnrItems : Line := c!" 5.000000+2 2.000000+3          2          1          0          0999932151    7\n"
def ex7Items : Line := c!" 5.000000+2 2.000000+3          1          7          0          0999932151    8\n"
def exBegin1 : Line := c!" 3.500000+0 9.600000-1          0          1          2          0999932151    9\n"
def exBegin2 : Line := c!" 3.500000+0 9.600000-1          0          2          2          0999932151   10\n"
def exBegin0 : Line := c!" 3.500000+0 9.600000-1          0          0          1          0999932151   11\n"
def exBegin02 : Line := c!" 3.500000+0 9.600000-1          0          0          2          0999932151   12\n"
def exNsrs : Line := c!" 0.000000+0 0.000000+0          0          0          1          0999932151   13\n"
def exNsrs2 : Line := c!" 0.000000+0 0.000000+0          0          0          2          0999932151   14\n"
def exBlock : List Line := [c!" 0.000000+0 0.000000+0          3          0         33          2999932151   15\n",
  c!" 7.500000+0 2.000000+0 1.000000-1 1.000000-2 4.000000-2 2.000000-2999932151   16\n",
  c!" 2.500000-1 4.000000+0 7.000000-2 1.000000-2 4.000000-2 2.000000-2999932151   17\n",
  c!" 1.000000-2 0.000000+0 0.000000+0 1.000000-3 0.000000+0 0.000000+0999932151   18\n",
  c!" 2.000000-2 0.000000+0 0.000000+0 1.000000-3 0.000000+0 3.000000-2999932151   19\n",
  c!" 0.000000+0 0.000000+0 1.000000-3 4.000000-2 0.000000+0 0.000000+0999932151   20\n",
  c!" 5.000000-2 0.000000+0 6.000000-2                                 999932151   21\n"]
def exRmBlock : List Line := [c!" 0.000000+0 0.000000+0          3          0         33          2999932151   22\n",
  c!" 6.670000+0 5.000000-1 1.500000-3 2.300000-2 0.000000+0 0.000000+0999932151   23\n",
  c!" 1.025000+1 1.500000+0 2.000000-6 2.300000-2 2.500000-1-1.250000-1999932151   24\n",
  c!" 1.000000-2 0.000000+0 0.000000+0 1.000000-3 0.000000+0 0.000000+0999932151   25\n",
  c!" 2.000000-2 0.000000+0 0.000000+0 1.000000-3 0.000000+0 3.000000-2999932151   26\n",
  c!" 0.000000+0 0.000000+0 1.000000-3 4.000000-2 0.000000+0 0.000000+0999932151   27\n",
  c!" 5.000000-2 0.000000+0 6.000000-2                                 999932151   28\n"]
def exBlockA : List Line := [c!" 0.000000+0 0.000000+0          3          0         12          1999932151   29\n",
  c!" 7.500000+0 2.000000+0 1.000000-1 1.000000-2 4.000000-2 2.000000-2999932151   30\n",
  c!" 1.000000-2 0.000000+0 0.000000+0 2.000000-2 0.000000+0 3.000000-2999932151   31\n"]
def exBlockB : List Line := [c!" 0.000000+0 0.000000+0          3          0         12          1999932151   32\n",
  c!" 2.500000-1 4.000000+0 7.000000-2 1.000000-2 4.000000-2 2.000000-2999932151   33\n",
  c!" 1.000000-2 0.000000+0 0.000000+0 2.000000-2 0.000000+0 3.000000-2999932151   34\n"]
def exCompact : List Line := [c!" 0.000000+0 0.000000+0          0          0         24          2999932151   35\n",
  c!" 7.500000+0 2.000000+0 1.000000-1 1.000000-2 4.000000-2 2.000000-2999932151   36\n",
  c!" 5.000000-1 0.000000+0 0.000000+0 1.000000-3 2.000000-3 0.000000+0999932151   37\n",
  c!" 2.500000-1 4.000000+0 7.000000-2 1.000000-2 4.000000-2 2.000000-2999932151   38\n",
  c!" 2.500000-1 0.000000+0 0.000000+0 3.000000-3 4.000000-3 0.000000+0999932151   39\n"]
def exIntgHead : Line := c!" 0.000000+0 0.000000+0          2          6          1          0999932151   40\n"
def exIntgLine : Line := "    4    1  50  0  0\n".toList
def exRmCompact : List Line := [c!" 0.000000+0 0.000000+0          0          0         24          2999932151   41\n",
  c!" 6.670000+0 5.000000-1 1.500000-3 2.300000-2 0.000000+0 0.000000+0999932151   42\n",
  c!" 5.000000-1 0.000000+0 1.000000-3 2.000000-3 3.000000-3 0.000000+0999932151   43\n",
  c!" 1.025000+1 1.500000+0 2.000000-6 2.300000-2 2.500000-1-1.250000-1999932151   44\n",
  c!" 2.500000-1 0.000000+0 3.000000-3 4.000000-3 5.000000-3 0.000000+0999932151   45\n"]
def exUneven : List Line := [c!" 0.000000+0 0.000000+0          0          0         24          2999932151   46\n",
  c!" 7.500000+0 2.000000+0 1.000000-1 1.000000-2 4.000000-2 2.000000-2999932151   47\n",
  c!" 5.000000-1 0.000000+0 0.000000+0 1.000000-3 2.000000-3 0.000000+0999932151   48\n",
  c!" 2.500000-1 4.000000+0 7.000000-2 1.000000-2 4.000000-2 2.000000-2999932151   49\n",
  c!" 2.500000-1 0.000000+0 0.000000+0 3.000000-3 4.000000-3 5.000000-3999932151   50\n"]
def exIntgHead7 : Line := c!" 0.000000+0 0.000000+0          2          7          1          0999932151   51\n"
def exIntgHead8 : Line := c!" 0.000000+0 0.000000+0          2          8          1          0999932151   52\n"
def exCompat : List Line := [c!" 2.330000+2 0.000000+0          0          0         36          2999932151   53\n",
  c!" 7.500000+0 2.000000+0 1.000000-1 1.000000-2 4.000000-2 2.000000-2999932151   54\n",
  c!" 5.000000-1 2.500000-1 1.250000-1 7.500000-1 6.250000-2 3.750000-1999932151   55\n",
  c!" 8.750000-1 0.000000+0 0.000000+0 0.000000+0 0.000000+0 0.000000+0999932151   56\n",
  c!" 2.500000-1 4.000000+0 7.000000-2 1.000000-2 4.000000-2 2.000000-2999932151   57\n",
  c!" 1.500000+0 1.250000+0 1.125000+0 1.750000+0 0.000000+0 0.000000+0999932151   58\n",
  c!" 0.000000+0 0.000000+0 0.000000+0 0.000000+0 0.000000+0 0.000000+0999932151   59\n"]
def exCompatA : List Line := [c!" 2.330000+2 0.000000+0          0          0         18          1999932151   60\n",
  c!" 7.500000+0 2.000000+0 1.000000-1 1.000000-2 4.000000-2 2.000000-2999932151   61\n",
  c!" 5.000000-1 2.500000-1 1.250000-1 7.500000-1 6.250000-2 3.750000-1999932151   62\n",
  c!" 8.750000-1 0.000000+0 0.000000+0 0.000000+0 0.000000+0 0.000000+0999932151   63\n"]
def exCompatB : List Line := [c!" 2.330000+2 0.000000+0          1          0         18          1999932151   64\n",
  c!" 2.500000-1 4.000000+0 7.000000-2 1.000000-2 4.000000-2 2.000000-2999932151   65\n",
  c!" 1.500000+0 1.250000+0 1.125000+0 1.750000+0 0.000000+0 0.000000+0999932151   66\n",
  c!" 0.000000+0 0.000000+0 0.000000+0 0.000000+0 0.000000+0 0.000000+0999932151   67\n"]

def exX : BwRow := ⟨15 / 2, 1, 2, 1 / 10, 1 / 100, 1 / 25, 1 / 50, 3 / 100⟩
def exY : BwRow := ⟨1 / 4, 0, 4, 7 / 100, 1 / 100, 1 / 25, 1 / 50, 0⟩
def exU : RmRow := ⟨667 / 100, 0, 1 / 2, 3 / 2000, 23 / 1000, 0, 0⟩
def exV : RmRow := ⟨41 / 4, 1, 3 / 2, 1 / 500000, 23 / 1000, 1 / 4, -1 / 8⟩

/-- File 2, with the resonances in the other order. -/
def exB : Bw := { Res.exBw with rows := [exY, exX] }
def exR : Rm := { Res.exRm with rows := [exU, exV] }

def exS (i j : Nat) : ℚ := if i = j then ((i : ℚ) + 1) / 100 else if i + 3 = j then 1 / 1000 else if j + 3 = i then 1 / 1000 else 0

theorem exB_from : FromFile2Bw [exX, exY] exB.rows :=
  ⟨by norm_num [exB, exX, exY], List.Perm.swap _ _ _, by
    intro r hr p hp he
    simp only [exB, List.mem_cons, List.not_mem_nil, or_false] at hr hp
    rcases hr with rfl | rfl <;> rcases hp with rfl | rfl <;> first | exact ⟨rfl, rfl⟩ | (norm_num [exX, exY] at he)⟩

theorem exR_from : FromFile2Rm [exU, exV] exR.rows :=
  ⟨by norm_num [exR, exU, exV], List.Perm.refl _, by
    intro r hr p hp he
    simp only [exR, List.mem_cons, List.not_mem_nil, or_false] at hr hp
    rcases hr with rfl | rfl <;> rcases hp with rfl | rfl <;> first | rfl | (norm_num [exU, exV] at he)⟩

theorem exBegin1_ok (items : Cont) (h : items.n1 = 0) : Begin items 1 2 [exBegin1] :=
  ⟨[], none, exBegin1, ⟨7 / 2, 24 / 25, 0, 1, 2, 0⟩, rfl, h ▸ .none, contLine_of (by decide +kernel), rfl, rfl⟩

theorem exBegin2_ok (items : Cont) (h : items.n1 = 0) : Begin items 2 2 [exBegin2] :=
  ⟨[], none, exBegin2, ⟨7 / 2, 24 / 25, 0, 2, 2, 0⟩, rfl, h ▸ .none, contLine_of (by decide +kernel), rfl, rfl⟩

theorem exBegin0_ok (items : Cont) (h : items.n1 = 0) : Begin items 0 1 [exBegin0] :=
  ⟨[], none, exBegin0, ⟨7 / 2, 24 / 25, 0, 0, 1, 0⟩, rfl, h ▸ .none, contLine_of (by decide +kernel), rfl, rfl⟩

theorem exBegin02_ok (items : Cont) (h : items.n1 = 0) : Begin items 0 2 [exBegin02] :=
  ⟨[], none, exBegin02, ⟨7 / 2, 24 / 25, 0, 0, 2, 0⟩, rfl, h ▸ .none, contLine_of (by decide +kernel), rfl, rfl⟩

def exItems : Cont := ⟨1 / 100000, 100, 1, 2, 0, 0⟩
def exRItems : Cont := ⟨100, 500, 1, 3, 0, 0⟩

/-! ### LCOMP = 1 -/

theorem exGeneral : General sixBw [exX, exY] 3 exS (exNsrs :: exBlock) :=
  ⟨exNsrs, ⟨0, 0, 0, 0, 1, 0⟩, ⟨0, 0, 3, 0, 33, 2⟩, exBlock, rfl, contLine_of (by decide +kernel), rfl, listRec_of (by decide +kernel), rfl, rfl⟩

theorem exRGeneral : General sixRm [exU, exV] 3 exS (exNsrs :: exRmBlock) :=
  ⟨exNsrs, ⟨0, 0, 0, 0, 1, 0⟩, ⟨0, 0, 3, 0, 33, 2⟩, exRmBlock, rfl, contLine_of (by decide +kernel), rfl, listRec_of (by decide +kernel), rfl, rfl⟩

example (rest : List Line) : ∃ r, readCov bwFmt exItems (.bw exB) ([exBegin1] ++ ((exNsrs :: exBlock) ++ rest)) = .ok (r, rest) ∧ r.cov.val 0 3 = 1 / 1000 ∧ r.cov.val 3 0 = 0 := by
  obtain ⟨r, e, _, _, _, _, _, _, _, _, h⟩ := C149_breit_wigner_partial exItems exB _ 3 exS 2 _ _ rest (exBegin1_ok exItems rfl) exGeneral (by simp) exB_from
  exact ⟨r, e, by rw [h 0 3 (by simp)]; simp [exS], by rw [h 3 0 (by simp)]; simp⟩

example (rest : List Line) : ∃ r, readCov rmFmt exRItems (.rm exR) ([exBegin1] ++ ((exNsrs :: exRmBlock) ++ rest)) = .ok (r, rest) ∧ r.mpar = 3 := by
  obtain ⟨r, e, _, _, _, h, _⟩ := C149_reich_moore_partial exRItems exR _ 3 exS 2 _ _ rest (exBegin1_ok exRItems rfl) exRGeneral (by simp) exR_from
  exact ⟨r, e, h⟩

theorem exGeneral2 : General2 [exX] [exY] 3 3 exS exS (exNsrs2 :: (exBlockA ++ exBlockB)) :=
  ⟨exNsrs2, ⟨0, 0, 0, 0, 2, 0⟩, ⟨0, 0, 3, 0, 12, 1⟩, ⟨0, 0, 3, 0, 12, 1⟩, exBlockA, exBlockB, rfl, contLine_of (by decide +kernel), rfl, listRec_of (by decide +kernel), rfl, rfl,
    listRec_of (by decide +kernel), rfl, rfl⟩

example (rest : List Line) : ∃ r, readCov bwFmt exItems (.bw exB) ([exBegin1] ++ ((exNsrs2 :: (exBlockA ++ exBlockB)) ++ rest)) = .ok (r, rest) ∧ r.cov.n = 3 := by
  obtain ⟨r, e, _, h, _⟩ := C149_blocks_refuted exItems exB _ _ 3 exS exS 2 _ _ rest (exBegin1_ok exItems rfl) exGeneral2 (by simp) (by decide) exB_from
  exact ⟨r, e, by simpa using h⟩

/-! ### LCOMP = 2 -/

theorem exCompact_ok : Compact CompactBw [exX, exY] [[1 / 2, 1 / 1000, 1 / 500], [1 / 4, 3 / 1000, 1 / 250]] exCompact :=
  ⟨⟨0, 0, 0, 0, 24, 2⟩, [([15 / 2, 2, 1 / 10, 1 / 100, 1 / 25, 1 / 50, 1 / 2, 0, 0, 1 / 1000, 1 / 500, 0], [1 / 2, 1 / 1000, 1 / 500]),
    ([1 / 4, 4, 7 / 100, 1 / 100, 1 / 25, 1 / 50, 1 / 4, 0, 0, 3 / 1000, 1 / 250, 0], [1 / 4, 3 / 1000, 1 / 250])], listRec_of (by decide +kernel), rfl, rfl,
    .cons (.three exX _ _ _) (.cons (.three exY _ _ _) .nil)⟩

theorem exRmCompact_ok : Compact CompactRm [exU, exV] [[1 / 2, 1 / 1000, 1 / 500, 3 / 1000], [1 / 4, 3 / 1000, 1 / 250, 1 / 200]] exRmCompact :=
  ⟨⟨0, 0, 0, 0, 24, 2⟩, [([667 / 100, 1 / 2, 3 / 2000, 23 / 1000, 0, 0, 1 / 2, 0, 1 / 1000, 1 / 500, 3 / 1000, 0], [1 / 2, 1 / 1000, 1 / 500, 3 / 1000]),
    ([41 / 4, 3 / 2, 1 / 500000, 23 / 1000, 1 / 4, -1 / 8, 1 / 4, 0, 3 / 1000, 1 / 250, 1 / 200, 0], [1 / 4, 3 / 1000, 1 / 250, 1 / 200])], listRec_of (by decide +kernel), rfl, rfl,
    .cons (.four exU _ _ _ _ (by norm_num) (by norm_num) (by norm_num) (by norm_num)) (.cons (.four exV _ _ _ _ (by norm_num) (by norm_num) (by norm_num) (by norm_num)) .nil)⟩

theorem exIntg_line (n : Nat) (hn : 4 ≤ n) : IntgLine n 2 4 1 50 exIntgLine := by
  refine ⟨by decide +kernel, by decide +kernel, by decide, by decide, by exact_mod_cast hn, by decide, by decide +kernel, ?_⟩
  intro j hj hlt
  have : j = 1 ∨ j = 2 := by omega
  rcases this with rfl | rfl <;> decide +kernel

theorem exIntg_ok (rest : List Line) : ∃ m : Mat 6, getIntg ([exIntgHead, exIntgLine] ++ rest) = .ok ⟨6, m, rest⟩ ∧ m 3 0 = corrOf 2 50 ∧ ∀ a b, m a b = m b a := by
  obtain ⟨m, h1, _, h3, h4, _⟩ := C73_single_partial exIntgHead ⟨0, 0, 2, 6, 1, 0⟩ (contLine_of (by decide +kernel)) 6 18 rfl rfl [(4, 1, 50)] [exIntgLine] rest rfl
    (.cons (exIntg_line 6 (by decide)) .nil) (by simp)
  exact ⟨m, h1, h4 (4, 1, 50) (by simp) 3 0 rfl rfl, h3⟩

theorem exIntg8_ok (rest : List Line) : ∃ m : Mat 8, getIntg ([exIntgHead8, exIntgLine] ++ rest) = .ok ⟨8, m, rest⟩ := by
  obtain ⟨m, h1, _⟩ := C73_single_partial exIntgHead8 ⟨0, 0, 2, 8, 1, 0⟩ (contLine_of (by decide +kernel)) 8 18 rfl rfl [(4, 1, 50)] [exIntgLine] rest rfl
    (.cons (exIntg_line 8 (by decide)) .nil) (by simp)
  exact ⟨m, h1⟩

theorem exCompact_read (rest : List Line) : ∃ (m : Mat 6) (r : CovRange BwRow), readCov bwFmt exItems (.bw exB) ([exBegin2] ++ (exCompact ++ ([exIntgHead, exIntgLine] ++ rest))) = .ok (r, rest) ∧
    r.mpar = 3 ∧ r.rows = [exX, exY] ∧ r.cov.n = 6 ∧ (∀ a b, m a b = m b a) ∧ ∀ p q : Fin 6, ∃ x y, [1 / 2, 1 / 1000, 1 / 500, 1 / 4, 3 / 1000, (1 / 250 : ℚ)][p.val]? = some x ∧
      [1 / 2, 1 / 1000, 1 / 500, 1 / 4, 3 / 1000, (1 / 250 : ℚ)][q.val]? = some y ∧ r.cov.val p q = x * m p q * y := by
  obtain ⟨m, h1, _, h3⟩ := exIntg_ok rest
  obtain ⟨r, e, _, _, e3, e4, _, _, _, e7, e8⟩ := C150_breit_wigner_partial exItems exB _ _ 3 2 _ _ _ rest (exBegin2_ok exItems rfl) exCompact_ok (by simp) m h1 (by simp) exB_from
  exact ⟨m, r, e, e4, e3, e7, h3, e8⟩

example (rest : List Line) : ∃ r, readCov rmFmt exRItems (.rm exR) ([exBegin2] ++ (exRmCompact ++ ([exIntgHead8, exIntgLine] ++ rest))) = .ok (r, rest) ∧ r.mpar = 4 := by
  obtain ⟨m, h1⟩ := exIntg8_ok rest
  obtain ⟨r, e, _, _, _, e4, _⟩ := C150_reich_moore_partial exRItems exR _ _ 4 2 _ _ _ rest (exBegin2_ok exRItems rfl) exRmCompact_ok (by simp) m h1 (by simp) exR_from
  exact ⟨r, e, e4⟩

/-- Only the second resonance has an uncertainty of its fission width. -/
theorem exUneven_ok : Compact CompactBw [exX, exY] [[1 / 2, 1 / 1000, 1 / 500], [1 / 4, 3 / 1000, 1 / 250, 1 / 200]] exUneven :=
  ⟨⟨0, 0, 0, 0, 24, 2⟩, [([15 / 2, 2, 1 / 10, 1 / 100, 1 / 25, 1 / 50, 1 / 2, 0, 0, 1 / 1000, 1 / 500, 0], [1 / 2, 1 / 1000, 1 / 500]),
    ([1 / 4, 4, 7 / 100, 1 / 100, 1 / 25, 1 / 50, 1 / 4, 0, 0, 3 / 1000, 1 / 250, 1 / 200], [1 / 4, 3 / 1000, 1 / 250, 1 / 200])], listRec_of (by decide +kernel), rfl, rfl,
    .cons (.three exX _ _ _) (.cons (.four exY _ _ _ _ (by norm_num)) .nil)⟩

example (rest : List Line) : ∃ r, readCov bwFmt exItems (.bw exB) ([exBegin2] ++ (exUneven ++ ([exIntgHead7, exIntgLine] ++ rest))) = .ok (r, rest) ∧
    sampleCall bwFmt r = .error .valueError := by
  obtain ⟨m, h1, _⟩ := C73_single_partial exIntgHead7 ⟨0, 0, 2, 7, 1, 0⟩ (contLine_of (by decide +kernel)) 7 18 rfl rfl [(4, 1, 50)] [exIntgLine] rest rfl
    (.cons (exIntg_line 7 (by decide)) .nil) (by simp)
  exact C150_uneven_refuted exItems exB _ _ 7 2 _ _ _ rest (exBegin2_ok exItems rfl) exUneven_ok (by simp) m h1 (by simp) exB_from (by decide)

/-- What is read with LCOMP = 2 meets the hypotheses of C152_compact_refuted. -/
example : ∃ r : CovRange BwRow, (∃ ls, readCov bwFmt exItems (.bw exB) ls = .ok (r, [])) ∧
    ∃ mean m, sampleCall bwFmt r = .ok (mean, m) ∧ ∀ i j, i < 6 → j < 6 → i ≠ j → m.val i j = 2 * r.cov.val i j := by
  obtain ⟨m, r, e, e4, e3, e7, h3, e8⟩ := exCompact_read []
  obtain ⟨mean, m', h1, _, h2⟩ := C152_compact_refuted bwFmt (fun _ => rfl) r (by omega) (by rw [e7, e4, e3]; rfl) (by
    intro i j hi hj
    rw [e7] at hi hj
    obtain ⟨x, y, a1, a2, a3⟩ := e8 ⟨i, hi⟩ ⟨j, hj⟩
    obtain ⟨x', y', b1, b2, b3⟩ := e8 ⟨j, hj⟩ ⟨i, hi⟩
    simp only at a1 a2 a3 b1 b2 b3
    rw [a1] at b2
    rw [a2] at b1
    cases b1
    cases b2
    rw [a3, b3, h3]
    ring)
  rw [e7] at h2
  exact ⟨r, ⟨_, e⟩, mean, m', h1, h2⟩

/-! ### LCOMP = 0 -/

def exVx : Vars := ⟨1 / 2, 1 / 4, 1 / 8, 3 / 4, 1 / 16, 3 / 8, 7 / 8⟩
def exVy : Vars := ⟨3 / 2, 5 / 4, 9 / 8, 7 / 4, 0, 0, 0⟩

theorem exCompat_ok : CompatL [(exX, exVx), (exY, exVy)] exCompat :=
  ⟨⟨233, 0, 0, 0, 36, 2⟩, [[15 / 2, 2, 1 / 10, 1 / 100, 1 / 25, 1 / 50, 1 / 2, 1 / 4, 1 / 8, 3 / 4, 1 / 16, 3 / 8, 7 / 8, 0, 0, 0, 0, 0],
    [1 / 4, 4, 7 / 100, 1 / 100, 1 / 25, 1 / 50, 3 / 2, 5 / 4, 9 / 8, 7 / 4, 0, 0, 0, 0, 0, 0, 0, 0]], listRec_of (by decide +kernel), rfl,
    .cons ⟨0, 0, 0, 0, 0, rfl⟩ (.cons ⟨0, 0, 0, 0, 0, rfl⟩ .nil)⟩

theorem exCompatA_ok : CompatL [(exX, exVx)] exCompatA :=
  ⟨⟨233, 0, 0, 0, 18, 1⟩, [[15 / 2, 2, 1 / 10, 1 / 100, 1 / 25, 1 / 50, 1 / 2, 1 / 4, 1 / 8, 3 / 4, 1 / 16, 3 / 8, 7 / 8, 0, 0, 0, 0, 0]], listRec_of (by decide +kernel), rfl,
    .cons ⟨0, 0, 0, 0, 0, rfl⟩ .nil⟩

theorem exCompatB_ok : CompatL [(exY, exVy)] exCompatB :=
  ⟨⟨233, 0, 1, 0, 18, 1⟩, [[1 / 4, 4, 7 / 100, 1 / 100, 1 / 25, 1 / 50, 3 / 2, 5 / 4, 9 / 8, 7 / 4, 0, 0, 0, 0, 0, 0, 0, 0]], listRec_of (by decide +kernel), rfl,
    .cons ⟨0, 0, 0, 0, 0, rfl⟩ .nil⟩

example (rest : List Line) : ∃ r, readCov bwFmt exItems (.bw exB) ([exBegin0] ++ (exCompat ++ rest)) = .ok (r, rest) ∧ r.cov.val 5 5 = 5 / 4 := by
  obtain ⟨r, e, _, _, _, _, _, _, _, _, h, _⟩ := C151_compatible_partial exItems exB _ _ _ rest (exBegin0_ok exItems rfl) exCompat_ok (by simp) exB_from
  exact ⟨r, e, by simpa [Vars.cov, exVy] using h 1 (exY, exVy) rfl 1 1 (by decide) (by decide)⟩

example (rest : List Line) : ∃ r, readCov bwFmt exItems (.bw exB) ([exBegin0] ++ (exCompat ++ rest)) = .ok (r, rest) ∧ r.cov.val 5 6 = 0 := by
  obtain ⟨r, e, h, _⟩ := C151_covariance_refuted exItems exB _ _ _ rest (exBegin0_ok exItems rfl) exCompat_ok (by simp) exB_from 1 (exY, exVy) rfl (by norm_num [exVy])
  exact ⟨r, e, h⟩

example (rest : List Line) : readCov bwFmt exItems (.bw exB) ([exBegin02] ++ (exCompatA ++ (exCompatB ++ rest))) = .error .indexError :=
  C151_second_refuted exItems exB _ _ 2 (by decide) _ _ _ rest (exBegin02_ok exItems rfl) exCompatA_ok exCompatB_ok (by simp) (by simp)

example (rest : List Line) : readCov rmFmt exRItems (.rm exR) ([exBegin0] ++ rest) = .error .unboundLocal :=
  C151_reich_moore_refuted exRItems _ 1 _ rest (exBegin0_ok exRItems rfl)

/-! ### Sampling -/

/-- What is read with LCOMP = 1. -/
def exRange : CovRange BwRow := ⟨1 / 100000, 100, [exX, exY], ⟨6, fun i j => if i ≤ j ∧ j < 6 then exS i j else 0⟩, 3, 1, .bw exB, [(0, exY), (1, exX)]⟩
def exRmRange : CovRange RmRow := ⟨100, 500, [exU, exV], ⟨6, fun i j => if i ≤ j ∧ j < 6 then exS i j else 0⟩, 3, 1, .rm exR, [(0, exU), (1, exV)]⟩

theorem exS_symm (i j : Nat) : exS i j = exS j i := by
  unfold exS
  by_cases h : i = j
  · rw [h]
  · rw [if_neg h, if_neg (Ne.symm h)]
    split_ifs <;> rfl

/-- Two draws. -/
def exNormal (mean : List ℚ) (c : Cov) : List (List ℚ) := [(List.range c.n).map fun i => mean.getD i 0 + c.val i i, (List.range c.n).map fun i => mean.getD i 0 - c.val i i]

theorem exNormal_len (mean : List ℚ) (c : Cov) : ∀ s ∈ exNormal mean c, s.length = c.n := by
  intro s hs
  simp only [exNormal, List.mem_cons, List.not_mem_nil, or_false] at hs
  rcases hs with rfl | rfl <;> simp

example : ∃ m, sampleCall bwFmt exRange = .ok ([15 / 2, 1 / 100, 1 / 25, 1 / 4, 1 / 100, 1 / 25], m) ∧ m.val 3 0 = 1 / 1000 := by
  obtain ⟨m, h1, h2, h3⟩ := C152_call_partial exRange exS exS_symm (by decide) rfl (fun i j hj => by
    have : j < 6 := hj
    simp [exRange, this])
  refine ⟨m, h1, ?_⟩
  rw [h3 3 0 (by rw [h2]; decide) (by rw [h2]; decide)]
  simp [exS]

example : ∃ m, sampleCall rmFmt exRmRange = .ok ([667 / 100, 3 / 2000, 23 / 1000, 41 / 4, 1 / 500000, 23 / 1000], m) := by
  obtain ⟨m, h1, _⟩ := C152_call_rm_partial exRmRange exS exS_symm (by decide) rfl (fun i j hj => by
    have : j < 6 := hj
    simp [exRmRange, this])
  exact ⟨m, h1⟩

example : ∃ out, sample bwFmt decodeBw exNormal exRange = .ok out ∧ out.length = 2 := by
  obtain ⟨_, _, out, _, h, h2⟩ := C152_breit_wigner_partial exNormal exNormal_len exRange exB rfl (Or.inl rfl) rfl
  exact ⟨out, h, h2.length_eq.symm⟩

example : ∃ out, sample rmFmt decodeRm exNormal exRmRange = .ok out ∧ out.length = 2 := by
  obtain ⟨_, _, out, _, h, h2⟩ := C152_reich_moore_partial exNormal exNormal_len exRmRange exR rfl (Or.inl rfl) rfl
  exact ⟨out, h, h2.length_eq.symm⟩

example : sample rmFmt decodeRm exNormal { exRmRange with cov := ⟨8, fun i j => if i = j then 1 else 0⟩, mpar := 4 } = .error .indexError :=
  C152_reich_moore_refuted exNormal exNormal_len (by simp [exNormal]) _ (Or.inr (Or.inr rfl)) rfl (by simp [exRmRange])

/-! ### Subsets -/

example : ∃ r', subset rmFmt (·.energy) 10 20 exRmRange = .ok r' ∧ r'.cov.n = 3 * r'.rows.length := by
  obtain ⟨idx, r', _, h, _, _, _, _, _, _, h2, _⟩ := C153_subset_partial rmFmt (·.energy) 10 20 exRmRange rfl rfl
  exact ⟨r', h, h2⟩

example : ∃ r', subset bwFmt (·.energy) 5 10 exRange = .ok r' ∧ r'.rows = [exX] ∧ exRange.rows[0]? = some exX ∧ r'.cov.n = 3 ∧ r'.cov.val 0 0 = exRange.cov.val 3 3 ∧
    exRange.cov.val 0 0 ≠ exRange.cov.val 3 3 := by
  obtain ⟨r', h1, h2, h3, h4, h5⟩ := C153_order_refuted (·.energy) 5 10 exRange exY exX (by norm_num [exY]) (by norm_num [exX]) rfl rfl (by decide) rfl
  exact ⟨r', h1, h2, h3, h4, h5, by norm_num [exRange, exS]⟩

example : ∃ r', subset rmFmt (·.energy) 10 20 exRmRange = .ok r' ∧ subset rmFmt (·.energy) 10 20 r' = .error .indexError :=
  C153_again_refuted rmFmt (·.energy) 10 20 exRmRange rfl rfl (by decide) 0 1 exU exV (by decide) rfl rfl (by norm_num [exU]) (by norm_num [exV])

/-! ### The section -/

theorem exRange_lines : RangeLines (.bw exB) (exBwItems :: ([exBegin1] ++ (exNsrs :: exBlock))) (.bw true exRange) :=
  .bw exB exItems exBwItems true [exX, exY] 3 exS 2 _ _ exRange (contLine_of (by decide +kernel)) rfl rfl (exBegin1_ok exItems rfl) exGeneral (by simp) exB_from rfl rfl rfl rfl rfl
    rfl rfl rfl

theorem exRmRange_lines : RangeLines (.rm exR) (exRmItems :: ([exBegin1] ++ (exNsrs :: exRmBlock))) (.rm exRmRange) :=
  .rm exR exRItems exRmItems [exU, exV] 3 exS 2 _ _ exRmRange (contLine_of (by decide +kernel)) rfl rfl (exBegin1_ok exRItems rfl) exRGeneral (by simp) exR_from rfl rfl rfl rfl rfl
    rfl rfl rfl

/-- A section with two resolved ranges and an unresolved one. -/
example (tail : List Line) : ∃ ls, fromEndf [.bw exB, .rm exR] (exHead :: exIso :: ls ++ (exUnrItems :: tail)) = .ok [.bw true exRange, .rm exRmRange] := by
  have := C154_section_partial [.bw exB, .rm exR] [(_, _, _), (_, _, _)] (some (exUnrItems, ⟨500, 2000, 2, 1, 0, 0⟩)) _
    ⟨exHead, exIso, ⟨92235, 1165124 / 5000, 0, 0, 1, 0⟩, ⟨92235, 1, 0, 0, 3, 0⟩, tail, rfl, headLine_of (by decide +kernel) (by decide), rfl, contLine_of (by decide +kernel), rfl, by
      intro p hp
      simp only [List.mem_cons, List.not_mem_nil, or_false] at hp
      rcases hp with rfl | rfl
      · exact exRange_lines
      · exact exRmRange_lines, by
      intro u hu
      cases hu
      exact ⟨contLine_of (by decide +kernel), rfl, Or.inl rfl⟩⟩ (by
    intro i p hp
    match i, hp with
    | 0, hp => cases hp; rfl
    | 1, hp => cases hp; rfl
    | i + 2, hp => simp at hp)
  refine ⟨(exBwItems :: ([exBegin1] ++ (exNsrs :: exBlock))) ++ (exRmItems :: ([exBegin1] ++ (exNsrs :: exRmBlock))), ?_⟩
  simpa using this

/-- A range with LCOMP = 2. -/
example : ∃ ls r, RangeLines (.bw exB) ls (.bw true r) ∧ r.lcomp = 2 := by
  have hm : ∃ m : Mat 6, ∀ rest, getIntg ([exIntgHead, exIntgLine] ++ rest) = .ok ⟨6, m, rest⟩ := by
    obtain ⟨m, h1, d, s, v, z⟩ := C73_single_partial exIntgHead ⟨0, 0, 2, 6, 1, 0⟩ (contLine_of (by decide +kernel)) 6 18 rfl rfl [(4, 1, 50)] [exIntgLine] [] rfl
      (.cons (exIntg_line 6 (by decide)) .nil) (by simp)
    refine ⟨m, fun rest => ?_⟩
    obtain ⟨m', h1', d', s', v', z'⟩ := C73_single_partial exIntgHead ⟨0, 0, 2, 6, 1, 0⟩ (contLine_of (by decide +kernel)) 6 18 rfl rfl [(4, 1, 50)] [exIntgLine] rest rfl
      (.cons (exIntg_line 6 (by decide)) .nil) (by simp)
    have : m' = m := by
      have hlt : ∀ a b : Fin 6, b < a → m' a b = m a b := by
        intro a b hab
        by_cases h : (a.val : Int) = 3 ∧ (b.val : Int) = 0
        · rw [v (4, 1, 50) (by simp) a b h.1 h.2, v' (4, 1, 50) (by simp) a b h.1 h.2]
        · rw [z a b hab (by simpa using h), z' a b hab (by simpa using h)]
      funext a b
      rcases lt_trichotomy a b with h | rfl | h
      · rw [s', s, hlt b a h]
      · rw [d, d']
      · exact hlt a b h
    rw [← this]
    exact h1'
  obtain ⟨m, hm⟩ := hm
  exact ⟨_, ⟨1 / 100000, 100, [exX, exY], _, 3, 2, .bw exB, [(0, exY), (1, exX)]⟩, .bwCompact exB exItems exBwItems true [exX, exY] _ 3 m 2 _ _ _ _ (contLine_of (by decide +kernel)) rfl rfl
    (exBegin2_ok exItems rfl) exCompact_ok (by simp) hm (by simp) exB_from rfl rfl rfl rfl rfl rfl rfl rfl, rfl⟩

/-- The same range in two isotopes. -/
example (rest : List Line) : ∃ ls out, fromEndf [.bw exB, .bw { exB with rows := [exX, exY] }] ls = .ok out ∧ out.map Any.file2 = [.bw exB, .bw exB] := by
  obtain ⟨out, h1, h2⟩ := C154_isotope_refuted (.bw exB) (.bw { exB with rows := [exX, exY] }) _ _ exHead2 exIso1 exIso1 ⟨92235, 1165124 / 5000, 0, 0, 2, 0⟩ ⟨92235, 1 / 2, 0, 0, 1, 0⟩
    ⟨92235, 1 / 2, 0, 0, 1, 0⟩ _ _ rest (headLine_of (by decide +kernel) (by decide)) rfl (contLine_of (by decide +kernel)) rfl (contLine_of (by decide +kernel)) rfl exRange_lines
    exRange_lines
  exact ⟨_, out, h1, h2⟩

def exB1 : Bw := { exB with rows := [exX] }

theorem exGeneral1 : General sixBw [exX] 3 exS (exNsrs :: exBlockA) :=
  ⟨exNsrs, ⟨0, 0, 0, 0, 1, 0⟩, ⟨0, 0, 3, 0, 12, 1⟩, exBlockA, rfl, contLine_of (by decide +kernel), rfl, listRec_of (by decide +kernel), rfl, rfl⟩

theorem exB1_from : FromFile2Bw [exX] exB1.rows :=
  ⟨by simp [exB1], List.Perm.refl _, by
    intro r hr p hp he
    simp only [exB1, List.mem_cons, List.not_mem_nil, or_false] at hr hp
    rw [hr, hp]
    exact ⟨rfl, rfl⟩⟩

example (rest : List Line) : ∃ ls, fromEndf [.bw exB, .bw exB1] (ls ++ rest) = .error .valueError := by
  have := C154_second_refuted exB exB1 _ exHead2 exIso1 exIso1 exBwItems ⟨92235, 1165124 / 5000, 0, 0, 2, 0⟩ ⟨92235, 1 / 2, 0, 0, 1, 0⟩ ⟨92235, 1 / 2, 0, 0, 1, 0⟩ exItems [exX] 3
    exS 2 _ _ _ rest (headLine_of (by decide +kernel) (by decide)) rfl (contLine_of (by decide +kernel)) rfl (contLine_of (by decide +kernel)) rfl exRange_lines
    (contLine_of (by decide +kernel)) rfl rfl (exBegin1_ok exItems rfl) exGeneral1 (by simp) exB1_from (by decide)
  refine ⟨exHead2 :: exIso1 :: ((exBwItems :: ([exBegin1] ++ (exNsrs :: exBlock))) ++ (exIso1 :: exBwItems :: ([exBegin1] ++ (exNsrs :: exBlockA)))), ?_⟩
  simpa using this

example (rest : List Line) : fromEndf [.bw exB] (exHead :: exIso1 :: ex7Items :: rest) = .error .runtimeError :=
  C154_formalism_refuted _ _ _ _ ⟨92235, 1165124 / 5000, 0, 0, 1, 0⟩ ⟨92235, 1 / 2, 0, 0, 1, 0⟩ ⟨500, 2000, 1, 7, 0, 0⟩ rest (headLine_of (by decide +kernel) (by decide)) (by decide)
    (contLine_of (by decide +kernel)) (by decide) (contLine_of (by decide +kernel)) rfl

end ASAPy.ResCov
