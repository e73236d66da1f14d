import Verif.CovRun.FromFile
import Verif.Boxer2Mat.ProgProps
import Verif.CovCorr.Props

/-!
# C229: boxer2mat from the text of its input and of the BOXER file, and the covariance program with it
-/

namespace ASAPy.CovRun
open ASAPy.Store
open ASAPy.Files (FS Path Text Prog NjoyMakes BoxerMakes Clean)
open ASAPy.Boxer (Fld)

/-! ### Specification -/

/-- The correlation and the table of standard deviations of a reaction in the store, from the highest group to the lowest: the bounds, the cross sections, the relative and absolute deviations (fixed small
ones where the cross section is zero), and the correlations if the covariances are those of something. -/
structure Kept (corr : Corr) (rows : List Row) (n : Nat) (e x s : Nat → ℚ) (v : Nat → Nat → ℚ) : Prop where
  labels : corr.index = List.range' 1 n ∧ corr.columns = List.range' 1 n ∧ rows.map Row.label = List.range' 1 n
  shape : corr.values.length = n ∧ ∀ r ∈ corr.values, r.length = n
  bounds : ∀ i, i < n → rows[i]?.map (fun r => (r.hi, r.lo)) = some (e (n + 1 - i), e (n - i))
  values : ∀ i, i < n → x (n - i) ≠ 0 → rows[i]?.map (fun r => ((r.xs1, r.xs2), (r.sd1, r.sd2), r.rel1, r.rel2)) =
    some ((x (n - i), x (n - i)), (s (n - i) * x (n - i), s (n - i) * x (n - i)), .fin (s (n - i)), .fin (s (n - i)))
  zeros : ∀ i, i < n → x (n - i) = 0 → rows[i]?.map (fun r => ((r.xs1, r.xs2), (r.sd1, r.sd2), r.rel1, r.rel2)) =
    some ((0, 0), (1 / 10 ^ 7, 1 / 10 ^ 7), .fin (1 / 10 ^ 7), .fin (1 / 10 ^ 7))
  correlations : (∀ i j, 1 ≤ i → i ≤ n → 1 ≤ j → j ≤ n → v i j = v j i) → (∀ i, 1 ≤ i → i ≤ n → 0 < v i i) →
    (∀ i j, 1 ≤ i → i ≤ n → 1 ≤ j → j ≤ n → v i j ^ 2 ≤ v i i * v j j) → ∀ i j, i < n → j < n →
    ∃ c : ℝ, corr.values[i]?.bind (·[j]?) = some (.fin c) ∧ c * √(v (n - i) (n - i) : ℝ) * √(v (n - j) (n - j) : ℝ) = v (n - i) (n - j)

/-! ### boxer2mat -/

theorem asks_read {com : Text} {mat mt : Nat} (h : Asks com mat mt) (hmat : mat < 10 ^ 5) (hmt : mt < 10 ^ 5) :
    (Boxr.linesOf com).map Boxr.readReq = (Boxr.template mat mt).map some := by
  have e : com = (([[0, mat, mt, mat, mt], [1, mat, mt, mat, mt], [2, mat, mt, mat, mt], [3, mat, mt, mat, mt], [0, 0]].map
      fun r => List.intercalate [','] (r.map Dec.natStr)).map (· ++ ['\n'])).flatten := by
    rw [List.map_map]
    exact h
  rw [e, Boxr.linesOf_flatten (by
    intro b hb
    obtain ⟨r, -, rfl⟩ := List.mem_map.1 hb
    exact Boxr.row_plain r)]
  have hr : ∀ k, k < 4 → Boxr.readReq (List.intercalate [','] ([k, mat, mt, mat, mt].map Dec.natStr)) = some ⟨k, mat, mt, mat, mt⟩ := by
    intro k hk
    refine Boxr.readReq_row k mat mt mat mt fun m hm => ?_
    simp only [List.mem_cons, List.not_mem_nil, or_false] at hm
    rcases hm with rfl | rfl | rfl | rfl | rfl <;> omega
  simp only [List.map_cons, List.map_nil, Boxr.template] at hr ⊢
  rw [hr 0 (by decide), hr 1 (by decide), hr 2 (by decide), hr 3 (by decide)]
  have := Boxr.readReq_end
  simp only [List.map_cons, List.map_nil] at this
  rw [this]

/-- **C229.** If the text of the BOXER file tells the data of a reaction, boxer2mat with the input that ASAPy gives it ends normally, and ASAPy reads what it writes as these data, as they are printed, from the
highest group to the lowest. -/
theorem C229_read_back (prt : ℚ → Fld) {com t : Text} {mat mt n : Nat} {e x s : Nat → ℚ} {v : Nat → Nat → ℚ} (hcom : Asks com mat mt) (h0 : mat ≠ 0) (hmat : mat < 10 ^ 5) (hmt : mt < 10 ^ 5)
    (ht : Boxr.Tells t mat mt n e x s v) :
    ∃ m d, Boxr.matrixOf prt com t = some m ∧ (Boxr.answerTo prt com t).2 = 0 ∧ Boxer.readFile (Str.readlines m) = .ok d ∧
      d.bounds = (List.range (n + 1)).map (fun k => (prt (e (n + 1 - k))).value) ∧ d.xsec = (List.range n).map (fun k => (prt (x (n - k))).value) ∧
      d.stdDev = (List.range n).map (fun k => (prt (s (n - k))).value * (prt (x (n - k))).value) ∧ d.cov.length = n ∧
      ∀ k l, k < n → l < n → d.cov[k]?.bind (·[l]?) = some (prt (v (n - k) (n - l))).value := by
  obtain ⟨ps, hps, o0, o1, o2, o3, ps0, ps1, ps2, ps3, rest, p0, p1, p2, p3, t0, t1, t2, t3, rfl, a0, a1, a2, a3, d0, d1, d2, d3, hsym⟩ := ht
  obtain ⟨m0, m1, m2, m3, out, d, x0, x1, x2, x3, xs, hb, hr, g1, g2, g3, g4, g5⟩ := Boxr.C64_read_back prt mat mt n h0 (fun _ _ => 0) o0 o1 o2 o3 ps0 ps1 ps2 ps3 rest p0 p1 p2 p3 t0 t1 t2 t3 a0 a1 a2 a3
  have hans : Boxr.answerTo prt com t = (out, 0) := by
    unfold Boxr.answerTo
    rw [Boxr.boxrText_ok prt _ _ (asks_read hcom hmat hmt) _ hps]
    exact hb
  have hout : out ≠ [] := by
    rintro rfl
    rw [show Boxer.readFile [] = .error .exception from rfl] at hr
    cases hr
  have hprop := Boxr.boxr_proper prt (Boxr.template mat mt) (fun _ _ => 0) (Boxr.tape_titles hps (Boxr.linesOf_plain t))
  rw [hb] at hprop
  have hcol : ∀ {r : Boxr.Req} {k : Nat} {o : List (Boxr.Page ℚ)} {p : Boxr.Page ℚ} {q : List (Boxr.Page ℚ)} {tt : List (List (Option ℚ))} {m m' : Nat → Nat → ℚ}, Boxr.Answer r k 1 o p q tt →
      Boxr.Decoded m (Boxr.cells k 1 p.head.sym) tt → Boxr.Decoded m' (Boxr.cells k 1 p.head.sym) tt → ∀ i, 1 ≤ i → i ≤ k → m i 1 = m' i 1 := by
    intro r k o p q tt m m' ha hm hm' i h1 h2
    refine Boxr.C64_unique k 1 p.head.sym m m' tt hm hm' i 1 ⟨h1, h2⟩ ⟨le_rfl, le_rfl⟩ fun hs => ?_
    have hz : p.head.ncol = 0 := by simpa [Boxr.Head.sym] using hs
    have hc := ha.columns
    have hw := ha.rows
    unfold Boxr.Head.columns at hc
    rw [if_pos hz] at hc
    omega
  have hmat' : ∀ i j, 1 ≤ i → i ≤ n → 1 ≤ j → j ≤ n → m3 i j = v i j := by
    intro i j i1 i2 j1 j2
    by_cases hs : p3.head.sym = true
    · have hz : p3.head.ncol = 0 := by simpa [Boxr.Head.sym] using hs
      rcases le_total i j with hij | hij
      · exact Boxr.C64_unique n n _ m3 v t3 x3 d3 i j ⟨i1, i2⟩ ⟨j1, j2⟩ fun _ => hij
      · rw [xs hz i j i1 i2 j1 j2, hsym hz i j i1 i2 j1 j2]
        exact Boxr.C64_unique n n _ m3 v t3 x3 d3 j i ⟨j1, j2⟩ ⟨i1, i2⟩ fun _ => hij
    · exact Boxr.C64_unique n n _ m3 v t3 x3 d3 i j ⟨i1, i2⟩ ⟨j1, j2⟩ fun h => absurd h hs
  refine ⟨out.flatten, d, ?_, by rw [hans], by rw [Boxr.readlines_flatten hprop]; exact hr, ?_, ?_, ?_, g4, ?_⟩
  · unfold Boxr.matrixOf
    rw [hans, if_neg hout]
  · rw [g1]
    refine List.map_congr_left fun k hk => ?_
    have := List.mem_range.1 hk
    rw [hcol a0 x0 d0 _ (by omega) (by omega)]
  · rw [g2]
    refine List.map_congr_left fun k hk => ?_
    have := List.mem_range.1 hk
    rw [hcol a1 x1 d1 _ (by omega) (by omega)]
  · rw [g3]
    refine List.map_congr_left fun k hk => ?_
    have := List.mem_range.1 hk
    rw [hcol a1 x1 d1 _ (by omega) (by omega), hcol a2 x2 d2 _ (by omega) (by omega)]
  · intro k l hk hl
    rw [g5 k l hk hl, hmat' _ _ (by omega) (by omega) (by omega) (by omega)]

theorem boxerProg_makes (prt : ℚ → Fld) : BoxerMakes (Boxr.boxerProg prt) (Boxr.matrixOf prt) where
  writes := by
    intro c d fs t m ht hm
    unfold Boxr.boxerProg
    simp only [ht, Option.getD_some, hm]
    exact Files.put_same _ _ _
  leaves := by
    intro c d fs t ht hm
    unfold Boxr.boxerProg
    simp only [ht, Option.getD_some, hm]
  only := by
    intro c d fs t p ht hp
    unfold Boxr.boxerProg
    simp only [ht, Option.getD_some]
    cases Boxr.matrixOf prt c t with
    | none => rfl
    | some m => exact Files.put_ne hp

/-! ### The program -/

theorem kept_of {d : Boxer.Data} {rows : List Row} {n : Nat} {e x s : Nat → ℚ} {v : Nat → Nat → ℚ} (hb : d.bounds = (List.range (n + 1)).map fun k => e (n + 1 - k))
    (hx : d.xsec = (List.range n).map fun k => x (n - k)) (hs : d.stdDev = (List.range n).map fun k => s (n - k) * x (n - k)) (hc : d.cov.length = n)
    (hv : ∀ k l, k < n → l < n → d.cov[k]?.bind (·[l]?) = some (v (n - k) (n - l))) (hr : stdFrame d = .ok rows) : Kept (corrFrame d.cov) rows n e x s v := by
  subst hc
  have hrows : rows = (List.range d.cov.length).map fun i => repair (rawRow (i + 1) (e (d.cov.length + 1 - i)) (e (d.cov.length - i)) (x (d.cov.length - i)) (s (d.cov.length - i) * x (d.cov.length - i))) := by
    unfold stdFrame at hr
    simp only at hr
    split_ifs at hr with h
    rw [← Except.ok.inj hr]
    refine List.map_congr_left fun i hi => ?_
    have hi := List.mem_range.1 hi
    rw [hb, hx, hs, List.getElem?_dropLast, List.getElem?_tail]
    simp [hi, show i < d.cov.length + 1 by omega, show d.cov.length + 1 - (i + 1) = d.cov.length - i by omega]
  have hget : ∀ i, i < d.cov.length → rows[i]? = some (repair (rawRow (i + 1) (e (d.cov.length + 1 - i)) (e (d.cov.length - i)) (x (d.cov.length - i)) (s (d.cov.length - i) * x (d.cov.length - i)))) := by
    intro i hi
    rw [hrows]
    simp [hi]
  refine ⟨⟨rfl, rfl, ?_⟩, ⟨by simp [corrFrame], by simp [corrFrame, List.mem_ofFn]⟩, ?_, ?_, ?_, ?_⟩
  · have := labelled_stdFrame hr
    unfold Labelled at this
    rw [this, hrows]
    simp
  · intro i hi
    rw [hget i hi]
    have hk : ∀ r : Row, (repair r).hi = r.hi ∧ (repair r).lo = r.lo := by
      intro r
      unfold repair
      cases hn : r.rel1.isNan <;> simp [hn]
    rw [Option.map_some, (hk _).1, (hk _).2]
    rfl
  · intro i hi h0
    rw [hget i hi]
    have : Flt.div (s (d.cov.length - i) * x (d.cov.length - i)) (x (d.cov.length - i)) = .fin (s (d.cov.length - i)) := by
      unfold Flt.div
      rw [if_pos h0, mul_div_cancel_right₀ _ h0]
    simp [repair, rawRow, this, Flt.isNan]
  · intro i hi h0
    rw [hget i hi, h0]
    simp [repair, rawRow, Flt.div, Flt.isNan]
  · intro hsym hpos hle i j hi hj
    let C : Fin d.cov.length → Fin d.cov.length → ℝ := fun a b => (((d.cov[a]?.getD [])[b]?.getD 0 : ℚ) : ℝ)
    have hC : ∀ a b, C a b = (v (d.cov.length - a) (d.cov.length - b) : ℝ) := by
      intro a b
      have := hv a b a.2 b.2
      show (((d.cov[a]?.getD [])[b]?.getD 0 : ℚ) : ℝ) = _
      cases ha : d.cov[(a : Nat)]? with
      | none => rw [ha] at this; cases this
      | some row =>
        rw [ha] at this
        simp only [Option.bind_some] at this
        have h2 : ((some row).getD [])[(b : Nat)]?.getD 0 = v (d.cov.length - a) (d.cov.length - b) := by rw [Option.getD_some, this, Option.getD_some]
        exact congrArg _ h2
    obtain ⟨c, c1, c2⟩ := CovCorr.C49_nothing_lost (cov := C) (fun a b => by rw [hC, hC, hsym _ _ (by omega) (by omega) (by omega) (by omega)])
      (fun a => by rw [hC]; exact_mod_cast hpos _ (by omega) (by omega)) (fun a b => by rw [hC, hC, hC]; exact_mod_cast hle _ _ (by omega) (by omega) (by omega) (by omega))
    obtain ⟨c', c3, -, c5, c6⟩ := CovCorr.C49_stored_is_proper C
    have hcc : c = c' := by
      funext a b
      have := (c1 a b).symm.trans (c3 a b)
      exact Flt.fin.inj this
    subst hcc
    refine ⟨c ⟨i, hi⟩ ⟨j, hj⟩, ?_, ?_⟩
    · unfold corrFrame
      simp only [List.getElem?_ofFn, hi, hj, dif_pos, Option.bind_some]
      exact congrArg some (c1 ⟨i, hi⟩ ⟨j, hj⟩)
    · have h4 := c2 ⟨i, hi⟩ ⟨j, hj⟩
      by_cases hij : i = j
      · subst hij
        rw [c6, one_mul]
        exact Real.mul_self_sqrt (by exact_mod_cast (hpos _ (by omega) (by omega)).le)
      · rw [CovCorr.C39_entries _ c5 (by simpa using hij)] at h4
        simpa only [hC] using h4

variable {evaluation : Text → Except PyErr Eval} {njoy : Prog} {tmp : Path} {c : Cmd} {fs : FS} {ss : Stores} {tapesOf : Text → Text → Nat → Option Text} {text : Text} {ev : Eval}

/-- **C229** (part). Let the covariance program be run with boxer2mat, and with a NJOY that makes of its commands and input files what `tapesOf` says, in a directory without tapes of an earlier run. If it returns,
then NJOY has been run on commands that it reads as the processing of this material, and for each reaction asked for (and nu-bar and the spectrum of fissionable targets): if the covariance tape that NJOY made
tells the data of this material and reaction, these are in the store, as boxer2mat prints them. Missing, and false: the same with tapes of an earlier run in the directory. -/
theorem C229_stored_partial (prt : ℚ → Fld) (hn : NjoyMakes njoy tapesOf) (hclean : Clean c.out fs) (ho : c.out ≠ tmp) (hin : c.endf ≠ c!"njoy_in.txt")
    (htext : fs c.endf = some text) (hev : evaluation text = .ok ev) (ha : ev.a < 1000) (h0 : ev.material ≠ 0) (hmat : ev.material < 10 ^ 5) (h33 : (33, 452) ∉ ev.reactions ∧ (33, 1018) ∉ ev.reactions)
    (hw : (deckOpts c ev [] ev.fissionable ev.fissionable).Writable) (hiwt : c.iwt ≠ 4) (hok : (main evaluation njoy (Boxr.boxerProg prt) tmp c fs ss).2 = .ok ()) :
    ∃ mts commands, Deck.Reads commands (Deck.asked (deckOpts c ev mts ev.fissionable ev.fissionable)) ∧
      ∀ mt, Requested (argsOf c ev) mt → mt < 10 ^ 5 → ∃ k t,
        (k, Njoy.Kind.boxer (mfOf mt)) ∈ Njoy.boxerTapes (Deck.modsOf 0 (Deck.asked (deckOpts c ev mts ev.fissionable ev.fissionable))) ∧ tapesOf commands text k = some t ∧
        ∀ n e x s v, Boxr.Tells t ev.material (njoyMt mt) n e x s v → ∃ corr rows,
          fetch ((main evaluation njoy (Boxr.boxerProg prt) tmp c fs ss).1.2 n) (key (1000 * ev.z + ev.a) mt (1000 * ev.z + ev.a) mt .corr) = .ok (.corr corr) ∧
          fetch ((main evaluation njoy (Boxr.boxerProg prt) tmp c fs ss).1.2 n) (key (1000 * ev.z + ev.a) mt (1000 * ev.z + ev.a) mt .stdDev) = .ok (.std rows) ∧
          Kept corr rows n (fun i => (prt (e i)).value) (fun i => (prt (x i)).value) (fun i => (prt (s i)).value) (fun i j => (prt (v i j)).value) := by
  obtain ⟨mts, commands, -, h2, h3, -⟩ := C228_stored_partial (ss := ss) hn (boxerProg_makes prt) hclean ho hin htext hev ha h33 hw hiwt hok
  refine ⟨mts, commands, h2, fun mt hr hmt => ?_⟩
  obtain ⟨k, t, com, m, q1, q2, q3, q4, q5⟩ := h3 mt hr
  refine ⟨k, t, q1, q2, fun n e x s v htell => ?_⟩
  have hlt : njoyMt mt < 10 ^ 5 := by
    unfold njoyMt
    split_ifs
    · norm_num
    · exact hmt
  obtain ⟨m', d, r1, -, r2, r3, r4, r5, r6, r7⟩ := C229_read_back prt q3 h0 hmat hlt htell
  rw [q4] at r1
  obtain rfl := Option.some.inj r1
  rcases q5 with ⟨⟨l, l1, l2⟩, -⟩ | ⟨k', corr, rows, ⟨⟨d', g1, g2, g3, g4⟩, -, -⟩, f1, f2⟩
  · exfalso
    unfold Boxer.readFile at r2
    rw [Boxer.C48_rejected, if_pos ⟨l, l1, l2⟩] at r2
    cases r2
  · rw [r2] at g1
    obtain rfl := Except.ok.inj g1
    rw [r6] at g2
    subst g2 g3
    exact ⟨_, rows, f1, f2, kept_of r3 r4 r5 r6 r7 g4⟩


end ASAPy.CovRun
