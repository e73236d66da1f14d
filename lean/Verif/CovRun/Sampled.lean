import Verif.CovRun.BoxerExample
import Verif.Store.Calc

/-!
# C231: from the BOXER file to the covariance of the sampler

What the covariance program has stored (C229), in the hands of `XsecSampler` (`openSampler` and `calcCov` of `Verif/Store/Calc`, ASAPy/XsecSampler.py 24-110).
-/

namespace ASAPy.CovRun
open ASAPy.Store
open ASAPy.Load (entry)
open ASAPy.Files (FS Path Text Prog NjoyMakes BoxerMakes Clean)
open ASAPy.Boxer (Fld)

/-! ### Specification -/

/-- The absolute deviation of a group with cross section `x` and relative deviation `s`; a fixed small one where the cross section is zero. -/
def deviation (x s : ℚ) : ℚ := if x = 0 then 1 / 10 ^ 7 else s * x

/-- The covariances `v` are those of something: symmetric, with positive variances, and no correlation above one. -/
structure Covariances (n : Nat) (v : Nat → Nat → ℚ) : Prop where
  symmetric : ∀ i j, 1 ≤ i → i ≤ n → 1 ≤ j → j ≤ n → v i j = v j i
  positive : ∀ i, 1 ≤ i → i ≤ n → 0 < v i i
  bounded : ∀ i j, 1 ≤ i → i ≤ n → 1 ≤ j → j ≤ n → v i j ^ 2 ≤ v i i * v j j

/-- The table and the covariance of a sampler, from the highest group to the lowest: the rows have the bounds, deviations and cross sections of the groups, and the covariance of two groups is
their correlation times both deviations. -/
structure Opened (sd : List (Load.Row ℝ)) (cov : List (List ℝ)) (n : Nat) (e x s : Nat → ℚ) (v : Nat → Nat → ℚ) : Prop where
  groups : sd.length = n
  rows : ∀ i, i < n → sd[i]? = some ⟨i + 1, (e (n - i) : ℝ), (e (n + 1 - i) : ℝ), [(deviation (x (n - i)) (s (n - i)) : ℝ), (x (n - i) : ℝ)]⟩
  square : cov.length = n ∧ ∀ r ∈ cov, r.length = n
  covariance : ∀ i j, i < n → j < n → ∃ c : ℝ, c * √(v (n - i) (n - i) : ℝ) * √(v (n - j) (n - j) : ℝ) = v (n - i) (n - j) ∧
    entry cov i j = some (c * (deviation (x (n - i)) (s (n - i)) : ℝ) * (deviation (x (n - j)) (s (n - j)) : ℝ))

/-! ### Proofs -/

theorem opened_of {st : Store} {zaid mt n : Nat} {corr : Corr} {rows : List Row} {e x s : Nat → ℚ} {v : Nat → Nat → ℚ} (hn : 0 < n)
    (hc : fetch st (key zaid mt zaid mt .corr) = .ok (.corr corr)) (hs : fetch st (key zaid mt zaid mt .stdDev) = .ok (.std rows)) (hk : Kept corr rows n e x s v)
    (hv : Covariances n v) (he : e n ≤ e (n + 1)) : ∃ p, openSampler st zaid mt = .ok p ∧ Opened p.1 (calcCov p) n e x s v := by
  have hlen : rows.length = n := by simpa using congrArg List.length hk.labels.2.2
  have hrow : ∀ i, i < n → (rows.map Row.toLoad)[i]? = some ⟨i + 1, (e (n - i) : ℝ), (e (n + 1 - i) : ℝ), [(deviation (x (n - i)) (s (n - i)) : ℝ), (x (n - i) : ℝ)]⟩ := by
    intro i hi
    have hb := hk.bounds i hi
    have hl : (rows.map Row.label)[i]? = some (i + 1) := by
      rw [hk.labels.2.2, List.getElem?_range' hi]
      congr 1
      omega
    rw [List.getElem?_map] at hl ⊢
    obtain ⟨r, hr⟩ : ∃ r, rows[i]? = some r := ⟨rows[i], List.getElem?_eq_getElem (by omega)⟩
    rw [hr] at hb hl ⊢
    simp only [Option.map_some, Option.some.injEq, Prod.mk.injEq] at hb hl
    simp only [Option.map_some, Row.toLoad, hl, hb.1, hb.2]
    unfold deviation
    by_cases h0 : x (n - i) = 0
    · have := hk.zeros i hi h0
      rw [hr] at this
      simp only [Option.map_some, Option.some.injEq, Prod.mk.injEq] at this
      rw [if_pos h0, this.1.1, this.2.1.1, h0]
    · have := hk.values i hi h0
      rw [hr] at this
      simp only [Option.map_some, Option.some.injEq, Prod.mk.injEq] at this
      rw [if_neg h0, this.1.1, this.2.1.1]
  have hcorr := hk.correlations hv.symmetric hv.positive hv.bounded
  have hsq : ∀ i, i < n → 0 < √(v (n - i) (n - i) : ℝ) := fun i hi => Real.sqrt_pos.2 (by exact_mod_cast hv.positive (n - i) (by omega) (by omega))
  have hent : ∀ i j, i < n → j < n → ∃ c : ℝ, entry (corr.values.map fun r => r.map num) i j = some c ∧
      c * √(v (n - i) (n - i) : ℝ) * √(v (n - j) (n - j) : ℝ) = v (n - i) (n - j) := by
    intro i j hi hj
    obtain ⟨c, h1, h2⟩ := hcorr i j hi hj
    refine ⟨c, ?_, h2⟩
    rw [Load.entry_map, show entry corr.values i j = some (.fin c) from h1]
    rfl
  have hone : ∀ i c, i < n → entry (corr.values.map fun r => r.map num) i i = some c → c = 1 := by
    intro i c hi h
    obtain ⟨c', h1, h2⟩ := hent i i hi hi
    rw [h1] at h
    obtain rfl := Option.some.inj h
    rw [mul_assoc, Real.mul_self_sqrt (by exact_mod_cast (hv.positive (n - i) (by omega) (by omega)).le)] at h2
    have hp : (v (n - i) (n - i) : ℝ) ≠ 0 := by exact_mod_cast (hv.positive (n - i) (by omega) (by omega)).ne'
    exact mul_right_cancel₀ hp (by rw [h2, one_mul])
  have hdiag : Load.LargestDiag (corr.values.map fun r => r.map num) 1 := by
    refine ⟨⟨0, ?_⟩, ?_⟩
    · obtain ⟨c, h1, -⟩ := hent 0 0 hn hn
      rw [h1, hone 0 c hn h1]
    · intro i c h
      have hi : i < n := by
        by_contra hi
        unfold entry at h
        rw [List.getElem?_eq_none (by simp [hk.shape.1]; omega)] at h
        cases h
      exact (hone i c hi h).le
  have hrow1 : Load.HasRowOne (rows.map Row.toLoad) ⟨1, (e n : ℝ), (e (n + 1) : ℝ), [(deviation (x n) (s n) : ℝ), (x n : ℝ)]⟩ := by
    refine ⟨List.mem_of_getElem? (hrow 0 hn), rfl, ?_⟩
    rw [List.map_map, show Load.Row.label ∘ Row.toLoad = Row.label from rfl, hk.labels.2.2]
    exact List.nodup_range'
  have hload : openSampler st zaid mt = .ok (rows.map Row.toLoad, (corr.values.map fun r => r.map num).map fun r => r.map fun x => Flt.div x 1) := by
    unfold openSampler loadFrames
    rw [hs, hc]
    simp only
    rw [Load.load_eq hrow1 hdiag, if_neg]
    simp only [not_lt]
    exact_mod_cast he
  have hsym : ∀ i j c c', i < n → j < n → entry (corr.values.map fun r => r.map num) i j = some c → entry (corr.values.map fun r => r.map num) j i = some c' → c = c' := by
    intro i j c c' hi hj h h'
    obtain ⟨d, h1, h2⟩ := hent i j hi hj
    obtain ⟨d', h1', h2'⟩ := hent j i hj hi
    rw [h1] at h
    rw [h1'] at h'
    obtain rfl := Option.some.inj h
    obtain rfl := Option.some.inj h'
    rw [hv.symmetric (n - i) (n - j) (by omega) (by omega) (by omega) (by omega), ← h2'] at h2
    have := (hsq i hi).ne'
    have := (hsq j hj).ne'
    refine mul_right_cancel₀ (mul_ne_zero (hsq i hi).ne' (hsq j hj).ne') ?_
    linarith
  refine ⟨_, hload, by simp [hlen], hrow, ⟨by simp [calcCov, hlen], by simp [calcCov, hlen, List.mem_ofFn]⟩, ?_⟩
  intro i j hi hj
  obtain ⟨c, h1, h2⟩ := hent i j hi hj
  refine ⟨c, h2, ?_⟩
  have hl : (rows.map Row.toLoad).length = n := by simp [hlen]
  have hdev : ∀ a (ha : a < (rows.map Row.toLoad).length), ((rows.map Row.toLoad)[a].rest[0]?).getD 0 = (deviation (x (n - a)) (s (n - a)) : ℝ) := by
    intro a ha
    have := hrow a (by omega)
    rw [List.getElem?_eq_getElem ha] at this
    rw [Option.some.inj this]
    rfl
  have hnum : ∀ a b c, entry (corr.values.map fun r => r.map num) a b = some c →
      num ((entry ((corr.values.map fun r => r.map num).map fun r => r.map fun x => Flt.div x 1) a b).getD .nan) = c := by
    intro a b c h
    rw [Load.entry_map, h]
    simp [Flt.div_of_ne, num]
  unfold calcCov
  simp only
  rw [entry_ofFn _ (show i < (rows.map Row.toLoad).length by omega) (show j < (rows.map Row.toLoad).length by omega)]
  congr 1
  by_cases hij : i = j
  · subst hij
    rw [(CovCorr.C39_symmetric _ _).2, hone i c hi h1]
    simp only [Fin.getElem_fin, hdev]
    ring
  · rw [CovCorr.C39_entries]
    · simp only [Fin.getElem_fin, hdev]
      rw [hnum i j c h1]
    · intro a b
      have ha : (a : Nat) < n := by have := a.2; omega
      have hb : (b : Nat) < n := by have := b.2; omega
      obtain ⟨c1, g1, -⟩ := hent a b ha hb
      obtain ⟨c2, g2, -⟩ := hent b a hb ha
      rw [hnum a b c1 g1, hnum b a c2 g2]
      exact hsym a b c1 c2 ha hb g1 g2
    · simpa using hij

variable {evaluation : Text → Except PyErr Eval} {njoy : Prog} {tmp : Path} {c : Cmd} {fs : FS} {ss : Stores} {tapesOf : Text → Text → Nat → Option Text} {text : Text} {ev : Eval}

/-- **C231** (part). After a run of the covariance program as in C229, a sampler for the nuclide and any reaction asked for, on the store with the number of groups of the covariance tape, opens; its table has the
bounds, cross sections and deviations of the tape, from the highest group to the lowest, and its covariance of two groups is their correlation on the tape times their deviations; everything as
boxer2mat prints it. Missing, and false: the same with tapes of an earlier run in the directory. -/
theorem C231_sampled_partial (prt : ℚ → Fld) (hn : NjoyMakes njoy tapesOf) (hclean : Clean c.out fs) (ho : c.out ≠ tmp) (hin : c.endf ≠ c!"njoy_in.txt")
    (htext : fs c.endf = some text) (hev : evaluation text = .ok ev) (ha : ev.a < 1000) (h0 : ev.material ≠ 0) (hmat : ev.material < 10 ^ 5) (h33 : (33, 452) ∉ ev.reactions ∧ (33, 1018) ∉ ev.reactions)
    (hw : (deckOpts c ev [] ev.fissionable ev.fissionable).Writable) (hiwt : c.iwt ≠ 4) (hok : (main evaluation njoy (Boxr.boxerProg prt) tmp c fs ss).2 = .ok ()) :
    ∃ mts commands, Deck.Reads commands (Deck.asked (deckOpts c ev mts ev.fissionable ev.fissionable)) ∧
      ∀ mt, Requested (argsOf c ev) mt → mt < 10 ^ 5 → ∃ k t,
        (k, Njoy.Kind.boxer (mfOf mt)) ∈ Njoy.boxerTapes (Deck.modsOf 0 (Deck.asked (deckOpts c ev mts ev.fissionable ev.fissionable))) ∧ tapesOf commands text k = some t ∧
        ∀ n e x s v, Boxr.Tells t ev.material (njoyMt mt) n e x s v → 0 < n → (prt (e n)).value ≤ (prt (e (n + 1))).value → Covariances n (fun i j => (prt (v i j)).value) →
          ∃ p, openSampler ((main evaluation njoy (Boxr.boxerProg prt) tmp c fs ss).1.2 n) (1000 * ev.z + ev.a) mt = .ok p ∧
            Opened p.1 (calcCov p) n (fun i => (prt (e i)).value) (fun i => (prt (x i)).value) (fun i => (prt (s i)).value) (fun i j => (prt (v i j)).value) := by
  obtain ⟨mts, commands, h1, h2⟩ := C229_stored_partial (ss := ss) prt hn hclean ho hin htext hev ha h0 hmat h33 hw hiwt hok
  refine ⟨mts, commands, h1, fun mt hr hmt => ?_⟩
  obtain ⟨k, t, q1, q2, q3⟩ := h2 mt hr hmt
  refine ⟨k, t, q1, q2, fun n e x s v htell hn he hv => ?_⟩
  obtain ⟨corr, rows, f1, f2, f3⟩ := q3 n e x s v htell
  exact opened_of hn f1 f2 f3 hv he

/-! ### From the text of the ENDF file -/

open ASAPy.Endf (Mate Line) in
/-- **C231** from the text of the ENDF file (part): the file starts with a well formed evaluation `m` with at least five text records, NJOY makes of its input what `tapesOf` says, and there are no tapes of an
earlier run in the output directory. If the covariance program returns, then for each reaction asked for, or, if none is asked for, each MT of MF 33 in the directory of the file, and 452 and 1018 if the
file says that the target is fissionable: if the covariance tape that NJOY made of the file tells the data of the material and reaction, they are in the store under the ZA number of the file, and
the sampler for them has their table and covariance. -/
theorem C231_file_partial {m : Mate} {rest : List Line} (prt : ℚ → Fld) (hn : NjoyMakes njoy tapesOf) (hclean : Clean c.out fs) (ho : c.out ≠ tmp) (hin : c.endf ≠ c!"njoy_in.txt")
    (htext : fs c.endf = some text) (hm : m.Ok) (hnat : Natural m) (hpos : m.mat ≠ 0) (hsmall : m.mat < 10 ^ 5) (hlines : Str.readlines text = m.text ++ rest) (h5 : 5 ≤ m.header.text.length)
    (h33 : ∀ e ∈ m.header.reactions, e.1 = 33 → e.2.1 ≠ 452 ∧ e.2.1 ≠ 1018)
    (hw : ∀ ev, evaluate text = .ok ev → (deckOpts c ev [] ev.fissionable ev.fissionable).Writable) (hiwt : c.iwt ≠ 4)
    (hok : (main evaluate njoy (Boxr.boxerProg prt) tmp c fs ss).2 = .ok ()) :
    ∃ ev mts commands, IsOf m ev ∧
      Deck.Reads commands (Deck.asked (deckOpts c ev mts m.header.fissionable m.header.fissionable)) ∧
      ∀ mt : Nat, ((if c.mts = [] then ∃ e ∈ m.header.reactions, e.1 = 33 ∧ e.2.1 = mt else mt ∈ c.mts) ∨ m.header.fissionable = true ∧ (mt = 452 ∨ mt = 1018)) → mt < 10 ^ 5 → ∃ k t,
        (k, Njoy.Kind.boxer (mfOf mt)) ∈ Njoy.boxerTapes (Deck.modsOf 0 (Deck.asked (deckOpts c ev mts m.header.fissionable m.header.fissionable))) ∧ tapesOf commands text k = some t ∧
        ∀ n e x s v, Boxr.Tells t m.mat.toNat (njoyMt mt) n e x s v →
          (∃ corr rows,
            fetch ((main evaluate njoy (Boxr.boxerProg prt) tmp c fs ss).1.2 n) (key m.header.za.toNat mt m.header.za.toNat mt .corr) = .ok (.corr corr) ∧
            fetch ((main evaluate njoy (Boxr.boxerProg prt) tmp c fs ss).1.2 n) (key m.header.za.toNat mt m.header.za.toNat mt .stdDev) = .ok (.std rows) ∧
            Kept corr rows n (fun i => (prt (e i)).value) (fun i => (prt (x i)).value) (fun i => (prt (s i)).value) (fun i j => (prt (v i j)).value)) ∧
          (0 < n → (prt (e n)).value ≤ (prt (e (n + 1))).value → Covariances n (fun i j => (prt (v i j)).value) →
            ∃ p, openSampler ((main evaluate njoy (Boxr.boxerProg prt) tmp c fs ss).1.2 n) m.header.za.toNat mt = .ok p ∧
              Opened p.1 (calcCov p) n (fun i => (prt (e i)).value) (fun i => (prt (x i)).value) (fun i => (prt (s i)).value) (fun i j => (prt (v i j)).value)) := by
  obtain ⟨ev, hev, his⟩ := evaluate_mate hm hnat hlines h5
  have hza : 1000 * ev.z + ev.a = m.header.za.toNat := by have := his.za; omega
  have hmat : ev.material = m.mat.toNat := by have := his.material; omega
  obtain ⟨mts, commands, h1, h2⟩ := C229_stored_partial (ss := ss) prt hn hclean ho hin htext hev his.small (by have := his.material; omega) (by have := his.material; omega) (his.no33 h33)
    (hw _ hev) hiwt hok
  rw [his.fissionable] at h1 h2
  rw [hza, hmat] at h2
  refine ⟨ev, mts, commands, his, h1, fun mt hr hmt => ?_⟩
  obtain ⟨k, t, q1, q2, q3⟩ := h2 mt (his.requested hr) hmt
  refine ⟨k, t, q1, q2, fun n e x s v htell => ?_⟩
  obtain ⟨corr, rows, f1, f2, f3⟩ := q3 n e x s v htell
  exact ⟨⟨corr, rows, f1, f2, f3⟩, fun hn he hv => opened_of hn f1 f2 f3 hv he⟩

/-! ### A case -/

theorem cap_covariances : Covariances 2 (fun i j => (Boxr.printF (capV i j)).value) := by
  have h : ∀ i j, 1 ≤ i → i ≤ 2 → 1 ≤ j → j ≤ 2 → (Boxr.printF (capV i j)).value = if i = j then 1 else -1 / 2 := by
    intro i j h1 h2 h3 h4
    have hi : i = 1 ∨ i = 2 := by omega
    have hj : j = 1 ∨ j = 2 := by omega
    rcases hi with rfl | rfl <;> rcases hj with rfl | rfl <;> decide +kernel
  constructor
  · intro i j h1 h2 h3 h4
    simp only [h i j h1 h2 h3 h4, h j i h3 h4 h1 h2, eq_comm]
  · intro i h1 h2
    simp only [h i i h1 h2 h1 h2]
    norm_num
  · intro i j h1 h2 h3 h4
    simp only [h i j h1 h2 h3 h4, h i i h1 h2 h1 h2, h j j h3 h4 h3 h4]
    split_ifs <;> norm_num

/-- The hypotheses hold, for capture in two groups: after the run of `cap_stored` the sampler opens. -/
theorem cap_opened (ss : Stores) : ∃ p, openSampler ((main (fun _ => .ok demoEval) (njoyWith capText) (Boxr.boxerProg Boxr.printF) c!"/tmp" demoCmd demoFiles ss).1.2 2) 92235 102 = .ok p ∧
    Opened p.1 (calcCov p) 2 (fun i => (Boxr.printF (capE i)).value) (fun i => (Boxr.printF (capX i)).value) (fun i => (Boxr.printF (capS i)).value) (fun i j => (Boxr.printF (capV i j)).value) := by
  obtain ⟨corr, rows, h1, h2, h3⟩ := cap_stored ss
  exact opened_of (by decide) h2 h3 h1 cap_covariances (by decide +kernel)

end ASAPy.CovRun
