import Verif.Deck.Thermal
import Verif.Deck.Eval

/-!
# C118: the input for thermal scattering, read back
-/

namespace ASAPy.Deck

set_option maxRecDepth 100000
set_option linter.unusedSimpArgs false

open ASAPy.Endf (Line)

attribute [local simp] card_word card_blank card_done card_zero card_lit word_cons word_end word_plain endLine_end endLine_other plain_natStr at_ Dec.natVal_natStr Str.isSpace
  quoted_skip quoted_cons quoted_end card_quoted natVal1 natVal2 natVal3 cards

theorem plain_intStr (n : Int) : Plain (AceData.intStr n) := by
  unfold AceData.intStr
  split
  · refine ⟨by simp, fun c hc => ?_⟩
    rcases List.mem_cons.1 hc with rfl | hc
    · decide
    · exact (plain_natStr _).2 c hc
  · exact plain_natStr _

theorem readModule_thermr : readModule c!"thermr" = readThermr := rfl

theorem part_thermr {a b m iform error emax c d e mt inel el natom : W} {ts : List W} (ha : Plain a) (hb : Plain b) (hm : Plain m) (hi : Plain iform) (he : Plain error) (hx : Plain emax)
    (hc : Plain c) (hd : Plain d) (hee : Plain e) (hmt : Plain mt) (hin : Plain inel) (hel : Plain el) (hna : Plain natom) (ht : ∀ w ∈ ts, Plain w) (hne : ts ≠ []) :
    Part (xThermr a b m (num ts.length) iform ([' '].intercalate ts) error emax c d e mt inel el natom)
      [.thermr [c!"0", a, b] [c!"0", m, c!"12", num ts.length, c!"1", c!"0", iform, c!"1", c!"221", c!"1"] ts error emax,
       .thermr [c, d, e] [mt, m, c!"16", num ts.length, inel, el, iform, natom, c!"222", c!"1"] ts error emax] := by
  have p1 : Part (c!"\nthermr / %%%%%%%%%%%%%%%% Add thermal scattering data (free gas) %%%%%%%%%%%%%%%\n" ++ (c!"0 " ++ (a ++ (c!" " ++ (b ++ (c!"\n0 " ++ (m ++ (c!" 12 " ++
      (num ts.length ++ (c!" 1 0 " ++ (iform ++ (c!" 1 221 1/\n" ++ ([' '].intercalate ts ++ (c!"\n" ++ (error ++ (c!" " ++ (emax ++ c!"\n")))))))))))))))))
      [.thermr [c!"0", a, b] [c!"0", m, c!"12", num ts.length, c!"1", c!"0", iform, c!"1", c!"221", c!"1"] ts error emax] := by
    refine Part.one (name := c!"thermr") (fun s => rfl) ?_
    intro s
    rw [readModule_thermr]
    simp [readThermr, ha, hb, hm, hi, he, hx, temps_card ht hne]
  have p2 : Part (c!"thermr / %%%%%%%%%%%%%%%% Add thermal scattering data (bound) %%%%%%%%%%%%%%%%%%\n" ++ (c ++ (c!" " ++ (d ++ (c!" " ++ (e ++ (c!"\n" ++ (mt ++ (c!" " ++ (m ++ (c!" 16 " ++
      (num ts.length ++ (c!" " ++ (inel ++ (c!" " ++ (el ++ (c!" " ++ (iform ++ (c!" " ++ (natom ++ (c!" 222 1/\n" ++ ([' '].intercalate ts ++ (c!"\n" ++ (error ++ (c!" " ++ (emax ++ c!"\n"))))))))))))))))))))))))))
      [.thermr [c, d, e] [mt, m, c!"16", num ts.length, inel, el, iform, natom, c!"222", c!"1"] ts error emax] := by
    refine Part.one (name := c!"thermr") (fun s => rfl) ?_
    intro s
    rw [readModule_thermr]
    simp [readThermr, hc, hd, hee, hmt, hm, hin, hel, hi, hna, he, hx, temps_card ht hne]
  have := p1.append p2
  convert this using 1
  · simp [xThermr]
  · rfl

theorem zaids_card {zs : List W} (h : ∀ w ∈ zs, Plain w) (hne : zs ≠ []) (hl : zs.length ≤ 3) (s : W) : card 3 ([' '].intercalate zs ++ ' ' :: '/' :: s) = (zs, endLine s) := by
  have := card_many (sep := [' ']) (by decide) (by decide) h hne (c := ' ') (.inl (by decide)) (3 - zs.length) ('/' :: s)
  rw [show zs.length + (3 - zs.length) = 3 by omega] at this
  rw [this]
  cases 3 - zs.length with
  | zero => simp
  | succ n => simp

theorem part_acerThermal {a b c d e library zt mat temp name mte et nmix emax : W} {zs : List W} (ha : Plain a) (hb : Plain b) (hc : Plain c) (hd : Plain d) (he : Plain e) (hl : Quotable library)
    (hz : Quotable zt) (hm : Plain mat) (ht : Plain temp) (hn : Plain name) (hzs : ∀ w ∈ zs, Plain w) (hne : zs ≠ []) (h3 : zs.length ≤ 3) (hmte : Plain mte) (het : Plain et) (hnm : Plain nmix)
    (hx : Plain emax) :
    Part (xThermalAcer a b c d e library zt mat temp name ([' '].intercalate zs) mte et nmix emax)
      [.acerThermal [a, b, c!"0", c, d] ('.' :: e) mat temp name zs [c!"222", c!"64", mte, et, nmix, emax, c!"2"]] := by
  have hq : Quotable temp := fun h => (ht.2 _ h).2.2.1 rfl
  have hqn : Quotable name := fun h => (hn.2 _ h).2.2.1 rfl
  refine Part.one (name := c!"acer") (fun s => rfl) ?_
  intro s
  show readAcer _ = _
  simp [readAcer, ha, hb, hc, hd, he, hl, hz, ht, hm, hq, hqn, hmte, het, hnm, hx, zaids_card hzs hne h3]

theorem thermalAcer_ok {i : Thermal} {name : W} {zaids : List Nat} {nmix : Nat} {emax : W} (hname : Plain name) (hz : zaids ≠ []) (hl : Quotable i.library) (hzt : Quotable i.zsymamThermal) (hx : Plain emax)
    (mte : Nat) (et : Int) (l : List Njoy.Temp) (ht : ∀ t ∈ l, Plain t.str) (k : Nat) (s : W) :
    ∃ x, thermalAcer i name zaids nmix emax mte et k l s = .ok (s ++ x) ∧ Part x ((l.zipIdx k).map fun tk =>
      .acerThermal [num 20, num 25, c!"0", num (26 + 2 * tk.2), num (27 + 2 * tk.2)] (suffix tk.2) (num i.mat) tk.1.str name ((zaids.take 3).map num)
        [c!"222", c!"64", num mte, AceData.intStr et, num nmix, emax, c!"2"]) := by
  induction l generalizing k s with
  | nil => exact ⟨[], by simp [thermalAcer], Part.nil⟩
  | cons t l ih =>
    have hp := part_acerThermal (plain_natStr 20) (plain_natStr 25) (plain_natStr (25 + 1 + 2 * k)) (plain_natStr (25 + 1 + 2 * k + 1)) (plain_ext k) hl hzt (plain_natStr i.mat)
      (ht t (by simp)) hname (zs := (zaids.take 3).map Dec.natStr) (by intro w hw; obtain ⟨n, -, rfl⟩ := List.mem_map.1 hw; exact plain_natStr n) (by simpa using hz) (by simp)
      (plain_natStr mte) (plain_intStr et) (plain_natStr nmix) hx
    have f : format (thermalAcerEnv i name zaids nmix emax mte et (25 + 1 + 2 * k) (ext k) t) tThermalAcer = .ok _ :=
      format_xThermalAcer rfl rfl rfl rfl rfl rfl rfl rfl rfl rfl rfl rfl rfl rfl rfl
    generalize xThermalAcer _ _ _ _ _ _ _ _ _ _ _ _ _ _ _ = y at hp f
    obtain ⟨x, hx, hpx⟩ := ih (fun t h => ht t (by simp [h])) (k + 1) (s ++ y)
    refine ⟨y ++ x, ?_, ?_⟩
    · rw [thermalAcer, f, ok_bind, hx, List.append_assoc]
    · rw [List.zipIdx_cons, List.map_cons]
      have := hp.append hpx
      rw [ext_suffix, show 25 + 1 + 2 * k + 1 = 27 + 2 * k by ring, show 25 + 1 + 2 * k = 26 + 2 * k by ring] at this
      exact this

/-! ### The records -/

theorem elasticOf_ok {lthr : Option Int} {sec : Option (List Line)} (h : Sec72 lthr sec) :
    elasticOf sec = .ok (if lthr.isSome then 1 else 0, if lthr.isSome then 223 else 0, (lthr.map (· - 1)).getD 0) := by
  cases lthr with
  | none =>
    cases sec with
    | none => rfl
    | some ls => exact absurd h (by simp [Sec72])
  | some l =>
    cases sec with
    | none => exact absurd h (by simp [Sec72])
    | some ls =>
      obtain ⟨hd, hl, rest, rfl, hh, rfl⟩ := h
      simp only [elasticOf, Endf.getHead_line hh, ok_bind]
      rfl

theorem moreTemps_ok {ts : List ℚ} {ls : List Line} (h : TempRecords ts ls) (rest : List Line) : moreTemps ts.length (ls ++ rest) = .ok ts := by
  induction h with
  | nil => rfl
  | cons hc hn hv _ ih =>
    rw [List.cons_append, List.append_assoc, List.length_cons, moreTemps]
    simp only [Endf.C56_list _ _ _ _ _ hc hn hv, ok_bind, ih]
    rfl

theorem principal_ok {b : List ℚ} {t0 : ℚ} {ts : List ℚ} {ls : List Line} (h : Sec74 b t0 ts ls) {e n : ℚ} {m : Int} (he : b[3]? = some e) (hn : b[5]? = some n)
    (hm : Endf.Truncates n m) : principal ls = .ok (e, m) := by
  obtain ⟨h, hl, c, cl, bl, c2, c2l, rg, rgl, c1, c1l, rg1, rg1l, xy, xyl, more, rest, rfl, h1, ⟨h2, h3, h4⟩, -⟩ := h
  simp only [principal, Endf.getHead_line h1, ok_bind, Endf.C56_list _ _ _ _ _ h2 h3 h4, he, hn, Endf.trunc_spec hm]
  rfl

theorem fileTemps_ok {b : List ℚ} {t0 : ℚ} {ts : List ℚ} {ls : List Line} (h : Sec74 b t0 ts ls) : fileTemps ls = .ok (t0 :: ts) := by
  obtain ⟨h, hl, c, cl, bl, c2, c2l, rg, rgl, c1, c1l, rg1, rg1l, xy, xyl, more, rest, rfl, h1, ⟨h2, h3, h4⟩, ⟨h5, h6, h7⟩, ⟨h8, h9, h10, h11, h12, h13, h14⟩, h15⟩ := h
  simp only [fileTemps, Endf.getHead_line h1, Endf.C56_list _ _ _ _ _ h2 h3 h4, ok_bind, Endf.C56_tab2 _ _ _ _ _ h5 h6 h7,
    Endf.C56_tab1 _ _ _ _ _ _ _ h8 h11 h12 h13 h14, h10, Int.toNat_natCast, moreTemps_ok h15, ok_bind, h9]
  rfl

theorem thermalData_get {m : Nat} {d : W × List Nat × Nat} (h : (m, d) ∈ thermalData) : Dict.get? thermalData m = some d ∧ Plain d.1 ∧ d.2.1 ≠ [] := by
  have : ∀ e ∈ thermalData, Dict.get? thermalData e.1 = some e.2 ∧ (e.2.1 ≠ [] ∧
      (e.2.1.all fun c => !Str.isSpace c && c != '/' && c != '\'' && c != '{' && c != '}') = true) ∧ e.2.2.1 ≠ [] := by decide +kernel
  obtain ⟨h1, ⟨h2, h3⟩, h4⟩ := this _ h
  refine ⟨h1, ⟨h2, fun c hc => ?_⟩, h4⟩
  have := List.all_eq_true.1 h3 c hc
  simpa [and_assoc] using this

/-! ## C118 -/

variable {sh : Show} {i : Thermal} {x : Scatterer}

/-- NJOY reads the input of `make_ace_thermal` as the modules for the scatterer of the files at the temperatures given, or else at all temperatures of the file; the
card with the ZAIDs has the first three of the table. -/
theorem C118_thermal (h : i.Says sh x) : ∃ t, thermalDeck sh i = .ok t ∧ Reads t (thermalAsked sh i x (x.zaids.take 3)) ∧ ∀ rs, Reads t rs → rs = thermalAsked sh i x (x.zaids.take 3) := by
  obtain ⟨b, t0, ts, n, h74, hb3, hb5, hn, htemps⟩ := h.constants
  obtain ⟨hd, hname, hz⟩ := thermalData_get h.data
  have htm : tempsOf sh i = .ok x.temps := by
    unfold tempsOf
    rcases htemps with e | ⟨e, e'⟩
    · rw [e]
    · rw [e]
      simp only [fileTemps_ok h74, ok_bind, e']
      rfl
  have hts : ∀ w ∈ x.temps.map Njoy.Temp.str, Plain w := by
    intro w hw; obtain ⟨t, ht, rfl⟩ := List.mem_map.1 hw; exact h.temp t ht
  have hne : x.temps.map Njoy.Temp.str ≠ [] := by simpa using h.temps
  have hrec := part_reconr (plain_natStr 20) (plain_natStr 22) h.library h.zsymam (plain_natStr i.mat) h.error
  have hbro := part_broadr (plain_natStr 20) (plain_natStr 22) (plain_natStr 23) (plain_natStr i.mat) h.error hts hne
  have hthe := part_thermr (plain_natStr 23) (plain_natStr 24) (plain_natStr i.mat) (plain_natStr 0) h.error h.emax (plain_natStr 21) (plain_natStr 24) (plain_natStr 25)
    (plain_natStr i.matThermal) (plain_natStr 2) (plain_natStr (if x.lthr.isSome then 1 else 0)) (plain_intStr x.natom) hts hne
  rw [List.length_map] at hbro hthe
  have f : format (thermalEnv i x.temps (sh.str x.emax) x.natom (if x.lthr.isSome then 1 else 0)) (tReconr ++ tBroadr ++ tThermr) = .ok _ :=
    format_ok_append (format_ok_append (format_xReconr rfl rfl rfl rfl rfl rfl) (format_xBroadr rfl rfl rfl rfl rfl rfl rfl))
      (format_xThermr rfl rfl rfl rfl rfl rfl rfl rfl rfl rfl rfl rfl rfl rfl rfl)
  have hp := (hrec.append hbro).append hthe
  rw [show tempsText x.temps = [' '].intercalate (x.temps.map Njoy.Temp.str) from rfl] at f
  generalize xReconr _ _ _ _ _ _ ++ xBroadr _ _ _ _ _ _ _ ++ xThermr _ _ _ _ _ _ _ _ _ _ _ _ _ _ _ = y at hp f
  obtain ⟨z, hz1, hz2⟩ := thermalAcer_ok (i := i) (nmix := x.nmix) hname hz h.library h.zsymamThermal h.emax (if x.lthr.isSome then 223 else 0) ((x.lthr.map (· - 1)).getD 0)
    x.temps h.temp 0 y
  have hr : Reads (y ++ z ++ c!"stop\n") (thermalAsked sh i x (x.zaids.take 3)) := by
    have := (hp.append hz2) _ _ reads_stop
    rw [List.append_nil] at this
    convert this using 1
    have n0 : Dec.natStr 0 = c!"0" := rfl
    have n1 : Dec.natStr 1 = c!"1" := by decide +kernel
    have n2 : Dec.natStr 2 = c!"2" := by decide +kernel
    have n3 : Dec.natStr 223 = c!"223" := by decide +kernel
    cases hl : x.lthr <;> simp [thermalAsked, hl, n0, n1, n2, n3]
  refine ⟨y ++ z ++ c!"stop\n", ?_, hr, fun rs h => h.unique hr⟩
  unfold thermalDeck
  simp only [hd, ok_bind, elasticOf_ok h.elastic, principal_ok h74 hb3 hb5 hn, htm, f, hz1]
  rfl

/-- C118, the part that holds: with at most three ZAIDs all of them are on the card. -/
theorem C118_zaids_partial (h : i.Says sh x) (h3 : x.zaids.length ≤ 3) : ∃ t, thermalDeck sh i = .ok t ∧ ∀ rs, Reads t rs ↔ rs = thermalAsked sh i x x.zaids := by
  obtain ⟨t, h1, h2, h4⟩ := C118_thermal h
  rw [List.take_of_length_le h3] at h2 h4
  exact ⟨t, h1, fun rs => ⟨h4 rs, fun e => e ▸ h2⟩⟩

/-- C118 as stated is false for every material with more than three ZAIDs: the others are not on the card, and ACER does not make the data for them. -/
theorem C118_zaids_refuted (h : i.Says sh x) (h3 : 3 < x.zaids.length) : ∃ t, thermalDeck sh i = .ok t ∧ ¬ Reads t (thermalAsked sh i x x.zaids) := by
  obtain ⟨t, h1, h2, h4⟩ := C118_thermal h
  refine ⟨t, h1, fun hr => ?_⟩
  have e := h4 _ hr
  unfold thermalAsked at e
  have e := List.append_cancel_left e
  obtain ⟨T, l, hT⟩ : ∃ T l, x.temps = T :: l := by
    cases hx : x.temps with
    | nil => exact absurd hx h.temps
    | cons T l => exact ⟨T, l, rfl⟩
  rw [hT] at e
  simp only [List.zipIdx_cons, List.map_cons, List.cons.injEq, Run.acerThermal.injEq, true_and, and_true] at e
  have := congrArg List.length e.1
  simp at this
  omega

/-- The materials with more than three ZAIDs: SiO2 (both), Zr in ZrH, Ca in CaH2. -/
theorem C118_zaids_materials : (thermalData.filter fun d => decide (3 < d.2.2.1.length)).map Prod.fst = [47, 49, 58, 59] := by decide +kernel

/-- A scatterer that is not in the table is refused. -/
theorem C118_unknown (h : i.matThermal ∉ thermalData.map Prod.fst) : thermalDeck sh i = .error .keyError := by
  have : Dict.get? thermalData i.matThermal = none := Dict.get?_eq_none.2 h
  unfold thermalDeck
  rw [this]
  rfl

end ASAPy.Deck
