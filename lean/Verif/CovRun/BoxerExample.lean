import Verif.CovRun.Boxer
import Verif.Boxer2Mat.Print

/-! # C229: a case that meets the hypotheses -/

namespace ASAPy.CovRun
open ASAPy.Store
open ASAPy.Files (FS Path Text Prog NjoyMakes BoxerMakes Clean)
open ASAPy.Boxr

/-- A BOXER file: the bounds, cross sections and deviations of 9228/102 and, on two pages, the upper half of its covariance matrix. -/
def capLines : List Line := [
  c!"0 demo                               9228 102 9228 102   3 10   3  3   0   3   1",
  c!" 1.000E-05 1.000E+00 1.000E+07",
  c!" -1 -1 -1",
  c!"1 demo                               9228 102    0   0   2 10   2  3   0   2   1",
  c!" 4.000E+00 2.000E+00",
  c!" -1 -1",
  c!"2 demo                               9228 102    0   0   2 10   2  3   0   2   1",
  c!" 2.000E-01 1.000E-01",
  c!" -1 -1",
  c!"3 demo                               9228 102 9228 102   2 10   2  3   1   2   0",
  c!" 1.000E+00-5.000E-01",
  c!" -1 -1",
  c!"3 demo                               9228 102 9228 102   1 10   1  3   0   2   0",
  c!" 1.000E+00",
  c!" -1"]

def capText : Text := (capLines.map (· ++ ['\n'])).flatten

theorem capText_lines : linesOf capText = capLines := linesOf_flatten (by decide +kernel)

def capTitle : Line := c!" demo                              "

def capPages : List (Page ℚ) := [
  ⟨⟨0, capTitle, 9228, 102, 9228, 102, 10, 3, 0, 3, 1⟩, [1 / 100000, 1, 10000000], [-1, -1, -1]⟩,
  ⟨⟨1, capTitle, 9228, 102, 0, 0, 10, 3, 0, 2, 1⟩, [4, 2], [-1, -1]⟩,
  ⟨⟨2, capTitle, 9228, 102, 0, 0, 10, 3, 0, 2, 1⟩, [1 / 5, 1 / 10], [-1, -1]⟩,
  ⟨⟨3, capTitle, 9228, 102, 9228, 102, 10, 3, 1, 2, 0⟩, [1, -1 / 2], [-1, -1]⟩,
  ⟨⟨3, capTitle, 9228, 102, 9228, 102, 10, 3, 0, 2, 0⟩, [1], [-1]⟩]

theorem intField_of {w : Nat} {t : Line} {n : Int} (h : t.length = w ∧ t = List.replicate (w - (AceData.intStr n).length) ' ' ++ AceData.intStr n) : IntField w t n := ⟨h.1, _, h.2⟩

/-- A number like `1.000E-05`, with or without a minus sign. -/
theorem eField {t : Line} {q : ℚ} (neg : Bool) (ip fp : Line) (en : Bool) (ed : Line) (h : (t.length = 10 ∧ ip.all Dec.isDigit = true ∧ fp.all Dec.isDigit = true ∧ ip ++ fp ≠ []) ∧ ed ≠ [] ∧
    ed.all Dec.isDigit = true ∧ t = List.replicate (if neg then 0 else 1) ' ' ++ Lit.text ⟨neg, ip, true, fp, 'E', some (en, ed)⟩ ∧
    Lit.value 10 ⟨neg, ip, true, fp, 'E', some (en, ed)⟩ = q) : RealField 10 t q := by
  obtain ⟨⟨h1, h2, h3, h4⟩, h5, h6, h7, h8⟩ := h
  refine ⟨h1, _, _, ⟨by simpa using h2, by simpa using h3, by simp, h4, Or.inl rfl, ?_⟩, h7, h8⟩
  intro e he
  obtain rfl := Option.mem_some_iff.1 he
  exact ⟨h5, by simpa using h6⟩

theorem card_of {p : Page ℚ} {l : Line} (t : Line) (ts : List Line) (h0 : p.head.title.length = 35) (hl : l = t ++ p.head.title ++ ts.flatten ++ []) (ht : IntField 1 t p.head.itype)
    (hts : List.Forall₂ (fun t (f : Nat × Nat) => IntField f.1 t f.2) ts
      [(5, p.head.mat), (4, p.head.mt), (5, p.head.mat1), (4, p.head.mt1), (4, p.xval.length), (3, p.head.nvf), (4, p.icon.length), (3, p.head.ncf), (4, p.head.nrowm), (4, p.head.nrow), (4, p.head.ncol)]) :
    HeadCard p l := ⟨h0, t, ts, [], hl, ht, hts⟩

macro "int_fields" : tactic => `(tactic| repeat' (first | exact List.Forall₂.nil | refine List.Forall₂.cons (intField_of (by decide +kernel)) ?_))

theorem capText_pages : TapeText capPages (linesOf capText) := by
  rw [capText_lines]
  refine .cons (l := capLines.take 3) (ls := capLines.drop 3) ?_ (.cons (l := (capLines.drop 3).take 3) (ls := capLines.drop 6) ?_ (.cons (l := (capLines.drop 6).take 3) (ls := capLines.drop 9) ?_
    (.cons (l := (capLines.drop 9).take 3) (ls := capLines.drop 12) ?_ (.cons (l := capLines.drop 12) (ls := []) ?_ .nil))))
  · refine ⟨_, [_], [_], rfl, card_of c!"0" [c!" 9228", c!" 102", c!" 9228", c!" 102", c!"   3", c!" 10", c!"   3", c!"  3", c!"   0", c!"   3", c!"   1"] rfl rfl (intField_of (by decide +kernel)) (by int_fields), by unfold Head.Formats; decide, ?_, ?_⟩
    · exact .last (ts := [c!" 1.000E-05", c!" 1.000E+00", c!" 1.000E+07"]) (tail := []) (by simp) (by decide)
        (.cons (eField false c!"1" c!"000" true c!"05" (by decide +kernel)) (.cons (eField false c!"1" c!"000" false c!"00" (by decide +kernel)) (.cons (eField false c!"1" c!"000" false c!"07" (by decide +kernel)) .nil)))
    · exact .last (ts := [c!" -1", c!" -1", c!" -1"]) (tail := []) (by simp) (by decide) (by int_fields)
  · refine ⟨_, [_], [_], rfl, card_of c!"1" [c!" 9228", c!" 102", c!"    0", c!"   0", c!"   2", c!" 10", c!"   2", c!"  3", c!"   0", c!"   2", c!"   1"] rfl rfl (intField_of (by decide +kernel)) (by int_fields), by unfold Head.Formats; decide, ?_, ?_⟩
    · exact .last (ts := [c!" 4.000E+00", c!" 2.000E+00"]) (tail := []) (by simp) (by decide)
        (.cons (eField false c!"4" c!"000" false c!"00" (by decide +kernel)) (.cons (eField false c!"2" c!"000" false c!"00" (by decide +kernel)) .nil))
    · exact .last (ts := [c!" -1", c!" -1"]) (tail := []) (by simp) (by decide) (by int_fields)
  · refine ⟨_, [_], [_], rfl, card_of c!"2" [c!" 9228", c!" 102", c!"    0", c!"   0", c!"   2", c!" 10", c!"   2", c!"  3", c!"   0", c!"   2", c!"   1"] rfl rfl (intField_of (by decide +kernel)) (by int_fields), by unfold Head.Formats; decide, ?_, ?_⟩
    · exact .last (ts := [c!" 2.000E-01", c!" 1.000E-01"]) (tail := []) (by simp) (by decide)
        (.cons (eField false c!"2" c!"000" true c!"01" (by decide +kernel)) (.cons (eField false c!"1" c!"000" true c!"01" (by decide +kernel)) .nil))
    · exact .last (ts := [c!" -1", c!" -1"]) (tail := []) (by simp) (by decide) (by int_fields)
  · refine ⟨_, [_], [_], rfl, card_of c!"3" [c!" 9228", c!" 102", c!" 9228", c!" 102", c!"   2", c!" 10", c!"   2", c!"  3", c!"   1", c!"   2", c!"   0"] rfl rfl (intField_of (by decide +kernel)) (by int_fields), by unfold Head.Formats; decide, ?_, ?_⟩
    · exact .last (ts := [c!" 1.000E+00", c!"-5.000E-01"]) (tail := []) (by simp) (by decide)
        (.cons (eField false c!"1" c!"000" false c!"00" (by decide +kernel)) (.cons (eField true c!"5" c!"000" true c!"01" (by decide +kernel)) .nil))
    · exact .last (ts := [c!" -1", c!" -1"]) (tail := []) (by simp) (by decide) (by int_fields)
  · refine ⟨_, [_], [_], rfl, card_of c!"3" [c!" 9228", c!" 102", c!" 9228", c!" 102", c!"   1", c!" 10", c!"   1", c!"  3", c!"   0", c!"   2", c!"   0"] rfl rfl (intField_of (by decide +kernel)) (by int_fields), by unfold Head.Formats; decide, ?_, ?_⟩
    · exact .last (ts := [c!" 1.000E+00"]) (tail := []) (by simp) (by decide)
        (.cons (eField false c!"1" c!"000" false c!"00" (by decide +kernel)) .nil)
    · exact .last (ts := [c!" -1"]) (tail := []) (by simp) (by decide) (by int_fields)

/-- The data. -/
def capE (i : Nat) : ℚ := if i = 1 then 1 / 100000 else if i = 2 then 1 else 10000000
def capX (i : Nat) : ℚ := if i = 1 then 4 else 2
def capS (i : Nat) : ℚ := if i = 1 then 1 / 5 else 1 / 10
def capV (i j : Nat) : ℚ := if i = j then 1 else -1 / 2

theorem cap_answer {r : Req} {nrow ncol : Nat} {p : Page ℚ} {ps : List (Page ℚ)} {tss : List (List (Option ℚ))}
    (hl : ∀ q ∈ p :: ps, (q.head.itype ≠ 9 ∧ q.xval.length ≤ 1880 ∧ q.icon.length ≤ 1900) ∧ 7 ≤ q.head.nvf ∧ q.head.nvf ≤ 14 ∧ 1 ≤ q.head.ncf ∧ q.head.ncf ≤ 6) (ha : Asked r p.head) (hp : Section (p :: ps))
    (hs : p.head.nrow = nrow ∧ p.head.columns = ncol ∧ nrow ≤ 800 ∧ ncol ≤ 800) (hc : Contents (p :: ps) tss) (hn : tss.flatten.length = (cells nrow ncol p.head.sym).length)
    (hw : WholeRows (cells nrow ncol p.head.sym) tss) (ht : p.head.title = capTitle) : Answer r nrow ncol [] p ps tss where
  others_legal := by simp
  legal := fun q hq => ⟨(hl q hq).1.1, (hl q hq).1.2.1, (hl q hq).1.2.2, ⟨(hl q hq).2.1, (hl q hq).2.2.1⟩, (hl q hq).2.2.2⟩
  asked := ha
  pages := hp
  rows := hs.1
  columns := hs.2.1
  small := hs.2.2
  contents := hc
  complete := hn
  whole := hw
  title := ⟨capTitle.tail, by rw [ht]; rfl, by decide⟩

theorem whole_one {cs : List (Nat × Nat)} {t : List (Option ℚ)} : WholeRows cs [t] := by
  intro k h1 h2
  simp at h2
  omega

theorem cap_carries : Carries capPages 9228 102 2 capE capX capS capV := by
  refine ⟨[], [], [], [], [], [], [], [⟨⟨3, capTitle, 9228, 102, 9228, 102, 10, 3, 0, 2, 0⟩, [1], [-1]⟩], [],
    ⟨⟨0, capTitle, 9228, 102, 9228, 102, 10, 3, 0, 3, 1⟩, [1 / 100000, 1, 10000000], [-1, -1, -1]⟩, ⟨⟨1, capTitle, 9228, 102, 0, 0, 10, 3, 0, 2, 1⟩, [4, 2], [-1, -1]⟩,
    ⟨⟨2, capTitle, 9228, 102, 0, 0, 10, 3, 0, 2, 1⟩, [1 / 5, 1 / 10], [-1, -1]⟩, ⟨⟨3, capTitle, 9228, 102, 9228, 102, 10, 3, 1, 2, 0⟩, [1, -1 / 2], [-1, -1]⟩,
    [[some (1 / 100000), some 1, some 10000000]], [[some 4, some 2]], [[some (1 / 5), some (1 / 10)]], [[some 1, some (-1 / 2)], [some 1]], rfl, ?_, ?_, ?_, ?_, ?_, ?_, ?_, ?_, ?_⟩
  · exact cap_answer (by simp) (by unfold Asked; decide) ⟨rfl, by decide⟩ (by decide) (.cons (by decide +kernel) .nil) (by decide) whole_one rfl
  · exact cap_answer (by simp) (by unfold Asked; decide) ⟨rfl, by decide⟩ (by decide) (.cons (by decide +kernel) .nil) (by decide) whole_one rfl
  · exact cap_answer (by simp) (by unfold Asked; decide) ⟨rfl, by decide⟩ (by decide) (.cons (by decide +kernel) .nil) (by decide) whole_one rfl
  · refine cap_answer (by simp) (by unfold Asked; decide) ⟨by decide, rfl, rfl, rfl, rfl, by decide⟩ (by decide) (.cons (by decide +kernel) (.cons (by decide +kernel) .nil)) (by decide) ?_ rfl
    intro k h1 h2
    have : k = 1 := by simp at h2; omega
    subst this
    exact ⟨1, le_rfl, by decide⟩
  · refine ⟨by decide, by decide +kernel, ?_⟩
    rw [Decoded]; rfl
  · refine ⟨by decide, by decide +kernel, ?_⟩
    rw [Decoded]; rfl
  · refine ⟨by decide, by decide +kernel, ?_⟩
    rw [Decoded]; rfl
  · refine ⟨by decide, by decide +kernel, by decide, by decide +kernel, ?_⟩
    rw [Decoded]; rfl
  · intro _ i j _ _ _ _
    unfold capV
    simp only [eq_comm]

theorem cap_tells : Tells capText 9228 102 2 capE capX capS capV := ⟨capPages, capText_pages, cap_carries⟩

theorem cap_answers {mt : Nat} (h : mt < 10 ^ 5) : Boxr.answerTo printF (boxerText 9228 mt) capText = boxr printF (template 9228 mt) (fun _ _ => 0) capPages :=
  boxrText_ok printF _ _ (asks_read (boxerText_asks 9228 mt) (by norm_num) h) _ capText_pages

/-- The answer for 102 is good. -/
theorem cap_good : ∃ m corr rows, Boxr.matrixOf printF (boxerText 9228 102) capText = some m ∧ Good (Str.readlines m) 2 corr rows := by
  obtain ⟨m, d, h1, -, h2, h3, h4, h5, h6, h7⟩ := C229_read_back printF (boxerText_asks 9228 102) (by decide) (by decide) (by decide) cap_tells
  have hb : d.bounds = [10000000, 1, 1 / 100000] := h3.trans (by decide +kernel)
  have hx : d.xsec = [2, 4] := h4.trans (by decide +kernel)
  have hs : d.stdDev = [1 / 5, 4 / 5] := h5.trans (by decide +kernel)
  have hstd : stdFrame d = .ok [⟨1, 1, 10000000, 2, 2, .fin (1 / 10), .fin (1 / 10), 1 / 5, 1 / 5⟩, ⟨2, 1 / 100000, 1, 4, 4, .fin (1 / 5), .fin (1 / 5), 4 / 5, 4 / 5⟩] := by
    have : stdFrame d = stdFrame ⟨[10000000, 1, 1 / 100000], [2, 4], [1 / 5, 4 / 5], [[], []]⟩ := by
      unfold stdFrame
      rw [hb, hx, hs, h6]
      rfl
    rw [this]
    decide +kernel
  exact ⟨m, _, _, h1, ⟨⟨d, h2, h6, rfl, hstd⟩, by decide +kernel, by decide +kernel⟩⟩

/-- For the others it says that there are no data. -/
theorem cap_missing {mt : Nat} (h : mt = 18 ∨ mt = 452) : (Boxr.answerTo printF (boxerText 9228 mt) capText).2 = 0 ∧
    ∃ m, Boxr.matrixOf printF (boxerText 9228 mt) capText = some m ∧ ∃ l ∈ Str.readlines m, "***ERROR IN BOXR***".toList <:+: l := by
  have hlt : mt < 10 ^ 5 := by rcases h with rfl | rfl <;> norm_num
  have ha := cap_answers hlt
  have hp := boxr_proper printF (template 9228 mt) (fun _ _ => 0) (tape_titles capText_pages (linesOf_plain capText))
  have h2 : (boxr printF (template 9228 mt) (fun _ _ => 0) capPages).2 = 0 := by rcases h with rfl | rfl <;> decide +kernel
  have h3 : ∃ l ∈ (boxr printF (template 9228 mt) (fun _ _ => 0) capPages).1, "***ERROR IN BOXR***".toList <:+: l := by rcases h with rfl | rfl <;> decide +kernel
  refine ⟨by rw [ha]; exact h2, (Boxr.answerTo printF (boxerText 9228 mt) capText).1.flatten, ?_, ?_⟩
  · unfold Boxr.matrixOf
    rw [ha, if_neg]
    intro h0
    obtain ⟨l, hl, -⟩ := h3
    rw [h0] at hl
    cases hl
  · rw [ha, readlines_flatten hp]
    exact h3

/-- With this boxer2mat. -/
def CapAsked (com t : Text) : Prop := t = capText ∧ (com = boxerText 9228 102 ∨ com = boxerText 9228 18 ∨ com = boxerText 9228 452)

theorem cap_succeeds : Files.Succeeds (njoyWith capText) (Boxr.boxerProg printF) CapAsked where
  njoy := njoyWith_listing capText
  boxer := by
    rintro c d fs t ht ⟨rfl, hc⟩
    have h0 : (Boxr.answerTo printF c capText).2 = 0 := by
      rcases hc with rfl | rfl | rfl
      · obtain ⟨m, d, -, h, -⟩ := C229_read_back printF (boxerText_asks 9228 102) (by decide) (by decide) (by decide) cap_tells
        exact h
      · exact (cap_missing (Or.inl rfl)).1
      · exact (cap_missing (Or.inr rfl)).1
    unfold Boxr.boxerProg
    simp only [ht, Option.getD_some, h0]
    rfl

theorem cap_requested {mt : Nat} (h : Requested (argsOf demoCmd demoEval) mt) : mt = 102 ∨ mt = 452 ∨ mt = 1018 := by
  rcases h with h | ⟨-, h⟩
  · left
    simpa [argsOf, demoCmd] using h
  · exact Or.inr h

/-- The hypotheses of `C229_stored_partial` hold, and the store gets the data: capture, in two groups. -/
theorem cap_stored (ss : Stores) : ∃ corr rows, Kept corr rows 2 (fun i => (printF (capE i)).value) (fun i => (printF (capX i)).value) (fun i => (printF (capS i)).value) (fun i j => (printF (capV i j)).value) ∧
    fetch ((main (fun _ => .ok demoEval) (njoyWith capText) (Boxr.boxerProg printF) c!"/tmp" demoCmd demoFiles ss).1.2 2) (key 92235 102 92235 102 .corr) = .ok (.corr corr) ∧
    fetch ((main (fun _ => .ok demoEval) (njoyWith capText) (Boxr.boxerProg printF) c!"/tmp" demoCmd demoFiles ss).1.2 2) (key 92235 102 92235 102 .stdDev) = .ok (.std rows) := by
  have h33 : (33, 452) ∉ demoEval.reactions ∧ (33, 1018) ∉ demoEval.reactions := by decide
  have hreq : Requested (argsOf demoCmd demoEval) 102 := Or.inl (by simp [argsOf, demoCmd])
  have hcom : ∀ {com : Text} {mt : Nat}, Asks com demoEval.material mt → com = boxerText 9228 mt := fun {com mt} h => Eq.trans h (boxerText_asks 9228 mt).symm
  have hok := C228_returns (evaluation := fun _ => .ok demoEval) (tmp := c!"/tmp") (c := demoCmd) (ss := ss) (text := c!"endf") (njoyWith_makes capText) (boxerProg_makes printF) cap_succeeds
    demoFiles_clean.1 (by decide) (by decide) rfl rfl h33 demo_writable (by decide) demo_met
    (fun commands n hn => ⟨capText, by simp [tapesWith, hn], fun com mt hmt hc => ⟨rfl, by
      have hc := hcom hc
      have : mt = 102 ∨ mt = 452 ∨ mt = 1018 ∨ mt = 18 := by
        rcases hmt with h | h | h
        · rcases cap_requested h with h | h | h <;> simp [h]
        · simp [h]
        · simp [h]
      rcases this with rfl | rfl | rfl | rfl
      · exact Or.inl hc
      · exact Or.inr (Or.inr hc)
      · exact Or.inr (Or.inl hc)
      · exact Or.inr (Or.inl hc)⟩⟩) (by
      rintro com t ⟨rfl, h | h | h⟩
      · obtain ⟨m, -, -, h1, -⟩ := cap_good
        exact ⟨m, h ▸ h1⟩
      · obtain ⟨-, m, h1, -⟩ := cap_missing (Or.inl rfl : (18 = 18 ∨ 18 = 452))
        exact ⟨m, h ▸ h1⟩
      · obtain ⟨-, m, h1, -⟩ := cap_missing (Or.inr rfl : (452 = 18 ∨ 452 = 452))
        exact ⟨m, h ▸ h1⟩) (by
      intro commands n t com m mt hr h1 hc h2
      rw [show demoFiles (Files.join demoCmd.out (Files.tape n)) = none from demoFiles_clean.2 n] at h1
      simp only [tapesWith] at h1
      split_ifs at h1 with hn
      · obtain rfl := Option.some.inj h1
        rw [hcom hc] at h2
        rcases cap_requested hr with rfl | rfl | rfl
        · left
          obtain ⟨m', corr, rows, g1, g2⟩ := cap_good
          rw [show boxerText 9228 (njoyMt 102) = boxerText 9228 102 from rfl, g1] at h2
          obtain rfl := Option.some.inj h2
          exact ⟨2, corr, rows, g2⟩
        · right
          obtain ⟨-, m', g1, g2⟩ := cap_missing (Or.inr rfl : (452 = 18 ∨ 452 = 452))
          rw [show boxerText 9228 (njoyMt 452) = boxerText 9228 452 from rfl, g1] at h2
          obtain rfl := Option.some.inj h2
          exact ⟨g2, by decide⟩
        · right
          obtain ⟨-, m', g1, g2⟩ := cap_missing (Or.inl rfl : (18 = 18 ∨ 18 = 452))
          rw [show boxerText 9228 (njoyMt 1018) = boxerText 9228 18 from rfl, g1] at h2
          obtain rfl := Option.some.inj h2
          exact ⟨g2, by decide⟩
      · cases h1)
  obtain ⟨mts, commands, -, h3⟩ := C229_stored_partial (fs := demoFiles) (evaluation := fun _ => .ok demoEval) (tmp := c!"/tmp") (c := demoCmd) (ss := ss) (text := c!"endf") (ev := demoEval) printF
    (njoyWith_makes capText) demoFiles_clean (by decide) (by decide) rfl rfl (by decide) (by decide) (by decide) h33 demo_writable (by decide) hok
  obtain ⟨k, t, -, q2, q3⟩ := h3 102 hreq (by decide)
  simp only [tapesWith] at q2
  split_ifs at q2 with hn
  obtain rfl := Option.some.inj q2
  obtain ⟨corr, rows, f1, f2, f3⟩ := q3 2 capE capX capS capV cap_tells
  exact ⟨corr, rows, f3, f1, f2⟩

end ASAPy.CovRun
