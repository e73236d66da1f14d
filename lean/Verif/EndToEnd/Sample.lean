import Verif.EndToEnd.File
import Verif.Sampled.Props

/-! # The file of a sample, read again by the ACE reader (C86) -/

set_option linter.unusedSimpArgs false

namespace ASAPy.EndToEnd
open ASAPy.WriteAce ASAPy.AceData ASAPy.Str ASAPy.Sampled
open ASAPy.Boxer (number)
open ASAPy.Ace (Editor init)

/-- data/ace.py 167-198 and 229-402, data/neutron.py 571-704: what `AceEditor(file)` loads (AceIO.py 31), for a file with text `text`. The choice between the
ASCII and the binary reader (ace.py 229-250) is not modelled: the file is text. -/
def parse [ExpLog ℚ] (text : List Char) : Except PyErr (Ace.Table ℚ) :=
  match library none (readlines text) with
  | .error e => .error e
  | .ok ts => match getTable ts none with
    | .error e => .error e
    | .ok t => FromAce.load t

/-- `text` is the text of the ACE table `t` as NJOY writes it: header lines `hs` (12 or 15), lines of values of equal length, values of at most 19
characters, more than four of them. -/
structure AceText (t : AceData.Table ℚ) (text : List Char) (hs xss : List (List Char)) : Prop where
  text_eq : text = hs.flatten ++ xss.flatten
  header : HeaderOk hs
  start : AsciiStart t hs
  lines : ∀ l ∈ xss, ∃ body, l = body ++ ['\n'] ∧ '\n' ∉ body
  values : AsciiValues t xss
  even : AceData.Even xss
  narrow : ∀ v ∈ words xss, v.length ≤ 19
  many : 4 < t.xss.length

theorem split_lines : ∀ (ls : List (List Char)), (∀ l ∈ ls, ∃ body, l = body ++ ['\n'] ∧ '\n' ∉ body) → split ls.flatten = words ls := by
  intro ls
  induction ls with
  | nil => intro _; rfl
  | cons l ls ih =>
    intro h
    obtain ⟨body, rfl, _⟩ := h l (List.mem_cons_self ..)
    rw [List.flatten_cons]
    unfold words at ih ⊢
    rw [List.flatMap_cons, ← ih fun l hl => h l (List.mem_cons_of_mem _ hl), List.append_assoc, List.singleton_append, split_space _ isSpace_newline,
      split_space _ isSpace_newline]
    rw [show split [] = [] from rfl, List.append_nil]

theorem parse_text [ExpLog ℚ] {t : AceData.Table ℚ} {text : List Char} {hs xss : List (List Char)} (h : AceText t text hs xss) :
    library none (readlines text) = .ok [t] ∧ parse text = FromAce.load t := by
  have e : readlines text = (hs ++ xss) ++ [] := by
    rw [h.text_eq, ← List.append_nil xss.flatten, readlines_header h.header.1, readlines_header h.lines]
    rw [show readlines [] = [] from rfl, List.append_nil, List.append_nil]
  have h1 : library none (readlines text) = .ok [t] := by
    rw [e]
    have := C74_all_partial [t] [hs ++ xss] (.cons ⟨hs, xss, rfl, h.start, h.values, h.even⟩ .nil) [] (by decide) none (by simp)
    simpa using this
  refine ⟨h1, ?_⟩
  unfold parse
  rw [h1]
  rfl

theorem read_text {t : AceData.Table ℚ} {text : List Char} {hs xss : List (List Char)} (h : AceText t text hs xss) :
    ∃ w, WriteAce.read text = .ok w ∧ w.header = hs ∧ w.values = words xss := by
  obtain ⟨w, h1, h2, h3⟩ := read_spec h.header xss.flatten
  rw [← h.text_eq] at h1
  exact ⟨w, h1, h2, by rw [h3, split_lines _ h.lines]⟩

/-- What the replacements of a sample leave of the values of a table: rounded new values at the places of the jobs, the old values elsewhere. -/
def Replaced (jobs : List (Job ℚ × Nat)) (old new : List ℚ) : Prop :=
  new.length = old.length ∧ (∀ js ∈ jobs, ∀ i, Covers js i → new[i]? = (js.1.new.map rounded)[i - js.2]?) ∧
    ∀ i, (∀ js ∈ jobs, ¬ Covers js i) → new[i]? = old[i]?

/-- **C86.** Let `text` be an ACE file, `jobs` the arrays a sample of it replaces, each with its place, as in `C25_render`. The sample is written, and the ACE
reader reads from the written file the same table, with the sampled values, rounded to twelve digits, at the places of the replaced arrays and exactly the
original values everywhere else. -/
theorem C86_sample_table [ExpLog ℚ] {t : AceData.Table ℚ} {text : List Char} {hs xss : List (List Char)} (ht : AceText t text hs xss)
    {file : Ace.Table ℚ} (hp : FromAce.load t = .ok file) {ed0 ed : Editor ℚ} {k : Nat} {ins : List (Input ℚ)}
    (hi : init file none = .ok ed0) (hs : sampleMts ed0 k ins = (ed, .ok ())) {w : Writer} (hw : WriteAce.read text = .ok w)
    {groups : List (List (Job ℚ))}
    (hrep : List.Forall₂ (fun mt js => Replaces ed0 ed mt js ∧ (mt = 452 → ∀ j ∈ js, j.maxReplaces = 9999))
      (ed.adjusted.insertionSort (· ≤ ·)) groups)
    (jobs : List (Job ℚ × Nat)) (hjobs : jobs.map Prod.fst = groups.flatten)
    (hok : ∀ js ∈ jobs, js.1.base.length = js.1.new.length ∧ js.1.base ≠ [] ∧ 0 < js.1.maxReplaces)
    (hfin : ∀ js ∈ jobs, ∀ x ∈ js.1.new, Finite x)
    (hdis : jobs.Pairwise (fun a b => ∀ i, ¬ (Covers a i ∧ Covers b i)))
    (hocc : ∀ pre js post, jobs = pre ++ js :: post →
      FoundAt fmtE (runGroup fmtE w (pre.map Prod.fst)).1.singleLine js.1 js.2) :
    ∃ text' xss', render fmtE parse ins text k = .ok text' ∧ library none (readlines text') = .ok [{ t with xss := xss' }] ∧
      parse text' = FromAce.load { t with xss := xss' } ∧ Replaced jobs t.xss xss' := by
  obtain ⟨w0, r1, r2, r3⟩ := read_text ht
  rw [hw] at r1
  cases r1
  have hv : List.Forall₂ (fun v x => number v = some (x, [])) w.values t.xss := by rw [r3]; exact ht.values.2.2
  have hl : ∀ v ∈ w.values, v.length ≤ 19 := by rw [r3]; exact ht.narrow
  have hg : List.Forall₂ (fun mt js => jobsOf ed0 ed mt = .ok js) (ed.adjusted.insertionSort (· ≤ ·)) groups :=
    hrep.imp fun _ _ h => jobsOf_replaces h.1 h.2
  obtain ⟨h1, h2, h3, h4, h5⟩ := runGroup_placed fmtE_formats jobs w hok hdis hocc
  rw [hjobs] at h1 h2 h3 h4 h5
  have heq := runGroups_flatten (fmt := fmtE) groups w h1
  set wf := (runGroup fmtE w groups.flatten).1 with hwf
  have hrender : render fmtE parse ins text k = .ok (write wf) := by
    unfold render
    simp only [(parse_text ht).2, hp, hi, hs, hw, writeJobs_eq fmtE ed0 ed _ _ w hg, heq]
    cases hr : runGroup fmtE w groups.flatten with
    | mk w1 o =>
      rw [hr] at h1 hwf
      simp only at h1 hwf
      subst h1
      rw [hwf]
  -- the values of the new table
  have hval : ∀ i, i < t.xss.length → ∃ v x, wf.values[i]? = some v ∧ number v = some (x, []) ∧ v.length ≤ 19 ∧
      (∀ js ∈ jobs, Covers js i → (js.1.new.map rounded)[i - js.2]? = some x) ∧
      ((∀ js ∈ jobs, ¬ Covers js i) → t.xss[i]? = some x) := by
    intro i hi
    by_cases hc : ∃ js ∈ jobs, Covers js i
    · obtain ⟨js, hjs, hc⟩ := hc
      have hlt : i - js.2 < js.1.new.length := by
        have := (hok js hjs).1
        obtain ⟨c1, c2⟩ := hc
        omega
      refine ⟨fmtE js.1.new[i - js.2], rounded js.1.new[i - js.2], ?_, (C84_written _ (hfin js hjs _ (List.getElem_mem _))).1, (fmtE_word _).2, ?_, ?_⟩
      · rw [h4 js hjs i hc, List.getElem?_map, List.getElem?_eq_getElem hlt]; rfl
      · intro js' hjs' hc'
        have hlt' : i - js'.2 < js'.1.new.length := by
          have := (hok js' hjs').1
          obtain ⟨c1, c2⟩ := hc'
          omega
        have e := (h4 js hjs i hc).symm.trans (h4 js' hjs' i hc')
        rw [List.getElem?_map, List.getElem?_map, List.getElem?_eq_getElem hlt, List.getElem?_eq_getElem hlt'] at e
        simp only [Option.map_some, Option.some.injEq] at e
        have e1 := (C84_written _ (hfin js hjs _ (List.getElem_mem hlt))).1
        rw [e, (C84_written _ (hfin js' hjs' _ (List.getElem_mem hlt'))).1] at e1
        simp only [Option.some.injEq, Prod.mk.injEq, and_true] at e1
        rw [List.getElem?_map, List.getElem?_eq_getElem hlt', Option.map_some, e1]
      · intro hno; exact absurd hc (hno js hjs)
    · push Not at hc
      have hiw : i < w.values.length := by rw [hv.length_eq]; exact hi
      refine ⟨w.values[i], t.xss[i], ?_, ?_, hl _ (List.getElem_mem _), ?_, ?_⟩
      · rw [h5 i hc, List.getElem?_eq_getElem hiw]
      · exact List.forall₂_iff_get.mp hv |>.2 i hiw hi
      · intro js hjs h; exact absurd h (hc js hjs)
      · intro _; exact List.getElem?_eq_getElem hi
  choose! vf xf hvx using hval
  refine ⟨_, (List.range t.xss.length).map xf, hrender, ?_⟩
  have hwlen : wf.values.length = t.xss.length := by rw [h3, hv.length_eq]
  have hlib : library none (readlines (write wf)) = .ok [{ t with xss := (List.range t.xss.length).map xf }] := by
    apply C85_written_table
    · rw [h2, r2]; exact ht.header
    · rw [h2, r2]
      obtain ⟨l0, l1, cm, ps, nx, jx, s1, s2, s3, s4, s5, s6, s7, s8, s9⟩ := ht.start
      exact ⟨l0, l1, cm, ps, nx, jx, s1, s2, s3, s4, s5, s6, s7, s8, by simpa using s9⟩
    · rw [List.forall₂_iff_get]
      refine ⟨by simpa using hwlen, ?_⟩
      intro i hi hi'
      have hi2 : i < t.xss.length := hwlen ▸ hi
      obtain ⟨q1, q2, _⟩ := hvx i hi2
      rw [List.getElem?_eq_getElem hi] at q1
      simp only [Option.some.injEq] at q1
      simp only [List.get_eq_getElem, List.getElem_map, List.getElem_range]
      rw [q1]; exact q2
    · intro v hv'
      obtain ⟨i, hi⟩ := List.mem_iff_getElem?.mp hv'
      have hi2 : i < t.xss.length := by
        rw [← hwlen]; by_contra hcon
        rw [List.getElem?_eq_none (by omega)] at hi; cases hi
      obtain ⟨q1, _, q3, _⟩ := hvx i hi2
      rw [hi] at q1
      cases q1
      exact q3
    · rw [hwlen]; exact ht.many
  refine ⟨hlib, ?_, ?_⟩
  · unfold parse
    rw [hlib]
    rfl
  · refine ⟨by simp, ?_, ?_⟩
    · intro js hjs i hc
      have hin : i < t.xss.length := by
        by_contra hcon
        have e := h4 js hjs i hc
        rw [List.getElem?_eq_none (by omega), List.getElem?_map] at e
        have hlt : i - js.2 < js.1.new.length := by
          have := (hok js hjs).1
          obtain ⟨c1, c2⟩ := hc
          omega
        rw [List.getElem?_eq_getElem hlt] at e
        cases e
      obtain ⟨_, _, _, q4, _⟩ := hvx i hin
      rw [q4 js hjs hc, List.getElem?_map, List.getElem?_range hin]; rfl
    · intro i hno
      by_cases hin : i < t.xss.length
      · obtain ⟨_, _, _, _, q5⟩ := hvx i hin
        rw [q5 hno, List.getElem?_map, List.getElem?_range hin]; rfl
      · rw [List.getElem?_eq_none (by simpa using hin), List.getElem?_eq_none (by omega)]

end ASAPy.EndToEnd
