import Verif.CovRun.Model
import Verif.Store.Props
import Verif.NjoyTapes.Props

/-! # What a run of EndfToCov stores (C98, C99) -/

namespace ASAPy.CovRun
open ASAPy.Store

/-- The file holds the data of `n` groups: it can be read, and gives the correlation `c` and the rows `rows` of standard deviations with decreasing energies. -/
structure Good (file : List (List Char)) (n : Nat) (c : Corr) (rows : List Row) : Prop where
  data : ∃ d, Boxer.readFile file = .ok d ∧ d.cov.length = n ∧ c = corrFrame d.cov ∧ stdFrame d = .ok rows
  lo : (rows.map Row.lo).Pairwise (· > ·)
  hi : (rows.map Row.hi).Pairwise (· > ·)

/-- boxer2mat reports that it found no data for a reaction that has a name. -/
def NoData (file : List (List Char)) (mt : Nat) : Prop := (∃ l ∈ file, "***ERROR IN BOXR***".toList <:+: l) ∧ named mt = true

theorem Good.unique {file : List (List Char)} {n n' : Nat} {c c' : Corr} {rows rows' : List Row} (h : Good file n c rows) (h' : Good file n' c' rows') :
    n = n' ∧ c = c' ∧ rows = rows' := by
  obtain ⟨⟨d, h1, h2, h3, h4⟩, -, -⟩ := h
  obtain ⟨⟨d', h1', h2', h3', h4'⟩, -, -⟩ := h'
  rw [h1] at h1'
  obtain rfl := Except.ok.inj h1'
  rw [h4] at h4'
  exact ⟨h2 ▸ h2', h3.trans h3'.symm, Except.ok.inj h4'⟩

theorem Good.not_noData {file : List (List Char)} {n mt : Nat} {c : Corr} {rows : List Row} (h : Good file n c rows) : ¬ NoData file mt := by
  rintro ⟨h1, -⟩
  obtain ⟨⟨d, h2, -⟩, -, -⟩ := h
  have hr : Boxer.readFile file = .error .runtimeError := by
    unfold Boxer.readFile
    rw [Boxer.C48_rejected, if_pos h1]
  rw [hr] at h2
  cases h2

/-- A file with data: both frames are stored in the store of its number of groups; nothing else changes. -/
theorem processFile_good (ss : Stores) (zaid mt : Nat) {file : List (List Char)} {n : Nat} {c : Corr} {rows : List Row} (h : Good file n c rows) :
    (processFile ss zaid mt (some file)).2 = .ok () ∧
    fetch ((processFile ss zaid mt (some file)).1 n) (key zaid mt zaid mt .corr) = .ok (.corr c) ∧
    fetch ((processFile ss zaid mt (some file)).1 n) (key zaid mt zaid mt .stdDev) = .ok (.std rows) ∧
    (∀ m a b e f k, m ≠ n ∨ (a, b, e, f) ≠ (zaid, mt, zaid, mt) → fetch ((processFile ss zaid mt (some file)).1 m) (key a b e f k) = fetch (ss m) (key a b e f k)) := by
  obtain ⟨⟨d, h1, h2, h3, h4⟩, h5, h6⟩ := h
  subst h3
  obtain ⟨p1, p2, p3, p4⟩ := C50_complete_partial (ss n) zaid mt file h1 h4 ⟨h5, h6⟩
  simp only [processFile, h1, h2]
  refine ⟨p1, by rw [Function.update_self]; exact p2, by rw [Function.update_self]; exact p3, ?_⟩
  intro m a b e f k hne
  by_cases hm : m = n
  · subst hm
    rw [Function.update_self]
    exact p4 a b e f k (hne.resolve_left (fun h => h rfl))
  · rw [Function.update_of_ne hm]

theorem processFile_noData (ss : Stores) (zaid mt : Nat) {file : List (List Char)} (h : NoData file mt) : processFile ss zaid mt (some file) = (ss, .ok ()) := by
  have hp := fun s => C65_skipped_partial s zaid mt file h.1 h.2
  unfold processFile
  simp only [Store.final, hp]
  simp

/-- All files are good or have no data. -/
def AllFine (dir : List Char → Option (List (List Char))) (items : List (List Char × Nat)) : Prop :=
  ∀ i ∈ items, ∃ file, dir i.1 = some file ∧ ((∃ n c rows, Good file n c rows) ∨ NoData file i.2)

theorem processAll_ok (zaid : Nat) (dir : List Char → Option (List (List Char))) (items : List (List Char × Nat)) (ss : Stores) (h : AllFine dir items) :
    (processAll zaid dir items ss).2 = .ok () := by
  induction items generalizing ss with
  | nil => rfl
  | cons i rest ih =>
    obtain ⟨name, mt⟩ := i
    obtain ⟨file, h1, h2⟩ := h (name, mt) (by simp)
    simp only at h1
    simp only [processAll, h1]
    rcases h2 with ⟨n, c, rows, hg⟩ | hn
    · have := (processFile_good ss zaid mt hg).1
      generalize processFile ss zaid mt (some file) = r at this ⊢
      obtain ⟨ss', r⟩ := r
      simp only at this
      subst this
      exact ih ss' fun i hi => h i (by simp [hi])
    · rw [processFile_noData ss zaid mt hn]
      exact ih ss fun i hi => h i (by simp [hi])

/-- What no file gives stays as it is. -/
theorem processAll_other (zaid : Nat) (dir : List Char → Option (List (List Char))) (items : List (List Char × Nat)) (ss : Stores) (h : AllFine dir items)
    (m a b e f : Nat) (k : Kind)
    (ho : ∀ i ∈ items, ∀ file n c rows, dir i.1 = some file → Good file n c rows → m ≠ n ∨ (a, b, e, f) ≠ (zaid, i.2, zaid, i.2)) :
    fetch ((processAll zaid dir items ss).1 m) (key a b e f k) = fetch (ss m) (key a b e f k) := by
  induction items generalizing ss with
  | nil => rfl
  | cons i rest ih =>
    obtain ⟨name, mt⟩ := i
    obtain ⟨file, h1, h2⟩ := h (name, mt) (by simp)
    simp only at h1
    simp only [processAll, h1]
    rcases h2 with ⟨n, c, rows, hg⟩ | hn
    · obtain ⟨p1, -, -, p4⟩ := processFile_good ss zaid mt hg
      have hthis := p4 m a b e f k (ho (name, mt) (by simp) file n c rows h1 hg)
      generalize processFile ss zaid mt (some file) = r at p1 hthis ⊢
      obtain ⟨ss', r⟩ := r
      simp only at p1 hthis
      subst p1
      simp only
      rw [ih ss' (fun i hi => h i (by simp [hi])) fun i hi => ho i (by simp [hi])]
      exact hthis
    · rw [processFile_noData ss zaid mt hn]
      exact ih ss (fun i hi => h i (by simp [hi])) fun i hi => ho i (by simp [hi])

/-- What a good file gives is stored, if no other file is for the same reaction. -/
theorem processAll_stored (zaid : Nat) (dir : List Char → Option (List (List Char))) (items : List (List Char × Nat)) (ss : Stores) (h : AllFine dir items)
    {name : List Char} {mt n : Nat} {file : List (List Char)} {c : Corr} {rows : List Row} (hi : (name, mt) ∈ items) (hd : dir name = some file) (hg : Good file n c rows)
    (hsame : ∀ i ∈ items, i.2 = mt → i.1 = name) :
    fetch ((processAll zaid dir items ss).1 n) (key zaid mt zaid mt .corr) = .ok (.corr c) ∧
    fetch ((processAll zaid dir items ss).1 n) (key zaid mt zaid mt .stdDev) = .ok (.std rows) := by
  induction items generalizing ss with
  | nil => cases hi
  | cons i rest ih =>
    obtain ⟨name', mt'⟩ := i
    obtain ⟨file', h1, h2⟩ := h (name', mt') (by simp)
    simp only at h1
    have hrest : AllFine dir rest := fun i hi => h i (by simp [hi])
    by_cases hin : (name, mt) ∈ rest
    · simp only [processAll, h1]
      rcases h2 with ⟨n', c', rows', hg'⟩ | hn
      · have p1 := (processFile_good ss zaid mt' hg').1
        generalize processFile ss zaid mt' (some file') = r at p1 ⊢
        obtain ⟨ss', r⟩ := r
        simp only at p1
        subst p1
        exact ih ss' hrest hin fun i hi => hsame i (by simp [hi])
      · rw [processFile_noData ss zaid mt' hn]
        exact ih ss hrest hin fun i hi => hsame i (by simp [hi])
    · rw [List.mem_cons, or_iff_left hin] at hi
      obtain ⟨rfl, rfl⟩ := Prod.mk.inj hi
      rw [hd] at h1
      obtain rfl := Option.some.inj h1
      obtain ⟨p1, p2, p3, -⟩ := processFile_good ss zaid mt hg
      simp only [processAll, hd]
      generalize processFile ss zaid mt (some file) = r at p1 p2 p3 ⊢
      obtain ⟨ss', r⟩ := r
      simp only at p1 p2 p3
      subst p1
      simp only
      have hno : ∀ i ∈ rest, ∀ file' n' c' rows', dir i.1 = some file' → Good file' n' c' rows' → n ≠ n' ∨ (zaid, mt, zaid, mt) ≠ (zaid, i.2, zaid, i.2) := by
        intro i hi file' n' c' rows' _ _
        right
        intro he
        simp only [Prod.mk.injEq] at he
        have := hsame i (by simp [hi]) he.2.1.symm
        exact hin (by rw [← this, he.2.1]; exact hi)
      rw [processAll_other zaid dir rest ss' hrest n zaid mt zaid mt .corr hno, processAll_other zaid dir rest ss' hrest n zaid mt zaid mt .stdDev hno]
      exact ⟨p2, p3⟩

/-- Which MTs are processed for which request. -/
def Requested (a : Args) (mt : Nat) : Prop :=
  (if a.mts = [] then (33, mt) ∈ a.reactions else mt ∈ a.mts) ∨ (a.fissionable = true ∧ (mt = 452 ∨ mt = 1018))

/-- The request can be met: the evaluation has covariances of cross sections (MF 33), and those asked for are among them. -/
def CanBeMet (a : Args) : Prop := (∃ mt, (33, mt) ∈ a.reactions) ∧ ∀ mt ∈ a.mts, (33, mt) ∈ a.reactions

theorem mem_available (a : Args) (mt : Nat) : mt ∈ (a.reactions.filter fun r => decide (r.1 = 33)).map Prod.snd ↔ (33, mt) ∈ a.reactions := by
  simp only [List.mem_map, List.mem_filter, decide_eq_true_eq]
  constructor
  · rintro ⟨⟨x, y⟩, ⟨h1, h2⟩, h3⟩
    simp only at h2 h3
    subst h2 h3
    exact h1
  · intro h
    exact ⟨(33, mt), ⟨h, rfl⟩, rfl⟩

theorem select_ok (a : Args) (h : CanBeMet a) : ∃ mts, select a = .ok mts ∧ mts ≠ [] ∧ ∀ mt, mt ∈ mts ↔ if a.mts = [] then (33, mt) ∈ a.reactions else mt ∈ a.mts := by
  obtain ⟨⟨m0, h0⟩, h1⟩ := h
  rw [← mem_available] at h0
  have hne : ((a.reactions.filter fun r => decide (r.1 = 33)).map Prod.snd).length ≠ 0 := by
    intro he
    rw [List.length_eq_zero_iff] at he
    rw [he] at h0
    cases h0
  unfold select
  simp only [if_neg hne]
  by_cases hm : a.mts = []
  · refine ⟨_, by simp [hm], List.ne_nil_of_mem h0, ?_⟩
    intro mt
    rw [if_pos hm, mem_available]
  · refine ⟨a.mts, ?_, hm, by intro mt; rw [if_neg hm]⟩
    rw [if_pos hm, if_pos]
    rw [List.all_eq_true]
    intro m hm
    rw [decide_eq_true_eq, mem_available]
    exact h1 m hm

/-- **C99** (rejected requests). If the evaluation has no covariances of cross sections, or a reaction asked for is not among them, the program ends with an error before it runs
anything, and no store is changed; in all other cases it goes on. -/
theorem C99_rejected (a : Args) (chain : List Nat → Bool → Bool → Except PyErr (List Char → Option (List (List Char)))) (ss : Stores) :
    (¬ CanBeMet a → run a chain ss = (ss, .error .exception)) ∧ (CanBeMet a → ∃ mts, select a = .ok mts) := by
  refine ⟨?_, fun h => (select_ok a h).imp fun _ h => h.1⟩
  intro h
  have hs : select a = .error .exception := by
    unfold select
    simp only
    split_ifs with h1 h2 h3
    · rfl
    · exfalso
      apply h
      rw [List.all_eq_true] at h3
      refine ⟨?_, fun mt hmt => ?_⟩
      · obtain ⟨m, hm⟩ := List.exists_mem_of_ne_nil _ h2
        have := h3 m hm
        rw [decide_eq_true_eq, mem_available] at this
        exact ⟨m, this⟩
      · have := h3 mt hmt
        rwa [decide_eq_true_eq, mem_available] at this
    · rfl
    · exfalso
      apply h
      rw [not_not] at h2
      refine ⟨?_, by simp [h2]⟩
      obtain ⟨m, hm⟩ := List.exists_mem_of_ne_nil _ (List.ne_nil_of_length_pos (Nat.pos_of_ne_zero h1))
      rw [mem_available] at hm
      exact ⟨m, hm⟩
  unfold run
  rw [hs]

/-- The name of the file for a reaction: `covr_`, `covr_nu_` or `covr_chi_`, the temperature, the MT. -/
def fileName (a : Args) (mt : Nat) : List Char :=
  (if mt = 452 then "covr_nu_" else if mt = 1018 then "covr_chi_" else "covr_").toList ++ a.temp.str ++ ".txt_".toList ++ Dec.natStr mt ++ "_matrix.txt".toList

theorem asked_iff (a : Args) (mts : List Nat) (h : 452 ∉ mts ∧ 1018 ∉ mts) (name : List Char) (mt : Nat) :
    (name, mt) ∈ Njoy.asked mts a.temp a.fissionable a.fissionable ↔ (mt ∈ mts ∨ (a.fissionable = true ∧ (mt = 452 ∨ mt = 1018))) ∧ name = fileName a mt := by
  unfold Njoy.asked fileName Njoy.fname
  constructor
  · intro hm
    rw [List.mem_append, List.mem_append] at hm
    rcases hm with (hm | hm) | hm
    · obtain ⟨m, hm', he⟩ := List.mem_map.mp hm
      obtain ⟨rfl, rfl⟩ := Prod.mk.inj he
      have e1 : m ≠ 452 := fun e => h.1 (e ▸ hm')
      have e2 : m ≠ 1018 := fun e => h.2 (e ▸ hm')
      exact ⟨Or.inl hm', by simp [e1, e2]⟩
    · split_ifs at hm with hf
      · simp only [List.mem_cons, List.not_mem_nil, or_false] at hm
        obtain ⟨rfl, rfl⟩ := Prod.mk.inj hm
        exact ⟨Or.inr ⟨hf, Or.inl rfl⟩, by simp⟩
      · cases hm
    · split_ifs at hm with hf
      · simp only [List.mem_cons, List.not_mem_nil, or_false] at hm
        obtain ⟨rfl, rfl⟩ := Prod.mk.inj hm
        exact ⟨Or.inr ⟨hf, Or.inr rfl⟩, by simp⟩
      · cases hm
  · rintro ⟨hm | ⟨hf, rfl | rfl⟩, rfl⟩
    · have e1 : mt ≠ 452 := fun e => h.1 (e ▸ hm)
      have e2 : mt ≠ 1018 := fun e => h.2 (e ▸ hm)
      rw [List.mem_append, List.mem_append]
      exact Or.inl (Or.inl (List.mem_map.mpr ⟨mt, hm, by simp [e1, e2]⟩))
    · rw [List.mem_append, List.mem_append]
      exact Or.inl (Or.inr (by simp [hf]))
    · rw [List.mem_append, List.mem_append]
      exact Or.inr (by simp [hf])

/-- **C98** (part). Let the request be one that can be met, let the chain of programs succeed and leave for each requested reaction a file that is good or says that there are no data for a
reaction with a name. Then the run ends without error; for each requested reaction with a good file, the store for its number of groups holds, under the nuclide and the MT, the correlation and the
standard deviations of that file; and everything else in all stores is as before. Missing, and false: the same if a file for another reaction cannot be processed. -/
theorem C98_stored_partial (a : Args) (chain : List Nat → Bool → Bool → Except PyErr (List Char → Option (List (List Char)))) (ss : Stores) (hmet : CanBeMet a)
    (h33 : (33, 452) ∉ a.reactions ∧ (33, 1018) ∉ a.reactions)
    {dir : List Char → Option (List (List Char))} (hdir : ∀ mts, chain mts a.fissionable a.fissionable = .ok dir)
    (hfine : ∀ mt, Requested a mt → ∃ file, dir (fileName a mt) = some file ∧ ((∃ n c rows, Good file n c rows) ∨ NoData file mt)) :
    (run a chain ss).2 = .ok () ∧
    (∀ mt, Requested a mt → ∀ file n c rows, dir (fileName a mt) = some file → Good file n c rows →
      fetch ((run a chain ss).1 n) (key a.zaid mt a.zaid mt .corr) = .ok (.corr c) ∧
      fetch ((run a chain ss).1 n) (key a.zaid mt a.zaid mt .stdDev) = .ok (.std rows)) ∧
    ∀ m x y z w k, (∀ mt, Requested a mt → (x, y, z, w) = (a.zaid, mt, a.zaid, mt) → ∀ file c rows, dir (fileName a mt) = some file → ¬ Good file m c rows) →
      fetch ((run a chain ss).1 m) (key x y z w k) = fetch (ss m) (key x y z w k) := by
  obtain ⟨mts, hs, -, hmem⟩ := select_ok a hmet
  have hno : 452 ∉ mts ∧ 1018 ∉ mts := by
    constructor
    · intro h
      rw [hmem] at h
      split_ifs at h with he
      · exact h33.1 h
      · exact h33.1 (hmet.2 _ h)
    · intro h
      rw [hmem] at h
      split_ifs at h with he
      · exact h33.2 h
      · exact h33.2 (hmet.2 _ h)
  have hask : ∀ name mt, (name, mt) ∈ Njoy.asked mts a.temp a.fissionable a.fissionable ↔ Requested a mt ∧ name = fileName a mt := by
    intro name mt
    rw [asked_iff a mts hno, hmem]
    rfl
  have hrun : run a chain ss = processAll a.zaid dir (Njoy.asked mts a.temp a.fissionable a.fissionable) ss := by
    unfold run
    simp only [hs, hdir]
  have hall : AllFine dir (Njoy.asked mts a.temp a.fissionable a.fissionable) := by
    rintro ⟨name, mt⟩ hi
    obtain ⟨h1, rfl⟩ := (hask name mt).mp hi
    exact hfine mt h1
  rw [hrun]
  refine ⟨processAll_ok _ _ _ _ hall, ?_, ?_⟩
  · intro mt hr file n c rows hd hg
    refine processAll_stored a.zaid dir _ ss hall ((hask _ _).mpr ⟨hr, rfl⟩) hd hg ?_
    rintro ⟨name, mt'⟩ hi rfl
    exact ((hask _ _).mp hi).2
  · intro m x y z w k hx
    refine processAll_other a.zaid dir _ ss hall m x y z w k ?_
    rintro ⟨name, mt⟩ hi file n c rows hd hg
    obtain ⟨h1, rfl⟩ := (hask name mt).mp hi
    by_cases hm : m = n
    · right
      intro he
      subst hm
      exact hx mt h1 he file c rows hd hg
    · exact Or.inl hm

/-- **C98 is false** when a reaction without a name has no data: the program stops, and reactions that come later, nu-bar and the fission spectrum are not stored, whatever their files hold. -/
theorem C98_lumped_refuted (file : List (List Char)) (temp : Njoy.Temp) (zaid : Nat) (ss : Stores) : ∃ a : Args, ∃ dir : List Char → Option (List (List Char)),
    a.zaid = zaid ∧ a.temp = temp ∧ CanBeMet a ∧ Requested a 102 ∧ dir (fileName a 102) = some file ∧
    run a (fun _ _ _ => .ok dir) ss = (ss, .error .keyError) := by
  let a : Args := ⟨[(33, 851), (33, 102)], true, [], temp, zaid⟩
  let bad : List (List Char) := [Boxer.marker]
  let dir : List Char → Option (List (List Char)) := fun n => if n = fileName a 851 then some bad else some file
  have hne : fileName a 102 ≠ fileName a 851 := by
    intro h
    simp only [fileName] at h
    have e1 : Dec.natStr 102 = ['1', '0', '2'] := by decide +kernel
    have e2 : Dec.natStr 851 = ['8', '5', '1'] := by decide +kernel
    rw [e1, e2] at h
    simp at h
  refine ⟨a, dir, rfl, rfl, ⟨⟨851, by simp [a]⟩, by simp [a]⟩, Or.inl (by simp [a]), by simp [dir, hne], ?_⟩
  have hsel : select a = .ok [851, 102] := by rfl
  have hp := fun s => C65_lumped_refuted s zaid 851 (by decide) bad ⟨Boxer.marker, by simp [bad], List.infix_refl _⟩
  have hname : ∃ rest, Njoy.asked [851, 102] temp true true = (fileName a 851, 851) :: rest := by
    refine ⟨(Njoy.asked [851, 102] temp true true).tail, ?_⟩
    simp only [Njoy.asked, List.map_cons, List.cons_append, List.tail_cons, List.cons.injEq, Prod.mk.injEq, and_true]
    simp [fileName, Njoy.fname, a]
  obtain ⟨rest, hname⟩ := hname
  unfold run
  simp only [hsel]
  show processAll zaid dir (Njoy.asked [851, 102] temp true true) ss = _
  rw [hname]
  simp only [processAll, dir, if_true, processFile, Store.final, hp]
  simp

/-- What is left when a file cannot be processed (it is missing, or its energies increase, or the reaction has no name and no data): the program stops with that error; the files before it have been
processed, those after it not. -/
theorem C98_prefix (a : Args) {mts : List Nat} {dir : List Char → Option (List (List Char))} (hs : select a = .ok mts)
    {before after : List (List Char × Nat)} {name : List Char} {mt : Nat}
    (hsplit : Njoy.asked mts a.temp a.fissionable a.fissionable = before ++ (name, mt) :: after)
    (hb : AllFine dir before) (ss : Stores) {e : PyErr} (he : (processFile (processAll a.zaid dir before ss).1 a.zaid mt (dir name)).2 = .error e) :
    run a (fun _ _ _ => .ok dir) ss = ((processFile (processAll a.zaid dir before ss).1 a.zaid mt (dir name)).1, .error e) := by
  unfold run
  simp only [hs]
  rw [hsplit]
  clear hsplit
  have hgen : ∀ (before : List (List Char × Nat)) ss, (processAll a.zaid dir before ss).2 = .ok () →
      processAll a.zaid dir (before ++ (name, mt) :: after) ss = processAll a.zaid dir ((name, mt) :: after) (processAll a.zaid dir before ss).1 := by
    intro before
    induction before with
    | nil => intro ss _; rfl
    | cons i rest ih =>
      intro ss h
      obtain ⟨nm, m⟩ := i
      simp only [List.cons_append]
      rw [processAll] at h
      rw [processAll, show processAll a.zaid dir ((nm, m) :: rest) ss = _ from by rw [processAll]]
      generalize processFile ss a.zaid m (dir nm) = r at h ⊢
      obtain ⟨ss', r⟩ := r
      cases r with
      | error e => cases h
      | ok u => exact ih ss' h
  rw [hgen before ss (processAll_ok _ _ _ _ hb), processAll]
  generalize processFile _ a.zaid mt (dir name) = r at he ⊢
  obtain ⟨ss', r⟩ := r
  simp only at he
  subst he
  rfl

/-- The names are those of files the chain of programs writes. -/
theorem C98_files (a : Args) (mts : List Nat) (hs : select a = .ok mts) (hmet : CanBeMet a) (h33 : (33, 452) ∉ a.reactions ∧ (33, 1018) ∉ a.reactions) :
    ∃ c, Njoy.runCoverChain mts [a.temp] a.fissionable a.fissionable = .ok c ∧ ∀ mt, Requested a mt → fileName a mt ∈ c.files.map Prod.fst := by
  obtain ⟨mts', hs', hne, hmem⟩ := select_ok a hmet
  rw [hs] at hs'
  obtain rfl := Except.ok.inj hs'
  have hno : 452 ∉ mts ∧ 1018 ∉ mts := by
    constructor
    · intro h
      rw [hmem] at h
      split_ifs at h with he
      · exact h33.1 h
      · exact h33.1 (hmet.2 _ h)
    · intro h
      rw [hmem] at h
      split_ifs at h with he
      · exact h33.2 h
      · exact h33.2 (hmet.2 _ h)
  obtain ⟨c, hc, hf⟩ := Njoy.C54_asked mts a.temp a.fissionable a.fissionable hne
  refine ⟨c, hc, ?_⟩
  intro mt hr
  exact hf (fileName a mt, mt) ((asked_iff a mts hno _ _).mpr ⟨by rw [hmem]; exact hr, rfl⟩)

/-! ### A case that meets the hypotheses -/

/-- A file of boxer2mat with two groups, energies in decreasing order. -/
def demo : List (List Char) := ["0 u235\n", " 1.000E+07 1.000E+00 1.000E-05\n", "1 u235\n", " 2.000E+00 4.000E+00\n",
    "2 u235\n", " 1.000E-01 2.000E-01\n", "3 u235\n", " 1.000E+00-5.000E-01\n", "-5.000E-01 1.000E+00\n"].map String.toList

theorem demo_good : ∃ c rows, Good demo 2 c rows := by
  have hr : Boxer.readFile demo = .ok ⟨[10000000, 1, 1 / 100000], [2, 4], [1 / 5, 4 / 5], [[1, -1 / 2], [-1 / 2, 1]]⟩ := by decide +kernel
  have hs : stdFrame ⟨[10000000, 1, 1 / 100000], [2, 4], [1 / 5, 4 / 5], [[1, -1 / 2], [-1 / 2, 1]]⟩ = .ok
      [⟨1, 1, 10000000, 2, 2, .fin (1 / 10), .fin (1 / 10), 1 / 5, 1 / 5⟩, ⟨2, 1 / 100000, 1, 4, 4, .fin (1 / 5), .fin (1 / 5), 4 / 5, 4 / 5⟩] := by decide +kernel
  exact ⟨_, _, ⟨⟨_, hr, rfl, rfl, hs⟩, by decide +kernel, by decide +kernel⟩⟩

/-- A fissionable target with covariances for fission and capture; no data for chi. -/
example : let a : Args := ⟨[(1, 451), (3, 18), (31, 452), (33, 18), (33, 102)], true, [102], ⟨"300".toList, "300.0".toList⟩, 92235⟩
    let dir : List Char → Option (List (List Char)) := fun n => if n = fileName a 1018 then some [Boxer.marker] else some demo
    CanBeMet a ∧ ((33, 452) ∉ a.reactions ∧ (33, 1018) ∉ a.reactions) ∧
    (∀ mt, Requested a mt → ∃ file, dir (fileName a mt) = some file ∧ ((∃ n c rows, Good file n c rows) ∨ NoData file mt)) ∧ Requested a 102 ∧ ¬ Requested a 18 := by
  obtain ⟨c, rows, hg⟩ := demo_good
  refine ⟨⟨⟨18, by simp⟩, by simp⟩, by simp, ?_, by simp [Requested], by simp [Requested]⟩
  intro mt hr
  simp only
  split_ifs with h
  · refine ⟨_, rfl, Or.inr ⟨⟨_, List.mem_singleton_self _, List.infix_refl _⟩, ?_⟩⟩
    rcases hr with hr | ⟨-, rfl | rfl⟩
    · simp at hr
      subst hr
      decide
    · decide
    · decide
  · exact ⟨_, rfl, Or.inl ⟨2, c, rows, hg⟩⟩

end ASAPy.CovRun
