import Verif.Batch.Model
import Verif.AceData.Props

/-! # C135: the batch job runs the program with the same options -/

namespace ASAPy.Batch
open ASAPy.AceData ASAPy.Dec ASAPy.Str

/-- A file name the shell gives to the program as it is: not empty, no blanks, and not beginning with a minus sign (and, as the shell is not modelled, none
of its special characters). -/
def Name (w : List Char) : Prop := Word w ∧ w.head? ≠ some '-'

theorem cls_of_head {w : List Char} (h : w.head? ≠ some '-') : cls w = .arg := by
  cases w with
  | nil => rfl
  | cons c w =>
    unfold cls
    split
    · rename_i r heq
      simp only [List.cons.injEq] at heq
      exact absurd (by simp [heq.1]) h
    · rfl

theorem all_digits {s : List Char} (h : ∀ c ∈ s, isDigit c = true) : s.all isDigit = true := List.all_eq_true.mpr h

theorem natStr_head (n : Nat) : ∃ c r, natStr n = c :: r ∧ isDigit c = true := by
  cases h : natStr n with
  | nil => exact absurd h (natStr_ne_nil n)
  | cons c r => exact ⟨c, r, rfl, natStr_digits n c (h ▸ List.mem_cons_self ..)⟩

theorem natStr_no_minus (n : Nat) : (natStr n).head? ≠ some '-' := by
  obtain ⟨c, r, h, hc⟩ := natStr_head n
  rw [h]
  simp only [List.head?_cons, ne_eq, Option.some.injEq]
  rintro rfl
  exact absurd hc (by decide)

theorem no_option {c : Char} (hc : isDigit c = true) (r : List Char) : ∀ p ∈ table, ('-' :: c :: r).isPrefixOf p.1 = false := by
  have hne : c ≠ 'h' ∧ c ≠ '-' ∧ c ≠ 'm' ∧ c ≠ 'n' ∧ c ≠ 'd' := by
    refine ⟨?_, ?_, ?_, ?_, ?_⟩ <;> (rintro rfl; exact absurd hc (by decide))
  obtain ⟨h1, h2, h3, h4, h5⟩ := hne
  simp [table, List.isPrefixOf, h1, h2, h3, h4, h5]

theorem lookup_none {t : List Char} (h : ∀ p ∈ table, t.isPrefixOf p.1 = false) : table.lookup t = none := by
  rw [List.lookup_eq_none_iff]
  intro p hp
  by_contra hc
  have : t = p.1 := by simpa using hc
  have h2 := h p hp
  rw [this, List.isPrefixOf_iff_prefix.mpr (List.prefix_refl _)] at h2
  exact absurd h2 (by decide)

theorem cls_intStr (i : Int) : cls (intStr i) = .arg := by
  unfold intStr
  split
  · obtain ⟨c, r, h, hc⟩ := natStr_head i.natAbs
    have hno := no_option hc r
    have hfil : (table.filter fun p => ('-' :: c :: r).isPrefixOf p.1) = [] := by
      rw [List.filter_eq_nil_iff]
      intro p hp
      rw [hno p hp]
      decide
    have hneg : looksNegative ('-' :: c :: r) = true := by
      unfold looksNegative
      have := all_digits (natStr_digits i.natAbs)
      rw [h] at this
      simp [this]
    rw [h]
    unfold cls
    rw [lookup_none hno]
    simp only
    rw [if_neg (by simp), hfil, hneg]
    rfl
  · exact cls_of_head (natStr_no_minus _)

theorem toInt_intStr (i : Int) : toInt (intStr i) = some i := by
  unfold intStr
  split
  · unfold toInt
    simp only
    rw [if_pos ⟨natStr_ne_nil _, all_digits (natStr_digits _)⟩, natVal_natStr]
    congr 1
    omega
  · have hh := natStr_no_minus i.natAbs
    have hn := natStr_ne_nil i.natAbs
    have hd := all_digits (natStr_digits i.natAbs)
    have hv := natVal_natStr i.natAbs
    generalize natStr i.natAbs = s at *
    unfold toInt
    split
    · exact absurd rfl hh
    · rw [if_pos ⟨hn, hd⟩, hv]
      congr 1
      omega

theorem word_intStr (i : Int) : Word (intStr i) := by
  unfold intStr
  split
  · refine ⟨by simp, ?_⟩
    intro c hc
    rcases List.mem_cons.mp hc with rfl | hc
    · decide
    · exact (natStr_word _).2 c hc
  · exact natStr_word _

/-- What argparse guarantees: a list of MTs is not empty, and the distribution is one of the choices. -/
def Inv (a : Args) : Prop := a.mts ≠ some [] ∧ a.distribution ∈ choices

theorem inv_mts {a : Args} (h : Inv a) {l : List Int} (hl : l ≠ []) : Inv { a with mts := some l } := ⟨by simpa using hl, h.2⟩

theorem start_inv {a b : Args} {o : Opt} {m : Mode} (h : Inv a) (hs : start a o = .ok (b, m)) : Inv b := by
  unfold start at hs
  split at hs <;> cases hs <;> exact h

theorem assign_inv {a b : Args} {t : List Char} {o : Opt} (h : Inv a) (hs : assign a t o = .ok b) : Inv b := by
  unfold assign at hs
  split at hs
  · split at hs <;> cases hs; exact h
  · split at hs <;> cases hs; exact h
  · cases hs; exact h
  · split at hs
    · cases hs; exact ⟨h.1, by assumption⟩
    · cases hs
  · cases hs

theorem finish_inv {a b : Args} {p : List (List Char)} (h : Inv a) (hs : finish a p = .ok b) : Inv b := by
  unfold finish at hs
  split at hs
  · split at hs <;> cases hs; exact h
  · cases hs

theorem go_inv : ∀ (ts : List (List Char)) (a : Args) (pos : List (List Char)) (m : Mode) (b : Args), Inv a → go a pos m ts = .ok b → Inv b
  | [], a, pos, .free, b, h, hg => finish_inv h hg
  | [], a, pos, .one _, b, h, hg => by cases hg
  | [], a, pos, .many l, b, h, hg => by
    simp only [go] at hg
    by_cases hl : l = []
    · rw [if_pos hl] at hg; cases hg
    · rw [if_neg hl] at hg; exact finish_inv (inv_mts h hl) hg
  | t :: ts, a, pos, .free, b, h, hg => by
    simp only [go] at hg
    split at hg
    · exact go_inv ts _ _ _ _ h hg
    · split at hg
      · cases hg
      · rename_i hs
        exact go_inv ts _ _ _ _ (start_inv h hs) hg
    · cases hg
  | t :: ts, a, pos, .one o, b, h, hg => by
    simp only [go] at hg
    split at hg
    · split at hg
      · cases hg
      · rename_i hs
        exact go_inv ts _ _ _ _ (assign_inv h hs) hg
    · cases hg
  | t :: ts, a, pos, .many l, b, h, hg => by
    simp only [go] at hg
    split at hg
    · split at hg
      · exact go_inv ts _ _ _ _ h hg
      · cases hg
    · by_cases hl : l = []
      · rw [if_pos hl] at hg; cases hg
      · rw [if_neg hl] at hg
        split at hg
        · cases hg
        · rename_i hs
          exact go_inv ts _ _ _ _ (start_inv (inv_mts h hl) hs) hg
    · cases hg

theorem parse_inv {ws : List (List Char)} {a : Args} (h : parse ws = .ok a) : Inv a :=
  go_inv ws blank [] .free a ⟨by simp [blank], by decide +kernel⟩ h

/-- The options of the program. -/
def optionNames : List (List Char) := [c!"-h", c!"--help", c!"-mts", c!"-mpiproc", c!"-num_oversamples", c!"--make_plots", c!"--writepbs", c!"--waitforjob", c!"--subpbs", c!"-distribution", c!"--plot-only"]

/-- A word like an option that is none, nor the beginning of one: it begins with a minus sign and something else than a digit or a point, and has no blank or equals sign in it. -/
def Misspelt (t : List Char) : Prop := (∃ c r, t = '-' :: c :: r ∧ isDigit c = false ∧ c ≠ '.') ∧ ' ' ∉ t ∧ '=' ∉ t ∧ ∀ n ∈ optionNames, ¬ t <+: n

theorem cls_misspelt {t : List Char} (h : Misspelt t) : cls t = .bad := by
  obtain ⟨⟨c, r, rfl, hc, hp⟩, hb, -, hn⟩ := h
  have hno : ∀ p ∈ table, ('-' :: c :: r).isPrefixOf p.1 = false := by
    intro p hpt
    by_contra hcon
    rw [Bool.not_eq_false, List.isPrefixOf_iff_prefix] at hcon
    refine hn p.1 ?_ hcon
    have : ∀ p ∈ table, p.1 ∈ optionNames := by decide +kernel
    exact this p hpt
  have hf : (table.filter fun p => ('-' :: c :: r).isPrefixOf p.1) = [] := List.filter_eq_nil_iff.mpr fun p hpt => by rw [hno p hpt]; decide
  unfold cls
  simp only [lookup_none hno, hf]
  rw [if_neg (by simp), if_neg]
  have hl : looksNegative ('-' :: c :: r) = false := by
    have hd : (c :: r).dropWhile isDigit = c :: r := by rw [List.dropWhile_cons_of_neg (by simp [hc])]
    have ha : (c :: r).all isDigit = false := by simp [hc]
    unfold looksNegative
    simp only [hd, ha]
    split
    · rename_i h1
      simp only [List.cons.injEq] at h1
      exact absurd h1.1 hp
    · rfl
  rw [hl]
  simpa using hb

theorem go_misspelt {t : List Char} (h : Misspelt t) : ∀ (ts : List (List Char)) (a : Args) (pos : List (List Char)) (m : Mode), t ∈ ts → ∀ b, go a pos m ts ≠ .ok b := by
  intro ts
  induction ts with
  | nil => intro a pos m h; cases h
  | cons w ts ih =>
    intro a pos m hm b hs
    have hw : cls w ≠ .bad → t ∈ ts := by
      intro hw
      rcases List.mem_cons.mp hm with rfl | hm
      · exact absurd (cls_misspelt h) hw
      · exact hm
    cases m with
    | free =>
      rw [go] at hs
      split at hs
      · exact ih _ _ _ (hw (by simp [*])) b hs
      · split at hs
        · cases hs
        · exact ih _ _ _ (hw (by simp [*])) b hs
      · cases hs
    | one o =>
      rw [go] at hs
      split at hs
      · split at hs
        · cases hs
        · exact ih _ _ _ (hw (by simp [*])) b hs
      · cases hs
    | many l =>
      rw [go] at hs
      split at hs
      · split at hs
        · exact ih _ _ _ (hw (by simp [*])) b hs
        · cases hs
      · split_ifs at hs with hl
        split at hs
        · cases hs
        · exact ih _ _ _ (hw (by simp [*])) b hs
      · cases hs

/-- **C135.** A command line with a misspelt option is not accepted. -/
theorem C135_misspelt {t : List Char} (h : Misspelt t) {ws : List (List Char)} (hw : t ∈ ws) (a : Args) : parse ws ≠ .ok a := go_misspelt h ws _ _ _ hw a

example (a : Args) : parse [c!"u.ace", c!"u.h5", c!"500", c!"--write-pbs"] ≠ .ok a :=
  C135_misspelt (t := c!"--write-pbs") ⟨⟨'-', _, rfl, by decide, by decide⟩, by decide, by decide, by decide⟩ (by simp) a

theorem go_many (a : Args) (pos : List (List Char)) : ∀ (ms l : List Int) (ts : List (List Char)),
    go a pos (.many l) (ms.map intStr ++ ts) = go a pos (.many (l ++ ms)) ts
  | [], l, ts => by simp
  | m :: ms, l, ts => by
    simp only [List.map_cons, List.cons_append, go, cls_intStr, toInt_intStr]
    rw [go_many a pos ms (l ++ [m]) ts]
    simp

/-- The words of the job's line. -/
theorem job_words {a : Args} (hb : Name a.base) (hs : Name a.store) (hd : a.distribution ∈ choices) :
    split (job a).line = [a.base, a.store, intStr a.num] ++ (match a.mts with
      | some (m :: ms) => c!"-mt" :: (m :: ms).map intStr
      | _ => []) ++ [c!"-distribution", a.distribution, c!"-num_oversamples", intStr a.over] ++ (if a.makePlots then [c!"--make_plots"] else []) := by
  have hdw : Word a.distribution := by
    have : ∀ w ∈ choices, w ≠ [] ∧ ∀ c ∈ w, isSpace c = false := by decide +kernel
    exact this _ hd
  have hmts : split (mtsText a.mts) = (match a.mts with
      | some (m :: ms) => c!"-mt" :: (m :: ms).map intStr
      | _ => []) := by
    unfold mtsText
    cases a.mts with
    | none => rfl
    | some l => cases l with
     | nil => rfl
     | cons m ms =>
      have e : c!"-mt " ++ Str.join ((m :: ms).map intStr) = c!"-mt" ++ ' ' :: Str.join ((m :: ms).map intStr) := by simp
      simp only
      rw [e, split_space _ isSpace_blank, split_join (by intro w hw; obtain ⟨i, -, rfl⟩ := List.mem_map.mp hw; exact word_intStr i),
        split_word (w := c!"-mt") ⟨by simp, by decide +kernel⟩]
      rfl
  have hplots : split (if a.makePlots then c!"--make_plots" else []) = if a.makePlots then [c!"--make_plots"] else [] := by
    split
    · exact split_word ⟨by simp, by decide +kernel⟩
    · rfl
  unfold job
  simp only
  rw [split_space _ isSpace_blank, split_space _ isSpace_blank, split_space _ isSpace_blank, split_space _ isSpace_blank,
    split_space _ isSpace_blank, split_space _ isSpace_blank, split_space _ isSpace_blank, split_space _ isSpace_blank,
    split_word hb.1, split_word hs.1, split_word (word_intStr _), hmts, split_word hdw, split_word (word_intStr _), hplots,
    split_word (w := c!"-distribution") ⟨by simp, by decide +kernel⟩, split_word (w := c!"-num_oversamples") ⟨by simp, by decide +kernel⟩]
  simp

theorem cls_mt : cls c!"-mt" = .opt .mts := by decide +kernel
theorem cls_dist : cls c!"-distribution" = .opt .distribution := by decide +kernel
theorem cls_over : cls c!"-num_oversamples" = .opt .over := by decide +kernel
theorem cls_plots : cls c!"--make_plots" = .opt .makePlots := by decide +kernel

/-- The part of the line behind the MTs. -/
theorem go_tail {a : Args} {b : Args} {s n : List Char} {bs : List Char} (hd : b.distribution ∈ choices) (hn : toInt n = some b.num) (m : Mode)
    (hm : m = .free ∨ ∃ l, l ≠ [] ∧ m = .many l) :
    go a [bs, s, n] m ([c!"-distribution", b.distribution, c!"-num_oversamples", intStr b.over] ++ (if b.makePlots then [c!"--make_plots"] else [])) =
      .ok { a with
        mts := (match m with | .many l => some l | _ => a.mts), distribution := b.distribution, over := b.over,
        makePlots := b.makePlots || a.makePlots, base := bs, store := s, num := b.num } := by
  have hc : cls b.distribution = .arg := by
    have : ∀ w ∈ choices, cls w = .arg := by decide +kernel
    exact this _ hd
  rcases hm with rfl | ⟨l, hl, rfl⟩
  · cases hp : b.makePlots <;>
      simp [go, cls_dist, start, hc, assign, hd, cls_over, cls_intStr, toInt_intStr, cls_plots, finish, hn]
  · cases hp : b.makePlots <;>
      simp [go, cls_dist, start, hc, assign, hd, cls_over, cls_intStr, toInt_intStr, cls_plots, finish, hn, hl]

/-- **C135 (partial).** Let a command line be accepted. If the names of the ACE file and of the store are plain, the job it writes runs the program with the
same ACE file, store, number of samples, MTs, distribution, number of oversamples and choice of plots, on the number of processes asked for, and does not write a
job again. Missing: `--plot-only`, see `C135_plot_only_refuted`, and names with blanks, see `C135_blank_refuted`. -/
theorem C135_job_partial {argv : List (List Char)} {a : Args} (h : parse argv = .ok a) (hb : Name a.base) (hs : Name a.store) :
    run (job a) = .ok { a with mpiproc := 1, writePbs := false, wait := none, subPbs := false, plotOnly := false } ∧
    (∀ p, (job a).procs = some p ↔ p = a.mpiproc ∧ 1 < p) := by
  obtain ⟨hm, hd⟩ := parse_inv h
  constructor
  · unfold run parse
    rw [job_words hb hs hd]
    have first : ∀ ts, go blank [] .free ([a.base, a.store, intStr a.num] ++ ts) = go blank [a.base, a.store, intStr a.num] .free ts := by
      intro ts
      simp [go, cls_of_head hb.2, cls_of_head hs.2, cls_intStr]
    rw [List.append_assoc, List.append_assoc, first]
    cases hmt : a.mts with
    | none =>
      simp only [List.nil_append]
      rw [go_tail (b := a) hd (toInt_intStr _) .free (Or.inl rfl)]
      cases a
      simp_all [blank]
    | some l =>
      cases l with
      | nil => exact absurd hmt hm
      | cons m ms =>
        simp only
        rw [List.cons_append]
        have h1 : ∀ ts, go blank [a.base, a.store, intStr a.num] .free (c!"-mt" :: ts) = go blank [a.base, a.store, intStr a.num] (.many []) ts := by
          intro ts
          simp [go, cls_mt, start]
        rw [h1, go_many, List.nil_append, go_tail (b := a) hd (toInt_intStr _) (.many (m :: ms)) (Or.inr ⟨_, by simp, rfl⟩)]
        cases a
        simp_all [blank]
  · intro p
    unfold job
    simp only
    by_cases hp : a.mpiproc > 1
    · rw [if_pos hp]
      constructor
      · intro h; cases h; exact ⟨rfl, hp⟩
      · rintro ⟨rfl, -⟩; rfl
    · rw [if_neg hp]
      constructor
      · intro h; cases h
      · rintro ⟨rfl, h⟩; exact absurd h hp

/-- A command line, and what it means. -/
def exLine : List (List Char) := split c!"--writepbs 92235.710nc u235.h5 500 -mts 2 18 102 -mpiproc 8 -dist lognormal --make_plots"

def exArgs : Args := ⟨c!"92235.710nc", c!"u235.h5", 500, some [2, 18, 102], 8, -1, true, true, none, false, c!"lognormal", false⟩

example : parse exLine = .ok exArgs ∧ Name exArgs.base ∧ Name exArgs.store ∧ (job exArgs).procs = some 8 ∧
    (job exArgs).line = c!"92235.710nc u235.h5 500 -mt 2 18 102 -distribution lognormal -num_oversamples -1 --make_plots" := by
  refine ⟨by decide +kernel, ⟨⟨by decide, by decide +kernel⟩, by decide⟩, ⟨⟨by decide, by decide +kernel⟩, by decide⟩, by decide +kernel, by decide +kernel⟩

/-- **C135 is false for `--plot-only`**: the job writes the ACE files of all samples, and makes no plots. -/
theorem C135_plot_only_refuted : ∃ a b, parse (split c!"u.ace u.h5 500 --plot-only --writepbs") = .ok a ∧ a.plotOnly = true ∧
    run (job a) = .ok b ∧ b.plotOnly = false ∧ b.makePlots = false :=
  ⟨⟨c!"u.ace", c!"u.h5", 500, none, 1, -1, false, true, none, false, c!"normal", true⟩,
   ⟨c!"u.ace", c!"u.h5", 500, none, 1, -1, false, false, none, false, c!"normal", false⟩, by decide +kernel, rfl, by decide +kernel, rfl, rfl⟩

/-- **C135 is false for names with blanks**: the job's command line is rejected. -/
theorem C135_blank_refuted : ∃ a, parse [c!"my data.ace", c!"u.h5", c!"500", c!"--writepbs"] = .ok a ∧ run (job a) = .error .exception :=
  ⟨⟨c!"my data.ace", c!"u.h5", 500, none, 1, -1, false, true, none, false, c!"normal", false⟩, by decide +kernel, by decide +kernel⟩

end ASAPy.Batch
